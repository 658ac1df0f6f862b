/-
Helper lemmas for C112.
-/
import Verif.Spec.MdScaled
import Verif.Lemmas.MdLift

namespace Verif.Strong.MdScaled
open Real MdLift
open Arbogast (quot root)

theorem quot_ok {a b : ℝ} (h : b ≠ 0) : quot a b = some (a / b) := if_neg h

theorem root_ok {a : ℝ} (h : 0 ≤ a) : root a = some (√a) := if_neg h.not_gt

theorem pf_deriv (x : ℝ) : HasDerivAt pf (dpf x) x := by
  have : ∃ a, HasDerivAt (fun t : ℝ => 0.5 * (1 - t) * 0.5 * (1 + t) - t ^ 2 * sin (2 * π * t)) a x ∧ a = dpf x := by
    refine ⟨_, by derive, ?_⟩
    unfold dpf
    simp only [Nat.cast_ofNat]
    ring
  obtain ⟨a, h, e⟩ := this
  rw [← e]
  exact h

theorem dpf_deriv (x : ℝ) : HasDerivAt dpf (dpf2 x) x := by
  have : ∃ a, HasDerivAt (fun t : ℝ => 0.25 * (-1 - t) + 0.25 * (1 - t) + -2 * π * t ^ 2 * cos (2 * π * t) +
      -2 * t * sin (2 * π * t)) a x ∧ a = dpf2 x := by
    refine ⟨_, by derive, ?_⟩
    unfold dpf2
    simp only [Nat.cast_ofNat]
    ring
  obtain ⟨a, h, e⟩ := this
  rw [← e]
  exact h

theorem porosity1_deriv (m : Material) (x : ℝ) : HasDerivAt (porosity1 m) (2 * x * m.rho2) x := by
  have : ∃ a, HasDerivAt (fun t : ℝ => m.rho1 * 1 + m.rho2 * t ^ 2) a x ∧ a = 2 * x * m.rho2 := by
    refine ⟨_, by derive, ?_⟩
    simp only [Nat.cast_ofNat]
    ring
  obtain ⟨a, h, e⟩ := this
  rw [← e]
  exact h

variable {m : Material}

theorem porosity1_pos (h : Positive m) (x : ℝ) : 0 < porosity1 m x := by
  have h1 := h.rho1
  have h2 := h.rho2
  unfold porosity1
  positivity

theorem porosity0_eq (m : Material) (x y z : ℝ) : porosity0 m x y z = porosity1 m x * phiYs m x y 0 := rfl

theorem porosity0_pos (h : Positive m) (x y z : ℝ) : 0 < porosity0 m x y z := by
  rw [porosity0_eq]
  exact mul_pos (porosity1_pos h x) (phiYs_pos m x y 0)

theorem dPhi0_eq (h : Positive m) (x y z : ℝ) :
    dPhi0 m x y z = some (√(m.kappa0 / m.mu) * porosity0 m x y z) := by
  have hp := porosity0_pos h x y z
  have hk := h.kappa0
  have hm := h.mu
  have e : kappa0 m x y z / m.mu = m.kappa0 / m.mu * porosity0 m x y z ^ 2 := by
    unfold kappa0
    ring
  unfold dPhi0
  rw [quot_ok hm.ne', Option.bind_some, e, root_ok (by positivity), Real.sqrt_mul (by positivity), Real.sqrt_sq hp.le]

theorem dPhi1_eq (h : Positive m) (x : ℝ) :
    dPhi1 m x = some (√(m.delta * m.kappa1 / m.mu) * porosity1 m x) := by
  have hp := porosity1_pos h x
  have hk := h.kappa1
  have hm := h.mu
  have hd := h.delta
  have e : m.delta * kappa1 m x / m.mu = m.delta * m.kappa1 / m.mu * porosity1 m x ^ 2 := by
    unfold kappa1
    ring
  unfold dPhi1
  rw [quot_ok hm.ne', Option.bind_some, e, root_ok (by positivity), Real.sqrt_mul (by positivity), Real.sqrt_sq hp.le]

theorem scalar_eq {k mu phi : ℝ} (hk : 0 < k) (hm : 0 < mu) (hp : 0 < phi) :
    k * phi / (mu * (√(k / mu) * phi)) = √(k / mu) := by
  have hs : 0 < √(k / mu) := Real.sqrt_pos.2 (div_pos hk hm)
  rw [div_eq_iff (by positivity)]
  have := Real.mul_self_sqrt (div_pos hk hm).le
  have e : √(k / mu) * √(k / mu) * mu = k := by
    rw [this]
    field_simp
  linear_combination -phi * e

theorem gradDPhi0_eq (h : Positive m) (x y z : ℝ) :
    gradDPhi0 m x y z = some (scale √(m.kappa0 / m.mu) (gradPorosity0 m x y z)) := by
  have hp := porosity0_pos h x y z
  have hk := h.kappa0
  have hm := h.mu
  have hs : 0 < √(m.kappa0 / m.mu) := Real.sqrt_pos.2 (div_pos hk hm)
  unfold gradDPhi0
  rw [dPhi0_eq h, Option.bind_eq_bind, Option.bind_some, quot_ok (by positivity), scalar_eq hk hm hp]
  rfl

theorem gradDPhi1_eq (h : Positive m) (x y z : ℝ) :
    gradDPhi1 m x y z = some (scale √(m.delta * m.kappa1 / m.mu) (gradPorosity1 m x y z)) := by
  have hp := porosity1_pos h x
  have hk := mul_pos h.delta h.kappa1
  have hm := h.mu
  have hs : 0 < √(m.delta * m.kappa1 / m.mu) := Real.sqrt_pos.2 (div_pos hk hm)
  unfold gradDPhi1
  rw [dPhi1_eq h, Option.bind_eq_bind, Option.bind_some, quot_ok (by positivity), scalar_eq hk hm hp]
  rfl

/-- The fields of the bulk -/
noncomputable def bulk (m : Material) : Bulk := lift m (porosity1 m) (fun x => 2 * x * m.rho2) pf dpf dpf2

theorem u0_eq (h : Positive m) (x y z : ℝ) : u0 m x y z = some ((bulk m).u₁ x y, (bulk m).u₂ x y) := by
  have hs := Real.sq_sqrt (div_pos h.kappa0 h.mu).le
  unfold u0
  rw [dPhi0_eq h, Option.bind_eq_bind, Option.bind_some, porosity0_eq, mul_pow, hs]
  unfold xs dxs bulk lift
  simp only [one_mul, zero_mul, add_zero]
  rfl

/-- The fluxes that the load takes for the exchange -/
noncomputable def exchange (m : Material) (x : ℝ) : ℝ := -(bulk m).u₂ x (1 / 10 ^ 13) + (bulk m).u₂ x (-(1 / 10 ^ 13))

/-- The fields of the fracture -/
noncomputable def fracture (m : Material) : Fracture :=
  MdLift.fracture m (porosity1 m) (fun x => 2 * x * m.rho2) pf dpf dpf2 (exchange m)

theorem u1_eq (h : Positive m) (x : ℝ) : u1 m x = some ((fracture m).u x) := by
  have hs := Real.sq_sqrt (div_pos (mul_pos h.delta h.kappa1) h.mu).le
  unfold u1
  rw [dPhi1_eq h, Option.bind_eq_bind, Option.bind_some, mul_pow, hs]
  rfl

theorem returns0 (h : Positive m) : Returns0 (code m) (bulk m) where
  porosity x y z := rfl
  gradPorosity x y z := by
    show Except.ok (gradPorosity0 m x y z) = _
    unfold gradPorosity0
    rw [mul_zero]
    rfl
  kappa x y z := rfl
  dPhi x y z := congrArg Except.ok (dPhi0_eq h x y z)
  gradDPhi x y z := by
    show Except.ok (gradDPhi0 m x y z) = _
    rw [gradDPhi0_eq h]
    unfold gradPorosity0 scale
    rw [mul_zero, mul_zero]
    rfl
  pExact x y z := by
    show Except.ok (some (p0 m x y z)) = _
    unfold p0 xs
    rw [one_mul]
    rfl
  uExact x y z := by
    show Except.ok ((u0 m x y z).map _) = _
    rw [u0_eq h]
    rfl
  qExact x y z := by
    show Except.ok ((root (porosity0 m x y z)).bind fun r => some (r * p0 m x y z)) = _
    rw [root_ok (porosity0_pos h x y z).le, Option.bind_some]
    unfold p0 xs
    rw [one_mul]
    rfl
  vExact x y z := by
    show Except.ok (do
      let d ← dPhi0 m x y z
      let r ← quot 1 d
      let u ← (u0 m x y z).map fun u : ℝ × ℝ => [u.1, u.2]
      return u.map (r * ·)) = _
    have hp := porosity0_pos h x y z
    have hk := h.kappa0
    have hm := h.mu
    have hs : 0 < √(m.kappa0 / m.mu) := Real.sqrt_pos.2 (div_pos hk hm)
    have hss := Real.mul_self_sqrt (div_pos hk hm).le
    rw [dPhi0_eq h, u0_eq h, Option.bind_eq_bind, Option.bind_some, quot_ok (by positivity)]
    simp only [Option.bind_some, Option.bind_eq_bind, Option.map_some, Option.pure_def, List.map_cons, List.map_nil]
    have hpos : 0 < porosity1 m x * phiYs m x y 0 := hp
    have key : ∀ g : ℝ, 1 / (√(m.kappa0 / m.mu) * (porosity1 m x * phiYs m x y 0)) *
        (-(m.kappa0 / m.mu * (porosity1 m x * phiYs m x y 0) ^ 2) * g) =
        -(√(m.kappa0 / m.mu) * (porosity1 m x * phiYs m x y 0)) * g := by
      intro g
      rw [one_div, inv_mul_eq_iff_eq_mul₀ (by positivity)]
      linear_combination ((porosity1 m x * phiYs m x y 0) ^ 2 * g) * hss
    rw [porosity0_eq]
    unfold bulk lift
    dsimp only
    rw [key, key]
  rhs x y z := by
    show Except.ok (rhs0 m x y z) = _
    have hp := porosity0_pos h x y z
    have hss := Real.mul_self_sqrt (div_pos h.kappa0 h.mu).le
    unfold rhs0
    rw [dPhi0_eq h, gradDPhi0_eq h, root_ok hp.le]
    simp only [Option.bind_some, Option.bind_eq_bind, Option.pure_def]
    rw [quot_ok (Real.sqrt_pos.2 hp).ne', Option.bind_some, mul_one_div]
    unfold bulk lift p0 xs dxs dxs2 scale gradPorosity0
    simp only [porosity0_eq]
    have e1 : ys m x y z = ys m x y 0 := rfl
    have e2 : dys m x y z = dys m x y 0 := rfl
    have e3 : dys2 m x y z = dys2 m x y 0 := rfl
    have e4 : phiDys m x y z = phiDys m x y 0 := rfl
    have e5 : phiYs m x y z = phiYs m x y 0 := rfl
    rw [e1, e2, e3, e4, e5]
    congr 3
    generalize phiYs m x y 0 = Y, phiDys m x y 0 = Y', ys m x y 0 = S, dys m x y 0 = S', dys2 m x y 0 = S'',
      porosity1 m x = A, pf x = P, dpf x = P', dpf2 x = P'', √(m.kappa0 / m.mu) = k at hss ⊢
    rw [← hss]
    ring

theorem returns1 (h : Positive m) : Returns1 (code m) (fracture m) where
  porosity x y z := rfl
  gradPorosity x y z := by
    show Except.ok (gradPorosity1 m x y z) = _
    unfold gradPorosity1
    rw [mul_zero, mul_zero]
    rfl
  kappa x y z := rfl
  dPhi x y z := congrArg Except.ok (dPhi1_eq h x)
  gradDPhi x y z := by
    show Except.ok (gradDPhi1 m x y z) = _
    rw [gradDPhi1_eq h]
    unfold gradPorosity1 scale
    rw [mul_zero, mul_zero, mul_zero]
    rfl
  pExact x y z := rfl
  uExact x y z := by
    show Except.ok ((u1 m x).map _) = _
    rw [u1_eq h]
    rfl
  qExact x y z := by
    show Except.ok ((root (porosity1 m x)).bind fun r => some (r * pf x)) = _
    rw [root_ok (porosity1_pos h x).le]
    rfl
  vExact x y z := by
    show Except.ok (do
      let d ← dPhi1 m x
      let r ← quot 1 d
      let u ← (u1 m x).map fun u => [u]
      return u.map (r * ·)) = _
    have hp := porosity1_pos h x
    have hk := mul_pos h.delta h.kappa1
    have hm := h.mu
    have hs : 0 < √(m.delta * m.kappa1 / m.mu) := Real.sqrt_pos.2 (div_pos hk hm)
    have hss := Real.mul_self_sqrt (div_pos hk hm).le
    rw [dPhi1_eq h, u1_eq h, Option.bind_eq_bind, Option.bind_some, quot_ok (by positivity)]
    simp only [Option.bind_some, Option.bind_eq_bind, Option.map_some, Option.pure_def, List.map_cons, List.map_nil]
    unfold fracture MdLift.fracture
    dsimp only
    congr 3
    rw [one_div, inv_mul_eq_iff_eq_mul₀ (by positivity)]
    linear_combination (porosity1 m x ^ 2 * dpf x) * hss
  rhs x y z := by
    show Except.ok (rhs1 m x y z) = _
    have hp := porosity1_pos h x
    have hss := Real.mul_self_sqrt (div_pos (mul_pos h.delta h.kappa1) h.mu).le
    unfold rhs1
    rw [dPhi1_eq h, gradDPhi1_eq h, root_ok hp.le, u0_eq h, u0_eq h]
    simp only [Option.bind_some, Option.bind_eq_bind, Option.pure_def]
    rw [quot_ok (Real.sqrt_pos.2 hp).ne', Option.bind_some, quot_ok (Real.sqrt_pos.2 hp).ne', Option.bind_some,
      mul_one_div, ← add_div]
    have e1 : (1 : ℝ) / 10 ^ 13 * 1 = 1 / 10 ^ 13 := mul_one _
    have e2 : (-1 : ℝ) / 10 ^ 13 * 1 = -(1 / 10 ^ 13) := by ring
    rw [e1, e2]
    unfold fracture MdLift.fracture exchange scale gradPorosity1
    dsimp only
    congr 3
    generalize (bulk m).u₂ x (1 / 10 ^ 13) = U, (bulk m).u₂ x (-(1 / 10 ^ 13)) = V, porosity1 m x = A, pf x = P,
      dpf x = P', dpf2 x = P'', √(m.delta * m.kappa1 / m.mu) = k at hss ⊢
    rw [← hss]
    ring

end Verif.Strong.MdScaled
