/-
Helper lemmas for C113.
-/
import Verif.Spec.MdDegenerate
import Verif.Lemmas.MdScaled
import Verif.Lemmas.StrongArbogast

namespace Verif.Strong.MdDegenerate
open Real MdLift
open Arbogast (quot root)
open MdScaled (quot_ok root_ok scale scalar_eq)

variable {m : Material} {x y z : ℝ}

theorem masked_iff : Masked x ↔ x ≤ 1 / 10 ^ 8 := by
  unfold Masked
  constructor
  · rintro (h | h)
    · have : (0 : ℝ) < 1 / 10 ^ 8 := by positivity
      linarith
    · exact (abs_le.1 h).2
  · intro h
    rcases lt_or_ge x 0 with h0 | h0
    · exact .inl h0
    · exact .inr (by rwa [abs_of_nonneg h0])

theorem not_masked (h : 1 / 10 ^ 8 < x) : ¬ Masked x := by
  rw [masked_iff, not_le]
  exact h

theorem pos_of (h : ¬ Masked x) : 0 < x := by
  rw [masked_iff, not_le] at h
  have : (0 : ℝ) < 1 / 10 ^ 8 := by positivity
  linarith

open Classical in
/-- A function, zero behind the mask -/
noncomputable def cut (f : ℝ → ℝ) (x : ℝ) : ℝ := if Masked x then 0 else f x

theorem cut_in {f : ℝ → ℝ} (h : Masked x) : cut f x = 0 := if_pos h

theorem cut_out {f : ℝ → ℝ} (h : ¬ Masked x) : cut f x = f x := if_neg h

theorem cut_deriv {f : ℝ → ℝ} {d : ℝ} (h : ¬ Masked x) (hf : HasDerivAt f d x) : HasDerivAt (cut f) d x := by
  refine hf.congr_of_eventuallyEq ?_
  rw [masked_iff, not_le] at h
  filter_upwards [lt_mem_nhds h] with t ht
  exact cut_out (by rw [masked_iff, not_le]; exact ht)

theorem porosity1_eq (x : ℝ) : porosity1 x = cut (· ^ 2) x := rfl

theorem porosity1_out (h : ¬ Masked x) : porosity1 x = x ^ 2 := if_neg h

theorem porosity1_pos (h : ¬ Masked x) : 0 < porosity1 x := by
  rw [porosity1_out h]
  exact pow_pos (pos_of h) 2

theorem porosity0_eq (m : Material) (x y z : ℝ) : porosity0 m x y z = porosity1 x * phiYs m x y 0 := by
  unfold porosity0 porosity1
  by_cases h : Masked x
  · rw [if_pos h, if_pos h, zero_mul]
  · rw [if_neg h, if_neg h]
    rfl

theorem porosity1_in (h : Masked x) : porosity1 x = 0 := if_pos h

theorem porosity1_nonneg (x : ℝ) : 0 ≤ porosity1 x := by
  by_cases h : Masked x
  · rw [porosity1_in h]
  · exact (porosity1_pos h).le

theorem porosity0_in (h : Masked x) : porosity0 m x y z = 0 := if_pos h

theorem porosity0_nonneg (m : Material) (x y z : ℝ) : 0 ≤ porosity0 m x y z := by
  rw [porosity0_eq]
  exact mul_nonneg (porosity1_nonneg x) (phiYs_pos m x y 0).le

theorem porosity0_pos (h : ¬ Masked x) : 0 < porosity0 m x y z := by
  rw [porosity0_eq]
  exact mul_pos (porosity1_pos h) (phiYs_pos m x y 0)

theorem dPhi0_eq (h : Positive m) (x y z : ℝ) :
    dPhi0 m x y z = some (√(m.kappa0 / m.mu) * porosity0 m x y z) := by
  have hp := porosity0_nonneg m x y z
  have hk := h.kappa0
  have hm := h.mu
  have e : kappa0 m x y z / m.mu = m.kappa0 / m.mu * porosity0 m x y z ^ 2 := by
    unfold kappa0
    ring
  unfold dPhi0
  rw [quot_ok hm.ne', Option.bind_some, e, root_ok (by positivity), Real.sqrt_mul (by positivity), Real.sqrt_sq hp]

theorem dPhi1_eq (h : Positive m) (x : ℝ) :
    dPhi1 m x = some (√(m.delta * m.kappa1 / m.mu) * porosity1 x) := by
  have hp := porosity1_nonneg x
  have hk := h.kappa1
  have hm := h.mu
  have hd := h.delta
  have e : m.delta * kappa1 m x / m.mu = m.delta * m.kappa1 / m.mu * porosity1 x ^ 2 := by
    unfold kappa1
    ring
  unfold dPhi1
  rw [quot_ok hm.ne', Option.bind_some, e, root_ok (by positivity), Real.sqrt_mul (by positivity), Real.sqrt_sq hp]

/-- The derivative of the porosity -/
noncomputable def slope : ℝ → ℝ := cut (2 * ·)

theorem gradPorosity0_eq (m : Material) (x y z : ℝ) :
    gradPorosity0 m x y z = (slope x * phiYs m x y 0, porosity1 x * phiDys m x y 0, 0) := by
  unfold gradPorosity0 slope
  by_cases h : Masked x
  · rw [if_pos h, cut_in h, porosity1_in h, zero_mul, zero_mul]
  · rw [if_neg h, cut_out h, mul_zero]
    rfl

theorem gradPorosity1_eq (x y z : ℝ) : gradPorosity1 x y z = (slope x, 0, 0) := by
  unfold gradPorosity1 slope
  by_cases h : Masked x
  · rw [if_pos h, cut_in h]
  · rw [if_neg h, cut_out h, mul_zero, mul_zero]

theorem gradDPhi0_eq (h : Positive m) (x y z : ℝ) :
    gradDPhi0 m x y z = some (√(m.kappa0 / m.mu) * (slope x * phiYs m x y 0),
      √(m.kappa0 / m.mu) * (porosity1 x * phiDys m x y 0), 0) := by
  have hk := h.kappa0
  have hm := h.mu
  have hs : 0 < √(m.kappa0 / m.mu) := Real.sqrt_pos.2 (div_pos hk hm)
  unfold gradDPhi0
  rw [gradPorosity0_eq]
  by_cases hx : Masked x
  · rw [if_pos hx, porosity1_in hx, slope, cut_in hx]
    simp only [Option.bind_some, Option.bind_eq_bind, Option.pure_def, scale, zero_mul, mul_zero]
  · have hp := porosity0_pos (m := m) (y := y) (z := z) hx
    rw [if_neg hx, dPhi0_eq h, Option.bind_eq_bind, Option.bind_some, quot_ok (by positivity),
      scalar_eq hk hm hp]
    simp only [Option.bind_some, Option.pure_def, scale, mul_zero]

theorem gradDPhi1_eq (h : Positive m) (x y z : ℝ) :
    gradDPhi1 m x y z = some (√(m.delta * m.kappa1 / m.mu) * slope x, 0, 0) := by
  have hk := mul_pos h.delta h.kappa1
  have hm := h.mu
  have hs : 0 < √(m.delta * m.kappa1 / m.mu) := Real.sqrt_pos.2 (div_pos hk hm)
  unfold gradDPhi1
  rw [gradPorosity1_eq]
  by_cases hx : Masked x
  · rw [if_pos hx, slope, cut_in hx]
    simp only [Option.bind_some, Option.bind_eq_bind, Option.pure_def, scale, mul_zero]
  · have hp := porosity1_pos hx
    rw [if_neg hx, dPhi1_eq h, Option.bind_eq_bind, Option.bind_some, quot_ok (by positivity),
      scalar_eq hk hm hp]
    simp only [Option.bind_some, Option.pure_def, scale, mul_zero]

/-- The pressure of the fracture and its derivatives -/
noncomputable def P (m : Material) : ℝ → ℝ := cut (Arbogast.p1 m.beta)
noncomputable def P' (m : Material) : ℝ → ℝ := cut (Arbogast.g1 m.beta)
noncomputable def P'' (m : Material) : ℝ → ℝ := cut (Arbogast.l1 m.beta)

theorem pf_eq (h : Positive m) (x : ℝ) : pf m x = some (P m x) := by
  unfold pf P
  by_cases hx : Masked x
  · rw [if_pos hx, cut_in hx]
  · rw [if_neg hx, cut_out hx, quot_ok h.beta]
    rfl

theorem dpf_eq (h : Positive m) (x : ℝ) : dpf m x = some (P' m x) := by
  unfold dpf P'
  by_cases hx : Masked x
  · rw [if_pos hx, cut_in hx]
  · rw [if_neg hx, cut_out hx, quot_ok (mul_ne_zero (rpow_pos_of_pos (pos_of hx) _).ne' h.beta)]
    rfl

theorem dpf2_eq (h : Positive m) (x : ℝ) : dpf2 m x = some (P'' m x) := by
  unfold dpf2 P''
  by_cases hx : Masked x
  · rw [if_pos hx, cut_in hx]
  · rw [if_neg hx, cut_out hx,
      quot_ok (mul_ne_zero (mul_ne_zero two_ne_zero (rpow_pos_of_pos (pos_of hx) _).ne') h.beta)]
    rfl

theorem porosity1_deriv (hx : ¬ Masked x) : HasDerivAt porosity1 (slope x) x := by
  rw [slope, cut_out hx]
  exact cut_deriv (f := (· ^ 2)) hx ((hasDerivAt_pow 2 x).congr_deriv (by norm_num))

theorem P_deriv (h : Positive m) (hx : ¬ Masked x) : HasDerivAt (P m) (P' m x) x := by
  rw [P', cut_out hx]
  exact cut_deriv hx (Arbogast.p1_deriv h.beta (pos_of hx))

theorem P'_deriv (h : Positive m) (hx : ¬ Masked x) : HasDerivAt (P' m) (P'' m x) x := by
  rw [P'', cut_out hx]
  exact cut_deriv hx (Arbogast.g1_deriv h.beta (pos_of hx))

/-- The fields of the bulk -/
noncomputable def bulk (m : Material) : Bulk := lift m porosity1 slope (P m) (P' m) (P'' m)

theorem p0_eq (h : Positive m) (x y z : ℝ) : p0 m x y z = some ((bulk m).p x y) := by
  unfold p0 xs
  rw [pf_eq h, one_mul]
  rfl

theorem u0_eq (h : Positive m) (x y z : ℝ) : u0 m x y z = some ((bulk m).u₁ x y, (bulk m).u₂ x y) := by
  have hs := Real.sq_sqrt (div_pos h.kappa0 h.mu).le
  unfold u0
  rw [dPhi0_eq h, pf_eq h, dpf_eq h, Option.bind_eq_bind, Option.bind_some, porosity0_eq]
  simp only [Option.bind_eq_bind, Option.bind_some, Option.pure_def]
  rw [mul_pow, hs]
  unfold xs dxs bulk lift
  simp only [one_mul, zero_mul, add_zero]
  rfl

/-- The fluxes that the load takes for the exchange -/
noncomputable def exchange (m : Material) (x : ℝ) : ℝ := -(bulk m).u₂ x (1 / 10 ^ 13) + (bulk m).u₂ x (-(1 / 10 ^ 13))

/-- The fields of the fracture -/
noncomputable def fracture (m : Material) : Fracture :=
  MdLift.fracture m porosity1 slope (P m) (P' m) (P'' m) (exchange m)

theorem u1_eq (h : Positive m) (x : ℝ) : u1 m x = some ((fracture m).u x) := by
  have hs := Real.sq_sqrt (div_pos (mul_pos h.delta h.kappa1) h.mu).le
  unfold u1
  rw [dPhi1_eq h, dpf_eq h, Option.bind_eq_bind, Option.bind_some, mul_pow, hs]
  rfl

open Classical in
theorem returns0 (h : Positive m) : Returns0 (code m) (bulk m) where
  porosity x y z := congrArg Except.ok (porosity0_eq m x y z)
  gradPorosity x y z := congrArg Except.ok (gradPorosity0_eq m x y z)
  kappa x y z := by
    show Except.ok (m.kappa0 * porosity0 m x y z ^ 2) = _
    rw [porosity0_eq]
    rfl
  dPhi x y z := by
    show Except.ok (dPhi0 m x y z) = _
    rw [dPhi0_eq h, porosity0_eq]
    rfl
  gradDPhi x y z := congrArg Except.ok (gradDPhi0_eq h x y z)
  pExact x y z := congrArg Except.ok (p0_eq h x y z)
  uExact x y z := by
    show Except.ok ((u0 m x y z).map _) = _
    rw [u0_eq h]
    rfl
  qExact x y z := by
    show Except.ok ((root (porosity0 m x y z)).bind fun r => (p0 m x y z).bind fun p => some (r * p)) = _
    rw [root_ok (porosity0_nonneg m x y z), p0_eq h, porosity0_eq]
    rfl
  vExact x y z := by
    show (if Masked x then Except.ok (((u0 m x y z).map fun u : ℝ × ℝ => [u.1, u.2]).map fun u => u.map fun _ => 0)
      else Except.ok (do
        let d ← dPhi0 m x y z
        let r ← quot 1 d
        let u ← (u0 m x y z).map fun u : ℝ × ℝ => [u.1, u.2]
        return u.map (r * ·))) = _
    rw [u0_eq h]
    by_cases hx : Masked x
    · rw [if_pos hx]
      simp only [Option.map_some, List.map_cons, List.map_nil, bulk, lift, porosity1_in hx, zero_mul, mul_zero, neg_zero]
    · rw [if_neg hx]
      have hp := porosity0_pos (m := m) (y := y) (z := z) hx
      have hk := h.kappa0
      have hm := h.mu
      have hs : 0 < √(m.kappa0 / m.mu) := Real.sqrt_pos.2 (div_pos hk hm)
      have hss := Real.mul_self_sqrt (div_pos hk hm).le
      rw [dPhi0_eq h, Option.bind_eq_bind, Option.bind_some, quot_ok (by positivity)]
      simp only [Option.bind_some, Option.bind_eq_bind, Option.map_some, Option.pure_def, List.map_cons, List.map_nil]
      rw [porosity0_eq] at hp ⊢
      have key : ∀ g : ℝ, 1 / (√(m.kappa0 / m.mu) * (porosity1 x * phiYs m x y 0)) *
          (-(m.kappa0 / m.mu * (porosity1 x * phiYs m x y 0) ^ 2) * g) =
          -(√(m.kappa0 / m.mu) * (porosity1 x * phiYs m x y 0)) * g := by
        intro g
        rw [one_div, inv_mul_eq_iff_eq_mul₀ (by positivity)]
        linear_combination ((porosity1 x * phiYs m x y 0) ^ 2 * g) * hss
      unfold bulk lift
      dsimp only
      rw [key, key]
  rhs x y z := by
    show Except.ok (rhs0 m x y z) = _
    have hss := Real.mul_self_sqrt (div_pos h.kappa0 h.mu).le
    unfold rhs0
    rw [dPhi0_eq h, gradDPhi0_eq h, pf_eq h, dpf_eq h, dpf2_eq h, p0_eq h]
    simp only [Option.bind_some, Option.bind_eq_bind, Option.pure_def]
    by_cases hx : Masked x
    · rw [if_pos hx]
      simp only [porosity0_in hx, bulk, lift, porosity1_in hx, zero_mul, mul_zero, add_zero, sub_zero]
      simp
    · have hp := porosity0_pos (m := m) (y := y) (z := z) hx
      rw [if_neg hx, root_ok hp.le]
      simp only [Option.bind_some]
      rw [quot_ok (Real.sqrt_pos.2 hp).ne', Option.bind_some, mul_one_div]
      unfold bulk lift xs dxs dxs2
      simp only [porosity0_eq]
      have e1 : ys m x y z = ys m x y 0 := rfl
      have e2 : dys m x y z = dys m x y 0 := rfl
      have e3 : dys2 m x y z = dys2 m x y 0 := rfl
      rw [e1, e2, e3]
      congr 3
      generalize phiYs m x y 0 = Y, phiDys m x y 0 = Y', ys m x y 0 = S, dys m x y 0 = S', dys2 m x y 0 = S'',
        porosity1 x = A, P m x = P, P' m x = P', P'' m x = P'', slope x = B, √(m.kappa0 / m.mu) = k at hss ⊢
      rw [← hss]
      ring

open Classical in
theorem returns1 (h : Positive m) : Returns1 (code m) (fracture m) where
  porosity x y z := rfl
  gradPorosity x y z := congrArg Except.ok (gradPorosity1_eq x y z)
  kappa x y z := rfl
  dPhi x y z := congrArg Except.ok (dPhi1_eq h x)
  gradDPhi x y z := congrArg Except.ok (gradDPhi1_eq h x y z)
  pExact x y z := congrArg Except.ok (pf_eq h x)
  uExact x y z := by
    show Except.ok ((u1 m x).map _) = _
    rw [u1_eq h]
    rfl
  qExact x y z := by
    show Except.ok ((root (porosity1 x)).bind fun r => (pf m x).bind fun p => some (r * p)) = _
    rw [root_ok (porosity1_nonneg x), pf_eq h]
    rfl
  vExact x y z := by
    show (if Masked x then Except.ok (((u1 m x).map fun u => [u]).map fun u => u.map fun _ => 0)
      else Except.ok (do
        let d ← dPhi1 m x
        let r ← quot 1 d
        let u ← (u1 m x).map fun u => [u]
        return u.map (r * ·))) = _
    rw [u1_eq h]
    by_cases hx : Masked x
    · rw [if_pos hx]
      simp only [Option.map_some, List.map_cons, List.map_nil, fracture, MdLift.fracture, porosity1_in hx, zero_mul,
        mul_zero, neg_zero]
    · rw [if_neg hx]
      have hp := porosity1_pos hx
      have hk := mul_pos h.delta h.kappa1
      have hm := h.mu
      have hs : 0 < √(m.delta * m.kappa1 / m.mu) := Real.sqrt_pos.2 (div_pos hk hm)
      have hss := Real.mul_self_sqrt (div_pos hk hm).le
      rw [dPhi1_eq h, Option.bind_eq_bind, Option.bind_some, quot_ok (by positivity)]
      simp only [Option.bind_some, Option.bind_eq_bind, Option.map_some, Option.pure_def, List.map_cons, List.map_nil]
      unfold fracture MdLift.fracture
      dsimp only
      congr 3
      rw [one_div, inv_mul_eq_iff_eq_mul₀ (by positivity)]
      linear_combination (porosity1 x ^ 2 * P' m x) * hss
  rhs x y z := by
    show Except.ok (rhs1 m x y z) = _
    have hss := Real.mul_self_sqrt (div_pos (mul_pos h.delta h.kappa1) h.mu).le
    unfold rhs1
    rw [dPhi1_eq h, gradDPhi1_eq h, pf_eq h, dpf_eq h, dpf2_eq h, u0_eq h, u0_eq h]
    simp only [Option.bind_some, Option.bind_eq_bind, Option.pure_def]
    by_cases hx : Masked x
    · rw [if_pos hx]
      simp only [fracture, MdLift.fracture, exchange, bulk, lift, porosity1_in hx, zero_mul, mul_zero, add_zero,
        sub_zero]
      simp
    · have hp := porosity1_pos hx
      rw [if_neg hx, root_ok hp.le]
      simp only [Option.bind_some]
      rw [quot_ok (Real.sqrt_pos.2 hp).ne', Option.bind_some, quot_ok (Real.sqrt_pos.2 hp).ne', Option.bind_some,
        mul_one_div, ← add_div]
      have e1 : (1 : ℝ) / 10 ^ 13 * 1 = 1 / 10 ^ 13 := mul_one _
      have e2 : (-1 : ℝ) / 10 ^ 13 * 1 = -(1 / 10 ^ 13) := by ring
      rw [e1, e2]
      unfold fracture MdLift.fracture exchange
      dsimp only
      congr 3
      generalize (bulk m).u₂ x (1 / 10 ^ 13) = U, (bulk m).u₂ x (-(1 / 10 ^ 13)) = V, porosity1 x = A, P m x = P,
        P' m x = P', P'' m x = P'', slope x = B, √(m.delta * m.kappa1 / m.mu) = k at hss ⊢
      rw [← hss]
      ring

theorem root_gt : (0 : ℝ) < 0.5 * (-3 + √13) := by
  have : (3 : ℝ) < √13 := by
    rw [Real.lt_sqrt (by norm_num)]
    norm_num
  have h : (0 : ℝ) < 0.5 := by norm_num
  exact mul_pos h (by linarith)

/-- Between zero and one the pressure of the fracture has no zero. -/
theorem p1_ne {beta x : ℝ} (hd : Arbogast.den beta ≠ 0) (h0 : 0 < x) (h1 : x < 1) : Arbogast.p1 beta x ≠ 0 := by
  unfold Arbogast.p1
  refine div_ne_zero ?_ hd
  have hs := root_gt
  have hr : (0.5 * (-3 + √13)) * (0.5 * (3 + √13)) = 1 := by
    have := Arbogast.sq13
    norm_num
    linear_combination this / 4
  have hden : Arbogast.den beta = (beta - 0.5 * (-3 + √13)) * (beta + 0.5 * (3 + √13)) := by
    unfold Arbogast.den
    have := Arbogast.sq13
    norm_num
    linear_combination this / 4
  have hr' : 0 < 0.5 * (3 + √13) := by positivity
  have ha : 0 < x ^ beta := rpow_pos_of_pos h0 _
  have hb : 0 < x ^ (0.5 * (-3 + √13)) := rpow_pos_of_pos h0 _
  rw [hden] at hd
  have hne : beta ≠ 0.5 * (-3 + √13) := fun e => hd (by rw [e, sub_self, zero_mul])
  generalize 0.5 * (-3 + √13) = s at *
  generalize 0.5 * (3 + √13) = r at *
  rcases lt_or_gt_of_ne hne with h | h
  · have hlt : x ^ s < x ^ beta := rpow_lt_rpow_of_exponent_gt h0 h1 h
    have : r * beta < 1 := by
      calc r * beta < r * s := by exact mul_lt_mul_of_pos_left h hr'
        _ = 1 := by linarith
    nlinarith
  · have hlt : x ^ beta < x ^ s := rpow_lt_rpow_of_exponent_gt h0 h1 h
    have : 1 < r * beta := by
      calc 1 = r * s := by linarith
        _ < r * beta := mul_lt_mul_of_pos_left h hr'
    nlinarith

end Verif.Strong.MdDegenerate
