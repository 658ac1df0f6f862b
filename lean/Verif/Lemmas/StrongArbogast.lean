/-
Lemmas for C108: what the functions of the exact solutions return, and the derivatives.
-/
import Verif.Spec.StrongArbogast
import Verif.Lemmas.Strong
import Verif.Lemmas.Prelude
import Mathlib.Analysis.SpecialFunctions.Pow.Deriv
import Mathlib.Tactic.FieldSimp
import Mathlib.Tactic.LinearCombination

namespace Verif.Strong.Arbogast
open Real

theorem quot_of {a b : ℝ} (h : b ≠ 0) : quot a b = some (a / b) := if_neg h
theorem root_of {a : ℝ} (h : 0 ≤ a) : root a = some (√a) := if_neg (not_lt.2 h)
theorem power_of {a : ℝ} (b : ℝ) (h : 0 < a) : power a b = some (a ^ b) := if_neg fun c => h.ne' c.1

theorem not_masked {x y : ℝ} (hx : -3 / 4 < x) (hy : -3 / 4 < y) : ¬ Masked x y :=
  not_or.2 ⟨not_le.2 hx, not_le.2 hy⟩

/-! ### Dimension one -/

noncomputable def den (beta : ℝ) : ℝ := -1 + beta * (3 + beta)

noncomputable def p1 (beta x : ℝ) : ℝ :=
  (-(x ^ beta) + 0.5 * (3 + √13) * x ^ (0.5 * (-3 + √13)) * beta) / den beta

noncomputable def u1 (beta x : ℝ) : ℝ := (-(x ^ (0.5 * (3 + √13))) + x ^ (3 + beta)) * beta / den beta

noncomputable def g1 (beta x : ℝ) : ℝ := (x ^ (√13 / 2) - x ^ (1.5 + beta)) * beta / (x ^ (2.5 : ℝ) * den beta)

noncomputable def l1 (beta x : ℝ) : ℝ :=
  ((-5 + √13) * x ^ (√13 / 2) - 2 * x ^ (1.5 + beta) * (-1 + beta)) * beta / (2 * x ^ (3.5 : ℝ) * den beta)

theorem porosity_one (beta x y z : ℝ) : porosity beta 1 x y z = .ok (x ^ 2) := rfl

theorem gradPorosity_one (beta x y z : ℝ) : gradPorosity beta 1 x y z = .ok [2 * x, 0, 0] := by
  simp only [gradPorosity, onDim, if_pos, mul_zero]

theorem kappa_one (beta x y z : ℝ) : kappa beta 1 x y z = .ok ((x ^ 2) ^ 2) := rfl

theorem sqrt_quot {a mu : ℝ} (ha : 0 ≤ a) : √(a ^ 2 / mu) = a / √mu := by
  rw [Real.sqrt_div (sq_nonneg a), Real.sqrt_sq ha]

theorem dPhi_of {par mu : ℝ} (hmu : 0 < mu) {dim : Nat} {x y z phi : ℝ} (h : porosity par dim x y z = .ok phi)
    (hp : 0 ≤ phi) : dPhi par mu dim x y z = .ok (some (phi / √mu)) := by
  unfold dPhi kappa
  rw [h]
  show Except.ok ((quot (phi ^ 2) mu).bind root) = _
  rw [quot_of hmu.ne', Option.bind_some, root_of (by positivity), sqrt_quot hp]

theorem dPhi_one {mu : ℝ} (hmu : 0 < mu) (beta x y z : ℝ) :
    dPhi beta mu 1 x y z = .ok (some (x ^ 2 / √mu)) :=
  dPhi_of hmu (porosity_one beta x y z) (sq_nonneg x)

theorem scalar_eq {mu phi : ℝ} (hmu : 0 < mu) (h : 0 < phi) : phi / (mu * (phi / √mu)) = 1 / √mu := by
  have hs : √mu * √mu = mu := Real.mul_self_sqrt hmu.le
  have h0 : √mu ≠ 0 := (Real.sqrt_pos.2 hmu).ne'
  rw [div_eq_div_iff (mul_ne_zero hmu.ne' (div_ne_zero h.ne' h0)) h0]
  field_simp
  linear_combination hs

theorem gradDPhi_of {par mu : ℝ} (hmu : 0 < mu) {dim : Nat} {x y z phi : ℝ} {g : List ℝ} {m : Prop}
    (hm : onDim dim (x < 0) (Masked x y) = .ok m) (hn : ¬ m) (h : porosity par dim x y z = .ok phi) (hp : 0 < phi)
    (hg : gradPorosity par dim x y z = .ok g) :
    gradDPhi par mu dim x y z = .ok (g.map fun a => some (1 / √mu * a)) := by
  unfold gradDPhi
  rw [hm, Res.bind_ok, if_neg hn, h, dPhi_of hmu h hp.le, hg]
  show Except.ok (List.map (fun g => Option.map (· * g) ((some (phi / √mu)).bind fun d => quot phi (mu * d))) g) = _
  rw [Option.bind_some, quot_of (mul_ne_zero hmu.ne' (div_ne_zero hp.ne' (Real.sqrt_pos.2 hmu).ne')),
    scalar_eq hmu hp]
  rfl

theorem gradDPhi_one {mu : ℝ} (hmu : 0 < mu) {x : ℝ} (hx : 0 < x) (beta y z : ℝ) :
    gradDPhi beta mu 1 x y z = .ok [some (1 / √mu * (2 * x)), some 0, some 0] := by
  rw [gradDPhi_of hmu (m := x < 0) rfl (not_lt.2 hx.le) (porosity_one beta x y z) (by positivity)
    (gradPorosity_one beta x y z)]
  simp only [List.map_cons, List.map_nil, mul_zero]

theorem pExact_one {beta : ℝ} (hd : den beta ≠ 0) {x : ℝ} (hx : 0 < x) (y z : ℝ) :
    pExact beta 1 x y z = .ok [some (p1 beta x)] := by
  unfold pExact
  rw [onDim, if_pos rfl, if_neg (not_lt.2 hx.le), abs_of_pos hx, power_of _ hx, power_of _ hx]
  show Except.ok [quot _ (den beta)] = _
  rw [quot_of hd]
  rfl

theorem uExact_one {beta : ℝ} (hd : den beta ≠ 0) {x : ℝ} (hx : 0 < x) (y z : ℝ) :
    uExact beta 1 x y z = .ok [some (u1 beta x)] := by
  unfold uExact
  rw [onDim, if_pos rfl, if_neg (not_lt.2 hx.le), abs_of_pos hx, power_of _ hx, power_of _ hx]
  show Except.ok [quot _ (den beta)] = _
  rw [quot_of hd]
  rfl

theorem qExact_one {beta : ℝ} (hd : den beta ≠ 0) {x : ℝ} (hx : 0 < x) (y z : ℝ) :
    qExact beta 1 x y z = .ok [some (√(x ^ 2) * p1 beta x)] := by
  unfold qExact
  rw [if_pos rfl, if_neg (not_le.2 hx), porosity_one, pExact_one hd hx, Res.bind_ok, Res.bind_ok,
    root_of (sq_nonneg x)]
  rfl

theorem vExact_one {beta mu : ℝ} (hd : den beta ≠ 0) (hmu : 0 < mu) {x : ℝ} (hx : 0 < x) (y z : ℝ) :
    vExact beta mu 1 x y z = .ok [some (u1 beta x / (x ^ 2 / √mu))] := by
  unfold vExact
  rw [if_pos rfl, if_neg (not_le.2 hx), uExact_one hd hx, dPhi_one hmu, Res.bind_ok, Res.bind_ok]
  show Except.ok [quot _ _] = _
  rw [quot_of (div_ne_zero (by positivity) (Real.sqrt_pos.2 hmu).ne')]

theorem rhs_one (beta : ℝ) {x : ℝ} (hx : 0 < x) (y z : ℝ) :
    rhs beta 1 x y z = .ok [some (x ^ beta * √(x ^ 2))] := by
  unfold rhs
  rw [if_pos rfl, if_neg (not_le.2 hx), porosity_one, Res.bind_ok, power_of _ hx, root_of (sq_nonneg x)]
  rfl

theorem gradPExact_one {beta : ℝ} (hd : den beta ≠ 0) {x : ℝ} (hx : 0 < x) (y z : ℝ) :
    gradPExact beta 1 x y z = .ok [some (g1 beta x)] := by
  unfold gradPExact
  rw [if_pos rfl, if_neg (not_le.2 hx)]
  show Except.ok [quot _ (x ^ (2.5 : ℝ) * den beta)] = _
  rw [quot_of (mul_ne_zero (Real.rpow_pos_of_pos hx _).ne' hd)]
  rfl

theorem laplacianPExact_one {beta : ℝ} (hd : den beta ≠ 0) {x : ℝ} (hx : 0 < x) (y z : ℝ) :
    laplacianPExact beta 1 x y z = .ok [some (l1 beta x)] := by
  unfold laplacianPExact
  rw [if_pos rfl, if_neg (not_le.2 hx)]
  show Except.ok [quot _ (2 * x ^ (3.5 : ℝ) * den beta)] = _
  rw [quot_of (mul_ne_zero (mul_ne_zero two_ne_zero (Real.rpow_pos_of_pos hx _).ne') hd)]
  rfl

/-- Powers with shifted exponents -/
theorem rpow_shift {x : ℝ} (hx : 0 < x) (a : ℝ) (n : ℕ) {b : ℝ} (h : b = a + n) : x ^ b = x ^ a * x ^ n := by
  rw [h, Real.rpow_add hx, Real.rpow_natCast]

theorem hasDerivAt_power {x : ℝ} (hx : 0 < x) (a : ℝ) : HasDerivAt (fun t : ℝ => t ^ a) (a * x ^ (a - 1)) x :=
  Real.hasDerivAt_rpow_const (.inl hx.ne')

theorem sq13 : √13 ^ 2 = 13 := Real.sq_sqrt (by norm_num)

theorem p1_deriv {beta : ℝ} (hd : den beta ≠ 0) {x : ℝ} (hx : 0 < x) : HasDerivAt (p1 beta) (g1 beta x) x := by
  have h := ((hasDerivAt_power hx beta).fun_neg.fun_add
    (((hasDerivAt_power hx (0.5 * (-3 + √13))).const_mul (0.5 * (3 + √13))).mul_const beta)).div_const (den beta)
  refine h.congr_deriv (Eq.symm ?_)
  have e1 : x ^ beta = x ^ (beta - 1) * x ^ 1 := rpow_shift hx _ 1 (by push_cast; ring)
  have e2 : x ^ (√13 / 2) = x ^ (0.5 * (-3 + √13) - 1) * x ^ (2.5 : ℝ) := by
    rw [← Real.rpow_add hx]; congr 1; ring
  have e3 : x ^ (1.5 + beta) = x ^ (beta - 1) * x ^ (2.5 : ℝ) := by
    rw [← Real.rpow_add hx]; congr 1; ring
  have h25 : x ^ (2.5 : ℝ) ≠ 0 := (Real.rpow_pos_of_pos hx _).ne'
  unfold g1
  rw [e2, e3, div_eq_div_iff (mul_ne_zero h25 hd) hd]
  linear_combination (-x ^ (0.5 * (-3 + √13) - 1) * x ^ (2.5 : ℝ) * beta * den beta / 4) * sq13

theorem g1_deriv {beta : ℝ} (hd : den beta ≠ 0) {x : ℝ} (hx : 0 < x) : HasDerivAt (g1 beta) (l1 beta x) x := by
  have h := (((hasDerivAt_power hx (√13 / 2 - 2.5)).fun_sub (hasDerivAt_power hx (beta - 1))).mul_const beta).div_const
    (den beta)
  have he : (fun t => (t ^ (√13 / 2 - 2.5) - t ^ (beta - 1)) * beta / den beta) =ᶠ[nhds x] g1 beta := by
    filter_upwards [lt_mem_nhds hx] with t ht
    have h25 : t ^ (2.5 : ℝ) ≠ 0 := (Real.rpow_pos_of_pos ht _).ne'
    have e2 : t ^ (√13 / 2) = t ^ (√13 / 2 - 2.5) * t ^ (2.5 : ℝ) := by
      rw [← Real.rpow_add ht]; congr 1; ring
    have e3 : t ^ (1.5 + beta) = t ^ (beta - 1) * t ^ (2.5 : ℝ) := by
      rw [← Real.rpow_add ht]; congr 1; ring
    unfold g1
    rw [e2, e3, div_eq_div_iff hd (mul_ne_zero h25 hd)]
    ring
  refine HasDerivAt.congr_of_eventuallyEq ?_ he.symm
  refine h.congr_deriv (Eq.symm ?_)
  have h35 : x ^ (3.5 : ℝ) ≠ 0 := (Real.rpow_pos_of_pos hx _).ne'
  have e2 : x ^ (√13 / 2) = x ^ (√13 / 2 - 2.5 - 1) * x ^ (3.5 : ℝ) := by
    rw [← Real.rpow_add hx]; congr 1; ring
  have e3 : x ^ (1.5 + beta) = x ^ (beta - 1 - 1) * x ^ (3.5 : ℝ) := by
    rw [← Real.rpow_add hx]; congr 1; ring
  unfold l1
  rw [e2, e3, div_eq_div_iff (mul_ne_zero (mul_ne_zero two_ne_zero h35) hd) hd]
  ring

theorem u1_law {beta : ℝ} (hd : den beta ≠ 0) {x : ℝ} (hx : 0 < x) : u1 beta x = -((x ^ 2) ^ 2) * g1 beta x := by
  have h25 : x ^ (2.5 : ℝ) ≠ 0 := (Real.rpow_pos_of_pos hx _).ne'
  have e0 : x ^ (0.5 * (3 + √13)) = x ^ (√13 / 2 - 2.5) * x ^ 4 := rpow_shift hx _ 4 (by push_cast; ring)
  have e1 : x ^ (3 + beta) = x ^ (beta - 1) * x ^ 4 := rpow_shift hx _ 4 (by push_cast; ring)
  have e2 : x ^ (√13 / 2) = x ^ (√13 / 2 - 2.5) * x ^ (2.5 : ℝ) := by
    rw [← Real.rpow_add hx]; congr 1; ring
  have e3 : x ^ (1.5 + beta) = x ^ (beta - 1) * x ^ (2.5 : ℝ) := by
    rw [← Real.rpow_add hx]; congr 1; ring
  unfold u1 g1
  rw [e0, e1, e2, e3]
  field_simp
  ring

theorem u1_deriv {beta : ℝ} (hd : den beta ≠ 0) {x : ℝ} (hx : 0 < x) :
    HasDerivAt (u1 beta) (x ^ 2 * x ^ beta - x ^ 2 * p1 beta x) x := by
  have h := (((hasDerivAt_power hx (0.5 * (3 + √13))).fun_neg.fun_add (hasDerivAt_power hx (3 + beta))).mul_const
    beta).div_const (den beta)
  refine h.congr_deriv (Eq.symm ?_)
  have e0 : x ^ (0.5 * (3 + √13) - 1) = x ^ (0.5 * (-3 + √13)) * x ^ 2 := rpow_shift hx _ 2 (by push_cast; ring)
  have e1 : x ^ (3 + beta - 1) = x ^ beta * x ^ 2 := rpow_shift hx _ 2 (by push_cast; ring)
  unfold p1
  rw [e0, e1]
  have : den beta = -1 + beta * (3 + beta) := rfl
  field_simp
  rw [this]
  ring

/-! ### Dimension two -/

section two
variable {x y : ℝ}

theorem lift (h : -3 / 4 < x) : 0 < 0.75 + x := by norm_num; linarith

noncomputable def phi2 (gamma x y : ℝ) : ℝ := (0.75 + x) ^ gamma * (0.75 + y) ^ (2 * gamma)

theorem phi2_pos (gamma : ℝ) (hx : -3 / 4 < x) (hy : -3 / 4 < y) : 0 < phi2 gamma x y :=
  mul_pos (Real.rpow_pos_of_pos (lift hx) _) (Real.rpow_pos_of_pos (lift hy) _)

noncomputable def phi2x (gamma x y : ℝ) : ℝ := (0.75 + x) ^ (-1 + gamma) * (0.75 + y) ^ (2 * gamma) * gamma

noncomputable def phi2y (gamma x y : ℝ) : ℝ := 2 * (0.75 + x) ^ gamma * (0.75 + y) ^ (-1 + 2 * gamma) * gamma

noncomputable def p2 (x y : ℝ) : ℝ := cos (6 * x * y ^ 2)

noncomputable def f2 (gamma x y : ℝ) : ℝ :=
  √(phi2 gamma x y) * ((1 + 36 * (0.75 + x) ^ gamma * y ^ 2 * (0.75 + y) ^ (2 * gamma) * (4 * x ^ 2 + y ^ 2)) *
    cos (6 * x * y ^ 2) + 12 * (0.75 + x) ^ gamma * (0.75 + y) ^ (2 * gamma) *
            (x * (3 + 4 * x) * (3 + 4 * y) + 4 * y * (4 * x * (3 + 4 * x) + y * (3 + 4 * y)) * gamma) *
            sin (6 * x * y ^ 2) / ((3 + 4 * x) * (3 + 4 * y)))

theorem porosity_two (gamma : ℝ) (hx : -3 / 4 < x) (hy : -3 / 4 < y) (z : ℝ) :
    porosity gamma 2 x y z = .ok (phi2 gamma x y) := by
  unfold porosity
  rw [onDim, if_neg (by decide), if_pos rfl, if_neg (not_masked hx hy)]
  rfl

theorem gradPorosity_two (gamma : ℝ) (hx : -3 / 4 < x) (hy : -3 / 4 < y) (z : ℝ) :
    gradPorosity gamma 2 x y z = .ok [phi2x gamma x y, phi2y gamma x y] := by
  unfold gradPorosity
  rw [onDim, if_neg (by decide), if_pos rfl, if_neg (not_masked hx hy)]
  rfl

theorem kappa_two (gamma : ℝ) (hx : -3 / 4 < x) (hy : -3 / 4 < y) (z : ℝ) :
    kappa gamma 2 x y z = .ok (phi2 gamma x y ^ 2) := by
  unfold kappa
  rw [porosity_two gamma hx hy]
  rfl

theorem dPhi_two {mu : ℝ} (hmu : 0 < mu) (gamma : ℝ) (hx : -3 / 4 < x) (hy : -3 / 4 < y) (z : ℝ) :
    dPhi gamma mu 2 x y z = .ok (some (phi2 gamma x y / √mu)) :=
  dPhi_of hmu (porosity_two gamma hx hy z) (phi2_pos gamma hx hy).le

theorem gradDPhi_two {mu : ℝ} (hmu : 0 < mu) (gamma : ℝ) (hx : -3 / 4 < x) (hy : -3 / 4 < y) (z : ℝ) :
    gradDPhi gamma mu 2 x y z = .ok [some (1 / √mu * phi2x gamma x y), some (1 / √mu * phi2y gamma x y)] :=
  gradDPhi_of hmu (m := Masked x y) rfl (not_masked hx hy) (porosity_two gamma hx hy z) (phi2_pos gamma hx hy)
    (gradPorosity_two gamma hx hy z)

theorem pExact_two (gamma : ℝ) (hx : -3 / 4 < x) (hy : -3 / 4 < y) (z : ℝ) :
    pExact gamma 2 x y z = .ok [some (p2 x y)] := by
  unfold pExact
  rw [onDim, if_neg (by decide), if_pos rfl, if_neg (not_masked hx hy)]
  rfl

/-- `φ² = (3/4 + x)^(2γ) (3/4 + y)^(4γ)` -/
theorem phi2_sq (gamma : ℝ) (hx : -3 / 4 < x) (hy : -3 / 4 < y) :
    (0.75 + x) ^ (2 * gamma) * (0.75 + y) ^ (4 * gamma) = phi2 gamma x y ^ 2 := by
  unfold phi2
  rw [mul_pow, ← Real.rpow_mul_natCast (lift hx).le, ← Real.rpow_mul_natCast (lift hy).le]
  congr 2 <;> push_cast <;> ring

theorem uExact_two (gamma : ℝ) (hx : -3 / 4 < x) (hy : -3 / 4 < y) (z : ℝ) :
    uExact gamma 2 x y z = .ok [some (6 * y ^ 2 * phi2 gamma x y ^ 2 * sin (6 * x * y ^ 2)),
      some (12 * x * y * phi2 gamma x y ^ 2 * sin (6 * x * y ^ 2))] := by
  unfold uExact
  rw [onDim, if_neg (by decide), if_pos rfl, if_neg (not_masked hx hy), ← phi2_sq gamma hx hy]
  congr 4
  · ring
  · congr 1; ring

theorem qExact_two (gamma : ℝ) (hx : -3 / 4 < x) (hy : -3 / 4 < y) (z : ℝ) :
    qExact gamma 2 x y z = .ok [some (√(phi2 gamma x y) * p2 x y)] := by
  unfold qExact
  rw [if_neg (by decide), if_pos rfl, if_neg (not_masked hx hy)]
  show Except.ok [(root (phi2 gamma x y)).map _] = _
  rw [root_of (phi2_pos gamma hx hy).le]
  rfl

theorem vExact_two (gamma mu : ℝ) (hx : -3 / 4 < x) (hy : -3 / 4 < y) (z : ℝ) :
    vExact gamma mu 2 x y z = .ok [some (6 * y ^ 2 * phi2 gamma x y * sin (6 * x * y ^ 2)),
      some (12 * x * y * phi2 gamma x y * sin (6 * x * y ^ 2))] := by
  unfold vExact
  rw [if_neg (by decide), if_pos rfl, if_neg (not_masked hx hy), phi2_sq gamma hx hy, root_of (sq_nonneg _),
    Real.sqrt_sq (phi2_pos gamma hx hy).le]
  rfl

theorem rhs_two (gamma : ℝ) (hx : -3 / 4 < x) (hy : -3 / 4 < y) (z : ℝ) :
    rhs gamma 2 x y z = .ok [some (f2 gamma x y)] := by
  have hX : 3 + 4 * x ≠ 0 := by linarith
  have hY : 3 + 4 * y ≠ 0 := by linarith
  unfold rhs
  rw [if_neg (by decide), if_pos rfl, if_neg (not_masked hx hy), porosity_two gamma hx hy, Res.bind_ok,
    root_of (phi2_pos gamma hx hy).le, quot_of (mul_ne_zero hX hY)]
  rfl

theorem lift_deriv (h : -3 / 4 < x) (a : ℝ) :
    HasDerivAt (fun t : ℝ => (0.75 + t) ^ a) (a * (0.75 + x) ^ (a - 1)) x := by
  have := ((hasDerivAt_id' x).const_add (0.75 : ℝ)).rpow_const (p := a) (.inl (lift h).ne')
  simpa using this

theorem phi2_dx (gamma : ℝ) (hx : -3 / 4 < x) :
    HasDerivAt (fun t => phi2 gamma t y) (phi2x gamma x y) x := by
  refine ((lift_deriv hx gamma).mul_const ((0.75 + y) ^ (2 * gamma))).congr_deriv (Eq.symm ?_)
  unfold phi2x
  rw [show -1 + gamma = gamma - 1 by ring]
  ring

theorem phi2_dy (gamma : ℝ) (hy : -3 / 4 < y) :
    HasDerivAt (fun t => phi2 gamma x t) (phi2y gamma x y) y := by
  refine ((lift_deriv hy (2 * gamma)).const_mul ((0.75 + x) ^ gamma)).congr_deriv (Eq.symm ?_)
  unfold phi2y
  rw [show -1 + 2 * gamma = 2 * gamma - 1 by ring]
  ring

theorem phi2x_eq (gamma : ℝ) (hx : -3 / 4 < x) : phi2x gamma x y * (3 + 4 * x) = 4 * gamma * phi2 gamma x y := by
  have e : (0.75 + x) ^ gamma = (0.75 + x) ^ (-1 + gamma) * (0.75 + x) ^ 1 :=
    rpow_shift (lift hx) _ 1 (by push_cast; ring)
  unfold phi2x phi2
  rw [e]
  ring

theorem phi2y_eq (gamma : ℝ) (hy : -3 / 4 < y) : phi2y gamma x y * (3 + 4 * y) = 8 * gamma * phi2 gamma x y := by
  have e : (0.75 + y) ^ (2 * gamma) = (0.75 + y) ^ (-1 + 2 * gamma) * (0.75 + y) ^ 1 :=
    rpow_shift (lift hy) _ 1 (by push_cast; ring)
  unfold phi2y phi2
  rw [e]
  ring

theorem p2_dx : HasDerivAt (fun t => p2 t y) (-(6 * y ^ 2 * sin (6 * x * y ^ 2))) x := by
  have : ∃ a, HasDerivAt (fun t => cos (6 * t * y ^ 2)) a x ∧ a = -(6 * y ^ 2 * sin (6 * x * y ^ 2)) := by
    refine ⟨_, by derive, ?_⟩
    ring
  obtain ⟨a, h, rfl⟩ := this
  exact h

theorem p2_dy : HasDerivAt (fun t => p2 x t) (-(12 * x * y * sin (6 * x * y ^ 2))) y := by
  have : ∃ a, HasDerivAt (fun t => cos (6 * x * t ^ 2)) a y ∧ a = -(12 * x * y * sin (6 * x * y ^ 2)) := by
    refine ⟨_, by derive, ?_⟩
    push_cast
    ring
  obtain ⟨a, h, rfl⟩ := this
  exact h

theorem u2_dx (gamma : ℝ) (hx : -3 / 4 < x) :
    HasDerivAt (fun t => 6 * y ^ 2 * phi2 gamma t y ^ 2 * sin (6 * t * y ^ 2))
      (6 * y ^ 2 * (2 * phi2 gamma x y * phi2x gamma x y * sin (6 * x * y ^ 2) +
        phi2 gamma x y ^ 2 * (6 * y ^ 2 * cos (6 * x * y ^ 2)))) x := by
  have hs : ∃ a, HasDerivAt (fun t => sin (6 * t * y ^ 2)) a x ∧ a = 6 * y ^ 2 * cos (6 * x * y ^ 2) := by
    refine ⟨_, by derive, ?_⟩
    ring
  obtain ⟨a, h, rfl⟩ := hs
  refine (((((phi2_dx (y := y) gamma hx).fun_pow 2).const_mul (6 * y ^ 2)).fun_mul h)).congr_deriv (Eq.symm ?_)
  push_cast
  ring

theorem u2_dy (gamma : ℝ) (hy : -3 / 4 < y) :
    HasDerivAt (fun t => 12 * x * t * phi2 gamma x t ^ 2 * sin (6 * x * t ^ 2))
      (12 * x * (phi2 gamma x y ^ 2 * sin (6 * x * y ^ 2) + 2 * y * phi2 gamma x y * phi2y gamma x y *
        sin (6 * x * y ^ 2) + y * phi2 gamma x y ^ 2 * (12 * x * y * cos (6 * x * y ^ 2)))) y := by
  have hs : ∃ a, HasDerivAt (fun t => sin (6 * x * t ^ 2)) a y ∧ a = 12 * x * y * cos (6 * x * y ^ 2) := by
    refine ⟨_, by derive, ?_⟩
    push_cast
    ring
  obtain ⟨a, h, rfl⟩ := hs
  refine (((((hasDerivAt_id' y).const_mul (12 * x)).fun_mul ((phi2_dy (x := x) gamma hy).fun_pow 2)).fun_mul h)).congr_deriv (Eq.symm ?_)
  push_cast
  ring

theorem f2_eq (gamma : ℝ) (hx : -3 / 4 < x) (hy : -3 / 4 < y) :
    √(phi2 gamma x y) * f2 gamma x y =
      6 * y ^ 2 * (2 * phi2 gamma x y * phi2x gamma x y * sin (6 * x * y ^ 2) +
        phi2 gamma x y ^ 2 * (6 * y ^ 2 * cos (6 * x * y ^ 2))) +
      12 * x * (phi2 gamma x y ^ 2 * sin (6 * x * y ^ 2) + 2 * y * phi2 gamma x y * phi2y gamma x y *
        sin (6 * x * y ^ 2) + y * phi2 gamma x y ^ 2 * (12 * x * y * cos (6 * x * y ^ 2))) +
      phi2 gamma x y * p2 x y := by
  have hX : 3 + 4 * x ≠ 0 := by linarith
  have hY : 3 + 4 * y ≠ 0 := by linarith
  have hs : √(phi2 gamma x y) * √(phi2 gamma x y) = phi2 gamma x y := Real.mul_self_sqrt (phi2_pos gamma hx hy).le
  have hf : f2 gamma x y = √(phi2 gamma x y) * ((1 + 36 * phi2 gamma x y * y ^ 2 * (4 * x ^ 2 + y ^ 2)) *
      cos (6 * x * y ^ 2) + 12 * phi2 gamma x y *
            (x * (3 + 4 * x) * (3 + 4 * y) + 4 * y * (4 * x * (3 + 4 * x) + y * (3 + 4 * y)) * gamma) *
            sin (6 * x * y ^ 2) / ((3 + 4 * x) * (3 + 4 * y))) := by
    unfold f2
    congr 2
    · unfold phi2; ring
    · unfold phi2; ring
  have hz : 12 * phi2 gamma x y *
      (x * (3 + 4 * x) * (3 + 4 * y) + 4 * y * (4 * x * (3 + 4 * x) + y * (3 + 4 * y)) * gamma) *
      sin (6 * x * y ^ 2) / ((3 + 4 * x) * (3 + 4 * y)) =
      12 * sin (6 * x * y ^ 2) * (x * phi2 gamma x y + 2 * x * y * phi2y gamma x y + y ^ 2 * phi2x gamma x y) := by
    rw [div_eq_iff (mul_ne_zero hX hY)]
    linear_combination (-(12 * sin (6 * x * y ^ 2) * (2 * x * y) * (3 + 4 * x))) * phi2y_eq (x := x) gamma hy -
      (12 * sin (6 * x * y ^ 2) * y ^ 2 * (3 + 4 * y)) * phi2x_eq (y := y) gamma hx
  rw [hf, ← mul_assoc, hs, hz]
  unfold p2
  ring

end two

end Verif.Strong.Arbogast
