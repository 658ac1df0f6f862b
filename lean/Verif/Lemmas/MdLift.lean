/-
Helper lemmas for C112 and C113.
-/
import Verif.Lemmas.Strong
import Verif.Spec.MdLift
import Verif.Model.MdLift
import Mathlib.Analysis.SpecialFunctions.Pow.Deriv

namespace Verif.Strong.MdLift
open Real Filter Topology

theorem below_pow (c y : ℝ) (hy : y < 0) : HasDerivAt (fun t : ℝ => (1 - t) ^ c) (-c * (1 - y) ^ (c - 1)) y := by
  have h : HasDerivAt (fun t : ℝ => 1 - t) (-1) y := (hasDerivAt_id y).const_sub 1
  exact (h.rpow_const (p := c) (.inl (by linarith))).congr_deriv (by ring)

theorem above_pow (c y : ℝ) (hy : 0 < y) : HasDerivAt (fun t : ℝ => (1 + t) ^ c) (c * (1 + y) ^ (c - 1)) y := by
  have h : HasDerivAt (fun t : ℝ => 1 + t) 1 y := (hasDerivAt_id y).const_add 1
  exact (h.rpow_const (p := c) (.inl (by linarith))).congr_deriv (by ring)

theorem ys_deriv (m : Material) (x y z : ℝ) (hy : y ≠ 0) : HasDerivAt (fun t => ys m x t z) (dys m x y z) y := by
  rcases lt_or_gt_of_ne hy with h | h
  · rw [dys, if_pos h]
    refine (below_pow m.xi y h).congr_of_eventuallyEq ?_
    filter_upwards [gt_mem_nhds h] with t ht
    rw [ys, if_pos ht]
  · rw [dys, if_neg h.not_gt]
    refine (above_pow m.eta y h).congr_of_eventuallyEq ?_
    filter_upwards [lt_mem_nhds h] with t ht
    rw [ys, if_neg (not_lt.2 (le_of_lt ht))]

theorem dys_deriv (m : Material) (x y z : ℝ) (hy : y ≠ 0) : HasDerivAt (fun t => dys m x t z) (dys2 m x y z) y := by
  rcases lt_or_gt_of_ne hy with h | h
  · rw [dys2, if_pos h]
    refine (((below_pow (m.xi - 1) y h).const_mul (-m.xi)).congr_deriv ?_).congr_of_eventuallyEq ?_
    · rw [show m.xi - 1 - 1 = m.xi - 2 by ring]
      ring
    · filter_upwards [gt_mem_nhds h] with t ht
      rw [dys, if_pos ht]
  · rw [dys2, if_neg h.not_gt]
    refine (((above_pow (m.eta - 1) y h).const_mul m.eta).congr_deriv ?_).congr_of_eventuallyEq ?_
    · rw [show m.eta - 1 - 1 = m.eta - 2 by ring]
      ring
    · filter_upwards [lt_mem_nhds h] with t ht
      rw [dys, if_neg (not_lt.2 (le_of_lt ht))]

theorem phiYs_deriv (m : Material) (x y z : ℝ) (hy : y ≠ 0) : HasDerivAt (fun t => phiYs m x t z) (phiDys m x y z) y := by
  rcases lt_or_gt_of_ne hy with h | h
  · rw [phiDys, if_pos h]
    refine (below_pow m.chi y h).congr_of_eventuallyEq ?_
    filter_upwards [gt_mem_nhds h] with t ht
    rw [phiYs, if_pos ht]
  · rw [phiDys, if_neg h.not_gt]
    refine (above_pow m.chi y h).congr_of_eventuallyEq ?_
    filter_upwards [lt_mem_nhds h] with t ht
    rw [phiYs, if_neg (not_lt.2 (le_of_lt ht))]

theorem phiYs_pos (m : Material) (x y z : ℝ) : 0 < phiYs m x y z := by
  unfold phiYs
  by_cases h : y < 0
  · rw [if_pos h]
    exact rpow_pos_of_pos (by linarith) _
  · rw [if_neg h]
    exact rpow_pos_of_pos (by linarith) _

/-- The fields of the bulk for a porosity `a` and a pressure `p` of the fracture, with the root `k` of the mobility -/
noncomputable def lift (m : Material) (a da p dp ddp : ℝ → ℝ) : Bulk where
  porosity x y := a x * phiYs m x y 0
  porosity₁ x y := da x * phiYs m x y 0
  porosity₂ x y := a x * phiDys m x y 0
  kappa x y := m.kappa0 * (a x * phiYs m x y 0) ^ 2
  dPhi x y := √(m.kappa0 / m.mu) * (a x * phiYs m x y 0)
  dPhi₁ x y := √(m.kappa0 / m.mu) * (da x * phiYs m x y 0)
  dPhi₂ x y := √(m.kappa0 / m.mu) * (a x * phiDys m x y 0)
  p x y := ys m x y 0 * p x
  u₁ x y := -(m.kappa0 / m.mu * (a x * phiYs m x y 0) ^ 2) * (ys m x y 0 * dp x)
  u₂ x y := -(m.kappa0 / m.mu * (a x * phiYs m x y 0) ^ 2) * (dys m x y 0 * p x)
  q x y := √(a x * phiYs m x y 0) * (ys m x y 0 * p x)
  v₁ x y := -(√(m.kappa0 / m.mu) * (a x * phiYs m x y 0)) * (ys m x y 0 * dp x)
  v₂ x y := -(√(m.kappa0 / m.mu) * (a x * phiYs m x y 0)) * (dys m x y 0 * p x)
  rhs x y := (-(m.kappa0 / m.mu * (a x * phiYs m x y 0) ^ 2) * (ys m x y 0 * ddp x + dys2 m x y 0 * p x) -
      2 * (m.kappa0 / m.mu) * (a x * phiYs m x y 0) *
        (da x * phiYs m x y 0 * (ys m x y 0 * dp x) + a x * phiDys m x y 0 * (dys m x y 0 * p x)) +
      a x * phiYs m x y 0 * (ys m x y 0 * p x)) / √(a x * phiYs m x y 0)

variable {m : Material} {a da p dp ddp : ℝ → ℝ} {x y : ℝ}

theorem lift_coefficients (hk : 0 < m.kappa0) (hm : 0 < m.mu) (ha : 0 < a x) (hda : HasDerivAt a (da x) x)
    (hy : y ≠ 0) : (lift m a da p dp ddp).Coefficients m.kappa0 m.mu x y := by
  have hpos : 0 < a x * phiYs m x y 0 := mul_pos ha (phiYs_pos m x y 0)
  have hg1 : HasDerivAt (fun t => a t * phiYs m t y 0) (da x * phiYs m x y 0) x := hda.mul_const _
  have hg2 : HasDerivAt (fun t => a x * phiYs m x t 0) (a x * phiDys m x y 0) y := (phiYs_deriv m x y 0 hy).const_mul _
  refine ⟨hpos, rfl, mul_pos (Real.sqrt_pos.2 (div_pos hk hm)) hpos, ?_, ⟨hg1, hg2⟩, hg1.const_mul _, hg2.const_mul _⟩
  show (√(m.kappa0 / m.mu) * (a x * phiYs m x y 0)) ^ 2 = m.kappa0 * (a x * phiYs m x y 0) ^ 2 / m.mu
  rw [mul_pow, Real.sq_sqrt (div_pos hk hm).le]
  ring

theorem lift_solves (hk : 0 < m.kappa0) (hm : 0 < m.mu) (ha : 0 < a x) (hda : HasDerivAt a (da x) x)
    (hp : HasDerivAt p (dp x) x) (hdp : HasDerivAt dp (ddp x) x) (hy : y ≠ 0) :
    (lift m a da p dp ddp).Solves m.mu x y := by
  have hpos : 0 < a x * phiYs m x y 0 := mul_pos ha (phiYs_pos m x y 0)
  have hkm : 0 ≤ m.kappa0 / m.mu := (div_pos hk hm).le
  refine ⟨⟨ys m x y 0 * dp x, dys m x y 0 * p x, ⟨hp.const_mul _, (ys_deriv m x y 0 hy).mul_const _⟩, ?_, ?_⟩,
    ⟨rfl, ?_, ?_⟩, ?_⟩
  · show -(m.kappa0 / m.mu * _) * _ = -(m.kappa0 * _ / m.mu) * _
    ring
  · show -(m.kappa0 / m.mu * _) * _ = -(m.kappa0 * _ / m.mu) * _
    ring
  · show √(m.kappa0 / m.mu) * (a x * phiYs m x y 0) *
      (-(√(m.kappa0 / m.mu) * (a x * phiYs m x y 0)) * (ys m x y 0 * dp x)) =
      -(m.kappa0 / m.mu * (a x * phiYs m x y 0) ^ 2) * (ys m x y 0 * dp x)
    linear_combination (-(a x * phiYs m x y 0) ^ 2 * (ys m x y 0 * dp x)) * Real.mul_self_sqrt hkm
  · show √(m.kappa0 / m.mu) * (a x * phiYs m x y 0) *
      (-(√(m.kappa0 / m.mu) * (a x * phiYs m x y 0)) * (dys m x y 0 * p x)) =
      -(m.kappa0 / m.mu * (a x * phiYs m x y 0) ^ 2) * (dys m x y 0 * p x)
    linear_combination (-(a x * phiYs m x y 0) ^ 2 * (dys m x y 0 * p x)) * Real.mul_self_sqrt hkm
  · have hg1 : HasDerivAt (fun t => a t * phiYs m t y 0) (da x * phiYs m x y 0) x := hda.mul_const _
    have hg2 : HasDerivAt (fun t => a x * phiYs m x t 0) (a x * phiDys m x y 0) y :=
      (phiYs_deriv m x y 0 hy).const_mul _
    have h1 := (((hg1.fun_pow 2).const_mul (m.kappa0 / m.mu)).fun_neg).fun_mul (hdp.const_mul (ys m x y 0))
    have h2 := (((hg2.fun_pow 2).const_mul (m.kappa0 / m.mu)).fun_neg).fun_mul
      ((dys_deriv m x y 0 hy).mul_const (p x))
    refine ⟨_, _, h1, h2, ?_⟩
    show _ = √(a x * phiYs m x y 0) * (_ / √(a x * phiYs m x y 0))
    rw [mul_div_cancel₀ _ (Real.sqrt_pos.2 hpos).ne']
    show _ + _ + a x * phiYs m x y 0 * (ys m x y 0 * p x) = _
    simp only [Nat.cast_ofNat]
    ring

/-- The fields of the fracture for a porosity `a`, a pressure `p` and an exchange term `e` -/
noncomputable def fracture (m : Material) (a da p dp ddp e : ℝ → ℝ) : Fracture where
  porosity := a
  porosity' := da
  kappa x := m.kappa1 * a x ^ 2
  dPhi x := √(m.delta * m.kappa1 / m.mu) * a x
  dPhi' x := √(m.delta * m.kappa1 / m.mu) * da x
  p := p
  u x := -(m.delta * m.kappa1 / m.mu * a x ^ 2) * dp x
  q x := √(a x) * p x
  v x := -(√(m.delta * m.kappa1 / m.mu) * a x) * dp x
  rhs x := (-(m.delta * m.kappa1 / m.mu * a x ^ 2) * ddp x - 2 * (m.delta * m.kappa1 / m.mu) * a x * da x * dp x +
    a x * p x + e x) / √(a x)

theorem fracture_coefficients {e : ℝ → ℝ} (hk : 0 < m.kappa1) (hw : 0 < m.delta) (hm : 0 < m.mu) (ha : 0 < a x)
    (hda : HasDerivAt a (da x) x) : (fracture m a da p dp ddp e).Coefficients m.kappa1 m.delta m.mu x := by
  have hkm : 0 < m.delta * m.kappa1 / m.mu := div_pos (mul_pos hw hk) hm
  refine ⟨ha, rfl, mul_pos (Real.sqrt_pos.2 hkm) ha, ?_, hda, hda.const_mul _⟩
  show (√(m.delta * m.kappa1 / m.mu) * a x) ^ 2 = m.delta * (m.kappa1 * a x ^ 2) / m.mu
  rw [mul_pow, Real.sq_sqrt hkm.le]
  ring

theorem fracture_solves {e : ℝ → ℝ} (hk : 0 < m.kappa1) (hw : 0 < m.delta) (hm : 0 < m.mu) (ha : 0 < a x)
    (hda : HasDerivAt a (da x) x) (hp : HasDerivAt p (dp x) x) (hdp : HasDerivAt dp (ddp x) x) :
    (fracture m a da p dp ddp e).Solves m.delta m.mu (e x) x := by
  have hkm : 0 < m.delta * m.kappa1 / m.mu := div_pos (mul_pos hw hk) hm
  refine ⟨⟨dp x, hp, ?_⟩, ⟨rfl, ?_⟩, ?_⟩
  · show -(m.delta * m.kappa1 / m.mu * _) * _ = -(m.delta * (m.kappa1 * _) / m.mu) * _
    ring
  · show √(m.delta * m.kappa1 / m.mu) * a x * (-(√(m.delta * m.kappa1 / m.mu) * a x) * dp x) =
      -(m.delta * m.kappa1 / m.mu * a x ^ 2) * dp x
    linear_combination (-(a x) ^ 2 * dp x) * Real.mul_self_sqrt hkm.le
  · have h1 := (((hda.fun_pow 2).const_mul (m.delta * m.kappa1 / m.mu)).fun_neg).fun_mul hdp
    refine ⟨_, h1, ?_⟩
    show _ + a x * p x + e x = √(a x) * (_ / √(a x))
    rw [mul_div_cancel₀ _ (Real.sqrt_pos.2 ha).ne']
    simp only [Nat.cast_ofNat]
    ring

/-- The solution satisfies the equation of the scaled form (C75) in every point. -/
theorem Bulk.weak {F : Bulk} {k mu : ℝ} (hc : F.Coefficients k mu x y) (hs : F.Solves mu x y) (w₁ w₂ dw t : ℝ) :
    ∃ a b p₁ p₂, HasDerivAt (fun t => F.u₁ t y) a x ∧ HasDerivAt (fun t => F.u₂ x t) b y ∧ Grad F.p p₁ p₂ x y ∧
      Degenerate.pairing 2 1 1
        ⟨fun i => if i = 0 then F.v₁ x y else F.v₂ x y, (a + b) / √(F.porosity x y), F.q x y⟩
        ⟨fun i => if i = 0 then w₁ else w₂,
          (F.dPhi x y * dw + (F.dPhi₁ x y * w₁ + F.dPhi₂ x y * w₂)) / √(F.porosity x y), t⟩ =
      F.rhs x y * t - (p₁ * (F.dPhi x y * w₁) + p₂ * (F.dPhi x y * w₂) +
        F.p x y * (F.dPhi x y * dw + (F.dPhi₁ x y * w₁ + F.dPhi₂ x y * w₂))) := by
  obtain ⟨⟨p₁, p₂, hp, h1, h2⟩, ⟨hq, hv1, hv2⟩, a, b, ha, hb, hbal⟩ := hs
  refine ⟨a, b, p₁, p₂, ha, hb, hp, ?_⟩
  have hr : 0 < √(F.porosity x y) := Real.sqrt_pos.2 hc.porosity_pos
  have hv1' : F.v₁ x y = -F.dPhi x y * p₁ := by
    apply mul_left_cancel₀ hc.dPhi_pos.ne'
    rw [hv1, h1, ← hc.dPhi]
    ring
  have hv2' : F.v₂ x y = -F.dPhi x y * p₂ := by
    apply mul_left_cancel₀ hc.dPhi_pos.ne'
    rw [hv2, h2, ← hc.dPhi]
    ring
  have hss : √(F.porosity x y) * √(F.porosity x y) = F.porosity x y := Real.mul_self_sqrt hc.porosity_pos.le
  have hf : F.rhs x y = (a + b) / √(F.porosity x y) + √(F.porosity x y) * F.p x y := by
    apply mul_left_cancel₀ hr.ne'
    rw [← hbal, mul_add, mul_div_cancel₀ _ hr.ne', ← mul_assoc, hss]
  unfold Degenerate.pairing
  rw [Finset.sum_range_succ, Finset.sum_range_one]
  simp only [if_true, one_ne_zero, if_false]
  rw [hq, hf, hv1', hv2', mul_div_assoc', mul_assoc √(F.porosity x y) (F.p x y), mul_div_cancel_left₀ _ hr.ne']
  ring

theorem Fracture.weak {F : Fracture} {k w mu e : ℝ} (hc : F.Coefficients k w mu x) (hs : F.Solves w mu e x)
    (w₁ dw t : ℝ) :
    ∃ a p', HasDerivAt F.u a x ∧ HasDerivAt F.p p' x ∧
      Degenerate.pairing 1 1 1 ⟨fun _ => F.v x, a / √(F.porosity x), F.q x⟩
        ⟨fun _ => w₁, (F.dPhi x * dw + F.dPhi' x * w₁) / √(F.porosity x), t⟩ + e / √(F.porosity x) * t =
      F.rhs x * t - (p' * (F.dPhi x * w₁) + F.p x * (F.dPhi x * dw + F.dPhi' x * w₁)) := by
  obtain ⟨⟨p', hp, h1⟩, ⟨hq, hv⟩, a, ha, hbal⟩ := hs
  refine ⟨a, p', ha, hp, ?_⟩
  have hr : 0 < √(F.porosity x) := Real.sqrt_pos.2 hc.porosity_pos
  have hv' : F.v x = -F.dPhi x * p' := by
    apply mul_left_cancel₀ hc.dPhi_pos.ne'
    rw [hv, h1, ← hc.dPhi]
    ring
  have hss : √(F.porosity x) * √(F.porosity x) = F.porosity x := Real.mul_self_sqrt hc.porosity_pos.le
  have hf : F.rhs x = a / √(F.porosity x) + √(F.porosity x) * F.p x + e / √(F.porosity x) := by
    apply mul_left_cancel₀ hr.ne'
    rw [← hbal, mul_add, mul_add, mul_div_cancel₀ _ hr.ne', mul_div_cancel₀ _ hr.ne', ← mul_assoc, hss]
  unfold Degenerate.pairing
  rw [Finset.sum_range_one, hq, hf, hv', mul_div_assoc', mul_assoc √(F.porosity x) (F.p x), mul_div_cancel_left₀ _ hr.ne']
  ring

theorem continuousAt_below (c : ℝ) : ContinuousAt (fun t : ℝ => (1 - t) ^ c) 0 :=
  (continuousAt_const.sub continuousAt_id).rpow_const (.inl (by norm_num))

theorem continuousAt_above (c : ℝ) : ContinuousAt (fun t : ℝ => (1 + t) ^ c) 0 :=
  (continuousAt_const.add continuousAt_id).rpow_const (.inl (by norm_num))

/-- The fluxes through the fracture -/
theorem lift_sides (m : Material) (a da p dp ddp : ℝ → ℝ) (x : ℝ) : (lift m a da p dp ddp).Sides x
    (m.kappa0 / m.mu * a x ^ 2 * (m.xi * p x)) (-(m.kappa0 / m.mu * a x ^ 2 * (m.eta * p x))) := by
  constructor
  · have h : ContinuousAt (fun t : ℝ => -(m.kappa0 / m.mu * (a x * (1 - t) ^ m.chi) ^ 2) *
        (-m.xi * (1 - t) ^ (m.xi - 1) * p x)) 0 :=
      ((continuousAt_const.mul ((continuousAt_const.mul (continuousAt_below m.chi)).pow 2)).neg).mul
        ((continuousAt_const.mul (continuousAt_below (m.xi - 1))).mul continuousAt_const)
    have h' := h.tendsto.mono_left (nhdsWithin_le_nhds (s := Set.Iio 0))
    simp only [sub_zero, one_rpow] at h'
    rw [show m.kappa0 / m.mu * a x ^ 2 * (m.xi * p x) =
      -(m.kappa0 / m.mu * (a x * 1) ^ 2) * (-m.xi * 1 * p x) by ring]
    refine h'.congr' ?_
    filter_upwards [self_mem_nhdsWithin] with t ht
    have ht : t < 0 := ht
    simp only [lift, phiYs, dys, if_pos ht]
  · have h : ContinuousAt (fun t : ℝ => -(m.kappa0 / m.mu * (a x * (1 + t) ^ m.chi) ^ 2) *
        (m.eta * (1 + t) ^ (m.eta - 1) * p x)) 0 :=
      ((continuousAt_const.mul ((continuousAt_const.mul (continuousAt_above m.chi)).pow 2)).neg).mul
        ((continuousAt_const.mul (continuousAt_above (m.eta - 1))).mul continuousAt_const)
    have h' := h.tendsto.mono_left (nhdsWithin_le_nhds (s := Set.Ioi 0))
    simp only [add_zero, one_rpow] at h'
    rw [show -(m.kappa0 / m.mu * a x ^ 2 * (m.eta * p x)) =
      -(m.kappa0 / m.mu * (a x * 1) ^ 2) * (m.eta * 1 * p x) by ring]
    refine h'.congr' ?_
    filter_upwards [self_mem_nhdsWithin] with t ht
    have ht : 0 < t := ht
    simp only [lift, phiYs, dys, if_neg ht.not_gt]

theorem Bulk.Sides.eq {F : Bulk} {x a b c d : ℝ} (h : F.Sides x a b) (h' : F.Sides x c d) : a = c ∧ b = d :=
  ⟨tendsto_nhds_unique h.below h'.below, tendsto_nhds_unique h.above h'.above⟩

theorem pow_below {c e t : ℝ} (ht : t < 0) : ((1 - t) ^ c) ^ 2 * (1 - t) ^ (e - 1) = (1 - t) ^ (2 * c + e - 1) := by
  have h : 0 < 1 - t := by linarith
  rw [← rpow_natCast, ← rpow_mul h.le, ← rpow_add h]
  congr 1
  push_cast
  ring

theorem pow_above {c e t : ℝ} (ht : 0 < t) : ((1 + t) ^ c) ^ 2 * (1 + t) ^ (e - 1) = (1 + t) ^ (2 * c + e - 1) := by
  have h : 0 < 1 + t := by linarith
  rw [← rpow_natCast, ← rpow_mul h.le, ← rpow_add h]
  congr 1
  push_cast
  ring

/-- The flux near the fracture is the limit times a power. -/
theorem lift_offset (m : Material) (a da p dp ddp : ℝ → ℝ) (x : ℝ) {t : ℝ} (ht : 0 < t) :
    (lift m a da p dp ddp).u₂ x (-t) = m.kappa0 / m.mu * a x ^ 2 * (m.xi * p x) * (1 + t) ^ (2 * m.chi + m.xi - 1) ∧
    (lift m a da p dp ddp).u₂ x t = -(m.kappa0 / m.mu * a x ^ 2 * (m.eta * p x)) * (1 + t) ^ (2 * m.chi + m.eta - 1) := by
  constructor
  · have h : -t < 0 := by linarith
    have e := pow_below (c := m.chi) (e := m.xi) h
    simp only [lift, phiYs, dys, if_pos h]
    rw [sub_neg_eq_add] at e ⊢
    rw [← e]
    ring
  · have e := pow_above (c := m.chi) (e := m.eta) ht
    simp only [lift, phiYs, dys, if_neg ht.not_gt]
    rw [← e]
    ring

theorem ys_continuous (m : Material) (x z : ℝ) : Continuous (fun t => ys m x t z) := by
  have : (fun t => ys m x t z) = fun t => (1 + max (-t) 0) ^ m.xi * (1 + max t 0) ^ m.eta := by
    funext t
    unfold ys
    by_cases ht : t < 0
    · rw [if_pos ht, max_eq_left (by linarith), max_eq_right ht.le, add_zero, one_rpow, mul_one, sub_eq_add_neg]
    · rw [if_neg ht, max_eq_right (by linarith), max_eq_left (by linarith), add_zero, one_rpow, one_mul]
  rw [this]
  refine Continuous.mul ?_ ?_
  · exact (continuous_const.add (continuous_neg.max continuous_const)).rpow_const
      fun t => .inl (ne_of_gt (show 0 < 1 + max (-t) 0 by have := le_max_right (-t) 0; linarith))
  · exact (continuous_const.add (continuous_id.max continuous_const)).rpow_const
      fun t => .inl (ne_of_gt (show 0 < 1 + max t 0 by have := le_max_right t 0; linarith))

theorem ys_zero (m : Material) (x z : ℝ) : ys m x 0 z = 1 := by
  simp [ys]

/-- The fields are determined by what the functions return. -/
theorem Returns0.eq {c : Code} {F H : Bulk} (r : Returns0 c F) (s : Returns0 c H) : F = H := by
  have h1 : F.porosity = H.porosity := by
    funext x y
    simpa [r.porosity x y 0] using s.porosity x y 0
  have h2 : F.porosity₁ = H.porosity₁ ∧ F.porosity₂ = H.porosity₂ := by
    constructor
    · funext x y
      have := s.gradPorosity x y 0
      rw [r.gradPorosity x y 0] at this
      injection this with e
      exact congrArg (·.1) e
    · funext x y
      have := s.gradPorosity x y 0
      rw [r.gradPorosity x y 0] at this
      injection this with e
      exact congrArg (·.2.1) e
  have h3 : F.kappa = H.kappa := by
    funext x y
    simpa [r.kappa x y 0] using s.kappa x y 0
  have h4 : F.dPhi = H.dPhi := by
    funext x y
    simpa [r.dPhi x y 0] using s.dPhi x y 0
  have h5 : F.dPhi₁ = H.dPhi₁ ∧ F.dPhi₂ = H.dPhi₂ := by
    constructor
    · funext x y
      have := s.gradDPhi x y 0
      rw [r.gradDPhi x y 0] at this
      injection this with e
      injection e with e
      exact congrArg (·.1) e
    · funext x y
      have := s.gradDPhi x y 0
      rw [r.gradDPhi x y 0] at this
      injection this with e
      injection e with e
      exact congrArg (·.2.1) e
  have h6 : F.p = H.p := by
    funext x y
    simpa [r.pExact x y 0] using s.pExact x y 0
  have h7 : F.u₁ = H.u₁ ∧ F.u₂ = H.u₂ := by
    constructor
    · funext x y
      have := s.uExact x y 0
      rw [r.uExact x y 0] at this
      simp only [Except.ok.injEq, Option.some.injEq, List.cons.injEq] at this
      exact this.1
    · funext x y
      have := s.uExact x y 0
      rw [r.uExact x y 0] at this
      simp only [Except.ok.injEq, Option.some.injEq, List.cons.injEq] at this
      exact this.2.1
  have h8 : F.q = H.q := by
    funext x y
    simpa [r.qExact x y 0] using s.qExact x y 0
  have h9 : F.v₁ = H.v₁ ∧ F.v₂ = H.v₂ := by
    constructor
    · funext x y
      have := s.vExact x y 0
      rw [r.vExact x y 0] at this
      simp only [Except.ok.injEq, Option.some.injEq, List.cons.injEq] at this
      exact this.1
    · funext x y
      have := s.vExact x y 0
      rw [r.vExact x y 0] at this
      simp only [Except.ok.injEq, Option.some.injEq, List.cons.injEq] at this
      exact this.2.1
  have h10 : F.rhs = H.rhs := by
    funext x y
    simpa [r.rhs x y 0] using s.rhs x y 0
  obtain ⟨a1, a2, a3, a4, a5, a6, a7, a8, a9, a10, a11, a12, a13, a14⟩ := F
  simp only at h1 h2 h3 h4 h5 h6 h7 h8 h9 h10
  rw [h1, h2.1, h2.2, h3, h4, h5.1, h5.2, h6, h7.1, h7.2, h8, h9.1, h9.2, h10]

theorem Returns1.eq {c : Code} {F H : Fracture} (r : Returns1 c F) (s : Returns1 c H) : F = H := by
  have h1 : F.porosity = H.porosity := by
    funext x
    simpa [r.porosity x 0 0] using s.porosity x 0 0
  have h2 : F.porosity' = H.porosity' := by
    funext x
    have := s.gradPorosity x 0 0
    rw [r.gradPorosity x 0 0] at this
    injection this with e
    exact congrArg (·.1) e
  have h3 : F.kappa = H.kappa := by
    funext x
    simpa [r.kappa x 0 0] using s.kappa x 0 0
  have h4 : F.dPhi = H.dPhi := by
    funext x
    simpa [r.dPhi x 0 0] using s.dPhi x 0 0
  have h5 : F.dPhi' = H.dPhi' := by
    funext x
    have := s.gradDPhi x 0 0
    rw [r.gradDPhi x 0 0] at this
    injection this with e
    injection e with e
    exact congrArg (·.1) e
  have h6 : F.p = H.p := by
    funext x
    simpa [r.pExact x 0 0] using s.pExact x 0 0
  have h7 : F.u = H.u := by
    funext x
    simpa [r.uExact x 0 0] using s.uExact x 0 0
  have h8 : F.q = H.q := by
    funext x
    simpa [r.qExact x 0 0] using s.qExact x 0 0
  have h9 : F.v = H.v := by
    funext x
    simpa [r.vExact x 0 0] using s.vExact x 0 0
  have h10 : F.rhs = H.rhs := by
    funext x
    simpa [r.rhs x 0 0] using s.rhs x 0 0
  obtain ⟨a1, a2, a3, a4, a5, a6, a7, a8, a9, a10⟩ := F
  simp only at h1 h2 h3 h4 h5 h6 h7 h8 h9 h10
  rw [h1, h2, h3, h4, h5, h6, h7, h8, h9, h10]

end Verif.Strong.MdLift
