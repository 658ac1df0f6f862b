/-
Property theorems C108: the exact solutions of the mixed problem with a porosity that degenerates.
-/
import Verif.Lemmas.StrongArbogast
import Verif.Spec.Degenerate
import Mathlib.Analysis.Real.Pi.Bounds
import Mathlib.Analysis.SpecialFunctions.Pow.Continuity

namespace Verif.Strong.Arbogast
open Real

/-! ### Dimension one -/

section one
variable {beta mu y z : ℝ} {phi gphi kap delta gdelta p u q v f : ℝ → ℝ} {x : ℝ}

/-- C108: with a viscosity that is positive, and an exponent that is not a zero of the denominator, every function
returns finite numbers to the right of the origin. -/
theorem C108_defined1 (hd : -1 + beta * (3 + beta) ≠ 0) (hmu : 0 < mu) (y z : ℝ) :
    ∃ phi gphi kap delta gdelta p u q v f, Read1 beta mu y z phi gphi kap delta gdelta p u q v f :=
  ⟨_, _, _, _, _, _, _, _, _, _,
    { porosity := fun x _ => porosity_one beta x y z
      gradPorosity := fun x _ => gradPorosity_one beta x y z
      kappa := fun x _ => kappa_one beta x y z
      dPhi := fun x _ => dPhi_one hmu beta x y z
      gradDPhi := fun x hx => gradDPhi_one hmu hx beta y z
      pExact := fun x hx => pExact_one hd hx y z
      uExact := fun x hx => uExact_one hd hx y z
      qExact := fun x hx => qExact_one hd hx y z
      vExact := fun x hx => vExact_one hd hmu hx y z
      rhs := fun x hx => rhs_one beta hx y z }⟩

/-- The four exponents of the driver -/
example : (-1 + (0.5 : ℝ) * (3 + 0.5) ≠ 0) ∧ (-1 + (-0.5 : ℝ) * (3 + -0.5) ≠ 0) ∧ (-1 + (-1 : ℝ) * (3 + -1) ≠ 0) ∧
    (-1 + (-1.5 : ℝ) * (3 + -1.5) ≠ 0) := by norm_num

private theorem ok_inj {α : Type} {a b : α} (h : (Except.ok a : Res α) = .ok b) : a = b := Except.ok.inj h

private theorem one_inj {a b : ℝ} (h : (Except.ok [some a] : Res (List (Option ℝ))) = .ok [some b]) : a = b := by
  simpa using Except.ok.inj h

private theorem near {g h : ℝ → ℝ} (hx : 0 < x) (e : ∀ t > 0, g t = h t) : g =ᶠ[nhds x] h := by
  filter_upwards [lt_mem_nhds hx] with t ht using e t ht

theorem Read1.values (r : Read1 beta mu y z phi gphi kap delta gdelta p u q v f) (hd : den beta ≠ 0) (hmu : 0 < mu)
    (hx : 0 < x) : phi x = x ^ 2 ∧ gphi x = 2 * x ∧ kap x = (x ^ 2) ^ 2 ∧ delta x = x ^ 2 / √mu ∧
      gdelta x = 1 / √mu * (2 * x) ∧ p x = p1 beta x ∧ u x = u1 beta x ∧ q x = √(x ^ 2) * p1 beta x ∧
      v x = u1 beta x / (x ^ 2 / √mu) ∧ f x = x ^ beta * √(x ^ 2) := by
  refine ⟨ok_inj ((r.porosity x hx).symm.trans (porosity_one beta x y z)), ?_,
    ok_inj ((r.kappa x hx).symm.trans (kappa_one beta x y z)), ?_, ?_,
    one_inj ((r.pExact x hx).symm.trans (pExact_one hd hx y z)),
    one_inj ((r.uExact x hx).symm.trans (uExact_one hd hx y z)),
    one_inj ((r.qExact x hx).symm.trans (qExact_one hd hx y z)),
    one_inj ((r.vExact x hx).symm.trans (vExact_one hd hmu hx y z)),
    one_inj ((r.rhs x hx).symm.trans (rhs_one beta hx y z))⟩
  · exact (List.cons.inj (ok_inj ((r.gradPorosity x hx).symm.trans (gradPorosity_one beta x y z)))).1
  · exact Option.some.inj (ok_inj ((r.dPhi x hx).symm.trans (dPhi_one hmu beta x y z)))
  · exact Option.some.inj
      (List.cons.inj (ok_inj ((r.gradDPhi x hx).symm.trans (gradDPhi_one hmu hx beta y z)))).1

/-- C108: in dimension one the permeability is the square of the porosity, `δ` is the root of the mobility, and the
functions for the gradients of the porosity and of `δ` are their derivatives. -/
theorem C108_coefficients1 (r : Read1 beta mu y z phi gphi kap delta gdelta p u q v f)
    (hd : -1 + beta * (3 + beta) ≠ 0) (hmu : 0 < mu) (hx : 0 < x) :
    0 < phi x ∧ kap x = phi x ^ 2 ∧ 0 < delta x ∧ delta x ^ 2 = kap x / mu ∧ HasDerivAt phi (gphi x) x ∧
      HasDerivAt delta (gdelta x) x := by
  obtain ⟨h1, h2, h3, h4, h5, -⟩ := r.values hd hmu hx
  have hs := Real.sqrt_pos.2 hmu
  refine ⟨by rw [h1]; positivity, by rw [h3, h1], by rw [h4]; positivity, ?_, ?_, ?_⟩
  · rw [h4, h3, div_pow, Real.sq_sqrt hmu.le]
  · refine HasDerivAt.congr_of_eventuallyEq ?_ (near hx fun t ht => (r.values hd hmu ht).1)
    rw [h2]
    refine ((hasDerivAt_id' x).fun_pow 2).congr_deriv ?_
    push_cast
    ring
  · refine HasDerivAt.congr_of_eventuallyEq ?_ (near hx fun t ht => (r.values hd hmu ht).2.2.2.1)
    rw [h5]
    refine (((hasDerivAt_id' x).fun_pow 2).div_const _).congr_deriv ?_
    push_cast
    ring

/-- C108: in dimension one the flux is `-κ p'`; `grad_p_exact` and `laplacian_p_exact` return the first and the
second derivative of the pressure. -/
theorem C108_law1 (r : Read1 beta mu y z phi gphi kap delta gdelta p u q v f)
    (hd : -1 + beta * (3 + beta) ≠ 0) (hmu : 0 < mu) (hx : 0 < x) :
    ∃ g l : ℝ → ℝ, (∀ t > 0, gradPExact beta 1 t y z = .ok [some (g t)]) ∧
      laplacianPExact beta 1 x y z = .ok [some (l x)] ∧
      HasDerivAt p (g x) x ∧ HasDerivAt g (l x) x ∧ u x = -kap x * g x := by
  obtain ⟨h1, h2, h3, h4, h5, h6, h7, -⟩ := r.values hd hmu hx
  refine ⟨g1 beta, l1 beta, fun t ht => gradPExact_one hd ht y z, laplacianPExact_one hd hx y z, ?_, g1_deriv hd hx, ?_⟩
  · exact (p1_deriv hd hx).congr_of_eventuallyEq (near hx fun t ht => (r.values hd hmu ht).2.2.2.2.2.1)
  · rw [h7, h3, u1_law hd hx]

/-- C108: in dimension one the scaled fields are `q = √φ p` and `v = u / δ`. -/
theorem C108_scaled1 (r : Read1 beta mu y z phi gphi kap delta gdelta p u q v f)
    (hd : -1 + beta * (3 + beta) ≠ 0) (hmu : 0 < mu) (hx : 0 < x) :
    q x = √(phi x) * p x ∧ delta x * v x = u x := by
  obtain ⟨h1, h2, h3, h4, h5, h6, h7, h8, h9, h10⟩ := r.values hd hmu hx
  have hs := Real.sqrt_pos.2 hmu
  refine ⟨by rw [h8, h1, h6], ?_⟩
  rw [h4, h9, h7]
  have : x ^ 2 / √mu ≠ 0 := by positivity
  field_simp

/-- C108: in dimension one the balance `u' + φ p = √φ f` holds. -/
theorem C108_balance1 (r : Read1 beta mu y z phi gphi kap delta gdelta p u q v f)
    (hd : -1 + beta * (3 + beta) ≠ 0) (hmu : 0 < mu) (hx : 0 < x) :
    ∃ d, HasDerivAt u d x ∧ d + phi x * p x = √(phi x) * f x := by
  obtain ⟨h1, h2, h3, h4, h5, h6, h7, h8, h9, h10⟩ := r.values hd hmu hx
  refine ⟨_, (u1_deriv hd hx).congr_of_eventuallyEq (near hx fun t ht => (r.values hd hmu ht).2.2.2.2.2.2.1), ?_⟩
  rw [h1, h6, h10, Real.sqrt_sq hx.le]
  ring

/-- C108: in dimension one, with viscosity one, the scaled solution satisfies the equation of the scaled form (C75) in
every point: for test values `(w, r)` with the slope `w'` the form is the load less the derivative of `p δ w`. -/
theorem C108_weak1 (r : Read1 beta 1 y z phi gphi kap delta gdelta p u q v f)
    (hd : -1 + beta * (3 + beta) ≠ 0) (hx : 0 < x) (w dw t : ℝ) :
    ∃ du dp, HasDerivAt u du x ∧ HasDerivAt p dp x ∧
      Degenerate.pairing 1 1 1 ⟨fun _ => v x, du / √(phi x), q x⟩
        ⟨fun _ => w, (delta x * dw + gdelta x * w) / √(phi x), t⟩ =
      f x * t - (dp * (delta x * w) + p x * (gdelta x * w + delta x * dw)) := by
  obtain ⟨h0, hk, hδ, hδk, -, -⟩ := C108_coefficients1 r hd one_pos hx
  obtain ⟨g, l, -, -, hp, -, hu⟩ := C108_law1 r hd one_pos hx
  obtain ⟨hq, hv⟩ := C108_scaled1 r hd one_pos hx
  obtain ⟨d, hdu, hb⟩ := C108_balance1 r hd one_pos hx
  refine ⟨d, g x, hdu, hp, ?_⟩
  have hs : 0 < √(phi x) := Real.sqrt_pos.2 h0
  have hss : √(phi x) * √(phi x) = phi x := Real.mul_self_sqrt h0.le
  have hv' : v x = -delta x * g x := by
    apply mul_left_cancel₀ hδ.ne'
    rw [hv, hu]
    linear_combination g x * hδk
  have hf : f x = d / √(phi x) + √(phi x) * p x := by
    apply mul_left_cancel₀ hs.ne'
    rw [← hb]
    field_simp
    rw [Real.sq_sqrt h0.le]
    ring
  unfold Degenerate.pairing
  rw [Finset.sum_range_one, hv', hq, hf]
  field_simp
  ring

/-- C108: to the left of the origin the solution and the load vanish. -/
theorem C108_zero1 (beta mu y z : ℝ) (hx : x < 0) :
    pExact beta 1 x y z = .ok [some 0] ∧ uExact beta 1 x y z = .ok [some 0] ∧ qExact beta 1 x y z = .ok [some 0] ∧
      vExact beta mu 1 x y z = .ok [some 0] ∧ rhs beta 1 x y z = .ok [some 0] ∧
      gradPExact beta 1 x y z = .ok [some 0] ∧ laplacianPExact beta 1 x y z = .ok [some 0] := by
  refine ⟨?_, ?_, ?_, ?_, ?_, ?_, ?_⟩
  · rw [pExact, onDim, if_pos rfl, if_pos hx, mul_zero]
  · rw [uExact, onDim, if_pos rfl, if_pos hx, mul_zero]
  · rw [qExact, if_pos rfl, if_pos hx.le]
  · rw [vExact, if_pos rfl, if_pos hx.le]
  · rw [rhs, if_pos rfl, if_pos hx.le]
  · rw [gradPExact, if_pos rfl, if_pos hx.le, mul_zero]
  · rw [laplacianPExact, if_pos rfl, if_pos hx.le, mul_zero]

/-- C108: the flux is continuous across the origin for exponents above -3, and vanishes there and at the right end of
the domain. -/
theorem C108_flux1 (hd : -1 + beta * (3 + beta) ≠ 0) (hb : -3 < beta) (y z : ℝ) :
    ∃ u : ℝ → ℝ, (∀ x, uExact beta 1 x y z = .ok [some (u x)]) ∧ Continuous u ∧ u 0 = 0 ∧ u 1 = 0 := by
  have ha : 0 < 0.5 * (3 + √13) := by positivity
  have hb' : 0 < 3 + beta := by linarith
  refine ⟨fun x => u1 beta (max x 0), fun x => ?_, ?_, ?_, ?_⟩
  · show _ = Except.ok [some (u1 beta (max x 0))]
    rcases lt_trichotomy x 0 with hx | hx | hx
    · rw [(C108_zero1 beta 1 y z hx).2.1, max_eq_right hx.le]
      have : u1 beta 0 = 0 := by
        unfold u1
        rw [Real.zero_rpow ha.ne', Real.zero_rpow hb'.ne']
        simp
      rw [this]
    · subst hx
      unfold uExact
      rw [onDim, if_pos rfl, if_neg (lt_irrefl _), abs_zero, power, if_neg (fun c => (not_lt.2 ha.le) c.2), power,
        if_neg (fun c => (not_lt.2 hb'.le) c.2), max_self]
      show Except.ok [quot _ (-1 + beta * (3 + beta))] = _
      rw [quot_of hd]
      rfl
    · rw [max_eq_left hx.le]
      exact uExact_one hd hx y z
  · have hm : Continuous fun x : ℝ => max x 0 := continuous_id.max continuous_const
    unfold u1
    exact ((((hm.rpow_const fun x => .inr ha.le).neg).add (hm.rpow_const fun x => .inr hb'.le)).mul
      continuous_const).div_const _
  · show u1 beta (max 0 0) = 0
    unfold u1
    rw [max_self, Real.zero_rpow ha.ne', Real.zero_rpow hb'.ne']
    simp
  · show u1 beta (max 1 0) = 0
    unfold u1
    rw [max_eq_left zero_le_one, Real.one_rpow, Real.one_rpow]
    simp

example : (-3 : ℝ) < -1.5 ∧ -1 + (-1.5 : ℝ) * (3 + -1.5) ≠ 0 := by norm_num

/-- C108, disagreement: to the left of the origin `δ` is `x² / √μ`, but `f_grad_d_phi` returns zero there. -/
theorem C108_gradient_violated (beta : ℝ) (hmu : 0 < mu) (y z : ℝ) (hx : x < 0) :
    ∃ delta : ℝ → ℝ, (∀ t, dPhi beta mu 1 t y z = .ok (some (delta t))) ∧
      gradDPhi beta mu 1 x y z = .ok [some 0, some 0, some 0] ∧ ¬ HasDerivAt delta 0 x := by
  refine ⟨_, fun t => dPhi_one hmu beta t y z, ?_, fun h => ?_⟩
  · unfold gradDPhi
    rw [show onDim 1 (x < 0) (Masked x y) = .ok (x < 0) from rfl, Res.bind_ok, if_pos hx, gradPorosity_one]
    show Except.ok (List.map (fun g => Option.map (· * g) (some 0)) _) = _
    simp only [Option.map_some, List.map_cons, List.map_nil, zero_mul]
  · have h2 := ((hasDerivAt_id' x).fun_pow 2).div_const (√mu)
    have := h.unique h2
    have hs := Real.sqrt_pos.2 hmu
    push_cast at this
    rw [eq_comm, div_eq_zero_iff] at this
    rcases this with h3 | h3
    · norm_num at h3
      exact hx.ne h3
    · exact hs.ne' h3

/-- C108, disagreement: at the origin, where `δ` has the derivative zero, `f_grad_d_phi` divides zero by zero. -/
theorem C108_origin_violated (beta : ℝ) (hmu : 0 < mu) (y z : ℝ) :
    ∃ delta : ℝ → ℝ, (∀ t, dPhi beta mu 1 t y z = .ok (some (delta t))) ∧ HasDerivAt delta 0 0 ∧
      gradDPhi beta mu 1 0 y z = .ok [none, none, none] := by
  refine ⟨_, fun t => dPhi_one hmu beta t y z, ?_, ?_⟩
  · exact (((hasDerivAt_id' (0 : ℝ)).fun_pow 2).div_const (√mu)).congr_deriv (by simp)
  · unfold gradDPhi
    rw [show onDim 1 ((0 : ℝ) < 0) (Masked 0 y) = .ok ((0 : ℝ) < 0) from rfl, Res.bind_ok, if_neg (lt_irrefl _),
      gradPorosity_one, dPhi_one hmu, porosity_one]
    show Except.ok (List.map (fun g => Option.map (· * g) (quot _ _)) _) = _
    rw [quot, if_pos (by simp)]
    rfl

/-- C108: with the exponent in the zero of the denominator, pressure and flux are not numbers to the right of the
origin; a pressure with a negative exponent is not a number at the origin. -/
theorem C108_undefined1 (beta y z : ℝ) :
    (-1 + beta * (3 + beta) = 0 → 0 < x → pExact beta 1 x y z = .ok [none] ∧ uExact beta 1 x y z = .ok [none]) ∧
      (beta < 0 → pExact beta 1 0 y z = .ok [none]) := by
  refine ⟨fun hd hx => ⟨?_, ?_⟩, fun hb => ?_⟩
  · unfold pExact
    rw [onDim, if_pos rfl, if_neg (not_lt.2 hx.le), abs_of_pos hx, power_of _ hx, power_of _ hx, hd]
    show Except.ok [quot _ 0] = _
    rw [quot, if_pos rfl]
  · unfold uExact
    rw [onDim, if_pos rfl, if_neg (not_lt.2 hx.le), abs_of_pos hx, power_of _ hx, power_of _ hx, hd]
    show Except.ok [quot _ 0] = _
    rw [quot, if_pos rfl]
  · unfold pExact
    rw [onDim, if_pos rfl, if_neg (lt_irrefl _), abs_zero, power, if_pos ⟨rfl, hb⟩]
    rfl

/-- There is such an exponent. -/
example : -1 + ((-3 + √13) / 2) * (3 + (-3 + √13) / 2) = 0 := by linear_combination sq13 / 4

end one

/-! ### Dimension two -/

section two
variable {gamma mu z : ℝ} {phi phi₁ phi₂ kap delta delta₁ delta₂ p u₁ u₂ q v₁ v₂ f : ℝ → ℝ → ℝ} {x y : ℝ}

/-- C108: with a viscosity that is positive, every function returns finite numbers where the porosity does not
vanish. -/
theorem C108_defined2 (gamma : ℝ) (hmu : 0 < mu) (z : ℝ) :
    ∃ phi phi₁ phi₂ kap delta delta₁ delta₂ p u₁ u₂ q v₁ v₂ f,
      Read2 gamma mu z phi phi₁ phi₂ kap delta delta₁ delta₂ p u₁ u₂ q v₁ v₂ f :=
  ⟨phi2 gamma, phi2x gamma, phi2y gamma, _, _, _, _, p2, _, _, _, _, _, f2 gamma,
    { porosity := fun x hx y hy => porosity_two gamma hx hy z
      gradPorosity := fun x hx y hy => gradPorosity_two gamma hx hy z
      kappa := fun x hx y hy => kappa_two gamma hx hy z
      dPhi := fun x hx y hy => dPhi_two hmu gamma hx hy z
      gradDPhi := fun x hx y hy => gradDPhi_two hmu gamma hx hy z
      pExact := fun x hx y hy => pExact_two gamma hx hy z
      uExact := fun x hx y hy => uExact_two gamma hx hy z
      qExact := fun x hx y hy => qExact_two gamma hx hy z
      vExact := fun x hx y hy => vExact_two gamma mu hx hy z
      rhs := fun x hx y hy => rhs_two gamma hx hy z }⟩

private theorem two_inj {a b c d : ℝ}
    (h : (Except.ok [some a, some b] : Res (List (Option ℝ))) = .ok [some c, some d]) : a = c ∧ b = d := by
  simpa using Except.ok.inj h

private theorem near2 {g h : ℝ → ℝ} {c : ℝ} (hx : c < x) (e : ∀ t > c, g t = h t) : g =ᶠ[nhds x] h := by
  filter_upwards [lt_mem_nhds hx] with t ht using e t ht

theorem Read2.values (r : Read2 gamma mu z phi phi₁ phi₂ kap delta delta₁ delta₂ p u₁ u₂ q v₁ v₂ f) (hmu : 0 < mu)
    (hx : -3 / 4 < x) (hy : -3 / 4 < y) :
    (phi x y = phi2 gamma x y ∧ phi₁ x y = phi2x gamma x y ∧ phi₂ x y = phi2y gamma x y ∧
      kap x y = phi2 gamma x y ^ 2) ∧
    (delta x y = phi2 gamma x y / √mu ∧ delta₁ x y = 1 / √mu * phi2x gamma x y ∧
      delta₂ x y = 1 / √mu * phi2y gamma x y) ∧
    (p x y = p2 x y ∧ u₁ x y = 6 * y ^ 2 * phi2 gamma x y ^ 2 * sin (6 * x * y ^ 2) ∧
      u₂ x y = 12 * x * y * phi2 gamma x y ^ 2 * sin (6 * x * y ^ 2)) ∧
    q x y = √(phi2 gamma x y) * p2 x y ∧ v₁ x y = 6 * y ^ 2 * phi2 gamma x y * sin (6 * x * y ^ 2) ∧
      v₂ x y = 12 * x * y * phi2 gamma x y * sin (6 * x * y ^ 2) ∧ f x y = f2 gamma x y := by
  have hg := ok_inj ((r.gradPorosity x hx y hy).symm.trans (gradPorosity_two gamma hx hy z))
  have hu := two_inj ((r.uExact x hx y hy).symm.trans (uExact_two gamma hx hy z))
  have hv := two_inj ((r.vExact x hx y hy).symm.trans (vExact_two gamma mu hx hy z))
  have hδ := two_inj ((r.gradDPhi x hx y hy).symm.trans (gradDPhi_two hmu gamma hx hy z))
  exact ⟨⟨ok_inj ((r.porosity x hx y hy).symm.trans (porosity_two gamma hx hy z)), (List.cons.inj hg).1,
      (List.cons.inj (List.cons.inj hg).2).1, ok_inj ((r.kappa x hx y hy).symm.trans (kappa_two gamma hx hy z))⟩,
    ⟨Option.some.inj (ok_inj ((r.dPhi x hx y hy).symm.trans (dPhi_two hmu gamma hx hy z))), hδ.1, hδ.2⟩,
    ⟨one_inj ((r.pExact x hx y hy).symm.trans (pExact_two gamma hx hy z)), hu.1, hu.2⟩,
    one_inj ((r.qExact x hx y hy).symm.trans (qExact_two gamma hx hy z)), hv.1, hv.2,
    one_inj ((r.rhs x hx y hy).symm.trans (rhs_two gamma hx hy z))⟩

/-- C108: in dimension two the permeability is the square of the porosity, `δ` is the root of the mobility, and the
functions for the gradients of the porosity and of `δ` are their gradients. -/
theorem C108_coefficients2 (r : Read2 gamma mu z phi phi₁ phi₂ kap delta delta₁ delta₂ p u₁ u₂ q v₁ v₂ f)
    (hmu : 0 < mu) (hx : -3 / 4 < x) (hy : -3 / 4 < y) :
    0 < phi x y ∧ kap x y = phi x y ^ 2 ∧ 0 < delta x y ∧ delta x y ^ 2 = kap x y / mu ∧
      HasDerivAt (fun t => phi t y) (phi₁ x y) x ∧ HasDerivAt (fun t => phi x t) (phi₂ x y) y ∧
      HasDerivAt (fun t => delta t y) (delta₁ x y) x ∧ HasDerivAt (fun t => delta x t) (delta₂ x y) y := by
  obtain ⟨⟨h1, h2, h3, h4⟩, ⟨h5, h6, h7⟩, -⟩ := r.values hmu hx hy
  have hs := Real.sqrt_pos.2 hmu
  have hp := phi2_pos gamma hx hy
  refine ⟨by rw [h1]; exact hp, by rw [h4, h1], by rw [h5]; positivity, ?_, ?_, ?_, ?_, ?_⟩
  · rw [h5, h4, div_pow, Real.sq_sqrt hmu.le]
  · rw [h2]
    exact (phi2_dx gamma hx).congr_of_eventuallyEq (near2 hx fun t ht => (r.values hmu ht hy).1.1)
  · rw [h3]
    exact (phi2_dy gamma hy).congr_of_eventuallyEq (near2 hy fun t ht => (r.values hmu hx ht).1.1)
  · rw [h6]
    refine (((phi2_dx gamma hx).div_const (√mu)).congr_deriv (by ring)).congr_of_eventuallyEq
      (near2 hx fun t ht => (r.values hmu ht hy).2.1.1)
  · rw [h7]
    refine (((phi2_dy gamma hy).div_const (√mu)).congr_deriv (by ring)).congr_of_eventuallyEq
      (near2 hy fun t ht => (r.values hmu hx ht).2.1.1)

/-- C108: in dimension two the flux is `-κ ∇p`. -/
theorem C108_law2 (r : Read2 gamma mu z phi phi₁ phi₂ kap delta delta₁ delta₂ p u₁ u₂ q v₁ v₂ f)
    (hmu : 0 < mu) (hx : -3 / 4 < x) (hy : -3 / 4 < y) :
    ∃ a b, HasDerivAt (fun t => p t y) a x ∧ HasDerivAt (fun t => p x t) b y ∧
      u₁ x y = -kap x y * a ∧ u₂ x y = -kap x y * b := by
  obtain ⟨⟨-, -, -, h4⟩, -, ⟨h8, h9, h10⟩, -⟩ := r.values hmu hx hy
  refine ⟨_, _, p2_dx.congr_of_eventuallyEq (near2 hx fun t ht => (r.values hmu ht hy).2.2.1.1),
    p2_dy.congr_of_eventuallyEq (near2 hy fun t ht => (r.values hmu hx ht).2.2.1.1), ?_, ?_⟩
  · rw [h9, h4]; ring
  · rw [h10, h4]; ring

/-- C108: in dimension two the scaled fields are `q = √φ p` and, with viscosity one, `v = u / δ`. -/
theorem C108_scaled2 (r : Read2 gamma mu z phi phi₁ phi₂ kap delta delta₁ delta₂ p u₁ u₂ q v₁ v₂ f)
    (hmu : 0 < mu) (hx : -3 / 4 < x) (hy : -3 / 4 < y) :
    q x y = √(phi x y) * p x y ∧
      (mu = 1 → delta x y * v₁ x y = u₁ x y ∧ delta x y * v₂ x y = u₂ x y) := by
  obtain ⟨⟨h1, -⟩, ⟨h5, -⟩, ⟨h8, h9, h10⟩, h11, h12, h13, -⟩ := r.values hmu hx hy
  refine ⟨by rw [h11, h1, h8], fun hm => ?_⟩
  rw [h5, h12, h9, h13, h10, hm, Real.sqrt_one]
  constructor <;> ring

/-- C108, disagreement: in dimension two `v_exact` does not read the viscosity, so `δ v` is not the flux unless the
viscosity is one. -/
theorem C108_viscosity_violated (r : Read2 gamma mu z phi phi₁ phi₂ kap delta delta₁ delta₂ p u₁ u₂ q v₁ v₂ f)
    (hmu : 0 < mu) (h1 : mu ≠ 1) (hx : -3 / 4 < x) (hy : -3 / 4 < y) (hu : u₁ x y ≠ 0) :
    delta x y * v₁ x y ≠ u₁ x y := by
  obtain ⟨-, ⟨h5, -⟩, ⟨-, h9, -⟩, -, h12, -⟩ := r.values hmu hx hy
  intro h
  have hs : √mu ≠ 0 := (Real.sqrt_pos.2 hmu).ne'
  rw [h5, h12, h9] at h
  rw [h9] at hu
  generalize sin (6 * x * y ^ 2) = s at h hu
  apply h1
  have h3 : √mu = 1 := by
    apply mul_left_cancel₀ hu
    field_simp at h
    linear_combination -6 * h
  rw [← Real.sq_sqrt hmu.le, h3, one_pow]

/-- There is a point where the flux does not vanish. -/
example (r : Read2 gamma mu z phi phi₁ phi₂ kap delta delta₁ delta₂ p u₁ u₂ q v₁ v₂ f) (hmu : 0 < mu) :
    u₁ (1 / 6) 1 ≠ 0 := by
  obtain ⟨-, -, ⟨-, h9, -⟩, -⟩ := r.values (x := 1 / 6) (y := 1) hmu (by norm_num) (by norm_num)
  rw [h9]
  have hp := phi2_pos gamma (x := 1 / 6) (y := 1) (by norm_num) (by norm_num)
  have hs : 0 < sin (6 * (1 / 6 : ℝ) * 1 ^ 2) := by
    norm_num
    exact Real.sin_pos_of_pos_of_lt_pi one_pos (by linarith [Real.pi_gt_three])
  positivity

/-- C108: in dimension two the balance `div u + φ p = √φ f` holds. -/
theorem C108_balance2 (r : Read2 gamma mu z phi phi₁ phi₂ kap delta delta₁ delta₂ p u₁ u₂ q v₁ v₂ f)
    (hmu : 0 < mu) (hx : -3 / 4 < x) (hy : -3 / 4 < y) :
    ∃ a b, HasDerivAt (fun t => u₁ t y) a x ∧ HasDerivAt (fun t => u₂ x t) b y ∧
      a + b + phi x y * p x y = √(phi x y) * f x y := by
  obtain ⟨⟨h1, -⟩, -, ⟨h8, -⟩, -, -, -, h14⟩ := r.values hmu hx hy
  refine ⟨_, _, (u2_dx gamma hx).congr_of_eventuallyEq (near2 hx fun t ht => (r.values hmu ht hy).2.2.1.2.1),
    (u2_dy gamma hy).congr_of_eventuallyEq (near2 hy fun t ht => (r.values hmu hx ht).2.2.1.2.2), ?_⟩
  rw [h1, h8, h14, f2_eq gamma hx hy]

/-- C108: in dimension two, with viscosity one, the scaled solution satisfies the equation of the scaled form (C75) in
every point: for test values `(w, t)` with the divergence `w'` the form is the load less the divergence of `p δ w`. -/
theorem C108_weak2 (r : Read2 gamma 1 z phi phi₁ phi₂ kap delta delta₁ delta₂ p u₁ u₂ q v₁ v₂ f)
    (hx : -3 / 4 < x) (hy : -3 / 4 < y) (w₁ w₂ dw t : ℝ) :
    ∃ a b p₁ p₂, HasDerivAt (fun t => u₁ t y) a x ∧ HasDerivAt (fun t => u₂ x t) b y ∧
      HasDerivAt (fun t => p t y) p₁ x ∧ HasDerivAt (fun t => p x t) p₂ y ∧
      Degenerate.pairing 2 1 1 ⟨fun d => if d = 0 then v₁ x y else v₂ x y, (a + b) / √(phi x y), q x y⟩
        ⟨fun d => if d = 0 then w₁ else w₂,
          (delta x y * dw + (delta₁ x y * w₁ + delta₂ x y * w₂)) / √(phi x y), t⟩ =
      f x y * t - (p₁ * (delta x y * w₁) + p₂ * (delta x y * w₂) +
        p x y * (delta x y * dw + (delta₁ x y * w₁ + delta₂ x y * w₂))) := by
  obtain ⟨h0, hk, hδ, hδk, -⟩ := C108_coefficients2 r one_pos hx hy
  obtain ⟨p₁, p₂, hp1, hp2, hu1, hu2⟩ := C108_law2 r one_pos hx hy
  obtain ⟨hq, hv⟩ := C108_scaled2 r one_pos hx hy
  obtain ⟨hv1, hv2⟩ := hv rfl
  obtain ⟨a, b, ha, hb', hb⟩ := C108_balance2 r one_pos hx hy
  refine ⟨a, b, p₁, p₂, ha, hb', hp1, hp2, ?_⟩
  have hs : 0 < √(phi x y) := Real.sqrt_pos.2 h0
  have hv1' : v₁ x y = -delta x y * p₁ := by
    apply mul_left_cancel₀ hδ.ne'
    rw [hv1, hu1]
    linear_combination p₁ * hδk
  have hv2' : v₂ x y = -delta x y * p₂ := by
    apply mul_left_cancel₀ hδ.ne'
    rw [hv2, hu2]
    linear_combination p₂ * hδk
  have hf : f x y = (a + b) / √(phi x y) + √(phi x y) * p x y := by
    apply mul_left_cancel₀ hs.ne'
    rw [← hb]
    field_simp
    rw [Real.sq_sqrt h0.le]
    ring
  unfold Degenerate.pairing
  rw [Finset.sum_range_succ, Finset.sum_range_one]
  simp only [if_true, one_ne_zero, if_false]
  rw [hv1', hv2', hq, hf]
  field_simp
  ring

/-- C108: where the porosity vanishes, so do the coefficients, the solution and the load. -/
theorem C108_zero2 (gamma : ℝ) (hmu : mu ≠ 0) (z : ℝ) (h : x ≤ -3 / 4 ∨ y ≤ -3 / 4) :
    porosity gamma 2 x y z = .ok 0 ∧ kappa gamma 2 x y z = .ok 0 ∧ dPhi gamma mu 2 x y z = .ok (some 0) ∧
      gradDPhi gamma mu 2 x y z = .ok [some 0, some 0] ∧
      pExact gamma 2 x y z = .ok [some 0] ∧ uExact gamma 2 x y z = .ok [some 0, some 0] ∧
      qExact gamma 2 x y z = .ok [some 0] ∧ vExact gamma mu 2 x y z = .ok [some 0, some 0] ∧
      rhs gamma 2 x y z = .ok [some 0] := by
  have hm : Masked x y := h
  have hp : porosity gamma 2 x y z = .ok 0 := by
    rw [porosity, onDim, if_neg (by decide), if_pos rfl, if_pos hm]
  have hk : kappa gamma 2 x y z = .ok 0 := by
    rw [kappa, hp]
    show Except.ok ((0 : ℝ) ^ 2) = _
    rw [zero_pow two_ne_zero]
  refine ⟨hp, hk, ?_, ?_, ?_, ?_, ?_, ?_, ?_⟩
  · rw [dPhi, hk]
    show Except.ok ((quot 0 mu).bind root) = _
    rw [quot_of hmu, Option.bind_some, zero_div, root_of le_rfl, Real.sqrt_zero]
  · unfold gradDPhi gradPorosity
    rw [show onDim 2 (x < 0) (Masked x y) = .ok (Masked x y) from rfl, Res.bind_ok, if_pos hm, onDim,
      if_neg (by decide), if_pos rfl, if_pos hm]
    show Except.ok (List.map (fun g => Option.map (· * g) (some 0)) _) = _
    simp only [Option.map_some, List.map_cons, List.map_nil, zero_mul]
  · rw [pExact, onDim, if_neg (by decide), if_pos rfl, if_pos hm]
  · rw [uExact, onDim, if_neg (by decide), if_pos rfl, if_pos hm, mul_zero, mul_zero]
  · rw [qExact, if_neg (by decide), if_pos rfl, if_pos hm]
  · rw [vExact, if_neg (by decide), if_pos rfl, if_pos hm]
  · rw [rhs, if_neg (by decide), if_pos rfl, if_pos hm]

end two

/-! ### Other dimensions -/

/-- C108: in any other dimension every function raises a `ValueError`; `grad_p_exact` and `laplacian_p_exact` do so in
dimension two as well. -/
theorem C108_dimension (par mu x y z : ℝ) {dim : Nat} (h1 : dim ≠ 1) :
    (dim ≠ 2 → porosity par dim x y z = .error .valueError ∧ gradPorosity par dim x y z = .error .valueError ∧
      kappa par dim x y z = .error .valueError ∧ dPhi par mu dim x y z = .error .valueError ∧
      gradDPhi par mu dim x y z = .error .valueError ∧ pExact par dim x y z = .error .valueError ∧
      uExact par dim x y z = .error .valueError ∧ qExact par dim x y z = .error .valueError ∧
      vExact par mu dim x y z = .error .valueError ∧ rhs par dim x y z = .error .valueError) ∧
    gradPExact par dim x y z = .error .valueError ∧ laplacianPExact par dim x y z = .error .valueError := by
  refine ⟨fun h2 => ?_, by rw [gradPExact, if_neg h1], by rw [laplacianPExact, if_neg h1]⟩
  have hon : ∀ {α : Type} (a b : α), onDim dim a b = .error .valueError := fun a b => by
    rw [onDim, if_neg h1, if_neg h2]
  have hp : porosity par dim x y z = .error .valueError := hon _ _
  have hk : kappa par dim x y z = .error .valueError := by rw [kappa, hp]; rfl
  refine ⟨hp, hon _ _, hk, ?_, ?_, hon _ _, hon _ _, ?_, ?_, ?_⟩
  · rw [dPhi, hk]; rfl
  · rw [gradDPhi, hon]; rfl
  · rw [qExact, if_neg h1, if_neg h2]
  · rw [vExact, if_neg h1, if_neg h2]
  · rw [rhs, if_neg h1, if_neg h2]

private theorem onDim_ok {α : Type} {dim : Nat} (h : dim = 1 ∨ dim = 2) (a b : α) : ∃ r, onDim dim a b = .ok r := by
  rcases h with rfl | rfl
  · exact ⟨a, rfl⟩
  · exact ⟨b, rfl⟩

private theorem bind_exists {α γ : Type} {r : Res α} {k : α → Res γ} (h : ∃ a, r = .ok a) (hk : ∀ a, ∃ b, k a = .ok b) :
    ∃ b, r >>= k = .ok b := by
  obtain ⟨a, rfl⟩ := h
  exact hk a

theorem evaluateAll_ok (par mu x y z : ℝ) {dim : Nat} (h : dim = 1 ∨ dim = 2) :
    evaluateAll par mu dim x y z = .ok () := by
  have hp : ∃ r, porosity par dim x y z = .ok r := onDim_ok h _ _
  have hg : ∃ r, gradPorosity par dim x y z = .ok r := onDim_ok h _ _
  have hk : ∃ r, kappa par dim x y z = .ok r := bind_exists hp fun a => ⟨_, rfl⟩
  have hd : ∃ r, dPhi par mu dim x y z = .ok r := bind_exists hk fun a => ⟨_, rfl⟩
  have hP : ∃ r, pExact par dim x y z = .ok r := onDim_ok h _ _
  have hu : ∃ r, uExact par dim x y z = .ok r := onDim_ok h _ _
  have hgd : ∃ r, gradDPhi par mu dim x y z = .ok r := by
    refine bind_exists (onDim_ok h _ _) fun m => ?_
    by_cases hm : m
    · rw [if_pos hm]
      exact bind_exists ⟨_, rfl⟩ fun _ => bind_exists hg fun g => ⟨_, rfl⟩
    · rw [if_neg hm]
      exact bind_exists hp fun _ => bind_exists hd fun _ => bind_exists ⟨_, rfl⟩ fun _ =>
        bind_exists hg fun g => ⟨_, rfl⟩
  have hq : ∃ r, qExact par dim x y z = .ok r := by
    unfold qExact
    split
    · split
      · exact ⟨_, rfl⟩
      · exact bind_exists hp fun _ => bind_exists hP fun _ => ⟨_, rfl⟩
    · rw [if_pos (h.resolve_left ‹_›)]
      split <;> exact ⟨_, rfl⟩
  have hv : ∃ r, vExact par mu dim x y z = .ok r := by
    unfold vExact
    split
    · split
      · exact ⟨_, rfl⟩
      · exact bind_exists hu fun _ => bind_exists hd fun _ => ⟨_, rfl⟩
    · rw [if_pos (h.resolve_left ‹_›)]
      split <;> exact ⟨_, rfl⟩
  have hr : ∃ r, rhs par dim x y z = .ok r := by
    unfold rhs
    split
    · split
      · exact ⟨_, rfl⟩
      · exact bind_exists hp fun _ => ⟨_, rfl⟩
    · rw [if_pos (h.resolve_left ‹_›)]
      split
      · exact ⟨_, rfl⟩
      · exact bind_exists hp fun _ => ⟨_, rfl⟩
  obtain ⟨r, e⟩ : ∃ r, evaluateAll par mu dim x y z = .ok r :=
    bind_exists hp fun _ => bind_exists hg fun _ => bind_exists hd fun _ => bind_exists hgd fun _ =>
      bind_exists hk fun _ => bind_exists hu fun _ => bind_exists hP fun _ => bind_exists hv fun _ =>
      bind_exists hq fun _ => bind_exists hr fun _ => ⟨_, rfl⟩
  exact e

private theorem mapM_ok {α γ : Type} {f : α → Res γ} (h : ∀ a, ∃ b, f a = .ok b) :
    ∀ l : List α, succeeds (l.mapM f) = true := by
  have : ∀ l : List α, ∃ r, l.mapM f = .ok r := by
    intro l
    induction l with
    | nil => exact ⟨[], rfl⟩
    | cons a t ih =>
      rw [List.mapM_cons]
      exact bind_exists (h a) fun _ => bind_exists ih fun _ => ⟨_, rfl⟩
  intro l
  obtain ⟨r, e⟩ := this l
  rw [e]
  rfl

/-- C108: `test_degeneracy` tells whether the dimension is one or two, whatever the parameters and the points;
`test_degeneracy_md` whether it is one. -/
theorem C108_test (par mu : ℝ) (dim : Nat) (a : ℝ × ℝ × ℝ) (l first : List (ℝ × ℝ × ℝ)) :
    (testDegeneracy par mu dim (a :: l) = true ↔ dim = 1 ∨ dim = 2) ∧
      (testDegeneracyMd par mu dim first (a :: l) = true ↔ dim = 1) := by
  constructor
  · constructor
    · intro h
      by_contra hc
      obtain ⟨h1, h2⟩ := not_or.1 hc
      have he : evaluateAll par mu dim a.1 a.2.1 a.2.2 = .error .valueError := by
        unfold evaluateAll
        rw [((C108_dimension par mu a.1 a.2.1 a.2.2 h1).1 h2).1]
        rfl
      unfold testDegeneracy at h
      rw [List.mapM_cons, he] at h
      exact Bool.false_ne_true h
    · intro h
      exact mapM_ok (fun p => ⟨(), evaluateAll_ok par mu p.1 p.2.1 p.2.2 h⟩) (a :: l)
  · constructor
    · intro h
      by_contra h1
      unfold testDegeneracyMd at h
      rw [List.mapM_cons, (C108_dimension par mu a.1 a.2.1 a.2.2 h1).2.1] at h
      exact Bool.false_ne_true h
    · rintro rfl
      exact mapM_ok (fun p => ⟨(), rfl⟩) (a :: l)

#print axioms C108_defined1
#print axioms C108_coefficients1
#print axioms C108_law1
#print axioms C108_scaled1
#print axioms C108_balance1
#print axioms C108_weak1
#print axioms C108_zero1
#print axioms C108_flux1
#print axioms C108_gradient_violated
#print axioms C108_origin_violated
#print axioms C108_undefined1
#print axioms C108_defined2
#print axioms C108_coefficients2
#print axioms C108_law2
#print axioms C108_scaled2
#print axioms C108_viscosity_violated
#print axioms C108_balance2
#print axioms C108_weak2
#print axioms C108_zero2
#print axioms C108_dimension
#print axioms C108_test

end Verif.Strong.Arbogast
