/-
Property theorems C109: the exact solution of the mixed problem in the square with a fracture.
-/
import Verif.Lemmas.MdElliptic
import Verif.Spec.Degenerate
import Verif.Spec.Coupling

namespace Verif.Strong.MdElliptic
open Real Filter Topology

variable (m : Material) (x y z : ℝ)

/-- C109: in the bulk, away from the fracture, the flux is `-κ ∇p` and its divergence is the load. -/
theorem C109_bulk (hy : y ≠ 1 / 2) :
    ∃ a b c d, HasDerivAt (fun t => pExact m t y z) a x ∧ HasDerivAt (fun t => pExact m x t z) b y ∧
      HasDerivAt (fun t => uExact₁ m t y z) c x ∧ HasDerivAt (fun t => uExact₂ m x t z) d y ∧
      uExact₁ m x y z = -m.kappa0 * a ∧ uExact₂ m x y z = -m.kappa0 * b ∧ rhs0 m x y z = c + d := by
  rcases lt_or_gt_of_ne hy with h | h
  · have h' : y < 0.5 := by norm_num; linarith
    refine ⟨(m.c1 * (0.5 - y) + 1) * gradPF x y z, -m.c1 * pF x y z,
      4 * π ^ 2 * m.kappa0 * (m.c1 * (0.5 - y) + 1) * pF x y z, 0, ?_, ?_, ?_, ?_, ?_, ?_, ?_⟩
    · simp only [pExact, if_pos h']
      exact (pF_deriv x y z).const_mul _
    · refine (below_deriv m.c1 (pF x y z) y).congr_of_eventuallyEq ?_
      filter_upwards [gt_mem_nhds h'] with t ht
      simp only [pExact, if_pos ht]
      rfl
    · simp only [uExact₁, if_pos h']
      exact ((gradPF_deriv x y z).const_mul _).congr_deriv (by ring)
    · refine (hasDerivAt_const y (m.kappa0 * m.c1 * pF x y z)).congr_of_eventuallyEq ?_
      filter_upwards [gt_mem_nhds h'] with t ht
      simp only [uExact₂, if_pos ht]
      rfl
    · rw [uExact₁, if_pos h']; ring
    · rw [uExact₂, if_pos h']; ring
    · rw [rhs0, if_pos h', add_zero]
  · have h' : 0.5 < y := by norm_num; linarith
    refine ⟨(m.c2 * (y - 0.5) + 1) * gradPF x y z, m.c2 * pF x y z,
      4 * π ^ 2 * m.kappa0 * (m.c2 * (y - 0.5) + 1) * pF x y z, 0, ?_, ?_, ?_, ?_, ?_, ?_, ?_⟩
    · simp only [pExact, if_neg h'.not_gt]
      exact (pF_deriv x y z).const_mul _
    · refine (above_deriv m.c2 (pF x y z) y).congr_of_eventuallyEq ?_
      filter_upwards [lt_mem_nhds h'] with t ht
      simp only [pExact, if_neg (not_lt.2 (le_of_lt ht))]
      rfl
    · simp only [uExact₁, if_neg h'.not_gt]
      exact ((gradPF_deriv x y z).const_mul _).congr_deriv (by ring)
    · refine (hasDerivAt_const y (-m.kappa0 * m.c2 * pF x y z)).congr_of_eventuallyEq ?_
      filter_upwards [lt_mem_nhds h'] with t ht
      simp only [uExact₂, if_neg (not_lt.2 (le_of_lt ht))]
      rfl
    · rw [uExact₁, if_neg h'.not_gt]; ring
    · rw [uExact₂, if_neg h'.not_gt]; ring
    · rw [rhs0, if_neg h'.not_gt, add_zero]

/-- C109: away from the fracture the solution satisfies the equation of the mixed form (C65) in every point: for test
values `(w, t)` with the divergence `w'` the form is the load less the divergence of `p w`. -/
theorem C109_weak (hk : m.kappa0 ≠ 0) (hy : y ≠ 1 / 2) (w₁ w₂ dw t : ℝ) :
    ∃ a b c d, HasDerivAt (fun t => pExact m t y z) a x ∧ HasDerivAt (fun t => pExact m x t z) b y ∧
      HasDerivAt (fun t => uExact₁ m t y z) c x ∧ HasDerivAt (fun t => uExact₂ m x t z) d y ∧
      Degenerate.pairing 2 (1 / m.kappa0) 0
        ⟨fun k => if k = 0 then uExact₁ m x y z else uExact₂ m x y z, c + d, pExact m x y z⟩
        ⟨fun k => if k = 0 then w₁ else w₂, dw, t⟩ =
      rhs0 m x y z * t - (a * w₁ + b * w₂ + pExact m x y z * dw) := by
  obtain ⟨a, b, c, d, h1, h2, h3, h4, h5, h6, h7⟩ := C109_bulk m x y z hy
  refine ⟨a, b, c, d, h1, h2, h3, h4, ?_⟩
  unfold Degenerate.pairing
  rw [Finset.sum_range_succ, Finset.sum_range_one]
  simp only [if_true, one_ne_zero, if_false]
  rw [h5, h6, h7]
  field_simp
  ring

/-- C109: the pressure is continuous, on the fracture it is the pressure of the fracture, and it vanishes on the sides of
the square that meet the fracture. -/
theorem C109_pressure : Continuous (fun t => pExact m x t z) ∧ pExact m x (1 / 2) z = pF x (1 / 2) z ∧
    pExact m 0 y z = 0 ∧ pExact m 1 y z = 0 ∧ pF 0 y z = 0 ∧ pF 1 y z = 0 := by
  have h0 : pF 0 y z = 0 := by simp [pF]
  have h1 : pF 1 y z = 0 := by simp [pF]
  refine ⟨?_, ?_, ?_, ?_, h0, h1⟩
  · have : (fun t => pExact m x t z) =
        fun t => (m.c1 * max (0.5 - t) 0 + m.c2 * max (t - 0.5) 0 + 1) * sin (2 * π * x) := by
      funext t
      unfold pExact pF
      by_cases ht : t < 0.5
      · rw [if_pos ht, max_eq_left (by linarith), max_eq_right (by linarith)]
        ring
      · rw [if_neg ht, max_eq_right (by linarith), max_eq_left (by linarith)]
        ring
    rw [this]
    fun_prop
  · rw [pExact, if_neg (by norm_num)]
    norm_num
  · rw [pExact, h0, mul_zero, mul_zero, ite_self]
  · rw [pExact, h1, mul_zero, mul_zero, ite_self]

/-- The flux through the fracture from below and from above: the limits of the second component -/
structure Sides (below above : ℝ) : Prop where
  below : Tendsto (fun t => uExact₂ m x t z) (𝓝[<] (1 / 2)) (𝓝 below)
  above : Tendsto (fun t => uExact₂ m x t z) (𝓝[>] (1 / 2)) (𝓝 above)

theorem sides : Sides m x z (m.kappa0 * m.c1 * pF x y z) (-m.kappa0 * m.c2 * pF x y z) := by
  constructor
  · refine tendsto_const_nhds.congr' ?_
    filter_upwards [self_mem_nhdsWithin] with t ht
    have ht : t < 1 / 2 := ht
    rw [uExact₂, if_pos (by norm_num; linarith)]
    rfl
  · refine tendsto_const_nhds.congr' ?_
    filter_upwards [self_mem_nhdsWithin] with t ht
    have ht : 1 / 2 < t := ht
    rw [uExact₂, if_neg (by norm_num; linarith)]
    rfl

theorem Sides.eq {m : Material} {x z a b : ℝ} (h : Sides m x z a b) (y : ℝ) :
    a = m.kappa0 * m.c1 * pF x y z ∧ b = -m.kappa0 * m.c2 * pF x y z :=
  ⟨tendsto_nhds_unique h.below (sides m x y z).below, tendsto_nhds_unique h.above (sides m x y z).above⟩

/-- C109: in the fracture the flux is minus the permeability, times the width, times the derivative of the pressure; the
load is the derivative of the flux plus the fluxes that leave the bulk, from below upwards and from above downwards. That
is the balance with the sign of the coupling form (C110). -/
theorem C109_fracture : ∃ below above, Sides m x z below above ∧ ∃ g d, HasDerivAt (fun t => pF t y z) g x ∧
    HasDerivAt (fun t => uF m t y z) d x ∧ uF m x y z = -(m.kappa1 * m.delta) * g ∧
    rhs1 m x y z = d + (below + -above) := by
  refine ⟨_, _, sides m x y z, gradPF x y z, _, pF_deriv x y z, (gradPF_deriv x y z).const_mul _, ?_, ?_⟩
  · unfold uF
    ring
  · unfold rhs1 pF
    ring

/-- C109, disagreement: what leaves the bulk enters the fracture, so the balance is `u_f' - (exchange) = f`. The load has
the other sign: the balance fails wherever there is an exchange. -/
theorem C109_conservation_violated {below above d : ℝ} (h : Sides m x z below above)
    (hd : HasDerivAt (fun t => uF m t y z) d x) :
    (d - (below + -above) = rhs1 m x y z ↔ below + -above = 0) ∧
      below + -above = m.kappa0 * (m.c1 + m.c2) * pF x y z := by
  obtain ⟨h1, h2⟩ := h.eq y
  have hd' := hd.unique ((gradPF_deriv x y z).const_mul (-m.kappa1 * m.delta))
  refine ⟨?_, by rw [h1, h2]; ring⟩
  constructor
  · intro e
    rw [hd', h1, h2] at e
    rw [h1, h2]
    unfold rhs1 at e
    unfold pF at e ⊢
    linear_combination -e / 2
  · intro e
    rw [e, hd']
    rw [h1, h2] at e
    unfold rhs1
    unfold pF at e ⊢
    linear_combination -e

/-- C109, disagreement: the law of Robin of the coupling form (C110) from below, `δ / (2 κ) u · n + p_f = p`, holds only
where the flux is zero, since the pressure has no jump; from above likewise. -/
theorem C109_robin_violated {below above kappa : ℝ} (hk : kappa ≠ 0) (hδ : m.delta ≠ 0) (h : Sides m x z below above) :
    (1 / (kappa / (m.delta / 2)) * below + pF x (1 / 2) z = pExact m x (1 / 2) z ↔ below = 0) ∧
      (1 / (kappa / (m.delta / 2)) * -above + pF x (1 / 2) z = pExact m x (1 / 2) z ↔ above = 0) := by
  rw [(C109_pressure m x (1 / 2) z).2.1]
  have hc : 1 / (kappa / (m.delta / 2)) ≠ 0 := by
    rw [one_div_div]
    exact div_ne_zero (div_ne_zero hδ two_ne_zero) hk
  constructor
  · constructor
    · intro e
      have : 1 / (kappa / (m.delta / 2)) * below = 0 := by linarith
      exact (mul_eq_zero.1 this).resolve_left hc
    · rintro rfl
      ring
  · constructor
    · intro e
      have : 1 / (kappa / (m.delta / 2)) * -above = 0 := by linarith
      exact neg_eq_zero.1 ((mul_eq_zero.1 this).resolve_left hc)
    · rintro rfl
      ring

/-- The numbers of the script: the exchange and the fluxes are not zero in the point `1/4`. -/
example : Sides ⟨1, 1, 1, 10, 0.1⟩ (1 / 4) 0 1 (-1) := by
  have h := sides ⟨1, 1, 1, 10, 0.1⟩ (1 / 4) 0 0
  have e : pF (1 / 4) 0 0 = 1 := by
    unfold pF
    rw [show 2 * π * (1 / 4) = π / 2 by ring, Real.sin_pi_div_two]
  rw [e] at h
  simpa using h

/-- C109: the dictionaries contain the functions of the bulk for codimension zero and those of the fracture for
codimension one; other codimensions raise a `ValueError`. -/
theorem C109_dispatch {k : Int} {flux potential : String} (hn : flux ≠ potential) (name : String) :
    (∃ d, exactFunctions 0 flux potential m = .ok d ∧
      d.getItem flux = .ok (fun x y z => [uExact₁ m x y z, uExact₂ m x y z]) ∧
      d.getItem potential = .ok (fun x y z => [pExact m x y z])) ∧
    (∃ d, exactFunctions 1 flux potential m = .ok d ∧ d.getItem flux = .ok (fun x y z => [uF m x y z]) ∧
      d.getItem potential = .ok (fun x y z => [pF x y z])) ∧
    (∃ d, rhsFunctions 0 name m = .ok d ∧ d.getItem name = .ok (fun x y z => [rhs0 m x y z])) ∧
    (∃ d, rhsFunctions 1 name m = .ok d ∧ d.getItem name = .ok (fun x y z => [rhs1 m x y z])) ∧
    (k ≠ 0 → k ≠ 1 → exactFunctions k flux potential m = .error .valueError ∧
      rhsFunctions k name m = .error .valueError) := by
  refine ⟨⟨_, rfl, ?_, ?_⟩, ⟨_, rfl, ?_, ?_⟩, ⟨_, rfl, ?_⟩, ⟨_, rfl, ?_⟩, fun h0 h1 => ⟨?_, ?_⟩⟩
  · simp [Dict.ofList, Dict.set, Dict.getItem, Dict.get?, hn]
  · simp [Dict.ofList, Dict.set, Dict.getItem, Dict.get?, hn]
  · simp [Dict.ofList, Dict.set, Dict.getItem, Dict.get?, hn]
  · simp [Dict.ofList, Dict.set, Dict.getItem, Dict.get?, hn]
  · simp [Dict.ofList, Dict.set, Dict.getItem, Dict.get?]
  · simp [Dict.ofList, Dict.set, Dict.getItem, Dict.get?]
  · rw [exactFunctions, if_neg h0, if_neg h1]
  · rw [rhsFunctions, if_neg h0, if_neg h1]

#print axioms C109_bulk
#print axioms C109_weak
#print axioms C109_pressure
#print axioms C109_fracture
#print axioms C109_conservation_violated
#print axioms C109_robin_violated
#print axioms C109_dispatch

end Verif.Strong.MdElliptic
