/-
Property theorems C128: the forms and the data of the hydrothermal example (examples/geothermal_flow).
-/
import Verif.Spec.Hydrothermal
import Verif.Props.ThreeFieldsForm
import Mathlib.Algebra.BigOperators.Fin
import Mathlib.Tactic.Ring
import Mathlib.Tactic.FieldSimp
import Mathlib.Tactic.NormNum
import Mathlib.Tactic.Linarith
import Mathlib.Tactic.LinearCombination
import Mathlib.Tactic.Positivity

namespace Verif.Hydrothermal
open ThreeFields

/-- The fields fill the degrees of freedom of a cell one after the other, and the advection forms find each of their fields
in the same place, on the other side after the cell of the first. -/
theorem C128_layout (v u : Nat) :
    Tiles 0 (slices v u) (nDof v u) ∧ nDofSide v u = nDof v u ∧
    (∀ f ∈ slices v u, ∀ a ∈ advectionSlices 0 v u, f.1 = a.1 → f.2 = a.2) ∧
    ∀ shift, advectionSlices shift v u =
      (advectionSlices 0 v u).map fun s => (s.1, shift + s.2.1, shift + s.2.2) := by
  refine ⟨?_, ?_, ?_, ?_⟩
  · simp only [slices, Tiles, nDof]
    refine ⟨?_, ?_, ?_, ?_, ?_, ?_, ?_, ?_, ?_, ?_, ?_, ?_, ?_, ?_, ?_, ?_, ?_, ?_, ?_, ?_, ?_, ?_, ?_, ?_, ?_, ?_, ?_⟩ <;>
      first | trivial | omega
  · simp only [nDofSide, nDof]
    omega
  · intro f hf a ha h
    simp only [slices, advectionSlices, List.mem_cons, List.not_mem_nil, or_false] at hf ha
    rcases hf with rfl | rfl | rfl | rfl | rfl | rfl | rfl | rfl | rfl | rfl | rfl | rfl | rfl <;>
      rcases ha with rfl | rfl | rfl | rfl | rfl | rfl | rfl <;> first | (simp only [Nat.zero_add]; done) | (exfalso; simp at h; done)
  · intro shift
    simp only [advectionSlices, List.map_cons, List.map_nil]
    simp only [List.cons.injEq, Prod.mk.injEq, true_and, and_true]
    omega

variable {K : Type} [Field K]

/-- The rows of the closure vanish exactly in the states of one phase. -/
theorem C128_closure [CharZero K] (s : Scalars K) {w : K} (hw : w ≠ 0) :
    (∀ r ∈ closureRows s w, r = 0) ↔ Closed s := by
  simp only [closureRows, List.mem_cons, List.not_mem_nil, or_false, forall_eq_or_imp, forall_eq, mul_eq_zero, hw,
    sub_eq_zero]
  constructor
  · rintro ⟨h1, h2, h3, h4, h5, h6⟩
    exact ⟨by rw [h1]; ring, h2, h3, h4, h5, h6⟩
  · rintro ⟨h1, h2, h3, h4, h5, h6⟩
    exact ⟨by rw [h1]; ring, h2, h3, h4, h5, h6⟩

/-- If the fractions of each phase sum to one, the mobility is that of the phases; with one phase it is constant. -/
theorem C128_mobility [CharZero K] (s : Scalars K) :
    (s.xWl + s.xSl = 1 → s.xWv + s.xSv = 1 → mobility s = rhoL * (1 - s.sv) / muL + rhoV * s.sv / muV) ∧
    (Closed s → mobility s = 10 ^ 6) := by
  have h : ∀ s : Scalars K, s.xWl + s.xSl = 1 → s.xWv + s.xSv = 1 →
      mobility s = rhoL * (1 - s.sv) / muL + rhoV * s.sv / muV := by
    intro s h1 h2
    rw [mobility]
    linear_combination (rhoL * (1 - s.sv) / muL) * h1 + (rhoV * s.sv / muV) * h2
  refine ⟨h s, fun hc => ?_⟩
  rw [h s (by rw [hc.xWl, hc.xSl]; ring) (by rw [hc.xWv, hc.xSv]; ring), hc.sv]
  norm_num [rhoL, muL]

/-- With the fluxes of the gradients `g` of the pressure and `k` of the temperature the rows of the fluxes are the
divergence of pressure and temperature times the test flux, with the negative sign. -/
theorem C128_fluxes {n : Nat} (c : Coeffs K) (s : Scalars K) (f : Fluxes K n) (v : Fin n → K) (dv : K) (g k : Fin n → K)
    (hm : mobility s * c.kappa ≠ 0) (ht : c.thermal ≠ 0) (hg : ∀ j, f.md j = -(mobility s * c.kappa * g j))
    (hk : ∀ j, f.qd j = -(c.thermal * k j)) :
    massFluxRow c s f v dv = -(∑ j, g j * v j + s.p * dv) ∧
    heatFluxRow c s f v dv = -(∑ j, k j * v j + s.t * dv) := by
  constructor
  · have : ∀ j, f.md j * (1 / (mobility s * c.kappa)) * v j = -(g j * v j) := fun j => by
      rw [hg, neg_mul, neg_mul, mul_one_div, mul_div_cancel_left₀ _ hm]
    rw [massFluxRow, Finset.sum_congr rfl fun j _ => this j, Finset.sum_neg_distrib]
    ring
  · have : ∀ j, f.qd j * (1 / c.thermal) * v j = -(k j * v j) := fun j => by
      rw [hk]
      field_simp
    rw [heatFluxRow, Finset.sum_congr rfl fun j _ => this j, Finset.sum_neg_distrib]
    ring

/-- The balances in the states of one phase: the mass flux has no divergence, salt and energy are stored with the density
of the liquid. -/
theorem C128_balances {n : Nat} (c : Coeffs K) {s o : Scalars K} (hs : Closed s) (ho : Closed o) (f : Fluxes K n) (w : K) :
    massRow c s o f w = f.divMd * w ∧
    saltRow c s o f w = (f.divCa + c.phi * 1000 / c.dt * (s.z - o.z)) * w ∧
    energyRow c s o f w = (f.divQd + f.divQa + 1 / c.dt * (c.phi * (1000 * (s.h - o.h) - (s.p - o.p)) +
      (1 - c.phi) * c.rhoR * c.cpR * (s.h / 4 - o.h / 4))) * w := by
  refine ⟨?_, ?_, ?_⟩
  · simp only [massRow, hs.sv, ho.sv]
    ring
  · simp only [saltRow, density, hs.sv, ho.sv, rhoL]
    ring
  · simp only [energyRow, energy, density, hs.sv, ho.sv, hs.t, ho.t, rhoL]
    ring

/-- A state that does not change stores nothing. -/
theorem C128_steady {n : Nat} (c : Coeffs K) (s : Scalars K) (f : Fluxes K n) (w : K) :
    massRow c s s f w = f.divMd * w ∧ saltRow c s s f w = f.divCa * w ∧
    energyRow c s s f w = (f.divQd + f.divQa) * w := by
  refine ⟨?_, ?_, ?_⟩
  · simp only [massRow]
    ring
  · simp only [saltRow]
    ring
  · simp only [energyRow, energy]
    ring

variable [LinearOrder K] [IsStrictOrderedRing K]

/-- The initial state of the example is closed. -/
theorem C128_initial : Closed (initial : Scalars K) := by
  refine ⟨?_, rfl, ?_, ?_, rfl, rfl⟩
  · show (47315 / 100 : K) = 47315 / 100 * 4 / 4
    ring
  · show (1 : K) = 1 - 0
    ring
  · show (1 : K) = 1 - 0
    ring

/-- The temperature and the enthalpy prescribed at the inflow do not belong to the same state. -/
theorem C128_inlet_violated : ¬ ∃ s : Scalars K, Closed s ∧ s.t = tD 0 0 ∧ s.h = hInlet 0 := by
  rintro ⟨s, hs, h1, h2⟩
  have h3 := hs.t
  have h0 : isClose (0 : K) 0 = true := by simp [isClose]
  rw [h1, h2, tD, hInlet, xiEtaMap, xiMap, if_pos h0, if_pos h0] at h3
  norm_num at h3

/-- The factor of the Robin form is the trace of the scalar exactly if the normal flux is the coefficient times the
difference to the prescribed value; a vanishing coefficient raises. -/
theorem C128_robin (beta gamma value flux : K) :
    (beta = 0 → robin beta gamma value flux = .error .zeroDivisionError) ∧
    (beta ≠ 0 → ∃ r, robin beta gamma value flux = .ok r ∧ ∀ trace, r = trace ↔ flux = beta * (trace - value) + gamma) := by
  constructor
  · intro h
    rw [robin, if_pos h]
  · intro h
    refine ⟨_, if_neg h, fun trace => ?_⟩
    constructor
    · intro h1
      field_simp at h1
      linear_combination h1
    · intro h1
      rw [h1]
      field_simp
      ring

theorem close_self (a : K) : isClose a a = true := by
  rw [isClose, decide_eq_true_iff, sub_self, abs_zero]
  positivity

/-- On the boundary of the rectangle the coefficient is positive, so the Robin form of both fluxes returns. -/
theorem C128_rectangle (x y : K) (h : x = 0 ∨ x = 10 ∨ y = 0 ∨ y = 1) (gamma value flux : K) :
    0 < beta x y ∧ ∃ r, robin (beta x y) gamma value flux = .ok r := by
  have hb : 0 < beta x y := by
    rw [beta, xiEtaMap]
    split_ifs with h1 h2 h3 h4
    · positivity
    · positivity
    · positivity
    · positivity
    · rcases h with rfl | rfl | rfl | rfl
      · exact absurd (close_self _) h1
      · exact absurd (close_self _) h2
      · exact absurd (close_self _) h3
      · exact absurd (close_self _) h4
  obtain ⟨r, hr, -⟩ := (C128_robin (beta x y) gamma value flux).2 hb.ne'
  exact ⟨hb, r, hr⟩

/-- On the bottom and the top of the box, for which the data have no value, the form raises. -/
theorem C128_box_violated (gamma value flux : ℚ) :
    robin (beta 5 (1 / 2)) gamma value flux = .error .zeroDivisionError := by
  refine (C128_robin _ gamma value flux).1 ?_
  norm_num [beta, xiEtaMap, isClose, abs_of_pos, abs_of_neg]

theorem upwind_eq {md : K} (hm : 0 < md ∨ md < -(1 / 10 ^ 8)) (a b : K) : upwind md a b = if 0 < md then a else b := by
  rcases hm with hm | hm
  · rw [(C127_upwind md a b).1 hm, if_pos hm]
  · have h0 : ¬ 0 < md := by
      have : (0 : K) < 1 / 10 ^ 8 := by positivity
      linarith
    rw [(C127_upwind md a b).2 hm, if_neg h0]

/-- Between two cells with opposite mass fluxes the rows of the advective fluxes vanish exactly if these carry the values
upstream; then they are opposite too. -/
theorem C128_interface (mdP caP caN qaP qaN zP zN hP hN : K) (hm : 0 < mdP ∨ mdP < -(1 / 10 ^ 8)) :
    let z := if 0 < mdP then zP else zN
    let h := if 0 < mdP then hP else hN
    ((∀ r ∈ interfaceRows mdP (-mdP) caP caN qaP qaN zP zN hP hN, r = 0) ↔
      caP = z * mdP ∧ caN = -caP ∧ qaP = h * mdP ∧ qaN = -qaP) := by
  intro z h
  simp only [interfaceRows, upwind_eq hm, List.mem_cons, List.not_mem_nil, or_false, forall_eq_or_imp, forall_eq, mul_eq_zero]
  change ((1 / 2 : K) = 0 ∨ caP - z * mdP = 0) ∧ ((1 / 2 : K) = 0 ∨ caN - z * -mdP = 0) ∧
    ((1 / 2 : K) = 0 ∨ qaP - h * mdP = 0) ∧ ((1 / 2 : K) = 0 ∨ qaN - h * -mdP = 0) ↔ _
  have h2 : ¬ (1 / 2 : K) = 0 := by norm_num
  simp only [h2, false_or, sub_eq_zero]
  constructor
  · rintro ⟨h3, h4, h5, h6⟩
    exact ⟨h3, by rw [h4, h3]; ring, h5, by rw [h6, h5]; ring⟩
  · rintro ⟨h3, h4, h5, h6⟩
    exact ⟨h3, by rw [h4, h3]; ring, h5, by rw [h6, h5]; ring⟩

/-- On the boundary the advective fluxes carry the inner values with outflow and the prescribed ones with inflow. -/
theorem C128_inflow (md ca qa z h zIn hIn : K) (hm : 0 < md ∨ md < -(1 / 10 ^ 8)) :
    (∀ r ∈ inflowRows md ca qa z h zIn hIn, r = 0) ↔
      ca = (if 0 < md then z else zIn) * md ∧ qa = (if 0 < md then h else hIn) * md := by
  simp only [inflowRows, upwind_eq hm, List.mem_cons, List.not_mem_nil, or_false, forall_eq_or_imp, forall_eq,
    sub_eq_zero]

/-- The product space is never built: `build_structures` is called with one argument. -/
theorem C128_space_violated {S A : Type} (dim : Nat) (space : Res S) (build : S → A → A → Res S) (tags : A) :
    ∃ e, createProductSpace dim space build tags = .error e ∧
      ((dim = 1 ∨ dim = 2 ∨ dim = 3) → (∃ s, space = .ok s) → e = .typeError) := by
  unfold createProductSpace
  split_ifs with h
  · cases space with
    | error e => exact ⟨e, rfl, fun _ ⟨s, hs⟩ => absurd hs (by simp)⟩
    | ok s => exact ⟨.typeError, rfl, fun _ _ => rfl⟩
  · exact ⟨.valueError, rfl, fun h' => absurd h' h⟩

/-- The hypotheses are satisfiable: a closed state with salt, and fluxes of given gradients. -/
example : Closed (⟨1, 1 / 2, 4, 1, 0, 1 / 2, 1 / 2, 1 / 2, 1 / 2⟩ : Scalars ℚ) := by
  constructor <;> norm_num

/-- The two phases: density and mobility of pure liquid and of pure vapour, and the mass stored for each change of the
saturation -/
theorem C128_phases [CharZero K] {n : Nat} (c : Coeffs K) (s o : Scalars K) (f : Fluxes K n) (w : K) :
    density (0 : K) = 1000 ∧ density (1 : K) = 1 ∧
    (s.xWl + s.xSl = 1 → s.xWv + s.xSv = 1 → s.sv = 0 → mobility s = 10 ^ 6) ∧
    (s.xWl + s.xSl = 1 → s.xWv + s.xSv = 1 → s.sv = 1 → mobility s = 10 ^ 5) ∧
    massRow c s o f w = (f.divMd - c.phi * 999 / c.dt * (s.sv - o.sv)) * w := by
  refine ⟨?_, ?_, fun h1 h2 h3 => ?_, fun h1 h2 h3 => ?_, ?_⟩
  · simp only [density, rhoL]
    ring
  · simp only [density, rhoV]
    ring
  · rw [(C128_mobility s).1 h1 h2, h3]
    norm_num [rhoL, muL]
  · rw [(C128_mobility s).1 h1 h2, h3]
    norm_num [rhoV, muV]
  · simp only [massRow, density, rhoL, rhoV]
    ring

/-- The data on the sides of the rectangle -/
theorem C128_data {x y : K} (h1 : 1 ≤ x) (h2 : x ≤ 9) :
    (pD 0 y, tD 0 y, zInlet (0 : K), hInlet (0 : K)) = ((11 * 10 ^ 6 : K), 52315 / 100, 1, 2000) ∧
    (pD 10 y, tD 10 y, zInlet (10 : K), hInlet (10 : K)) = ((10 ^ 6 : K), 47315 / 100, 0, 0) ∧
    (pD x y, tD x y, zInlet x, hInlet x) = (0, 0, 0, 0) := by
  have far : ∀ {a b : K}, b = 0 ∨ b = 10 → 1 ≤ |a - b| → ¬ isClose a b = true := by
    intro a b hb h
    rw [isClose, decide_eq_true_iff, not_le]
    refine lt_of_lt_of_le ?_ h
    rcases hb with rfl | rfl <;> norm_num [abs_of_pos]
  have h0 : ¬ isClose (10 : K) 0 = true := far (Or.inl rfl) (by norm_num [abs_of_pos])
  have h3 : ¬ isClose x 0 = true := far (Or.inl rfl) (by rw [sub_zero]; exact h1.trans (le_abs_self x))
  have h4 : ¬ isClose x 10 = true := far (Or.inr rfl) (by
    rw [abs_sub_comm]
    exact le_trans (by linarith) (le_abs_self (10 - x)))
  refine ⟨?_, ?_, ?_⟩
  · simp only [pD, tD, zInlet, hInlet, xiEtaMap, xiMap, if_pos (close_self (0 : K))]
  · simp only [pD, tD, zInlet, hInlet, xiEtaMap, xiMap, if_neg h0, if_pos (close_self (10 : K))]
  · simp only [pD, tD, zInlet, hInlet, xiEtaMap, xiMap, if_neg h3, if_neg h4, ite_self]

#print axioms C128_layout
#print axioms C128_closure
#print axioms C128_mobility
#print axioms C128_fluxes
#print axioms C128_balances
#print axioms C128_steady
#print axioms C128_initial
#print axioms C128_inlet_violated
#print axioms C128_robin
#print axioms C128_rectangle
#print axioms C128_box_violated
#print axioms C128_interface
#print axioms C128_inflow
#print axioms C128_space_violated

#print axioms C128_phases
#print axioms C128_data

end Verif.Hydrothermal
