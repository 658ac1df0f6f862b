/-
Property theorems C112: the exact solution of the scaled mixed problem in the square with a fracture, with a positive
porosity.
-/
import Verif.Lemmas.MdScaled

namespace Verif.Strong.MdScaled
open Real MdLift Filter Topology
open Arbogast (succeeds)

variable {m : Material} {F : Bulk} {G : Fracture}

/-- C112: for positive data the functions return numbers in every point, in both codimensions. -/
theorem C112_defined (h : Positive m) : (∃ F, Returns0 (code m) F) ∧ ∃ G, Returns1 (code m) G :=
  ⟨⟨_, returns0 h⟩, ⟨_, returns1 h⟩⟩

/-- C112: in the bulk, away from the fracture, the coefficients belong to each other. -/
theorem C112_coefficients (h : Positive m) (r : Returns0 (code m) F) {x y : ℝ} (hy : y ≠ 0) :
    F.Coefficients m.kappa0 m.mu x y := by
  rw [r.eq (returns0 h)]
  exact lift_coefficients h.kappa0 h.mu (porosity1_pos h x) (porosity1_deriv m x) hy

/-- C112: in the bulk, away from the fracture, Darcy's law, the scaling and the balance hold. -/
theorem C112_bulk (h : Positive m) (r : Returns0 (code m) F) {x y : ℝ} (hy : y ≠ 0) : F.Solves m.mu x y := by
  rw [r.eq (returns0 h)]
  exact lift_solves h.kappa0 h.mu (porosity1_pos h x) (porosity1_deriv m x) (pf_deriv x) (dpf_deriv x) hy

/-- C112: the solution satisfies the equation of the scaled form (C75) in every point away from the fracture. -/
theorem C112_weak (h : Positive m) (r : Returns0 (code m) F) {x y : ℝ} (hy : y ≠ 0) (w₁ w₂ dw t : ℝ) :
    ∃ a b p₁ p₂, HasDerivAt (fun t => F.u₁ t y) a x ∧ HasDerivAt (fun t => F.u₂ x t) b y ∧ Grad F.p p₁ p₂ x y ∧
      Degenerate.pairing 2 1 1
        ⟨fun i => if i = 0 then F.v₁ x y else F.v₂ x y, (a + b) / √(F.porosity x y), F.q x y⟩
        ⟨fun i => if i = 0 then w₁ else w₂,
          (F.dPhi x y * dw + (F.dPhi₁ x y * w₁ + F.dPhi₂ x y * w₂)) / √(F.porosity x y), t⟩ =
      F.rhs x y * t - (p₁ * (F.dPhi x y * w₁) + p₂ * (F.dPhi x y * w₂) +
        F.p x y * (F.dPhi x y * dw + (F.dPhi₁ x y * w₁ + F.dPhi₂ x y * w₂))) :=
  Bulk.weak (C112_coefficients h r hy) (C112_bulk h r hy) w₁ w₂ dw t

/-- C112: in the fracture the coefficients belong to each other, with the width in the mobility; Darcy's law, the scaling
and the balance hold, the latter with the fluxes that leave the bulk, with the sign plus, taken `1e-13` beside the fracture. -/
theorem C112_fracture (h : Positive m) (r : Returns0 (code m) F) (s : Returns1 (code m) G) (x : ℝ) :
    G.Coefficients m.kappa1 m.delta m.mu x ∧
      G.Solves m.delta m.mu (F.u₂ x (-(1 / 10 ^ 13)) - F.u₂ x (1 / 10 ^ 13)) x := by
  rw [r.eq (returns0 h), s.eq (returns1 h)]
  have e : (bulk m).u₂ x (-(1 / 10 ^ 13)) - (bulk m).u₂ x (1 / 10 ^ 13) = exchange m x := by
    unfold exchange
    ring
  rw [e]
  exact ⟨fracture_coefficients h.kappa1 h.delta h.mu (porosity1_pos h x) (porosity1_deriv m x),
    fracture_solves h.kappa1 h.delta h.mu (porosity1_pos h x) (porosity1_deriv m x) (pf_deriv x) (dpf_deriv x)⟩

/-- C112: the equation of the scaled form (C75) in the fracture, with the exchange of the coupling form (C111). -/
theorem C112_weak_fracture (h : Positive m) (r : Returns0 (code m) F) (s : Returns1 (code m) G) (x w₁ dw t : ℝ) :
    ∃ a p', HasDerivAt G.u a x ∧ HasDerivAt G.p p' x ∧
      Degenerate.pairing 1 1 1 ⟨fun _ => G.v x, a / √(G.porosity x), G.q x⟩
        ⟨fun _ => w₁, (G.dPhi x * dw + G.dPhi' x * w₁) / √(G.porosity x), t⟩ +
        (F.u₂ x (-(1 / 10 ^ 13)) - F.u₂ x (1 / 10 ^ 13)) / √(G.porosity x) * t =
      G.rhs x * t - (p' * (G.dPhi x * w₁) + G.p x * (G.dPhi x * dw + G.dPhi' x * w₁)) := by
  obtain ⟨hc, hs⟩ := C112_fracture h r s x
  exact Fracture.weak hc hs w₁ dw t

/-- C112: the fluxes through the fracture from below and from above, as limits, and the values beside the fracture: they
are off by a power of `1 + 1e-13`. -/
theorem C112_sides (h : Positive m) (r : Returns0 (code m) F) (x : ℝ) :
    ∃ below above, F.Sides x below above ∧ below = m.kappa0 / m.mu * F.porosity x 0 ^ 2 * (m.xi * F.p x 0) ∧
      above = -(m.kappa0 / m.mu * F.porosity x 0 ^ 2 * (m.eta * F.p x 0)) ∧
      F.u₂ x (-(1 / 10 ^ 13)) = below * (1 + 1 / 10 ^ 13) ^ (2 * m.chi + m.xi - 1) ∧
      F.u₂ x (1 / 10 ^ 13) = above * (1 + 1 / 10 ^ 13) ^ (2 * m.chi + m.eta - 1) := by
  rw [r.eq (returns0 h)]
  obtain ⟨h1, h2⟩ := lift_offset m (porosity1 m) (fun x => 2 * x * m.rho2) pf dpf dpf2 x (t := 1 / 10 ^ 13) (by positivity)
  have e1 : (bulk m).porosity x 0 = porosity1 m x := by
    show porosity1 m x * phiYs m x 0 0 = _
    simp [phiYs]
  have e2 : (bulk m).p x 0 = pf x := by
    show ys m x 0 0 * pf x = _
    rw [ys_zero, one_mul]
  rw [e1, e2]
  exact ⟨_, _, lift_sides m (porosity1 m) (fun x => 2 * x * m.rho2) pf dpf dpf2 x, rfl, rfl, h1, h2⟩

/-- C112: the pressure is continuous across the fracture, where it is the pressure of the fracture, and it vanishes on the
sides of the square that meet the fracture. -/
theorem C112_pressure (h : Positive m) (r : Returns0 (code m) F) (s : Returns1 (code m) G) (x y : ℝ) :
    Continuous (fun t => F.p x t) ∧ F.p x 0 = G.p x ∧ F.porosity x 0 = G.porosity x ∧
      F.p 1 y = 0 ∧ F.p (-1) y = 0 ∧ G.p 1 = 0 ∧ G.p (-1) = 0 := by
  rw [r.eq (returns0 h), s.eq (returns1 h)]
  have h1 : pf 1 = 0 := by simp [pf]
  have h2 : pf (-1) = 0 := by simp [pf]
  refine ⟨(ys_continuous m x 0).mul continuous_const, ?_, ?_, ?_, ?_, h1, h2⟩
  · show ys m x 0 0 * pf x = pf x
    rw [ys_zero, one_mul]
  · show porosity1 m x * phiYs m x 0 0 = porosity1 m x
    simp [phiYs]
  · show ys m 1 y 0 * pf 1 = 0
    rw [h1, mul_zero]
  · show ys m (-1) y 0 * pf (-1) = 0
    rw [h2, mul_zero]

/-- C112, disagreement: what leaves the bulk enters the fracture, so the balance is `u' + φ p - (exchange) = √φ f`. The
load has the other sign: the balance fails wherever the pressure is not zero, for exponents that make an exchange. -/
theorem C112_conservation_violated (h : Positive m) (r : Returns0 (code m) F) (s : Returns1 (code m) G) {x a below above : ℝ}
    (hxi : 0 ≤ m.xi) (heta : 0 ≤ m.eta) (hsum : 0 < m.xi + m.eta) (hp : G.p x ≠ 0) (hs : F.Sides x below above)
    (ha : HasDerivAt G.u a x) :
    a + G.porosity x * G.p x - (below - above) ≠ √(G.porosity x) * G.rhs x := by
  obtain ⟨below', above', h1, h2, h3, h4, h5⟩ := C112_sides h r x
  obtain ⟨rfl, rfl⟩ := hs.eq h1
  obtain ⟨-, -, -, a', ha', hb⟩ := C112_fracture h r s x
  obtain rfl := ha.unique ha'
  obtain ⟨-, e1, e2, -⟩ := C112_pressure h r s x 0
  intro e
  rw [← hb, h4, h5, h2, h3, e1, e2] at e
  have hpor := (C112_fracture h r s x).1.porosity_pos
  have hk := h.kappa0
  have hm := h.mu
  have hc₁ : (0 : ℝ) < (1 + 1 / 10 ^ 13) ^ (2 * m.chi + m.xi - 1) := rpow_pos_of_pos (by positivity) _
  have hc₂ : (0 : ℝ) < (1 + 1 / 10 ^ 13) ^ (2 * m.chi + m.eta - 1) := rpow_pos_of_pos (by positivity) _
  generalize (1 + 1 / 10 ^ 13 : ℝ) ^ (2 * m.chi + m.xi - 1) = c₁ at e hc₁
  generalize (1 + 1 / 10 ^ 13 : ℝ) ^ (2 * m.chi + m.eta - 1) = c₂ at e hc₂
  have hpos : 0 < m.xi * (1 + c₁) + m.eta * (1 + c₂) := by
    have := mul_nonneg hxi hc₁.le
    have := mul_nonneg heta hc₂.le
    linarith
  have hk' : 0 < m.kappa0 / m.mu * G.porosity x ^ 2 := by positivity
  have : m.kappa0 / m.mu * G.porosity x ^ 2 * (m.xi * (1 + c₁) + m.eta * (1 + c₂)) * G.p x = 0 := by
    linear_combination -e
  rcases mul_eq_zero.1 this with h0 | h0
  · exact absurd h0 (mul_pos hk' hpos).ne'
  · exact hp h0

/-- C112, disagreement: the law of Robin of the coupling form, `c (u · n) + p_f = p` with any coefficient, holds on a side
only where the flux is zero, since the pressure has no jump. -/
theorem C112_robin_violated (h : Positive m) (r : Returns0 (code m) F) (s : Returns1 (code m) G) {x below above c : ℝ} (hc : c ≠ 0)
    (hs : F.Sides x below above) :
    (c * below + G.p x = F.p x 0 ↔ m.xi * G.p x = 0) ∧ (c * -above + G.p x = F.p x 0 ↔ m.eta * G.p x = 0) := by
  obtain ⟨-, e, e', -⟩ := C112_pressure h r s x 0
  obtain ⟨below', above', h1, h2, h3, -⟩ := C112_sides h r x
  obtain ⟨rfl, rfl⟩ := hs.eq h1
  have hpor := (C112_fracture h r s x).1.porosity_pos
  have hk := h.kappa0
  have hm := h.mu
  have hk' : c * (m.kappa0 / m.mu * G.porosity x ^ 2) ≠ 0 := mul_ne_zero hc (by positivity)
  rw [h2, h3, e, e']
  constructor
  · rw [add_eq_right, ← mul_assoc, mul_eq_zero]
    exact ⟨fun h => h.resolve_left hk', .inr⟩
  · rw [add_eq_right, neg_neg, ← mul_assoc, mul_eq_zero]
    exact ⟨fun h => h.resolve_left hk', .inr⟩

/-- The numbers of the script -/
noncomputable def script : Material := ⟨1 / 10, 1 / 50, 1, 10, 1, 1 / 10, 1, 1, 1, 0⟩

/-- There the data are positive, and in the middle of the fracture the pressure is `1/4`: the exchange is not zero. -/
example : Positive script ∧ (fracture script).p 0 = 1 / 4 ∧ 0 < script.xi + script.eta := by
  refine ⟨⟨?_, ?_, ?_, ?_, ?_, ?_⟩, ?_, ?_⟩ <;> norm_num [script, fracture, MdLift.fracture, pf]

/-- C112: other codimensions raise a `ValueError` in all functions; `test_evaluation` returns `True` for the codimensions
zero and one and `False` for the others. -/
theorem C112_dispatch (m : Material) (x y z : ℝ) {co : Int} (h0 : co ≠ 0) (h1 : co ≠ 1) (f g k l : String)
    (points : List (ℝ × ℝ × ℝ)) :
    porosity m x y z co = .error .valueError ∧ gradPorosity m x y z co = .error .valueError ∧
      kappa m x y z co = .error .valueError ∧ dPhi m x y z co = .error .valueError ∧
      gradDPhi m x y z co = .error .valueError ∧ pExact m x y z co = .error .valueError ∧
      uExact m x y z co = .error .valueError ∧ qExact m x y z co = .error .valueError ∧
      vExact m x y z co = .error .valueError ∧ rhs m x y z co = .error .valueError ∧
      exactFunctions m co f g = .error .valueError ∧ scaledFunctions m co f g = .error .valueError ∧
      problemFunctions m co f g k l = .error .valueError ∧
      testEvaluation m 0 points = true ∧ testEvaluation m 1 points = true ∧
      (points ≠ [] → testEvaluation m co points = false) := by
  have e : ∀ {α : Type} (a b : α), onCo co a b = .error .valueError := fun a b => by
    rw [onCo, if_neg h0, if_neg h1]
  have d : ∀ {α : Type} (l : List (String × α)), dictionary co l = .error .valueError := fun l => if_pos ⟨h0, h1⟩
  have hp : porosity m x y z co = .error .valueError := e _ _
  have hd : dPhi m x y z co = .error .valueError := e _ _
  have ok : ∀ c : Int, (c = 0 ∨ c = 1) → ∀ l : List (ℝ × ℝ × ℝ),
      ∃ u, l.mapM (fun p => evaluateAll m p.1 p.2.1 p.2.2 c) = .ok u := by
    intro c hc l
    induction l with
    | nil => exact ⟨_, rfl⟩
    | cons p l ih =>
      obtain ⟨u, hu⟩ := ih
      refine ⟨() :: u, ?_⟩
      rw [List.mapM_cons, hu]
      rcases hc with rfl | rfl <;> rfl
  refine ⟨hp, e _ _, e _ _, hd, e _ _, e _ _, e _ _, ?_, ?_, e _ _, d _, d _, d _, ?_, ?_, ?_⟩
  · unfold qExact
    rw [hp]
    rfl
  · unfold vExact
    rw [hd]
    rfl
  · obtain ⟨u, hu⟩ := ok 0 (.inl rfl) points
    unfold testEvaluation
    rw [hu]
    rfl
  · obtain ⟨u, hu⟩ := ok 1 (.inr rfl) points
    unfold testEvaluation
    rw [hu]
    rfl
  · intro hn
    obtain ⟨p, l, rfl⟩ := List.exists_cons_of_ne_nil hn
    have : evaluateAll m p.1 p.2.1 p.2.2 co = .error .valueError := by
      unfold evaluateAll
      have : porosity m p.1 p.2.1 p.2.2 co = .error .valueError := e _ _
      rw [this]
      rfl
    unfold testEvaluation
    rw [List.mapM_cons, this]
    rfl

/-- C112: the dictionaries contain the functions of the codimension. -/
theorem C112_dictionaries (r : Returns0 (code m) F) (s : Returns1 (code m) G) {f g k l : String} (hfg : f ≠ g)
    (hfk : f ≠ k) (hfl : f ≠ l) (hgk : g ≠ k) (hgl : g ≠ l) (hkl : k ≠ l) :
    (∃ d a b, exactFunctions m 0 f g = .ok d ∧ d.getItem f = .ok a ∧ d.getItem g = .ok b ∧
      ∀ x y z, a x y z = .ok (some [F.u₁ x y, F.u₂ x y]) ∧ b x y z = .ok (some [F.p x y])) ∧
    (∃ d a b, exactFunctions m 1 f g = .ok d ∧ d.getItem f = .ok a ∧ d.getItem g = .ok b ∧
      ∀ x y z, a x y z = .ok (some [G.u x]) ∧ b x y z = .ok (some [G.p x])) ∧
    (∃ d a b, scaledFunctions m 0 f g = .ok d ∧ d.getItem f = .ok a ∧ d.getItem g = .ok b ∧
      ∀ x y z, a x y z = .ok (some [F.v₁ x y, F.v₂ x y]) ∧ b x y z = .ok (some [F.q x y])) ∧
    (∃ d a b, scaledFunctions m 1 f g = .ok d ∧ d.getItem f = .ok a ∧ d.getItem g = .ok b ∧
      ∀ x y z, a x y z = .ok (some [G.v x]) ∧ b x y z = .ok (some [G.q x])) ∧
    (∃ d a b c e, problemFunctions m 0 f g k l = .ok d ∧ d.getItem f = .ok a ∧ d.getItem g = .ok b ∧
      d.getItem k = .ok c ∧ d.getItem l = .ok e ∧ ∀ x y z, a x y z = .ok (some [F.rhs x y]) ∧
        b x y z = .ok (some [F.porosity x y]) ∧ c x y z = .ok (some [F.dPhi x y]) ∧
        e x y z = .ok (some [F.dPhi₁ x y, F.dPhi₂ x y, 0])) ∧
    (∃ d a b c e, problemFunctions m 1 f g k l = .ok d ∧ d.getItem f = .ok a ∧ d.getItem g = .ok b ∧
      d.getItem k = .ok c ∧ d.getItem l = .ok e ∧ ∀ x y z, a x y z = .ok (some [G.rhs x]) ∧
        b x y z = .ok (some [G.porosity x]) ∧ c x y z = .ok (some [G.dPhi x]) ∧
        e x y z = .ok (some [G.dPhi' x, 0, 0])) := by
  have two : ∀ {α : Type} (a b : α), (Dict.ofList [(f, a), (g, b)]).getItem f = .ok a ∧
      (Dict.ofList [(f, a), (g, b)]).getItem g = .ok b := by
    intro α a b
    constructor <;> simp [Dict.ofList, Dict.set, Dict.getItem, Dict.get?, hfg]
  have four : ∀ {α : Type} (a b c e : α), (Dict.ofList [(f, a), (g, b), (k, c), (l, e)]).getItem f = .ok a ∧
      (Dict.ofList [(f, a), (g, b), (k, c), (l, e)]).getItem g = .ok b ∧
      (Dict.ofList [(f, a), (g, b), (k, c), (l, e)]).getItem k = .ok c ∧
      (Dict.ofList [(f, a), (g, b), (k, c), (l, e)]).getItem l = .ok e := by
    intro α a b c e
    refine ⟨?_, ?_, ?_, ?_⟩ <;> simp [Dict.ofList, Dict.set, Dict.getItem, Dict.get?, hfg, hfk, hfl, hgk, hgl, hkl]
  refine ⟨⟨_, _, _, rfl, (two _ _).1, (two _ _).2, fun x y z => ⟨r.uExact x y z, ?_⟩⟩,
    ⟨_, _, _, rfl, (two _ _).1, (two _ _).2, fun x y z => ⟨s.uExact x y z, ?_⟩⟩,
    ⟨_, _, _, rfl, (two _ _).1, (two _ _).2, fun x y z => ⟨r.vExact x y z, ?_⟩⟩,
    ⟨_, _, _, rfl, (two _ _).1, (two _ _).2, fun x y z => ⟨s.vExact x y z, ?_⟩⟩,
    ⟨_, _, _, _, _, rfl, (four _ _ _ _).1, (four _ _ _ _).2.1, (four _ _ _ _).2.2.1, (four _ _ _ _).2.2.2,
      fun x y z => ⟨?_, ?_, ?_, ?_⟩⟩,
    ⟨_, _, _, _, _, rfl, (four _ _ _ _).1, (four _ _ _ _).2.1, (four _ _ _ _).2.2.1, (four _ _ _ _).2.2.2,
      fun x y z => ⟨?_, ?_, ?_, ?_⟩⟩⟩
  · exact congrArg (Except.map _) (r.pExact x y z)
  · exact congrArg (Except.map _) (s.pExact x y z)
  · exact congrArg (Except.map _) (r.qExact x y z)
  · exact congrArg (Except.map _) (s.qExact x y z)
  · exact congrArg (Except.map _) (r.rhs x y z)
  · exact congrArg (Except.map _) (r.porosity x y z)
  · exact congrArg (Except.map _) (r.dPhi x y z)
  · exact congrArg (Except.map _) (r.gradDPhi x y z)
  · exact congrArg (Except.map _) (s.rhs x y z)
  · exact congrArg (Except.map _) (s.porosity x y z)
  · exact congrArg (Except.map _) (s.dPhi x y z)
  · exact congrArg (Except.map _) (s.gradDPhi x y z)

#print axioms C112_defined
#print axioms C112_coefficients
#print axioms C112_bulk
#print axioms C112_weak
#print axioms C112_fracture
#print axioms C112_weak_fracture
#print axioms C112_sides
#print axioms C112_pressure
#print axioms C112_conservation_violated
#print axioms C112_robin_violated
#print axioms C112_dispatch
#print axioms C112_dictionaries

end Verif.Strong.MdScaled
