/-
Property theorems C124: the exact functions and the contact form of the example md_cosserat_elasticity.
-/
import Verif.Model.MdCosserat
import Verif.Lemmas.MdElliptic
import Verif.Lemmas.Prelude

namespace Verif.Strong.MdCosserat
open Real

variable (m : Material) (x y z : ℝ)

theorem pF_deriv : HasDerivAt (fun t => pF x t z) (gradPF x y z) y := MdElliptic.pF_deriv y x z

theorem gradPF_deriv : HasDerivAt (fun t => gradPF x t z) (-(4 * π ^ 2) * pF x y z) y :=
  (MdElliptic.gradPF_deriv y x z).congr_deriv (by simp only [MdElliptic.pF, pF]; ring)

theorem linear_deriv (q : ℝ) : HasDerivAt (fun t => (m.c * t + m.delta) * q) (m.c * q) x := by
  have h := (((hasDerivAt_id x).const_mul m.c).add_const m.delta).mul_const q
  exact h.congr_deriv (by ring)

/-- C124: in the bulk the flux is minus the gradient of the pressure and its divergence is the load. -/
theorem C124_bulk : ∃ a b c d, HasDerivAt (fun t => pExact m t y z) a x ∧ HasDerivAt (fun t => pExact m x t z) b y ∧
    HasDerivAt (fun t => uExact₁ m t y z) c x ∧ HasDerivAt (fun t => uExact₂ m x t z) d y ∧
    uExact₁ m x y z = -a ∧ uExact₂ m x y z = -b ∧ rhs0 m x y z = c + d := by
  refine ⟨m.c * pF x y z, (m.c * x + m.delta) * gradPF x y z, 0, 4 * π ^ 2 * (m.c * x + m.delta) * pF x y z,
    ?_, ?_, ?_, ?_, ?_, ?_, ?_⟩
  · exact linear_deriv m x (pF x y z)
  · exact (pF_deriv x y z).const_mul _
  · exact hasDerivAt_const x (-m.c * pF x y z)
  · exact ((gradPF_deriv x y z).const_mul _).congr_deriv (by ring)
  · unfold uExact₁; ring
  · unfold uExact₂; ring
  · unfold rhs0; ring

/-- C124, disagreement: the flux of the bulk does not contain `kappa`: the law `u = -κ ∇p` holds in a point only if
`kappa` is one or the gradient vanishes there. -/
theorem C124_darcy_violated {a b : ℝ} (ha : HasDerivAt (fun t => pExact m t y z) a x)
    (hb : HasDerivAt (fun t => pExact m x t z) b y) :
    (uExact₁ m x y z = -m.kappa * a ∧ uExact₂ m x y z = -m.kappa * b) ↔ m.kappa = 1 ∨ (a = 0 ∧ b = 0) := by
  obtain ⟨a', b', c, d, h1, h2, -, -, h5, h6, -⟩ := C124_bulk m x y z
  rw [h5, h6, ← ha.unique h1, ← hb.unique h2]
  constructor
  · rintro ⟨h7, h8⟩
    by_cases hk : m.kappa = 1
    · exact .inl hk
    · have hk' : m.kappa - 1 ≠ 0 := sub_ne_zero.2 hk
      refine .inr ⟨?_, ?_⟩
      · refine (mul_eq_zero.1 (?_ : (m.kappa - 1) * a = 0)).resolve_left hk'
        linear_combination h7
      · refine (mul_eq_zero.1 (?_ : (m.kappa - 1) * b = 0)).resolve_left hk'
        linear_combination h8
  · rintro (h | ⟨h, h'⟩)
    · rw [h]; constructor <;> ring
    · rw [h, h']; constructor <;> ring

/-- C124: in the fracture the flux is minus the gradient times `kappa` and the opening, and its derivative is the
load. -/
theorem C124_fracture : ∃ g d, HasDerivAt (fun t => pF x t z) g y ∧ HasDerivAt (fun t => uF m x t z) d y ∧
    uF m x y z = -m.kappa * m.delta * g ∧ rhs1 m x y z = d := by
  refine ⟨gradPF x y z, 4 * π ^ 2 * m.kappa * m.delta * pF x y z, pF_deriv x y z, ?_, rfl, rfl⟩
  exact ((gradPF_deriv x y z).const_mul (-m.kappa * m.delta)).congr_deriv (by ring)

/-- C124: on a line `x = s` the bulk has one normal flux, so that the fluxes out of both sides cancel and the load of the
fracture needs no exchange.  The pressure of the bulk on the line is that of the fracture only where `m_c s + δ` is one
or the pressure vanishes. -/
theorem C124_line (s : ℝ) :
    Continuous (fun t => uExact₁ m t y z) ∧
    (∀ a b, Filter.Tendsto (fun t => uExact₁ m t y z) (nhdsWithin s (Set.Iio s)) (nhds a) →
      Filter.Tendsto (fun t => uExact₁ m t y z) (nhdsWithin s (Set.Ioi s)) (nhds b) →
      ∃ d, HasDerivAt (fun t => uF m s t z) d y ∧ d + (b - a) = rhs1 m s y z) ∧
    (pExact m s y z = pF s y z ↔ m.c * s + m.delta = 1 ∨ pF s y z = 0) := by
  have hc : Continuous (fun t => uExact₁ m t y z) :=
    (continuous_const : Continuous fun _ : ℝ => -m.c * sin (2 * π * y))
  refine ⟨hc, ?_, ?_⟩
  · intro a b ha hb
    obtain ⟨g, d, -, h2, -, h4⟩ := C124_fracture m s y z
    refine ⟨d, h2, ?_⟩
    have ea := tendsto_nhds_unique ha (hc.continuousAt.tendsto.mono_left nhdsWithin_le_nhds)
    have eb := tendsto_nhds_unique hb (hc.continuousAt.tendsto.mono_left nhdsWithin_le_nhds)
    rw [ea, eb, sub_self, add_zero, h4]
  · rw [pExact]
    constructor
    · intro h
      have : (m.c * s + m.delta - 1) * pF s y z = 0 := by linear_combination h
      rcases mul_eq_zero.1 this with h | h
      · exact .inl (sub_eq_zero.1 h)
      · exact .inr h
    · rintro (h | h)
      · rw [h, one_mul]
      · rw [h, mul_zero]

/-- C124: the dictionaries contain the functions of the bulk for codimension zero and those of the fracture for
codimension one; other codimensions raise a `ValueError`. -/
theorem C124_dispatch {k : Int} {flux potential : String} (hn : flux ≠ potential) (name : String) :
    (∃ d, exactFunctions 0 flux potential m = .ok d ∧
      d.getItem flux = .ok (fun x y z => [uExact₁ m x y z, uExact₂ m x y z]) ∧
      d.getItem potential = .ok (fun x y z => [pExact m x y z])) ∧
    (∃ d, exactFunctions 1 flux potential m = .ok d ∧ d.getItem flux = .ok (fun x y z => [uF m x y z]) ∧
      d.getItem potential = .ok (fun x y z => [pF x y z])) ∧
    (∃ d, rhsFunctions 0 name m = .ok d ∧ d.getItem name = .ok (fun x y z => [rhs0 m x y z])) ∧
    (∃ d, rhsFunctions 1 name m = .ok d ∧ d.getItem name = .ok (fun x y z => [rhs1 m x y z])) ∧
    (k ≠ 0 → k ≠ 1 → exactFunctions k flux potential m = .error .valueError ∧
      rhsFunctions k name m = .error .valueError) := by
  refine ⟨⟨_, rfl, ?_, ?_⟩, ⟨_, rfl, ?_, ?_⟩, ⟨_, rfl, ?_⟩, ⟨_, rfl, ?_⟩, fun h0 h1 => ⟨?_, ?_⟩⟩
  · simp [Dict.ofList, Dict.set, Dict.getItem, Dict.get?, hn]
  · simp [Dict.ofList, Dict.set, Dict.getItem, Dict.get?, hn]
  · simp [Dict.ofList, Dict.set, Dict.getItem, Dict.get?, hn]
  · simp [Dict.ofList, Dict.set, Dict.getItem, Dict.get?, hn]
  · simp [Dict.ofList, Dict.set, Dict.getItem, Dict.get?]
  · simp [Dict.ofList, Dict.set, Dict.getItem, Dict.get?]
  · rw [exactFunctions, if_neg h0, if_neg h1]
  · rw [rhsFunctions, if_neg h0, if_neg h1]

/-- C124, disagreement: the contact form reads a name that is not defined and never returns. -/
theorem C124_contact_violated {K E F : Type} (spaces : List (Dict String E)) (functions : Dict String F) (p n : Nat) :
    (∃ e, (contactForm spaces functions p n : Res (L2Form.Vec K × Assembly.Mat K)) = .error e) ∧
    ((∀ key ∈ ["cu_normal", "cu_tangential", "cr_normal", "cr_tangential"], ∃ f, functions.getItem key = .ok f) →
      (∃ bulk q, spaces[0]? = some bulk ∧ bulk.getItem "q" = .ok q) →
      (∃ fracture q, spaces[1]? = some fracture ∧ fracture.getItem "p" = .ok q) →
      (contactForm spaces functions p n : Res (L2Form.Vec K × Assembly.Mat K)) = .error .nameError) := by
  refine ⟨?_, ?_⟩
  · cases h : (contactForm spaces functions p n : Res (L2Form.Vec K × Assembly.Mat K)) with
    | error e => exact ⟨e, rfl⟩
    | ok r =>
      unfold contactForm at h
      simp only [Res.bind_eq_ok] at h
      obtain ⟨_, _, _, _, _, _, _, _, _, _, _, _, _, _, _, _, h⟩ := h
      cases h
  · intro hf ⟨bulk, q, h1, h2⟩ ⟨fracture, q', h3, h4⟩
    obtain ⟨f1, e1⟩ := hf "cu_normal" (by simp)
    obtain ⟨f2, e2⟩ := hf "cu_tangential" (by simp)
    obtain ⟨f3, e3⟩ := hf "cr_normal" (by simp)
    obtain ⟨f4, e4⟩ := hf "cr_tangential" (by simp)
    unfold contactForm
    simp only [e1, e2, e3, e4, Res.bind_ok, getIdx_of h1, getIdx_of h3, h2, h4]

/-- With `m_c = 1`, `kappa = 2` and the opening one the law of the bulk fails in `(0, 1/4)`. -/
example : ¬ ∃ a b, HasDerivAt (fun t => pExact ⟨1, 2, 1⟩ t (1 / 4) 0) a 0 ∧
    HasDerivAt (fun t => pExact ⟨1, 2, 1⟩ 0 t 0) b (1 / 4) ∧
    uExact₁ ⟨1, 2, 1⟩ 0 (1 / 4) 0 = -2 * a ∧ uExact₂ ⟨1, 2, 1⟩ 0 (1 / 4) 0 = -2 * b := by
  have hp : pF 0 (1 / 4) 0 = 1 := by
    rw [pF, show 2 * π * (1 / 4) = π / 2 by ring, sin_pi_div_two]
  rintro ⟨a, b, ha, hb, h⟩
  rcases (C124_darcy_violated _ _ _ _ ha hb).1 h with h | ⟨h, -⟩
  · norm_num at h
  · have := ha.unique (linear_deriv ⟨1, 2, 1⟩ 0 (pF 0 (1 / 4) 0))
    rw [h, hp] at this
    norm_num at this

#print axioms C124_bulk
#print axioms C124_darcy_violated
#print axioms C124_fracture
#print axioms C124_line
#print axioms C124_dispatch
#print axioms C124_contact_violated

end Verif.Strong.MdCosserat
