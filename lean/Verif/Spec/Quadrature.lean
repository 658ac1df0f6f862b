/- What the quadrature rules of a product space are for. -/
import Verif.Model.Quadrature
import Mathlib.Algebra.MvPolynomial.Degrees
import Mathlib.Data.Real.Basic

namespace Verif.Quadrature

/-- The rule for cells of dimension `d`: one point for points, else the one of basix. -/
def RuleFor {ρ : Type} (mk : Nat → Int → Res ρ) (pt : ρ) (order : Int) (d : Nat) (r : ρ) : Prop :=
  (d = 0 → r = pt) ∧ (d ≠ 0 → mk d order = .ok r)

/-- The greatest order among the fields -/
def IsTopOrder (data : List (Nat × Int)) (k : Int) : Prop :=
  (∃ p ∈ data, p.2 = k) ∧ ∀ p ∈ data, p.2 ≤ k

/-- basix has a rule for every dimension needed. -/
def Makes {ρ : Type} (mk : Nat → Int → Res ρ) (order : Int) : Prop :=
  ∀ d, 1 ≤ d → d ≤ 3 → ∃ r, mk d order = .ok r

/-- A rule is exact to the degree `m`: `apply r` is the value of the rule, `integral` the
integral over the reference cell. -/
def ExactTo {ρ : Type} {d : Nat} (apply : ρ → MvPolynomial (Fin d) ℝ → ℝ)
    (integral : MvPolynomial (Fin d) ℝ → ℝ) (r : ρ) (m : Int) : Prop :=
  ∀ P : MvPolynomial (Fin d) ℝ, (P.totalDegree : Int) ≤ m → apply r P = integral P

end Verif.Quadrature
