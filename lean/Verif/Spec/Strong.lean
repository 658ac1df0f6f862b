/-
Specification of exact solutions: partial derivatives, gradient and divergence, and the laws of elasticity.
-/
import Mathlib.Analysis.Calculus.Deriv.Basic
import Mathlib.Data.Fin.VecNotation
import Mathlib.Algebra.BigOperators.Fin
import Verif.Spec.Dual

namespace Verif.Strong

/-- The value `d` is the derivative of `f` in direction `j`. -/
def HasPartial (j : Nat) (f : ℝ → ℝ → ℝ → ℝ) (d x y z : ℝ) : Prop :=
  match j with
  | 0 => HasDerivAt (fun t => f t y z) d x
  | 1 => HasDerivAt (fun t => f x t z) d y
  | _ => HasDerivAt (fun t => f x y t) d z

/-- Row `i` of `g` is the gradient of component `i` of `u`. -/
def GradientAt {m n : Nat} (u : ℝ → ℝ → ℝ → Fin m → ℝ) (g : Fin m → Fin n → ℝ) (x y z : ℝ) : Prop :=
  ∀ (i : Fin m) (j : Fin n), HasPartial j (fun x y z => u x y z i) (g i j) x y z

/-- Component `i` of `d` is the divergence of row `i` of `s`. -/
def DivergenceAt {m n : Nat} (s : ℝ → ℝ → ℝ → Fin m → Fin n → ℝ) (d : Fin m → ℝ) (x y z : ℝ) : Prop :=
  ∀ i, ∃ p : Fin n → ℝ, (∀ j : Fin n, HasPartial j (fun x y z => s x y z i j) (p j) x y z) ∧ d i = ∑ j, p j

/-- The law of Hooke for a strain that need not be symmetric: λ tr ε I + 2 μ sym ε + 2 κ skew ε -/
def hooke {n : Nat} (lambda mu kappa : ℝ) (e : Fin n → Fin n → ℝ) (i j : Fin n) : ℝ :=
  (if i = j then lambda * ∑ k, e k k else 0) + mu * (e i j + e j i) + kappa * (e i j - e j i)

/-- The skew matrix of a rotation in the plane -/
def skew2 (r : ℝ) : Fin 2 → Fin 2 → ℝ := ![![0, -r], ![r, 0]]

/-- The skew matrix of a rotation in space: the matrix of the cross product with `r` -/
def skew3 (r : Fin 3 → ℝ) : Fin 3 → Fin 3 → ℝ := ![![0, -r 2, r 1], ![r 2, 0, -r 0], ![-r 1, r 0, 0]]

/-- The entry of a skew matrix in the plane, times two -/
def axial2 (s : Fin 2 → Fin 2 → ℝ) : ℝ := s 1 0 - s 0 1

/-- The vector of a skew matrix in space, times two -/
def axial3 (s : Fin 3 → Fin 3 → ℝ) : Fin 3 → ℝ := ![s 2 1 - s 1 2, s 0 2 - s 2 0, s 1 0 - s 0 1]

/-- A vector with zeros behind it -/
def vec {n : Nat} (v : Fin n → ℝ) (k : Nat) : ℝ := if h : k < n then v ⟨k, h⟩ else 0

/-- A matrix with zeros around it -/
def mat {m n : Nat} (s : Fin m → Fin n → ℝ) (k l : Nat) : ℝ := if h : k < m then vec (s ⟨k, h⟩) l else 0

/-- The divergence of `σ'ᵀ u + ω'ᵀ θ` by the rule of the product, from the gradients of `u` and `θ`; in the scaled
form of `l ω'`. Its integral is an integral over the boundary. -/
def fluxDivergence {m r : Nat} (scaled : Bool) (l : ℝ) (u : Fin m → ℝ) (gu : Fin m → Fin m → ℝ) (w : Fin r → ℝ)
    (gw : Fin r → Fin m → ℝ) (t : Dual.Fields ℝ) : ℝ :=
  ∑ i : Fin m, (u i * t.dsig i + ∑ j : Fin m, gu i j * t.sig i j) +
    ∑ i : Fin r, (w i * t.dmom i + (if scaled then l else 1) * ∑ j : Fin m, gw i j * t.mom i j)

/-- The load: the first components of `f` are forces, the others are couples. -/
def loadOf {n : Nat} (m r : Nat) (f : Fin n → ℝ) (t : Dual.Fields ℝ) : ℝ :=
  ∑ i : Fin m, t.disp i * vec f i + ∑ i : Fin r, t.rot i * vec f (m + i)

/-- The divergence of `σᵀ v + ωᵀ η` for a test displacement `v` and a test rotation `η` with their gradients, by the
rule of the product. Its integral is an integral over the boundary. -/
def primalFlux {m r : Nat} (s : Fin m → Fin m → ℝ) (ds : Fin m → ℝ) (om : Fin r → Fin m → ℝ) (dom : Fin r → ℝ)
    (v : Fin m → ℝ) (gv : Fin m → Fin m → ℝ) (h : Fin r → ℝ) (gh : Fin r → Fin m → ℝ) : ℝ :=
  ∑ i : Fin m, (v i * ds i + ∑ j : Fin m, s i j * gv i j) + ∑ i : Fin r, (h i * dom i + ∑ j : Fin m, om i j * gh i j)

/-- The load on a test displacement and a test rotation. -/
def primalLoad {n m r : Nat} (f : Fin n → ℝ) (v : Fin m → ℝ) (h : Fin r → ℝ) : ℝ :=
  ∑ i : Fin m, v i * vec f i + ∑ i : Fin r, h i * vec f (m + i)

/-- The divergence of `σ'ᵀ u` for a test stress, by the rule of the product, from the gradient of `u`. -/
def stressFlux {m : Nat} (u : Fin m → ℝ) (gu : Fin m → Fin m → ℝ) (t : Dual.Fields ℝ) : ℝ :=
  ∑ i : Fin m, (u i * t.dsig i + ∑ j : Fin m, gu i j * t.sig i j)

/-- The divergence of `σᵀ v` for a test displacement `v` with its gradient, by the rule of the product. -/
def workFlux {m : Nat} (s : Fin m → Fin m → ℝ) (ds v : Fin m → ℝ) (gv : Fin m → Fin m → ℝ) : ℝ :=
  ∑ i : Fin m, (v i * ds i + ∑ j : Fin m, s i j * gv i j)

/-- Away from the kinks, in the plane: not where the length begins or ends to grow, and not on the diagonal in
between -/
def Smooth2 (x y : ℝ) : Prop :=
  max x y < 1 / 3 ∨ 2 / 3 < max x y ∨ (1 / 3 < max x y ∧ max x y < 2 / 3 ∧ x ≠ y)

/-- Away from the kinks, in space -/
def Smooth3 (x y z : ℝ) : Prop :=
  max (max x y) z < 1 / 3 ∨ 2 / 3 < max (max x y) z ∨
    (1 / 3 < max (max x y) z ∧ max (max x y) z < 2 / 3 ∧
      ((y < x ∧ z < x) ∨ (x < y ∧ z < y) ∨ (x < z ∧ y < z)))

end Verif.Strong
