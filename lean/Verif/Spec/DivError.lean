/-
Specification vocabulary for C82: errors and norms of divergences by quadrature.
-/
import Verif.Model.DivError
import Verif.Spec.L2Error
import Verif.Spec.Dual

namespace Verif.DivError
open Assembly L2Form L2Error

variable {X : Type}

/-- The elements of dimension `dim` with their positions. -/
def cells (dim : Nat) (s : DSpace X) : List (Laplace.Elem ℝ X × Nat) :=
  s.elements.zipIdx.filter fun p => p.1.dim == dim

/-- The destination indices of field `name` on element `i`. -/
def dofs (fe : DFe X) (i : Nat) (name : String) : List Nat :=
  match fe.dests i with
  | .ok d => (d.get? name).getD []
  | .error _ => []

/-- The fields that are reported. -/
def fields (wanted : Family → Bool) (skip : List String) (spaces : Dict String (DSpace X)) :
    List (String × DSpace X) :=
  spaces.filter fun q => wanted q.2.family = true ∧ q.1 ∉ skip

/-- `div φ` of the basis function `a` in the point `i`. -/
noncomputable def basisDiv (dim : Nat) (el : Laplace.Elem ℝ X) (i a : Nat) : ℝ :=
  Dual.tabDiv el.tab dim (el.det i) i a

/-- `div (γ φ) = γ div φ + ∇γ · φ`. -/
noncomputable def scaledDiv (dim : Nat) (gamma : X → Nat → ℝ) (grad : X → Nat → Nat → ℝ)
    (el : Laplace.Elem ℝ X) (i a : Nat) : ℝ :=
  gamma el.x i * basisDiv dim el i a + ∑ d ∈ Finset.range dim, grad el.x d i * el.tab.val 0 i a d

/-- The component `c` of the divergence of the discrete function in the point `i`. -/
noncomputable def discreteDiv (div : Laplace.Elem ℝ X → Nat → Nat → ℝ) (fe : DFe X) (alpha : List ℝ)
    (q : String × DSpace X) (p : Laplace.Elem ℝ X × Nat) (i c : Nat) : ℝ :=
  ∑ a ∈ Finset.range p.1.tab.nPhi, div p.1 i a * coef alpha (dofs fe p.2 q.1) q.2.nComp c a

/-- Quadrature over the elements of dimension `dim` of the square of a function. -/
noncomputable def integralSq (dim : Nat) (q : String × DSpace X)
    (v : Laplace.Elem ℝ X × Nat → Nat → Nat → ℝ) : ℝ :=
  ((cells dim q.2).map fun p => ∑ i ∈ Finset.range p.1.nPts, ∑ c ∈ Finset.range q.2.nComp,
    p.1.det i * p.1.weights i * v p i c ^ 2).sum

/-- `∫ |f - div f_h|²` -/
noncomputable def divErrorSq (div : Laplace.Elem ℝ X → Nat → Nat → ℝ) (dim : Nat) (fe : DFe X)
    (f : DExact X) (alpha : List ℝ) (q : String × DSpace X) : ℝ :=
  integralSq dim q fun p i c => f.val p.1.x c i - discreteDiv div fe alpha q p i c

/-- The field has its coefficients in a vector of length `n`; its basis is tabulated with the
components and the derivatives of the dimension. -/
structure Ready (dim : Nat) (fe : DFe X) (n : Nat) (q : String × DSpace X) : Prop where
  dest : ∀ p ∈ cells dim q.2, ∃ d l, fe.dests p.2 = .ok d ∧ d.get? q.1 = some l ∧
    l.length = p.1.tab.nPhi * q.2.nComp ∧ ∀ k ∈ l, k < n
  phi : ∀ p ∈ cells dim q.2, 0 < p.1.tab.nPhi
  vals : ∀ p ∈ cells dim q.2, dim ≤ p.1.tab.nVal
  ders : ∀ p ∈ cells dim q.2, dim ≤ p.1.tab.nDer

/-- The determinants times weights are positive. -/
structure Weighted (dim : Nat) (q : String × DSpace X) : Prop where
  pos : ∀ p ∈ cells dim q.2, ∀ i < p.1.nPts, 0 < p.1.det i * p.1.weights i

end Verif.DivError
