/-
Specification vocabulary for C67: errors and norms by quadrature.
-/
import Verif.Model.L2Error
import Verif.Spec.L2Form

namespace Verif.L2Error
open Assembly L2Form

variable {X : Type}

/-- The destination indices of field `name` on element `i`. -/
def destOf (fe : FeSpace X) (i : Nat) (name : String) : List Nat :=
  match fe.dests i with
  | .ok d => (d.get? name).getD []
  | .error _ => []

/-- Coefficient of basis function `a` for component `c`. -/
def coef (alpha : List ℝ) (dest : List Nat) (nComp c a : Nat) : ℝ :=
  alpha.getD (dest.getD (a * nComp + c) 0) 0

/-- Value of direction `d` of a discrete function at point `i`. -/
noncomputable def valueAt (el : Elem X) (y : Nat → ℝ) (i d : Nat) : ℝ :=
  ∑ a ∈ Finset.range el.nPhi, el.phi i a d * y a

/-- Spatial components of the values of a field. -/
def dirs (dim : Nat) (s : ESpace X) : Nat := if s.lagrange then 1 else dim

/-- Quadrature of the square of a vector function on one element. -/
noncomputable def quadSq (dim : Nat) (s : ESpace X) (el : Elem X) (v : Nat → Nat → Nat → ℝ) : ℝ :=
  ∑ i ∈ Finset.range el.nPts, ∑ c ∈ Finset.range s.nComp, ∑ d ∈ Finset.range (dirs dim s),
    el.det i * el.weights i * v i c d ^ 2

/-- The elements of dimension `dim` with their positions. -/
def cellsOf (dim : Nat) (s : ESpace X) : List (Elem X × Nat) :=
  s.elements.zipIdx.filter fun p => p.1.dim == dim

/-- Square of the L2 norm of `f - f_h` on the elements of dimension `dim`. -/
noncomputable def errorSq (dim : Nat) (fe : FeSpace X) (f : Exact X) (alpha : List ℝ)
    (q : String × ESpace X) : ℝ :=
  ((cellsOf dim q.2).map fun p => quadSq dim q.2 p.1 fun i c d =>
    f.val p.1.x c d i - valueAt p.1 (coef alpha (destOf fe p.2 q.1) q.2.nComp c) i d).sum

/-- Square of the L2 norm of `f_h`. -/
noncomputable def discreteSq (dim : Nat) (fe : FeSpace X) (alpha : List ℝ)
    (q : String × ESpace X) : ℝ :=
  ((cellsOf dim q.2).map fun p => quadSq dim q.2 p.1 fun i c d =>
    valueAt p.1 (coef alpha (destOf fe p.2 q.1) q.2.nComp c) i d).sum

/-- Square of the L2 norm of `f`. -/
noncomputable def normSq (dim : Nat) (f : Exact X) (q : String × ESpace X) : ℝ :=
  ((cellsOf dim q.2).map fun p => quadSq dim q.2 p.1 fun i c d => f.val p.1.x c d i).sum

/-- The fields that are not skipped. -/
def kept (skip : List String) (spaces : Dict String (ESpace X)) : List (String × ESpace X) :=
  spaces.filter fun q => q.1 ∉ skip

/-- The field has its coefficients in `alpha`; a scalar family has no more components than the
dimension. -/
structure HasCoefs (dim : Nat) (fe : FeSpace X) (n : Nat) (q : String × ESpace X) : Prop where
  comps : 0 < q.2.nComp
  small : q.2.lagrange = true → q.2.nComp ≤ dim
  dest : ∀ p ∈ cellsOf dim q.2, ∃ d l, fe.dests p.2 = .ok d ∧ d.get? q.1 = some l ∧
    l.length = p.1.nPhi * q.2.nComp ∧ ∀ k ∈ l, k < n
  phi : ∀ p ∈ cellsOf dim q.2, 0 < p.1.nPhi
  vals : q.2.lagrange = false → ∀ p ∈ cellsOf dim q.2, dim ≤ p.1.nVal

/-- The space with destinations shifted by `shift`. -/
def shifted (fe : FeSpace X) (shift : Nat) : FeSpace X where
  quadrature := fe.quadrature
  spaces := fe.spaces
  dests := fun i => (fe.dests i).map (fun d => List.map (fun r => (r.1, r.2.map (· + shift))) d)

/-- `f` is a function of the right size for the field. -/
structure IsExact (dim : Nat) (q : String × ESpace X) (f : Exact X) : Prop where
  rows : f.rows = q.2.nComp
  cols : q.2.lagrange = false → dim ≤ f.cols

/-- The determinants times weights are not negative. -/
def NonNeg (dim : Nat) (q : String × ESpace X) : Prop :=
  ∀ p ∈ cellsOf dim q.2, ∀ i < p.1.nPts, 0 ≤ p.1.det i * p.1.weights i

/-- The space as seen by the L2 projection. -/
def form (s : ESpace X) : FormSpace ℝ X := ⟨s.nComp, s.lagrange, s.elements.map (·.toElementTab)⟩

/-- The assembled equations of the L2 projection of `f` hold: for every global index `g`, the rows
of the local systems sent to `g` add up to 0. -/
def Projects (dim : Nat) (fe : FeSpace X) (f : Exact X) (alpha : List ℝ)
    (q : String × ESpace X) : Prop :=
  ∀ g, ((cellsOf dim q.2).map fun p =>
    ∑ c ∈ Finset.range q.2.nComp, ∑ a ∈ Finset.range p.1.nPhi,
      if (destOf fe p.2 q.1).getD (a * q.2.nComp + c) 0 = g then
        ∑ b ∈ Finset.range p.1.nPhi, mass (form q.2) p.1.toElementTab a b *
            coef alpha (destOf fe p.2 q.1) q.2.nComp c b
          - load (form q.2) p.1.toElementTab f.val c a
      else 0).sum = 0

end Verif.L2Error
