/-
Specification of the mixed form of `-Δu + u = f`.
-/
import Verif.Model.Oden
import Verif.Spec.Laplace

namespace Verif.Oden
open Laplace

variable {K X : Type} [Field K]

/-- `∫ φ_b φ_a` -/
def mass (q : Elem K X) (u : Tab K) (a b : Nat) : K :=
  ∑ i ∈ Finset.range q.nPts, q.det i * q.weights i * (u.val 0 i b 0 * u.val 0 i a 0)

/-- The matrix of `∫ q·v - u div v`, `∫ div q w + u w` -/
def matrix (q : Elem K X) (u : Tab K) (a b : Nat) : K :=
  if a < q.tab.nPhi then
    if b < q.tab.nPhi then fluxMass q (fun _ _ => 1) b a else - divPair q u (b - q.tab.nPhi) a
  else if b < q.tab.nPhi then divPair q u (a - q.tab.nPhi) b else mass q u (a - q.tab.nPhi) (b - q.tab.nPhi)

/-- The residual in `alpha` -/
def residual (q : Elem K X) (u : Tab K) (rhs : X → Nat → Nat → K) (alpha : Nat → K) (a : Nat) : K :=
  ∑ b ∈ Finset.range (q.tab.nPhi + u.nPhi), matrix q u a b * alpha b - mixedSource q u rhs a

/-- `u_h` in the point `i` -/
def scalarAt (q : Elem K X) (u : Tab K) (v : Nat → K) (i : Nat) : K :=
  ∑ a ∈ Finset.range u.nPhi, v (q.tab.nPhi + a) * u.val 0 i a 0

/-- The spaces and the source that the form reads -/
structure Input (spaces : Dict String (FSpace (Elem K X))) (fs : Data K X) (iel : Nat) (q u : Elem K X)
    (qComp uComp : Nat) (rhs : X → Nat → Nat → K) : Prop where
  flux : ∃ qs, spaces.getItem "q" = .ok qs ∧ qs.elements[iel]? = some q ∧ qs.nComp = qComp
  scalar : ∃ us, spaces.getItem "u" = .ok us ∧ us.elements[iel]? = some u ∧ us.nComp = uComp
  rhs : fs.rhs = some rhs

end Verif.Oden
