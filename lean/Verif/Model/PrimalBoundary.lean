/-
Model of `LaplacePrimalWeakFormBCDirichlet.evaluate_form`
(src/weak_forms/laplace_primal_weak_form.py:77-157), in exact arithmetic.

* Quadrature, determinants and the number of functions of the facet are parameters (`Facet`), and so
  are the values of the data in the points.
* The argument `alpha` is not read.
* How the element of the neighbour is looked up is a parameter: the code looks it up with `elementByIndex`.
-/
import Verif.Model.BasisTrace
import Verif.Model.Elasticity

namespace Verif.PrimalBoundary
open MeshBuild MeshGraph Dof Space Trace Orient Basis BasisTrace Assembly L2Form Elasticity

/-- laplace_primal_weak_form.py:127-132: the first function of one entity of the facet, if there is one -/
def firstDof (entityDofs : List (List (List Nat))) (c0 : Cell) (d id : Nat) : Res (List Nat) := do
  let ids ← Cell.subIds c0 d
  let i ← indexOf ids id
  let row ← getIdx entityDofs d
  let dofs ← getIdx row i
  match dofs with
  | [] => pure []
  | b :: _ => pure [b]

/-- laplace_primal_weak_form.py:123-136: the functions that are not zero on the facet; there is nothing to
concatenate without any. -/
def closureDofs (entityDofs : List (List (List Nat))) (c1 c0 : Cell) : Res (List Nat) := do
  let parts ← mapRes (fun d => do
    let ids ← Cell.subIds c1 d
    let l ← mapRes (firstDof entityDofs c0 d) ids
    pure l.flatten) (List.range (c1.dimension + 1))
  if parts.flatten = [] then .error .valueError else pure parts.flatten

section
variable {K : Type} [Field K]

/-- A row of `len` values added to one of `n` values: they have the same length, or there is a single value. -/
def spread (n : Nat) (phi : List (Nat → Nat → Nat → K)) : Res (Nat → Nat → K) :=
  if phi.length = n then .ok fun i a => (phi.getD a fun _ _ _ => 0) 0 i 0
  else match phi with
    | [f] => .ok fun i _ => f 0 i 0
    | _ => .error .valueError

/-- laplace_primal_weak_form.py:138-157 -/
def primalDirichlet (f : Facet K) (comps : Nat) (t : Table K) (dofs : List Nat) (pD : Nat → Nat → K) :
    Res (Vec K × Mat K) :=
  if f.nPts = 0 then componentBlocks f.nPhi comps (fun _ _ => 0) (fun _ _ _ => 0)
  else do
    let phi ← fancy t.phi dofs
    let val ← spread f.nPhi phi
    componentBlocks f.nPhi comps
      (fun c a => ∑ i ∈ Finset.range f.nPts, - (penalty K * f.det i * f.weights i * pD i c * val i a))
      (fun _ a b => ∑ i ∈ Finset.range f.nPts, penalty K * f.det i * f.weights i * (val i a * val i b))

/-- laplace_primal_weak_form.py:77-157 -/
noncomputable def evaluate [LinearOrder K] (search : Space → Cell → Nat → Res Element)
    (qr : ∀ d, Matrix (Fin 3) (Fin d) K → Matrix (Fin 3) (Fin d) K × Matrix (Fin d) (Fin d) K)
    (pts : Points K) (kind : Kind K) (s : Space) (iel : Nat) (f : Facet K) (points : List (List K))
    (pD : Nat → Nat → K) : Res (Vec K × Mat K) := do
  let bc ← getIdx s.bcElements iel
  let el ← search s bc.cell 0
  let t ← trace qr pts s.mesh.cells kind points bc.cell el.cell el.bcEntities true
  let dofs ← closureDofs kind.data.entityDofs bc.cell el.cell
  primalDirichlet f s.nComp t dofs pD

end

end Verif.PrimalBoundary
