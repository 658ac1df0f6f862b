/-
Model of the field split preconditioner set up in the drivers of mixed elasticity
(examples/cauchy_elasticity/mfe_elasticity_example_1.py:243-273 for three fields;
examples/cosserat_elasticity/mfe_cosserat_elasticity_example_2.py:272-297 for four fields; the same
in the other drivers of mixed elements).

Simplifications
* PETSc's additive field split is modelled by what it computes: the parts of the vector are given to
  the solvers of the parts, and the results are added to a vector of zeros.
* The solvers of the parts are parameters (a complete factorisation of the first block, an
  incomplete one of the second).  Exact arithmetic.
-/
import Verif.Model.Space
import Mathlib.Algebra.BigOperators.Group.Finset.Basic
import Mathlib.Algebra.Ring.Defs

namespace Verif.FieldSplit
open Space

/-- `np.array(range(fields_idx[a], fields_idx[b]))` -/
def indices (idx : List Nat) (a b : Nat) : Res (List Nat) := do
  let lo ← getIdx idx a
  let hi ← getIdx idx b
  pure (List.range' lo (hi - lo))

/-- mfe_elasticity_example_1.py:248-250 -/
def splitThree (dofs : List Nat) : Res (List Nat × List Nat) := do
  let idx := strides dofs
  let s ← indices idx 0 1
  let u ← indices idx 1 3
  pure (s, u)

/-- mfe_cosserat_elasticity_example_2.py:276-278 -/
def splitFour (dofs : List Nat) : Res (List Nat × List Nat) := do
  let idx := strides dofs
  let s ← indices idx 0 2
  let u ← indices idx 2 4
  pure (s, u)

section
variable {K : Type} [CommRing K]

/-- The entries of a vector in the places `is` -/
def gatherAt (is : List Nat) (x : Nat → K) : Nat → K := fun k => x (is.getD k 0)

/-- `y[is] += z` -/
def scatterAt (is : List Nat) (y z : Nat → K) : Nat → K := fun i =>
  y i + ∑ k ∈ Finset.range is.length, if is.getD k 0 = i then z k else 0

/-- The additive field split: for each part its places and its solver -/
def additive (parts : List (List Nat × ((Nat → K) → Nat → K))) (x : Nat → K) : Nat → K :=
  parts.foldl (fun y p => scatterAt p.1 y (p.2 (gatherAt p.1 x))) fun _ => 0

/-- mfe_elasticity_example_1.py:254-257: the preconditioner of the two parts -/
def precondition (split : List Nat × List Nat) (solveS solveU : (Nat → K) → Nat → K) (x : Nat → K) :
    Nat → K :=
  additive [(split.1, solveS), (split.2, solveU)] x

end

end Verif.FieldSplit
