/-
Model of `l2_projector` (src/postprocess/projectors.py) up to the linear solve, in exact
arithmetic.

The local form is a parameter (`Verif.Model.L2Form` models the one used); the system is solved by
PETSc, which is not modelled.
-/
import Verif.Model.Assembly
import Mathlib.Algebra.Order.Field.Basic
import Mathlib.Algebra.Order.Group.Abs

namespace Verif.Projector
open Space Assembly

variable {K : Type}

/-- An `evaluate_form(i, alpha_l)` -/
abbrev Eval (K : Type) := Nat → List K → Res (List K × List (List K))

/-- `rg[dest] += r`: the new values are computed from the old array and then written one after
the other, so that of repeated destinations only the last one counts. -/
def fancyAdd [Add K] (a : List K) (dest : List Nat) (r : List K) : Res (List K) :=
  if dest.length ≠ r.length then .error .valueError
  else do
    let old ← gather a dest
    pure ((dest.zip (old.zip r)).foldl (fun a p => a.set p.1 (p.2.1 + p.2.2)) a)

section
variable [Field K] [LinearOrder K]

/-- `np.isclose(x, 1.0e-16)`: |x - b| <= 1e-8 + 1e-5 |b| -/
def isClose (x : K) : Bool := |x - 1 / 10 ^ 16| ≤ 1 / 10 ^ 8 + 1 / 10 ^ 5 * (1 / 10 ^ 16)

/-- projectors.py:38-54: the entries kept are written, with the symmetric option only those of
the upper triangle. -/
def setKept (sym : Bool) (data : List K) (row col : List Nat) : Step (Sys K) :=
  let nnz := (List.range data.length).filter fun k =>
    match data[k]? with
    | some v => !isClose v
    | none => false
  forEach (fun k => withRes (getIdx row k) fun r => withRes (getIdx col k) fun c =>
    if sym && !decide (r ≤ c) then fun s => (s, none)
    else withRes (getIdx data k) fun v => setValue r c v) nnz

/-- projectors.py:27-54 `scatter_form_data`; `n` is the length of `alpha`, whose entries are 0. -/
def scatter (p : Product) (eval : Eval K) (dofShift : Nat) (sym : Bool) (n i : Nat) :
    Step (Sys K) :=
  withRes (p.destinationIndexes i none) fun dest =>
  let dest := dest.map (· + dofShift)
  withRes (gather (List.replicate n 0) dest) fun al =>
  withRes (eval i al) fun re => fun s =>
  match fancyAdd s.res dest re.1 with
  | .error e => (s, some e)
  | .ok R =>
    setKept sym re.2.flatten (dest.flatMap fun d => List.replicate dest.length d)
      (List.replicate dest.length dest).flatten { s with res := R }

/-- projectors.py:8-58: the space afterwards, and the system (`rg`, `A`) or the exception. -/
def l2Assemble (p : Product) (eval : Eval K) (dofShift : Nat) (sym : Bool) :
    Product × Res (Sys K) :=
  let p0 : Product := { p with dofShift := 0 }
  match p0.spaces with
  | [] => (p0, .error .indexError)
  | (_, s) :: _ =>
    match forEach (scatter p0 eval dofShift sym p.nDof) (List.range s.elements.length)
        ⟨List.replicate p.nDof 0, ⟨p.nDof, fun _ _ => 0⟩⟩ with
    | (sys, none) => ({ p0 with dofShift := p.dofShift }, .ok sys)
    | (_, some e) => (p0, .error e)

end

end Verif.Projector
