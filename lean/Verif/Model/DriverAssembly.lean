/-
Model of the assembly written out in the example drivers
(examples/cauchy_elasticity/mfe_elasticity_example_1.py:128-217: `scatter_form_data`,
`scatter_riesz_form_data`, `scatter_bc_form` and the loops; the same in six other drivers of mixed
elements, with comments or another progress report in cosserat_elasticity and cosserat_ecmor;
cauchy_elasticity/cg_elasticity_example_2.py:94-148 always keeps the upper triangle and lets the
boundary forms contribute to the matrix; cauchy_elasticity/th_elasticity_example_1.py:99-148 keeps
all).

Simplifications
* Real numbers instead of floating point.  The matrix is a table of values: the storage scheme, the
  progress reports and the time are left out.
* Elements are given by the outcome of `destination_indexes` and `evaluate_form`.
-/
import Verif.Model.Assembly
import Mathlib.Data.Real.Basic

namespace Verif.DriverAssembly
open Space Assembly

/-- `np.isclose(x, 1.0e-16)` -/
def Dropped (x : ℝ) : Prop := |x - 1 / 10 ^ 16| ≤ 1 / 10 ^ 8 + 1 / 10 ^ 5 * |(1 / 10 ^ 16 : ℝ)|

/-- `rg[dest] += r_el`: all entries are read before any is written, a vector of one entry is
broadcast. -/
def addFancy (rg : List ℝ) (dest : List Nat) (r : List ℝ) : Res (List ℝ) := do
  let cur ← gather rg dest
  let write (vals : List ℝ) := (dest.zip vals).foldl (fun a p => a.set p.1 p.2) rg
  if r.length = dest.length then pure (write (List.zipWith (· + ·) cur r))
  else match r with
    | [v] => pure (write (cur.map (· + v)))
    | _ => throw .valueError

/-- mfe_elasticity_example_1.py:135 -/
def scatterResidual (dest : List Nat) (r : List ℝ) : Step (Sys ℝ) := fun s =>
  match addFancy s.res dest r with
  | .ok res => ({ s with res := res }, none)
  | .error e => (s, some e)

open Classical in
/-- mfe_elasticity_example_1.py:138-152 -/
noncomputable def scatterMatrix (sym : Bool) (jac : List (List ℝ)) (dest : List Nat) :
    Step (Sys ℝ) :=
  let data := jac.flatten
  let row := dest.flatMap fun d => List.replicate dest.length d
  let col := (List.replicate dest.length dest).flatten
  let nnz := (List.range data.length).filter fun k => decide (∀ v, data[k]? = some v → ¬ Dropped v)
  forEach (fun k => withRes (getIdx row k) fun r => withRes (getIdx col k) fun c =>
    withRes (getIdx data k) fun v =>
      if sym = true ∧ ¬ r ≤ c then fun s => (s, none) else setValue r c v) nnz

/-- mfe_elasticity_example_1.py:154 -/
def scatterDiagonal (dest : List Nat) : Step (Sys ℝ) :=
  forEach (fun i => setValue i i (0 : ℝ)) dest

/-- mfe_elasticity_example_1.py:128-154 `scatter_form_data` -/
noncomputable def scatterForm (sym : Bool) (el : Res (List Nat × List ℝ × List (List ℝ))) :
    Step (Sys ℝ) :=
  withRes el fun e => (scatterResidual e.1 e.2.1).andThen
    ((scatterMatrix sym e.2.2 e.1).andThen (scatterDiagonal e.1))

/-- mfe_elasticity_example_1.py:167-189 `scatter_riesz_form_data` -/
noncomputable def scatterRiesz (sym : Bool) (el : Res (List Nat × List ℝ × List (List ℝ))) :
    Step (Sys ℝ) :=
  withRes el fun e => scatterMatrix sym e.2.2 e.1

/-- mfe_elasticity_example_1.py:202-208 `scatter_bc_form`; with `bcMatrix`
cg_elasticity_example_2.py:126-141 -/
noncomputable def scatterBc (sym bcMatrix : Bool)
    (el : Res (List Nat × List ℝ × List (List ℝ))) : Step (Sys ℝ) :=
  withRes el fun e => (scatterResidual e.1 e.2.1).andThen
    (if bcMatrix = true then scatterMatrix sym e.2.2 e.1 else fun s => (s, none))

/-- mfe_elasticity_example_1.py:210-214 -/
noncomputable def assemble (sym bcMatrix : Bool)
    (els bcs : List (Res (List Nat × List ℝ × List (List ℝ)))) : Step (Sys ℝ) :=
  (forEach (scatterForm sym) els).andThen (forEach (scatterBc sym bcMatrix) bcs)

/-- mfe_elasticity_example_1.py:218-219 -/
noncomputable def assembleRiesz (sym : Bool)
    (els : List (Res (List Nat × List ℝ × List (List ℝ)))) : Step (Sys ℝ) :=
  forEach (scatterRiesz sym) els

end Verif.DriverAssembly
