/-
Model of the tables with errors and rates side by side, and of the rows of errors that the drivers
of scalar elliptic problems put into them.

* the merge of errors and rates: examples/md_degenerate_elliptic_scalar/md_degenerate_elliptic_scalar.py:712-744
  (the same lines in md_elliptic_scalar.py:514-547, degenerate_mixed_flow_model.py:499-547,
  darcy_elliptic_degenerate_scenario_1.py:424-463, darcy_elliptic_degenerate_scenario_2.py:572-620)
* the headers: md_degenerate_elliptic_scalar.py:750-751, md_elliptic_scalar.py:553-554,
  degenerate_mixed_flow_model.py:552-553, darcy_elliptic_degenerate_scenario_1.py:468
* the rows of errors: md_degenerate_elliptic_scalar.py:500-550, md_elliptic_scalar.py:395,
  degenerate_mixed_flow_model.py:268-275, 311-318, 361-368,
  darcy_elliptic_degenerate_scenario_1.py:262-269, 289-293,
  darcy_elliptic_degenerate_scenario_2.py:391-410, 433-440
* which fields `l2_error_projected` reports: src/postprocess/l2_error_post_processor.py:66-118

Simplifications
* Those of `Verif.Model.Rates`; an entry that numpy has as `nan` is `none`.
* The errors of the fields are given numbers (C67 is about them).  The errors of projections depend
  on the space and on the vector handed to `l2_error_projected`.
* The texts of the headers are lists of names.
* Without levels the mixed-dimensional drivers stop before the tables; the model of all drivers stops at the assertion.
-/
import Verif.Model.Rates

namespace Verif.MergedTables
open MeshGraph Trace Rates

/-- `raw[start::2] = source`, one row: shapes must agree, or the source has one entry -/
def assignEvery {α : Type} (raw : List α) (start : Nat) (source : List α) : Res (List α) :=
  if source.length = (raw.length - start + 1) / 2 then
    .ok (raw.mapIdx fun p x => if start ≤ p ∧ (p - start) % 2 = 0 then source.getD ((p - start) / 2) x else x)
  else if source.length = 1 then
    .ok (raw.mapIdx fun p x => if start ≤ p ∧ (p - start) % 2 = 0 then source.headD x else x)
  else .error .valueError

/-- md_degenerate_elliptic_scalar.py:732-741, one row -/
noncomputable def mergeRow (errors rates : List (Option ℝ)) : Res (List (Option ℝ)) := do
  let raw := List.replicate (errors.length + rates.length) (some (0 : ℝ))
  let first ← getIdx errors 0
  let raw := raw.set 0 first
  let raw ← assignEvery raw 1 (errors.drop 1)
  assignEvery raw 2 rates

/-- md_degenerate_elliptic_scalar.py:717-741 -/
noncomputable def merged (nData : Nat) (levels : List Level) : Res (List (List (Option ℝ))) := do
  let (errorData, ratesData) ← plain nData levels
  let ratesData := List.replicate (nData - 1) none :: ratesData
  if errorData.length ≠ ratesData.length then throw .assertionError
  mapRes (fun p => mergeRow (p.1.map some) p.2) (errorData.zip ratesData)

/-- `raw_data[:, idx]`, one row -/
def columns (idx : List Nat) (row : List (Option ℝ)) : Res (List (Option ℝ)) := fancy row idx

/-- md_degenerate_elliptic_scalar.py:713 -/
def normalMd : List Nat := [0, 1, 2, 3, 4, 7, 8, 9, 10]

/-- md_degenerate_elliptic_scalar.py:714 -/
def enhancedMd : List Nat := [0, 5, 6, 11, 12]

/-- `raw_data[:, 0 : raw_data.shape[1] - k]`, one row -/
def allBut (k : Nat) (row : List (Option ℝ)) : List (Option ℝ) := row.take (row.length - k)

/-- `raw_data[:, np.insert(np.arange(raw_data.shape[1] - k, raw_data.shape[1]), 0, 0)]`, one row -/
def lastAnd (k : Nat) (row : List (Option ℝ)) : Res (List (Option ℝ)) :=
  fancy row (0 :: List.range' (row.length - k) k)

/-- the scaled fields and the physical ones -/
inductive Side where
  | scaled
  | physical
  deriving DecidableEq, Repr

/-- the fields of the two product spaces, in order -/
def fields : Side → List String
  | .scaled => ["v", "q"]
  | .physical => ["u", "p"]

/-- l2_error_post_processor.py:66-118: the fields that are not skipped, in order -/
def projected (space : Side) (error : String → ℝ) (skip : List String) : List ℝ :=
  ((fields space).filter fun f => f ∉ skip).map error

/-- The numbers that the drivers compute: errors of the fields, and errors of projections by space,
vector and field -/
structure Numbers where
  h : ℝ
  error : String → ℝ
  proj : Side → Side → String → ℝ

/-- md_degenerate_elliptic_scalar.py:500-550 -/
noncomputable def mdRow (n : Numbers) : Res (List ℝ) := do
  let q ← getIdx (projected .scaled (n.proj .scaled .scaled) ["v"]) 0
  let p ← getIdx (projected .physical (n.proj .physical .physical) ["u"]) 0
  pure [n.error "v", n.error "q", q, n.error "u", n.error "p", p]

/-- md_elliptic_scalar.py:375-395 -/
noncomputable def mdPlainRow (n : Numbers) : Res (List ℝ) := do
  let p ← getIdx (projected .physical (n.proj .physical .physical) ["u"]) 0
  pure [n.error "u", n.error "p", p]

/-- degenerate_mixed_flow_model.py:268-275, 311-318, 361-368 -/
noncomputable def flowRow (n : Numbers) : Res (List ℝ) := do
  let q ← getIdx (projected .scaled (n.proj .scaled .scaled) ["v"]) 0
  let p ← getIdx (projected .scaled (n.proj .scaled .physical) ["u"]) 0
  pure [n.error "q", n.error "v", n.error "p", n.error "u", q, p]

/-- darcy_elliptic_degenerate_scenario_1.py:262-269, 289-293 -/
noncomputable def scenarioOneRow (n : Numbers) : Res (List ℝ) := do
  let p ← getIdx (projected .physical (n.proj .physical .physical) ["u"]) 0
  pure [n.error "p", n.error "u", p]

/-- darcy_elliptic_degenerate_scenario_2.py:391-410, 433-440 -/
noncomputable def scenarioTwoRow (n : Numbers) : Res (List ℝ) := do
  let q ← getIdx (projected .scaled (n.proj .scaled .scaled) ["v"]) 0
  let p ← getIdx (projected .physical (n.proj .physical .physical) ["u"]) 0
  pure [n.error "q", n.error "v", n.error "p", n.error "u", q, p]

/-- the merged table of a driver, from its numbers at the levels -/
noncomputable def tableOf (row : Numbers → Res (List ℝ)) (nData : Nat) (levels : List Numbers) :
    Res (List (List (Option ℝ))) := do
  let rows ← mapRes row levels
  merged nData ((levels.zip rows).map fun p => ⟨0, 0, p.1.h, p.2, []⟩)

/-- md_degenerate_elliptic_scalar.py:750-751 -/
def normalHeaderMd : List String := ["h", "v", "rate", "q", "rate", "u", "rate", "p", "rate"]
def enhancedHeaderMd : List String := ["h", "proj q", "rate", "proj p", "rate"]

/-- md_elliptic_scalar.py:553-554 -/
def normalHeaderPlain : List String := ["h", "u", "rate", "p", "rate"]
def enhancedHeaderPlain : List String := ["h", "proj p", "rate"]

/-- degenerate_mixed_flow_model.py:552-553, darcy_elliptic_degenerate_scenario_2.py:625-626: the
second text ends with a comma, which makes one more name -/
def normalHeaderFlow : List String := ["h", "q", "rate", "v", "rate", "p", "rate", "u", "rate"]
def enhancedHeaderFlow : List String := ["h", "proj q", "rate", "proj p", "rate", ""]

/-- darcy_elliptic_degenerate_scenario_1.py:468 -/
def headerOne : List String := ["h", "p", "rate", "u", "rate", "proj p", "rate"]

end Verif.MergedTables
