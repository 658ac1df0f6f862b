/-
Model of src/geometry/compute_normal.py, over the real numbers.
-/
import Verif.Model.PointGeometry

namespace Verif.Normal
open MeshBuild MeshGraph Trace MeshMetrics Geometry
open scoped Classical

/-- `v / np.linalg.norm(v)`; `none` stands for the vector of `nan` that numpy computes for `v = 0`. -/
noncomputable def unit (v : Pt ℝ) : Option (Pt ℝ) :=
  if norm3 v = 0 then none else some fun k => v k / norm3 v

/-- `mesh.points[cell.node_tags[i]]` -/
def nodePoint (points : Points ℝ) (c : Cell) (i : Nat) : Res (Pt ℝ) := do
  let t ← getIdx c.nodeTags i
  getIdx points t

/-- compute_normal.py:11-22: the direction before its sign is chosen.  Other dimensions leave the
variable `normal` unset. -/
noncomputable def rawNormal (points : Points ℝ) (c1 : Cell) (x1 : Pt ℝ)
    (outward : Option (Pt ℝ)) : Res (Option (Pt ℝ)) :=
  match c1.dimension with
  | 0 => pure (outward.bind unit)
  | 1 => do
    let p1 ← nodePoint points c1 1
    let p0 ← nodePoint points c1 0
    pure ((unit (p1 - p0)).bind fun v => outward.bind fun o =>
      (unit (cross v o)).map fun w => cross v w)
  | 2 => do
    let p0 ← nodePoint points c1 0
    let p1 ← nodePoint points c1 1
    pure (unit (cross (p0 - x1) (p1 - x1)))
  | _ => .error .nameError

/-- compute_normal.py:7-24 `normal` of the facet `c1` of the cell `c0` -/
noncomputable def normal (points : Points ℝ) (c0 c1 : Cell) : Res (Option (Pt ℝ)) := do
  let x1 ← cellCentroid points c1
  let x0 ← cellCentroid points c0
  let outward := unit (x1 - x0)
  let n ← rawNormal points c1 x1 outward
  match n, outward with
  | none, _ => pure none
  | some n, none => pure (some n)            -- comparisons with `nan` are false
  | some n, some o => pure (some (if dot n o < 0 then -n else n))

end Verif.Normal
