/-
Model of src/geometry/operations/polygon_geometry_operations.py:6-100 and 128-150, over the real numbers and for
points with three coordinates (for `winding_number`: two).

* `np.arctan2(y, x)` is the argument of the complex number `x + i y`.
* Points of fewer than three vertices raise `IndexError`, also where numpy stops earlier (`np.max` of nothing).
-/
import Verif.Model.PointGeometry
import Mathlib.Analysis.SpecialFunctions.Complex.Arg
import Mathlib.Algebra.Order.Round
import Mathlib.Algebra.Order.ToIntervalMod
import Mathlib.Data.Sign.Basic

namespace Verif.Polygon
open MeshBuild MeshGraph Trace MeshMetrics Geometry
open scoped Classical

/-- `np.mean(points, axis=0)` -/
noncomputable def mean (points : List (Pt ℝ)) : Pt ℝ := fun k => (points.map (· k)).sum / points.length

/-- `np.argmax` -/
noncomputable def argmax (l : List ℝ) : Nat := l.findIdx fun x => decide (∀ y ∈ l, y ≤ x)

/-- `np.argmin` -/
noncomputable def argmin (l : List ℝ) : Nat := l.findIdx fun x => decide (∀ y ∈ l, x ≤ y)

/-- polygon_geometry_operations.py:6-8 `__normalize` -/
noncomputable def normalize (v : Pt ℝ) : Pt ℝ := if norm3 v ≠ 0 then (norm3 v)⁻¹ • v else v

/-- polygon_geometry_operations.py:34-54: the three points that span the plane.  `rtol` and `atol` are the
defaults of `np.isclose`, 1e-5 and 1e-8. -/
noncomputable def planePoints (rtol atol : ℝ) (points : List (Pt ℝ)) : Res Triangle := do
  let xc := mean points
  let dxc := points.map fun p => norm3 (p - xc)
  let far ← getIdx dxc (argmax dxc)
  let near ← getIdx dxc (argmin dxc)
  if IsClose rtol atol far near then do
    let pa ← getIdx points 0
    let pb ← getIdx points 1
    let pc ← getIdx points 2
    pure (pa, pb, pc)
  else do
    let pa ← getIdx points (argmax dxc)
    let red := points.eraseIdx (argmax dxc)
    let red := red ++ [mean red]
    let dRed := dxc.eraseIdx (argmax dxc) ++ [norm3 (mean red - xc)]
    let pb ← getIdx red (argmax dRed)
    let pc ← getIdx red (argmin dRed)
    pure (pa, pb, pc)

/-- polygon_geometry_operations.py:33-55 `polygon_normal` -/
noncomputable def polygonNormal (rtol atol : ℝ) (points : List (Pt ℝ)) : Res (Pt ℝ) := do
  let t ← planePoints rtol atol points
  pure (normalize (cross (t.2.1 - t.1) (t.2.2 - t.1)))

/-- polygon_geometry_operations.py:11-19 `__edge_direction` -/
noncomputable def edgeDirection (v0 v1 v2 normal : Pt ℝ) : ℝ :=
  dot normal (normalize (cross (v1 - v0) (v2 - v1)))

/-- `points[i % n]` -/
def cyclic (points : List (Pt ℝ)) (i : Nat) : Pt ℝ := points.getD (i % points.length) 0

/-- polygon_geometry_operations.py:58-82 `convex_q` -/
noncomputable def convexQ (rtol atol : ℝ) (points : List (Pt ℝ)) : Res Bool :=
  if points.length < 4 then .ok true
  else do
    let normal ← polygonNormal rtol atol points
    let signs : List ℤ := (List.range points.length).map fun i =>
      (SignType.sign (edgeDirection (cyclic points i) (cyclic points (i + 1)) (cyclic points (i + 2))
        normal) : ℤ)
    pure (decide (|signs.sum| = points.length))

/-- polygon_geometry_operations.py:22-30 `__projection_directions` -/
noncomputable def projectionDirections (rtol atol : ℝ) (points : List (Pt ℝ)) : Res (List Nat) := do
  let normal ← polygonNormal rtol atol points
  pure ([0, 1, 2].eraseIdx (argmax [|normal 0|, |normal 1|, |normal 2|]))

/-! ### Winding numbers -/

/-- `np.unwrap` brings a difference of angles to the interval from `-π` to `π`. -/
noncomputable def wrap (dd : ℝ) : ℝ :=
  if |dd| < Real.pi then dd
  else
    let m := toIcoMod Real.two_pi_pos (-Real.pi) dd
    if m = -Real.pi ∧ 0 < dd then Real.pi else m

/-- Python's `round`: halves go to the even neighbour -/
noncomputable def pyRound (x : ℝ) : ℤ :=
  if Int.fract x = 1 / 2 then (if Even ⌊x⌋ then ⌊x⌋ else ⌊x⌋ + 1) else round x

/-- The differences of consecutive angles -/
noncomputable def angleDiffs : List ℝ → List ℝ
  | a :: b :: l => wrap (b - a) :: angleDiffs (b :: l)
  | _ => []

/-- polygon_geometry_operations.py:85-100 `winding_number`; points of the plane are complex numbers. -/
noncomputable def windingNumber (p : ℂ) (polygon : List ℂ) : ℤ :=
  pyRound ((angleDiffs (polygon.map fun v => (v - p).arg)).sum / (2 * Real.pi))

/-- The projected point: `points[:, dir_idx]`, with the two coordinates that are kept -/
def project (dirs : List Nat) (p : Pt ℝ) : Res ℂ := do
  let i ← getIdx dirs 0
  let j ← getIdx dirs 1
  let x ← getIdx [p 0, p 1, p 2] i
  let y ← getIdx [p 0, p 1, p 2] j
  pure ⟨x, y⟩

/-- polygon_geometry_operations.py:133-150: what `triangulate_polygon` does for polygons that are not convex.
scipy's `Delaunay` is a parameter that gives the numbers of the corners of its triangles. -/
noncomputable def triangulateOther (rtol atol : ℝ) (delaunay : List ℂ → Res (List (Nat × Nat × Nat)))
    (points : List (Pt ℝ)) : Res (List Triangle) := do
  let dirs ← projectionDirections rtol atol points
  let flat ← mapRes (project dirs) points
  let simplices ← delaunay flat
  let windings ← mapRes (fun s : Nat × Nat × Nat => do
    let a ← getIdx flat s.1
    let b ← getIdx flat s.2.1
    let c ← getIdx flat s.2.2
    pure (windingNumber ((a + b + c) / 3) flat)) simplices
  let valid := (simplices.zip windings).filter fun s => s.2 != 0
  mapRes (fun s : (Nat × Nat × Nat) × ℤ => do
    let a ← getIdx points s.1.1
    let b ← getIdx points s.1.2.1
    let c ← getIdx points s.1.2.2
    pure (a, b, c)) valid

/-- polygon_geometry_operations.py:128-150 `triangulate_polygon` with its convexity test -/
noncomputable def triangulate (rtol atol : ℝ) (delaunay : List ℂ → Res (List (Nat × Nat × Nat)))
    (points : List (Pt ℝ)) : Res (List Triangle) := do
  if ← convexQ rtol atol points then triangulateConvexPolygon points
  else triangulateOther rtol atol delaunay points

end Verif.Polygon
