/-
Model of the intersection of two triangles, `TriangleTriangleIntersectionTest`
(src/geometry/operations/triangle_triangle_intersection_test.py:14-19, 148-443), over the real
numbers.  The basic tests are in Model/TriangleTest.lean.

* `math.copysign(1, x)` is 1 for 0; the sign of a zero is not modelled.
* A result is written as for `lineLineTest`: `none` is `(False, …)`, `some (x, none)` is
  `(True, x, np.array)`, `some (x, some y)` is `(True, x, y)`.
* Where `line_plane_intersection` divides by zero the points are `nan`; the model stops there (`nan`).
* What is printed is left out.
-/
import Verif.Model.TriangleTest

namespace Verif.Geometry
open Trace MeshMetrics
open scoped Classical

/-- What a test answers. -/
abbrev Answer := Option (Pt ℝ × Option (Pt ℝ))

/-- Ways in which the test gives no answer: `nan` coordinates, or `TypeError` from
`warnings.warn(message, n)`, whose second argument is not a class of warnings. -/
inductive Stuck where
  | nan
  | typeError
  deriving DecidableEq

/-- triangle_triangle_intersection_test.py:14-19 `coplanar_measurement` -/
noncomputable def coplanarTest (a b c p : Pt ℝ) : ℝ :=
  Matrix.det !![a 0, a 1, a 2, 1; b 0, b 1, b 2, 1; c 0, c 1, c 2, 1; p 0, p 1, p 2, 1] / 6

/-- `math.copysign(1, x)` -/
noncomputable def signOf (x : ℝ) : Int := if x < 0 then -1 else 1

/-- `list({0, 1, 2} - {np.argmax(np.abs(v))})`; for `v = 0`, where numpy divides by zero before, `argmax` is 0
as well. -/
noncomputable def keptAxes (v : Pt ℝ) : Fin 3 × Fin 3 :=
  if |v 1| ≤ |v 0| ∧ |v 2| ≤ |v 0| then (1, 2)
  else if |v 2| ≤ |v 1| then (0, 2)
  else (0, 1)

/-- triangle_triangle_intersection_test.py:296-309: the last crossing other than `x` -/
noncomputable def lastOther (eps : ℝ) (x : Pt ℝ) (l : List Answer) : Option (Pt ℝ) :=
  l.foldl (fun acc r => match r with
    | some (y, _) => if norm3 (x - y) < eps then acc else some y
    | none => acc) none

/-- triangle_triangle_intersection_test.py:208-316 `intersect_with_coplanar_segment` -/
noncomputable def coplanarSegment (eps : ℝ) (pos : Fin 3 × Fin 3) (t : Triangle) (p q : Pt ℝ) : Answer :=
  let (a, b, c) := t
  let on (x y z : Pt ℝ) : Prop := |colinearTest pos x y z| < eps
  let ab := lineLineTest eps pos a b p q
  let bc := lineLineTest eps pos b c p q
  let ca := lineLineTest eps pos c a p q
  if on a b p ∧ on a b q then ab
  else if on b c p ∧ on b c q then bc
  else if on c a p ∧ on c a q then ca
  else
    let pIn := pointInTriangle eps pos a b c p = true
    let qIn := pointInTriangle eps pos a b c q = true
    if pIn ∧ qIn then some (p, some q)
    else if ¬ pIn ∧ ¬ qIn then
      match [ab, bc, ca].filterMap (Option.map Prod.fst) with
      | [x, y] => if norm3 (x - ![1, 1, 1]) < eps then none else some (x, some y)
      | _ => none
    else
      let x := if pIn then p else q
      match lastOther eps x [ab, bc, ca] with
      | none => none
      | some y => some (x, some y)

/-- triangle_triangle_intersection_test.py:148-206 `intersect_with_coplanar_point_and_segment`: the two points of
the answer `(True, pti, qti)`, each of which may be `None`. -/
noncomputable def coplanarPoint (eps : ℝ) (pos : Fin 3 × Fin 3) (t : Triangle) (p ps qs : Pt ℝ) :
    Except Stuck (Option (Pt ℝ) × Option (Pt ℝ)) :=
  let (a, b, c) := t
  match linePlaneIntersection t ps qs with
  | none => .error .nan
  | some q =>
    let ab := lineLineTest eps pos a b p q
    let bc := lineLineTest eps pos b c p q
    let ca := lineLineTest eps pos c a p q
    let n := ([ab, bc, ca].filter Option.isSome).length
    if n = 1 ∨ n = 2 then
      if pointInTriangle eps pos a b c p = true then
        .ok (some p, ((ca.or bc).or ab).map Prod.fst)
      else match ab, bc, ca with
        | some x, some y, none => .ok (some x.1, some y.1)
        | none, some x, some y => .ok (some x.1, some y.1)
        | some y, none, some x => .ok (some x.1, some y.1)
        | _, _, _ => .ok (none, none)
    else .error .typeError

/-- triangle_triangle_intersection_test.py:371-393: the segment of the first triangle in the plane of the second -/
noncomputable def planeSegment (o t : Triangle) (sp sq sr : Int) : Except Stuck (Option (Pt ℝ × Pt ℝ)) :=
  let (p1, q1, r1) := o
  let meet (x y x' y' : Pt ℝ) : Except Stuck (Option (Pt ℝ × Pt ℝ)) :=
    match linePlaneIntersection t x y, linePlaneIntersection t x' y' with
    | some u, some v => .ok (some (u, v))
    | _, _ => .error .nan
  if sr = sp ∧ sr ≠ 0 then meet p1 q1 q1 r1
  else if sq = sr ∧ sq ≠ 0 then meet p1 q1 r1 p1
  else if sp = sq ∧ sp ≠ 0 then meet q1 r1 r1 p1
  else .ok none

/-- triangle_triangle_intersection_test.py:318-443 `triangle_triangle_intersection`; the last branch gives
`(True, pti, qti)` with points that may be `None`, which the answers do not contain: the branch is the right
summand. -/
noncomputable def triangleTriangle (eps : ℝ) (o t : Triangle) :
    Except Stuck (Answer ⊕ (Option (Pt ℝ) × Option (Pt ℝ))) :=
  let (p1, q1, r1) := o
  let (p2, q2, r2) := t
  let vp := coplanarTest p2 q2 r2 p1
  let vq := coplanarTest p2 q2 r2 q1
  let vr := coplanarTest p2 q2 r2 r1
  let wp := coplanarTest p1 q1 r1 p2
  let wq := coplanarTest p1 q1 r1 q2
  let wr := coplanarTest p1 q1 r1 r2
  if (signOf vp = signOf vq ∧ signOf vq = signOf vr) ∨ (signOf wp = signOf wq ∧ signOf wq = signOf wr) then
    .ok (.inl none)
  else
    let pos := keptAxes (cross (p2 - q2) (r2 - q2))
    match planeSegment o t (signOf vp) (signOf vq) (signOf vr) with
    | .error e => .error e
    | .ok (some (p, q)) => .ok (.inl (coplanarSegment eps pos t p q))
    | .ok none =>
      let p0 := |vp| < eps
      let q0 := |vq| < eps
      let r0 := |vr| < eps
      if r0 ∧ p0 then .ok (.inl (coplanarSegment eps pos t r1 p1))
      else if q0 ∧ r0 then .ok (.inl (coplanarSegment eps pos t q1 r1))
      else if p0 ∧ q0 then .ok (.inl (coplanarSegment eps pos t p1 q1))
      else if r0 then (coplanarPoint eps pos t r1 p1 q1).map .inr
      else if q0 then (coplanarPoint eps pos t q1 r1 p1).map .inr
      else if p0 then (coplanarPoint eps pos t p1 q1 r1).map .inr
      else .ok (.inl none)

end Verif.Geometry
