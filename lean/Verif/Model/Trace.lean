/-
Model of src/basis/parametric_transformation.py and of the point mapping of
src/geometry/mapping.py and src/basis/finite_element.py:131-160, in exact arithmetic.

Trusted facts about basix: the reference simplices, the connectivity of their facets, and the
values of the degree one Lagrange basis (the barycentric coordinates).
-/
import Verif.Model.MeshGraph
import Mathlib.Algebra.Ring.Defs

namespace Verif.Trace
open MeshBuild MeshGraph

variable {K : Type}

/-- A point of the physical space. -/
abbrev Pt (K : Type) := Fin 3 → K

/-- The attributes of the mesh read here: `points`. -/
abbrev Points (K : Type) := List (Pt K)

section
variable [CommRing K]

/-- `basix.geometry(celltype)` for the interval, the triangle and the tetrahedron. -/
def refVertices : Nat → List (List K)
  | 1 => [[0], [1]]
  | 2 => [[0, 0], [1, 0], [0, 1]]
  | 3 => [[0, 0, 0], [1, 0, 0], [0, 1, 0], [0, 0, 1]]
  | _ => []

end

/-- `[c[0] for c in basix.cell.sub_entity_connectivity(celltype)[dim]]` for the facets
(`dim` is one less than the dimension of the cell). -/
def refFacets : Nat → List (List Nat)
  | 1 => [[0], [1]]
  | 2 => [[1, 2], [0, 2], [0, 1]]
  | 3 => [[1, 2, 3], [0, 2, 3], [0, 1, 3], [0, 1, 2]]
  | _ => []

/-- `a[idx]` with an array of non-negative positions. -/
def fancy {α : Type} (a : List α) (idx : List Nat) : Res (List α) := mapRes (getIdx a) idx

/-- parametric_transformation.py:13-23, 35-45, 64-75: the positions, in the neighbour, of the
nodes of the facet, in the order of the facet.  `_R0_to_R1` compares and looks up the local
positions `line_facet` where the other two use the node tags of the facet (lines 20-23). -/
def facetPositions (facetDim : Nat) (facetIndex : Nat) (facetTags neighTags : List Nat) :
    Res (List Nat) := do
  let facet ← getIdx (refFacets (facetDim + 1)) facetIndex
  let faceSub ← fancy neighTags facet
  if facetTags = faceSub then pure facet
  else
    let wanted := if facetDim = 0 then facet else facetTags
    if npSort wanted = npSort faceSub then
      mapRes (fun k => (Dict.ofList (faceSub.zip facet)).getItem k) wanted
    else .error .assertionError

section
variable [CommRing K]

/-- `v * t` for an array and a scalar -/
def scale (t : K) (v : List K) : List K := v.map (· * t)

/-- `v + w` for arrays of the same shape -/
def addL (v w : List K) : List K := List.zipWith (· + ·) v w

/-- parametric_transformation.py:26 -/
def mapR0 (verts : List (List K)) (pos : List Nat) (pt : List K) : Res (List K) :=
  match pt with
  | [xi] => do
    let p0 ← getIdx pos 0
    let v0 ← getIdx verts p0
    pure (scale xi v0)
  | _ => .error .valueError

/-- parametric_transformation.py:48-54 -/
def mapR1 (verts : List (List K)) (pos : List Nat) (pt : List K) : Res (List K) :=
  match pt with
  | [xi] => do
    let p0 ← getIdx pos 0
    let v0 ← getIdx verts p0
    let p1 ← getIdx pos 1
    let v1 ← getIdx verts p1
    pure (addL (scale (1 - xi) v0) (scale xi v1))
  | _ => .error .valueError

/-- parametric_transformation.py:78-85 -/
def mapR2 (verts : List (List K)) (pos : List Nat) (pt : List K) : Res (List K) :=
  match pt with
  | [xi, eta] => do
    let p0 ← getIdx pos 0
    let v0 ← getIdx verts p0
    let p1 ← getIdx pos 1
    let v1 ← getIdx verts p1
    let p2 ← getIdx pos 2
    let v2 ← getIdx verts p2
    pure (addL (addL (scale (1 - xi - eta) v0) (scale xi v1)) (scale eta v2))
  | _ => .error .valueError

/-- `l.index(x)`; raises `ValueError` -/
def indexOf (l : List Nat) (x : Nat) : Res Nat :=
  if x ∈ l then .ok (l.idxOf x) else .error .valueError

/-- parametric_transformation.py:89-98 `transform_lower_to_higher`.  Points are rows of
coordinates; for a point facet the single "coordinate" is the entry of the point quadrature.
For other dimensions Python returns `None`; the model raises, which nothing depends on. -/
def transformLowerToHigher (points : List (List K)) (facet neigh : Cell) :
    Res (List (List K)) := do
  let ids ← Cell.subIds neigh facet.dimension
  let facetIndex ← indexOf ids facet.id
  if facet.dimension = 0 then do
    let pos ← facetPositions 0 facetIndex facet.nodeTags neigh.nodeTags
    mapRes (mapR0 (refVertices 1) pos) points
  else if facet.dimension = 1 then do
    let pos ← facetPositions 1 facetIndex facet.nodeTags neigh.nodeTags
    mapRes (mapR1 (refVertices 2) pos) points
  else if facet.dimension = 2 then do
    let pos ← facetPositions 2 facetIndex facet.nodeTags neigh.nodeTags
    mapRes (mapR2 (refVertices 3) pos) points
  else .error .typeError

/-- The values of the degree one Lagrange basis of the reference simplex at a point. -/
def linearShapes (pt : List K) : List K := (1 - pt.sum) :: pt

/-- One row of `phi[0, :, :, 0] @ cell_points` -/
def combine (phi : List K) (cellPoints : List (Pt K)) : Pt K :=
  fun i => (List.zipWith (fun l p => l * p i) phi cellPoints).sum

/-- finite_element.py:131-160 and mapping.py:40-58 `evaluate_mapping`, the physical points: for a
point, all its cell points; otherwise the linear shapes of every point combined.  Tabulation
needs points of the right dimension, the product as many nodes as shapes. -/
def evaluateX (pts : Points K) (c : Cell) (points : List (List K)) : Res (List (Pt K)) :=
  if c.dimension = 0 then fancy pts c.nodeTags
  else if 3 < c.dimension then .error .keyError
  else if points.any (fun p => decide (p.length ≠ c.dimension)) then .error .valueError
  else do
    let cellPoints ← fancy pts c.nodeTags
    if cellPoints.length ≠ c.dimension + 1 then .error .valueError
    else pure (points.map fun p => combine (linearShapes p) cellPoints)

end

end Verif.Trace
