/-
Model of src/topology/domain.py and of `create_domain`
(src/topology/operations/domain_operations.py:31-44).
-/
import Verif.Model.Shape

namespace Verif.Topology
open Shape
variable {P : Type}

/-- `Domain`: the shapes by dimension (domain.py:8-12).  `shapes` has `dimension + 1` entries. -/
structure Domain (P : Type) where
  dimension : Nat
  shapes : List (List (Shape P))

/-- domain.py:8-12 -/
def Domain.new (dimension : Nat) : Domain P := ⟨dimension, List.replicate (dimension + 1) []⟩

/-- domain.py:14-20 `append_shapes`.  `np.unique` sorts the dimensions, so `dim[0]` is the least
one and `counts[0]` the number of shapes having it. -/
def Domain.append (d : Domain P) (shapes : List (Shape P)) : Res (Domain P) :=
  match shapes.map Shape.dimension with
  | [] => .ok d
  | x :: xs =>
    let least := xs.foldl min x
    if ((x :: xs).filter (· = least)).length = shapes.length then
      match d.shapes[least]? with
      | none => .error .indexError
      | some old => .ok { d with shapes := d.shapes.set least (old ++ shapes) }
    else .error .assertionError

/-- All stored shapes, in the order of the loops over `self.shapes`. -/
def Domain.all (d : Domain P) : List (Shape P) := d.shapes.flatten

/-- `np.max` of a list of integers. -/
def intMax : List Int → Res Int
  | [] => .error .valueError
  | a :: t => .ok (t.foldl max a)

/-- domain.py:22-25 `max_tag` -/
def Domain.maxTag (d : Domain P) : Res Int := intMax (d.all.map tag)

/-- domain.py:27-35 `max_physical_tag` -/
def Domain.maxPhysicalTag (d : Domain P) : Res Int := intMax (d.all.filterMap physicalTag)

/-- domain.py:37-46 `shapes_with_physical_tag` -/
def Domain.withPhysicalTag (d : Domain P) (t : Option Int) : List (Shape P) :=
  d.all.filter fun s => s.physicalTag = t

/-- domain.py:67-76 `lookup_vertex`, over the points of the vertices of the domain; returns the
position. -/
def lookupVertex (close : P → P → Bool) (points : List P) (x : P) : Res (Option Nat) :=
  match (List.range points.length).filter fun i =>
      match points[i]? with
      | some y => close y x
      | none => false with
  | [] => .ok none
  | [i] => .ok (some i)
  | _ => .error .assertionError

mutual
/-- domain.py:88-107 `gather_graph_edges`, as the list of appended pairs. -/
def gatherEdges (maxDim : Nat) : Shape P → List ((Int × Int) × (Int × Int))
  | .vertex .. => []
  | .composed k t _ b i =>
    gatherAll maxDim (maxDim - k.dimension, t) b ++ gatherAll maxDim (maxDim - k.dimension, t) i
/-- One of the two loops, for the shape with index `idx`. -/
def gatherAll (maxDim : Nat) (idx : Int × Int) :
    List (Shape P) → List ((Int × Int) × (Int × Int))
  | [] => []
  | c :: cs =>
    ((idx, c.index maxDim) :: if c.dimension ≠ 0 then gatherEdges maxDim c else []) ++
      gatherAll maxDim idx cs
end

/-- domain.py:109-123 `build_grahp`; `dimension` is the argument, or the domain's dimension. -/
def Domain.buildGraph (d : Domain P) (dimension : Nat) : Res (DiGraph (Int × Int)) := do
  let shapes ← getIdx d.shapes dimension
  let shapes := shapes.map view
  let g := DiGraph.ofEdges (shapes.flatMap (gatherEdges d.dimension))
  if dimension = 0 then
    if g.nodes.length = 0 then
      pure { g with nodes := uniq (g.nodes ++ shapes.map (index d.dimension)) }
    else pure g
  else pure g

/-! ### `create_domain` -/

/-- CPython's `hash` of an `int` smaller than 2^61 - 1 in absolute value: the number itself,
except that -1 is reserved. -/
def pyHashInt (n : Int) : Int := if n = -1 then -2 else n

/-- shape.py:114-115 `hash`: `hash((dimension, tag))`.  CPython combines the hashes of the two
components; how is left open. -/
def Shape.hash (combine : Int → Int → Int) (s : Shape P) : Int :=
  combine (pyHashInt s.dimension) (pyHashInt s.tag)

/-- `l[i]` with Python's negative indices, as a position. -/
def pyPosition (length : Nat) (i : Int) : Option Nat :=
  if 0 ≤ i then (if i < length then some i.toNat else none)
  else if -length ≤ i then some (i + length).toNat else none

/-- domain_operations.py:36-38: shapes by codimension, in dictionaries keyed by hash. -/
def classify (combine : Int → Int → Int) (dimension : Nat) :
    List (Dict Int (Shape P)) → List (Shape P) → Res (List (Dict Int (Shape P)))
  | ds, [] => .ok ds
  | ds, s :: ss =>
    match pyPosition ds.length (dimension - s.dimension) with
    | none => .error .indexError
    | some i => classify combine dimension
        (ds.set i (Dict.set (ds.getD i []) (s.hash combine) s)) ss

/-- domain_operations.py:41-43 -/
def appendAll (d : Domain P) : List (Dict Int (Shape P)) → Res (Domain P)
  | [] => .ok d
  | c :: cs => do
    let d ← d.append (Dict.values c)
    appendAll d cs

/-- domain_operations.py:31-44 `create_domain` -/
def createDomain (combine : Int → Int → Int) (dimension : Nat) (shapes : List (Shape P)) :
    Res (Domain P) := do
  let ds ← classify combine dimension (List.replicate (dimension + 1) []) shapes
  appendAll (Domain.new dimension) ds

end Verif.Topology
