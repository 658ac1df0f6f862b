/-
Model of src/topology/domain_market.py: `read_fractures_file` (lines 26-35), `build_disjoint_planes` (375-418) and
`build_box_3D_with_planes` (421-487).

* A file is the list of its rows of numbers.  `np.split` and `np.append` accept a row if and only if it has three
  numbers for each point.
* `intersect_faces` is not imported in the module, so its call is a `NameError`.
-/
import Verif.Model.DomainMarket

namespace Verif.Topology
open Shape MeshGraph

/-! ### The file -/

/-- The rows of three numbers of `np.split(np.array(frac), n_points)`. -/
def triples {α : Type} : List α → Res (List (α × α × α))
  | [] => .ok []
  | x :: y :: z :: rest => do
    let t ← triples rest
    pure ((x, y, z) :: t)
  | _ => .error .valueError

/-- domain_market.py:31-34: one line of the file. -/
def readRow {α : Type} (n : Nat) (row : List α) : Res (List (α × α × α)) := do
  let t ← triples row
  if t.length = n then pure t else .error .valueError

/-- domain_market.py:26-35 `read_fractures_file` -/
def readFractures {α : Type} (n : Nat) (rows : List (List α)) : Res (List (List (α × α × α))) :=
  mapRes (readRow n) rows

/-! ### The planes -/

variable {P : Type}

/-- The numbers `v_tag`, `e_tag`, `f_tag` of the next shapes. -/
structure Tags where
  v : Int
  e : Int
  f : Int
  deriving DecidableEq, Repr

/-- domain_market.py:385-416: one plane. -/
def addPlane (close : P → P → Bool) (argsort : List Int → List Nat) (d : Domain P) (t : Tags) (plane : List P)
    (physicalTag : Int) : Res (Domain P × Tags) := do
  let a ← getIdx plane 0
  let b ← getIdx plane 1
  let c ← getIdx plane 2
  let x ← getIdx plane 3
  let v0 : Shape P := .vertex t.v none a
  let v1 : Shape P := .vertex (t.v + 1) none b
  let v2 : Shape P := .vertex (t.v + 2) none c
  let v3 : Shape P := .vertex (t.v + 3) none x
  let e0 ← mkSimple argsort .edge t.e [v0, v1]
  let e1 ← mkSimple argsort .edge (t.e + 1) [v1, v2]
  let e2 ← mkSimple argsort .edge (t.e + 2) [v2, v3]
  let e3 ← mkSimple argsort .edge (t.e + 3) [v3, v0]
  let w ← mkWire close argsort (t.e + 4) [e0, e1, e2, e3] [v0]
  let s ← mkSimple argsort .face t.f [w]
  let d ← d.append [v0, v1, v2, v3]
  let d ← d.append [e0, e1, e2, e3, w]
  let d ← d.append [s.tagged (some physicalTag)]
  pure (d, ⟨t.v + 4, t.e + 5, t.f + 1⟩)

/-- The loop over the planes and their physical tags. -/
def addPlanes (close : P → P → Bool) (argsort : List Int → List Nat) :
    Domain P → Tags → List (List P × Int) → Res (Domain P)
  | d, _, [] => pure d
  | d, t, p :: ps => do
    let r ← addPlane close argsort d t p.1 p.2
    addPlanes close argsort r.1 r.2 ps

/-- domain_market.py:375-418 `build_disjoint_planes`, for the planes of the file. -/
def buildPlanes (close : P → P → Bool) (argsort : List Int → List Nat) (planes : List (List P)) (t : Tags)
    (maxPTag : Int) : Res (Domain P) :=
  addPlanes close argsort (Domain.new 3) t (planes.zipIdx.map fun p => (p.1, (p.2 : Int) + maxPTag))

/-- domain_market.py:421-455: the box, the planes inside the solid, and the shapes of both. -/
def boxAndPlanes (close : P → P → Bool) (argsort : List Int → List Nat) (points : List P) (planes : List (List P))
    (physicalTags : Option (Dict String Int)) : Res (Domain P) := do
  let d ← buildBox3D close argsort points physicalTags
  let vs ← getIdx d.shapes 0
  let es ← getIdx d.shapes 1
  let fs ← getIdx d.shapes 2
  let p ← d.maxPhysicalTag
  let ss ← getIdx d.shapes 3
  let solid ← getIdx ss 0
  let q ← buildPlanes close argsort planes ⟨vs.length, es.length, fs.length⟩ (p + 1)
  let pv ← getIdx q.shapes 0
  let pe ← getIdx q.shapes 1
  let faces ← getIdx q.shapes 2
  let immersed ← setImmersed .solid (solid.immersed ++ faces)
  let solid := match solid with
    | .vertex .. => solid
    | .composed k t p b _ => .composed k t p b immersed
  let d : Domain P := { d with shapes := d.shapes.set 3 (ss.set 0 solid) }
  let d ← d.append pv
  let d ← d.append pe
  d.append faces

/-- domain_market.py:421-487 `build_box_3D_with_planes`: the name `intersect_faces` is not defined. -/
def buildBox3DWithPlanes (close : P → P → Bool) (argsort : List Int → List Nat) (points : List P)
    (planes : List (List P)) (physicalTags : Option (Dict String Int)) : Res (Domain P) := do
  let d ← boxAndPlanes close argsort points planes physicalTags
  let _ ← d.maxPhysicalTag
  .error .nameError

end Verif.Topology
