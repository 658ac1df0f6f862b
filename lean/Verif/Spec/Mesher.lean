/-
What the transfer of a domain to gmsh is expected to do.
-/
import Verif.Model.Mesher

namespace Verif.Mesher
open Topology Topology.Shape MeshGraph
variable {P : Type}

/-- What gmsh keeps under a tag. -/
inductive Ent where
  | dim (k : Nat) (tag : Int)
  | curveLoop (tag : Int)
  | surfaceLoop (tag : Int)
  deriving DecidableEq

def Ent.tag : Ent → Int
  | dim _ t => t
  | curveLoop t => t
  | surfaceLoop t => t

/-- What a call adds. -/
def Call.creates : Call P → List Ent
  | addPoint _ t => [.dim 0 t]
  | addLine _ _ t => [.dim 1 t]
  | addCurveLoop _ t => [.curveLoop t]
  | addPlaneSurface _ t => [.dim 2 t]
  | addSurfaceLoop _ t => [.surfaceLoop t]
  | addVolume _ t => [.dim 3 t]
  | _ => []

/-- What a call refers to.  The sign of a curve in a loop is its orientation. -/
def Call.refs : Call P → List Ent
  | addPoint .. => []
  | addLine b e _ => [.dim 0 b, .dim 0 e]
  | addCurveLoop cs _ => cs.map fun c => .dim 1 |c|
  | addPlaneSurface ls _ => ls.map .curveLoop
  | addSurfaceLoop ss _ => ss.map (.dim 2)
  | addVolume ls _ => ls.map .surfaceLoop
  | addPhysicalGroup k ts _ => ts.map (.dim k)
  | embed k ts k' t => ts.map (.dim k) ++ [.dim k' t]
  | setTransfiniteCurve t => [.dim 1 t]

/-- Everything made by the calls. -/
def created (calls : List (Call P)) : List Ent := calls.flatMap Call.creates

/-- Every call refers to things that have been made before it. -/
def WellFormed : List Ent → List (Call P) → Prop
  | _, [] => True
  | made, c :: cs => (∀ r ∈ c.refs, r ∈ made) ∧ WellFormed (made ++ c.creates) cs

/-- The shapes of dimension `k` that become entities. -/
def Transferred (v : Variant P) (k : Nat) (s : Shape P) : Prop :=
  if k = 1 then v.skipCurve s = false else k = 0 ∨ s.composite = false

/-- The tag is that of a shape of dimension `k` that becomes an entity. -/
def Known (v : Variant P) (shapes : List (List (Shape P))) (k : Nat) (t : Int) : Prop :=
  ∃ l, shapes[k]? = some l ∧ ∃ s ∈ l, Transferred v k s ∧ s.tag = t

/-- The shapes have their parts in the domain, and the tags are natural numbers, unique in each
dimension. -/
structure Complete (v : Variant P) (shapes : List (List (Shape P))) : Prop where
  two : 2 ≤ shapes.length
  nonneg : ∀ (k : Nat) l, shapes[k]? = some l → ∀ s ∈ l, 0 ≤ s.tag
  unique : ∀ (k : Nat) l, shapes[k]? = some l → (l.map Shape.tag).Nodup
  vertices : ∀ l, shapes[0]? = some l → ∀ s ∈ l, ∃ t p x, s = .vertex t p x
  curves : ∀ l, shapes[1]? = some l → ∀ s ∈ l, v.skipCurve s = false →
    ∃ b e rest, s.boundary = b :: e :: rest ∧ Known v shapes 0 b.tag ∧ Known v shapes 0 e.tag
  surfaces : ∀ l, shapes[2]? = some l → ∀ s ∈ l, s.composite = false →
    ∃ wire rest o, s.boundary = wire :: rest ∧ v.orientation wire = .ok o ∧
      o.length ≤ wire.immersed.length ∧ (∀ x ∈ o, x = 1 ∨ x = -1) ∧
      ∀ c ∈ wire.immersed, Known v shapes 1 c.tag
  volumes : ∀ l, shapes[3]? = some l → ∀ s ∈ l, s.composite = false →
    ∃ shell rest, s.boundary = shell :: rest ∧ ∀ c ∈ shell.immersed, Known v shapes 2 c.tag

/-- The shapes that the loops over higher dimensions see. -/
def seen (shapes : List (List (Shape P))) (k : Nat) : List (Shape P) :=
  if scanDimension shapes > k then shapes[k + 1]?.getD [] else []

/-- The entities of dimension `k` are those of the transferred shapes, under `stride + tag + 1`, as
long as no dimension below is empty. -/
def EntitiesOf (v : Variant P) (shapes : List (List (Shape P))) (made : List Ent) : Prop :=
  ∀ (k : Nat) (t : Int), k < 4 → k < shapes.length → (∀ j < k, noShapes shapes j = false) →
    (.dim k t ∈ made ↔
      ∃ l, shapes[k]? = some l ∧ ∃ s ∈ l, Transferred v k s ∧ t = gmshTag shapes k s)

/-- Shapes with a physical tag become entities. -/
def TagsOnEntities (v : Variant P) (shapes : List (List (Shape P))) : Prop :=
  ∀ (k : Nat) l, shapes[k]? = some l → ∀ s ∈ l, s.physicalTag ≠ none → Transferred v k s

/-- In the occ variant: the shapes immersed in curves and surfaces, and the boundaries of curves,
are in the domain. -/
structure CompleteOcc (v : Variant P) (shapes : List (List (Shape P))) : Prop where
  boundary : ∀ l, shapes[1]? = some l → ∀ s ∈ l, s.physicalTag ≠ none →
    ∀ w ∈ s.boundary, Known v shapes 0 w.tag
  curve : ∀ l, shapes[1]? = some l → ∀ s ∈ l, s.physicalTag ≠ none →
    (∀ c ∈ s.immersed, Known v shapes 1 c.tag) ∧ (s.immersed = [] → s.composite = false)
  higher : ∀ (k : Nat) l, 2 ≤ k → shapes[k]? = some l → ∀ s ∈ l, s.physicalTag ≠ none →
    s.composite = false
  inSurface : ∀ l, shapes[2]? = some l → ∀ s ∈ l, s.composite = false → ∀ c ∈ s.immersed,
    (∀ w ∈ c.boundary, Known v shapes 0 w.tag) ∧ (∀ w ∈ c.immersed, Known v shapes 1 w.tag) ∧
    (c.immersed = [] → Known v shapes 1 c.tag)
  inVolume : ∀ l, shapes[3]? = some l → ∀ s ∈ l, s.composite = false → ∀ c ∈ s.immersed,
    (∀ w ∈ c.boundary, ∀ x ∈ w.immersed, Known v shapes 1 x.tag) ∧
    (∀ w ∈ c.immersed, Known v shapes 1 w.tag) ∧ (c.immersed = [] → Known v shapes 2 c.tag)

end Verif.Mesher
