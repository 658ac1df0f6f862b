/-
Model of the driver of the mixed-dimensional Cosserat problem
(examples/md_cosserat_elasticity/md_primal_cosserat.py:38-83 `create_product_space`,
117-462 `md_two_fields_approximation`).

Simplifications
* A cell is its id, dimension and physical tag.  The elements of a space are the cells of its dimension with a tag of the
  field, its boundary elements the cells one dimension lower with a boundary tag (discrete_space.py:106, 152, 167-175,
  210-212); the basis functions are left out.
* The scatter functions (lines 304-355) are recorded as calls; whether a call raises before or after the weak form looks
  up its fields (lce_primal_weak_form.py:15-16, 229-230) is a parameter, and so is all of the contact form.
* The field "q" is looked up once for a list instead of once for each entry; it was looked up before.
* The linear solver, the reports and the time are left out.
-/
import Verif.Model.Assembly

namespace Verif.ContactDriver
open Assembly

/-- a cell of the mesh after the cut -/
structure Cell where
  id : Nat
  dim : Nat
  tag : Option Int
deriving DecidableEq

/-- what the driver reads of a discrete space -/
structure Field where
  elementIds : List Nat
  bcElementIds : List Nat
deriving DecidableEq

/-- discrete_space.py:106, 167-175 -/
def field (cells : List Cell) (dim : Nat) (tags bcTags : List Int) : Field where
  elementIds := (cells.filter fun c => c.dim = dim ∧ c.tag ∈ tags.map some).map Cell.id
  bcElementIds := (cells.filter fun c => c.dim + 1 = dim ∧ c.tag ∈ bcTags.map some).map Cell.id

/-- md_primal_cosserat.py:62-69: the tables of tags by dimension -/
structure Tables where
  tags : List (List Int)
  bcTags : List (List Int)

/-- md_primal_cosserat.py:63-66 -/
def tables : Tables := ⟨[[], [50], [1]], [[], [2, 4], [2, 3, 4, 5]]⟩

/-- md_elliptic_scalar.py:69-70 -/
def ellipticTables : Tables := ⟨[[], [10], [1]], [[], [3, 5], [2, 3, 4, 5, 50]]⟩

/-- md_primal_cosserat.py:38-83 -/
def createProductSpace (t : Tables) (meshDim : Nat) (cells : List Cell) (dim : Nat) (displacement rotation : String) :
    Res (Dict String Field) :=
  if meshDim = 2 then do
    let tags ← getIdx t.tags dim
    let bcTags ← getIdx t.bcTags dim
    pure (Dict.ofList [(displacement, field cells dim tags bcTags), (rotation, field cells dim tags bcTags)])
  else .error .valueError

/-- one evaluation of a weak form that is scattered -/
inductive Call where
  /-- line 304: `scatter_form_data` of element `i` in co-dimension `c` -/
  | form (c i : Nat)
  /-- line 321: `scatter_bc_form` -/
  | bc (c i : Nat)
  /-- line 338: `scatter_contact_form_data` -/
  | contact (p n : Nat)
deriving DecidableEq

/-- an interface of the cut: `c1_cells`, `positive_c1_cells`, `negative_c1_cells` (mesh_operations.py:376) -/
structure Interface where
  cells : List Nat
  positive : List Nat
  negative : List Nat

/-- whether a call raises before and after the lookups of the weak form -/
structure Outcome where
  before : Call → Res Unit
  after : Call → Res Unit

/-- `scatter_form_data`, `scatter_bc_form`: lines 304-336 -/
def call (space : Dict String Field) (o : Outcome) (c : Call) : Step (List Call) :=
  withRes (o.before c) fun _ => withRes (space.getItem "u") fun _ => withRes (space.getItem "t") fun _ =>
    withRes (o.after c) fun _ s => (s ++ [c], none)

/-- `scatter_contact_form_data`: lines 338-355 -/
def callContact (o : Outcome) (x : Nat × Nat) : Step (List Call) :=
  withRes (o.before (.contact x.1 x.2)) fun _ => withRes (o.after (.contact x.1 x.2)) fun _ s =>
    (s ++ [.contact x.1 x.2], none)

/-- lines 357-360 -/
def domainForms (bulk fracture : Dict String Field) (o : Outcome) : Step (List Call) :=
  withRes (bulk.getItem "u") fun u₀ => withRes (fracture.getItem "u") fun u₁ =>
    (forEach (fun i => call bulk o (.form 0 i)) (List.range u₀.elementIds.length)).andThen
      (forEach (fun i => call fracture o (.form 1 i)) (List.range u₁.elementIds.length))

/-- `gmesh.cells[id].material_id` -/
def tagOf (cells : List Cell) (id : Nat) : Res (Option Int) :=
  (getIdx cells id).map Cell.tag

/-- lines 362-367: the boundary elements that are not clones -/
def external (cells : List Cell) (clones : Int) (q : Field) : Res (List Nat) := do
  let tags ← MeshGraph.mapRes (tagOf cells) q.bcElementIds
  pure (((q.bcElementIds.zip tags).filter fun p => p.2 ≠ some clones).map Prod.fst)

/-- lines 362-374 -/
def boundaryForms (cells : List Cell) (clones : Int) (bulk fracture : Dict String Field) (o : Outcome) :
    Step (List Call) :=
  withRes (bulk.getItem "q") fun q₀ =>
    withRes (external cells clones q₀) fun ids =>
      withRes (MeshGraph.mapRes (Space.positions q₀.bcElementIds).getItem ids) fun els =>
        (forEach (fun i => call bulk o (.bc 0 i)) els).andThen
          (withRes (fracture.getItem "q") fun q₁ =>
            forEach (fun i => call fracture o (.bc 1 i)) (List.range q₁.bcElementIds.length))

/-- lines 378-390: the element numbers of an interface -/
def numbers (bulk fracture : Dict String Field) (i : Interface) : Res (List Nat × List Nat × List Nat) := do
  let q₁ ← fracture.getItem "q"
  let c1 ← MeshGraph.mapRes (Space.positions q₁.elementIds).getItem i.cells
  let q₀ ← bulk.getItem "q"
  let p ← MeshGraph.mapRes (Space.positions q₀.bcElementIds).getItem i.positive
  let n ← MeshGraph.mapRes (Space.positions q₀.bcElementIds).getItem i.negative
  pure (c1, p, n)

/-- lines 391-395: the arguments of the contact form, over `zip(c1_el_idx, c0_pel_idx, c0_nel_idx)` -/
def contactPairs (t : List Nat × List Nat × List Nat) : List (Nat × Nat) :=
  (t.1.zip (t.2.1.zip t.2.2)).map fun x => (x.2.1, x.1)

/-- lines 377-395 -/
def interfaceForms (bulk fracture : Dict String Field) (o : Outcome) (interfaces : List Interface) :
    Step (List Call) :=
  forEach (fun i => withRes (numbers bulk fracture i) fun t =>
    forEach (callContact o) (contactPairs t)) interfaces

/-- lines 357-395 -/
def assembly (cells : List Cell) (clones : Int) (bulk fracture : Dict String Field) (o : Outcome)
    (interfaces : List Interface) : Step (List Call) :=
  (domainForms bulk fracture o).andThen
    ((boundaryForms cells clones bulk fracture o).andThen (interfaceForms bulk fracture o interfaces))

/-- lines 117-462: the spaces, the assembly, and line 434, which reads `exact_functions`, a name that is not bound -/
def run (t : Tables) (cells : List Cell) (names : String × String) (o : Outcome) (interfaces : List Interface) :
    List Call × Option Err :=
  (withRes (createProductSpace t 2 cells 2 names.1 names.2) fun bulk =>
    withRes (createProductSpace t 2 cells 1 names.1 names.2) fun fracture =>
      (assembly cells 50 bulk fracture o interfaces).andThen fun s => (s, some .nameError)) []

/-- lines 230-234: the shifts of the two spaces and the number of unknowns -/
def shifts (n₀ n₁ : Nat) : List Nat × Nat :=
  let seq := [0, n₀, n₁]
  ((List.range 2).map fun k => (seq.take (k + 1)).sum, seq.sum)

end Verif.ContactDriver
