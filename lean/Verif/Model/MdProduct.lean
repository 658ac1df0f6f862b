/-
Model of `MDProductSpace` (src/spaces/md_product_space.py).

Simplifications
* An object is the record of its attributes, `none` while unset; a method gives the attributes
  afterwards and what it returns or raises, so that what was set before an exception stays set.
* The product spaces handed to the constructor are only counted and kept; they are given by their
  dimensions.
* The entries of `discrete_spaces_data` are five-tuples (`Space.FieldData`).
* The module does not import `DiscreteSpace`: the first use of the name raises `NameError`, before
  its arguments are evaluated.
-/
import Verif.Model.Space
import Verif.Model.Quadrature

namespace Verif.MdProduct
open Space Quadrature

/-- The attributes of an `MDProductSpace`. -/
structure Md (ρ : Type) where
  byDim : List Nat
  rules : MdRules ρ := {}
  spaces : Option (Dict String Space) := none
  dofs : Option (Dict String Nat) := none
  nDof : Option Nat := none

/-- md_product_space.py:10-16 `__init__` -/
def Md.new (ρ : Type) (productSpaces : List Nat) : Res (Md ρ) :=
  if productSpaces.length > 3 then .error .valueError
  else .ok { byDim := productSpaces }

variable {ρ : Type}

/-- md_product_space.py:18-46 -/
def Md.defineRules (mk : Nat → Int → Res ρ) (pt : ρ) (m : Md ρ) (data : Dict String FieldData) :
    Md ρ × Res Unit :=
  match mdRules mk pt m.rules (data.map fun p => (p.2.dimension, p.2.kOrder)) with
  | (r, none) => ({ m with rules := r }, .ok ())
  | (r, some e) => ({ m with rules := r }, .error e)

/-- md_product_space.py:48-62 `_define_discrete_spaces` -/
def Md.defineSpaces (m : Md ρ) (data : Dict String FieldData) : Md ρ × Res Unit :=
  let m := { m with spaces := some [] }
  match data with
  | [] => (m, .ok ())
  | _ :: _ => (m, .error .nameError)

/-- md_product_space.py:66-69: the loop over the spaces -/
def collectDofs : Dict String Space → Dict String Nat → Dict String Nat × Res Unit
  | [], d => (d, .ok ())
  | (name, s) :: rest, d =>
    match s.getDofMap with
    | .error e => (d, .error e)
    | .ok map => collectDofs rest (d.set name map.nDof)

/-- md_product_space.py:64-69 `_define_discrete_spaces_dof` -/
def Md.defineDofs (m : Md ρ) : Md ρ × Res Unit :=
  match m.spaces with
  | none => ({ m with dofs := some [] }, .error .attributeError)
  | some spaces =>
    let (d, r) := collectDofs spaces []
    ({ m with dofs := some d }, r)

/-- md_product_space.py:71-75 `_define_n_dof` -/
def Md.defineNDof (m : Md ρ) : Md ρ × Res Unit :=
  match m.dofs with
  | none => ({ m with nDof := some 0 }, .error .attributeError)
  | some d => ({ m with nDof := some d.values.sum }, .ok ())

/-- An attribute that is read. -/
def attr {α : Type} : Option α → Res α
  | some a => .ok a
  | none => .error .attributeError

/-- md_product_space.py:100-114 `discrete_spaces_destination_indexes`; lines 77-82 are
`Space.retrieveDest`. -/
def Md.spacesDest (m : Md ρ) (cellIndex : Nat) : Res (Dict String (List Nat)) := do
  let dofs ← attr m.dofs
  let spaces ← attr m.spaces
  fieldDests (retrieveDest · cellIndex) (fun _ => false) 0 (strides dofs.values) 0 spaces

/-- md_product_space.py:121-139 `discrete_spaces_bc_destination_indexes`; lines 84-98 are
`Space.retrieveBcDest`. -/
def Md.spacesBcDest (m : Md ρ) (cellIndex : Nat) : Res (Dict String (List Nat)) := do
  let dofs ← attr m.dofs
  let spaces ← attr m.spaces
  fieldDests (retrieveBcDest · cellIndex) (fun s => s.bcElements.length == 0) 0
    (strides dofs.values) 0 spaces

/-- md_product_space.py:116-119 `destination_indexes` -/
def Md.destinationIndexes (m : Md ρ) (cellIndex : Nat) : Res (List Nat) := do
  let d ← m.spacesDest cellIndex
  pickField d none

/-- md_product_space.py:141-144 `bc_destination_indexes` -/
def Md.bcDestinationIndexes (m : Md ρ) (cellIndex : Nat) : Res (List Nat) := do
  let d ← m.spacesBcDest cellIndex
  pickField d none

/-- The calls that change an object. -/
inductive Call where
  | rules (data : Dict String FieldData)
  | spaces (data : Dict String FieldData)
  | dofs
  | nDof

/-- One call -/
def Md.call (mk : Nat → Int → Res ρ) (pt : ρ) (m : Md ρ) : Call → Md ρ × Res Unit
  | .rules data => m.defineRules mk pt data
  | .spaces data => m.defineSpaces data
  | .dofs => m.defineDofs
  | .nDof => m.defineNDof

/-- A sequence of calls whose exceptions are caught by the caller -/
def Md.run (mk : Nat → Int → Res ρ) (pt : ρ) (m : Md ρ) (calls : List Call) : Md ρ :=
  calls.foldl (fun m c => (m.call mk pt c).1) m

end Verif.MdProduct
