/-
Model of the cell storage of `Mesh` used when meshes are cut: `append_cells`
(src/mesh/mesh.py:113-123), `insert_cell_data` (src/mesh/mesh.py:35-64) and `duplicate_entity`
(src/mesh/mesh.py:1368-1378).
-/
import Verif.Model.MeshGraph
import Mathlib.Data.Nat.Digits.Defs

namespace Verif.MeshStore
open MeshBuild MeshGraph

/-- `np.min` on a one dimensional array of non-negative integers; raises on empty input. -/
def npMin (l : List Nat) : Res Nat :=
  match l with
  | [] => .error .valueError
  | a :: t => .ok (t.foldl min a)

/-- mesh.py:116-123 `append_cells`; returns the new `self.cells`. -/
def appendCells (cells : Cells) (batch : List Cell) : Res Cells := do
  let minId ← npMin (batch.map (·.id))
  if (cells.length : Int) - 1 ≥ (minId : Int) then .error .valueError
  else .ok (cells ++ batch.map some)

/-- The characters of the decimal representation of an integer. -/
inductive Sym where
  | minus
  | digit (d : Nat)
  deriving DecidableEq, Repr

/-- `str(n)` for a natural number -/
def strNat (n : Nat) : List Sym :=
  if n = 0 then [.digit 0] else (Nat.digits 10 n).reverse.map .digit

/-- `str(integer)` -/
def strInt (z : Int) : List Sym :=
  if z < 0 then .minus :: strNat z.natAbs else strNat z.natAbs

/-- mesh.py:44-48: a list of six integers; writing past its end raises `IndexError`. -/
def chunk (sign : Int) (typeIndex : Nat) (tags : List Nat) : Res (List Int) :=
  if tags.length ≤ 4 then
    .ok (sign :: (typeIndex : Int) :: (tags.map Int.ofNat ++ List.replicate (4 - tags.length) 0))
  else .error .indexError

/-- mesh.py:49-51: concatenation of the decimal strings. -/
def keyOf (ch : List Int) : List Sym := ch.flatMap strInt

/-- `self.cell_data` and `self.cells` -/
structure Store where
  cellData : Dict (List Sym) Nat
  cells : Cells

/-- mesh.py:42-64 `insert_cell_data`; the returned cell is `None` if the array holds `None`
there. -/
def insertCellData (s : Store) (c : Cell) (typeIndex : Nat) (tags : List Nat) (sign : Int) :
    Res (Store × Option Cell) := do
  let ch ← chunk sign typeIndex tags
  let key := keyOf ch
  match s.cellData.get? key with
  | none =>
    let cellId := s.cellData.length
    let c := { c with id := cellId }
    pure (⟨s.cellData.set key cellId, s.cells ++ [some c]⟩, some c)
  | some position => do
    let c ← getIdx s.cells position
    pure (s, c)

/-- mesh.py:35-37 `mesh_cell_type_index` -/
def typeIndexOf (name : String) : Res Nat :=
  (Dict.getItem [("vertex", 1), ("line", 2), ("triangle", 3), ("tetra", 4)] name)

/-- mesh.py:1368-1378 `duplicate_entity`; returns the store, the cell and
`duplicated_ids`. -/
def duplicateEntity (s : Store) (name : String) (c : Cell) (nodeTags : List Nat)
    (phys : Option Int) (sign : Int) (dup : Dict Nat Nat) :
    Res (Store × Cell × Dict Nat Nat) := do
  let typeIndex ← typeIndexOf name
  let clone := { c with nodeTags := nodeTags, material := phys }
  let (s, r) ← insertCellData s clone typeIndex (npSort nodeTags) sign
  match r with
  | none => .error .attributeError
  | some r => pure (s, r, dup.set c.id r.id)

/-- One call of `insert_cell_data`. -/
structure Request where
  cell : Cell
  typeIndex : Nat
  tags : List Nat
  sign : Int

/-- A sequence of calls; the returned cells in order. -/
def insertAll : Store → List Request → Res (Store × List (Option Cell))
  | s, [] => .ok (s, [])
  | s, r :: rs => do
    let (s, c) ← insertCellData s r.cell r.typeIndex r.tags r.sign
    let (s, cs) ← insertAll s rs
    pure (s, c :: cs)

end Verif.MeshStore
