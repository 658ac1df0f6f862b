/-
Model of the quadrature rules chosen by `ProductSpace` (src/spaces/product_space.py:24-49) and by
`MDProductSpace` (src/spaces/md_product_space.py:18-46).

Simplifications
* Of the data of a field only the dimension and the order are read here; they are given as pairs.
* `basix.make_quadrature(cell_type, order, gauss_jacobi)` is the parameter `mk`, a function of the
  dimension of the cell type and of the order which may raise; the rule of a point, the tuple
  `(np.array([1.0]), np.array([1.0]))`, is the parameter `pt`.
-/
import Verif.Prelude

namespace Verif.Quadrature

/-- element_type.py:4-11 `type_by_dimension`, also for the key -1 -/
def typeByDimension (d : Int) : Res Nat :=
  if 0 ≤ d ∧ d ≤ 3 then .ok d.toNat else .error .keyError

/-- The attributes set: `integration_order`, `quadrature` and `bc_quadrature`. -/
structure Rules (ρ : Type) where
  order : Int
  quad : List (Option ρ)
  bcQuad : List (Option ρ)

/-- `[None, None, None, None]` -/
def empty (ρ : Type) : List (Option ρ) := [none, none, none, none]

/-- product_space.py:34-40 and 43-49, md_product_space.py:29-35 and 38-45: one turn of a loop -/
def setRule {ρ : Type} (mk : Nat → Int → Res ρ) (pt : ρ) (order : Int) (l : List (Option ρ))
    (d : Int) : Res (List (Option ρ)) :=
  if d = 0 then .ok (l.set 0 (some pt))
  else do
    let t ← typeByDimension d
    let r ← mk t order
    pure (l.set t (some r))

/-- The loop; what was set before an exception stays set. -/
def fill {ρ : Type} (mk : Nat → Int → Res ρ) (pt : ρ) (order : Int) :
    List Int → List (Option ρ) → List (Option ρ) × Option Err
  | [], l => (l, none)
  | d :: ds, l =>
    match setRule mk pt order l d with
    | .ok l' => fill mk pt order ds l'
    | .error e => (l, some e)

/-- `np.max` of integers -/
def maxInt : List Int → Res Int
  | [] => .error .valueError
  | a :: t => .ok (t.foldl max a)

/-- Sorted without repetition, `np.unique` -/
def npUnique (l : List Nat) : List Nat := l.dedup.insertionSort (· ≤ ·)

/-- product_space.py:24-49 `ProductSpace._define_integration_order_and_quadrature`; the pairs are
dimension and order of the fields. -/
def productRules {ρ : Type} (mk : Nat → Int → Res ρ) (pt : ρ) (data : List (Nat × Int)) :
    Res (Rules ρ) := do
  let k ← maxInt (data.map Prod.snd)
  let order := 2 * k + 1
  let top ← npMax (data.map Prod.fst)
  match fill mk pt order ((List.range (top + 1)).map Int.ofNat) (empty ρ) with
  | (_, some e) => .error e
  | (quad, none) =>
    match fill mk pt order (data.map fun p => (p.1 : Int) - 1) (empty ρ) with
    | (_, some e) => .error e
    | (bcQuad, none) => .ok ⟨order, quad, bcQuad⟩

/-- The three attributes of `MDProductSpace`, unset at first. -/
structure MdRules (ρ : Type) where
  order : Option Int := none
  quad : Option (List (Option ρ)) := none
  bcQuad : Option (List (Option ρ)) := none

/-- md_product_space.py:18-46 `MDProductSpace._define_integration_order_and_quadrature`: the
attributes afterwards and the exception, if there is one -/
def mdRules {ρ : Type} (mk : Nat → Int → Res ρ) (pt : ρ) (s : MdRules ρ)
    (data : List (Nat × Int)) : MdRules ρ × Option Err :=
  match maxInt (data.map Prod.snd) with
  | .error e => (s, some e)
  | .ok k =>
    let order := 2 * k + 1
    let dims := npUnique (data.map Prod.fst)
    match fill mk pt order (dims.map Int.ofNat) (empty ρ) with
    | (quad, some e) => ({ s with order := some order, quad := some quad }, some e)
    | (quad, none) =>
      match fill mk pt order (dims.map fun d : Nat => (d : Int) - 1) (empty ρ) with
      | (bcQuad, e) => (⟨some order, some quad, some bcQuad⟩, e)

end Verif.Quadrature
