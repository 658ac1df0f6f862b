/-
Python / numpy / networkx primitives used by the modelled code.

These definitions model the *runtime libraries* nfempy relies on (builtin dict, numpy
sorting and splitting, networkx DiGraph).  They are part of the trusted base: see DESIGN.md.
-/
import Mathlib.Data.List.Sort
import Mathlib.Data.List.Dedup
import Mathlib.Data.List.Nodup

namespace Verif

/-- Exceptions raised by the modelled code, as values. -/
inductive Err where
  | valueError
  | keyError
  | indexError
  | typeError
  | attributeError
  | assertionError
  | networkXError
  | nameError
  | recursionError
  | petscError
  | zeroDivisionError
  | linAlgError
  deriving DecidableEq, Repr

abbrev Res (α : Type) := Except Err α

/-! ### Insertion ordered dictionaries (builtin `dict`) -/

abbrev Dict (κ ν : Type) := List (κ × ν)

namespace Dict
variable {κ ν : Type} [DecidableEq κ]

/-- `d.get(k)` -/
def get? : Dict κ ν → κ → Option ν
  | [], _ => none
  | (k', v) :: t, k => if k' = k then some v else get? t k

/-- `d[k] = v`: overwriting keeps the position of the key. -/
def set : Dict κ ν → κ → ν → Dict κ ν
  | [], k, v => [(k, v)]
  | (k', v') :: t, k, v => if k' = k then (k, v) :: t else (k', v') :: set t k v

/-- `dict(pairs)` -/
def ofList (l : List (κ × ν)) : Dict κ ν := l.foldl (fun d p => d.set p.1 p.2) []

/-- `d[k]` (raises `KeyError`). -/
def getItem (d : Dict κ ν) (k : κ) : Res ν :=
  match d.get? k with
  | some v => .ok v
  | none => .error .keyError

def keys (d : Dict κ ν) : List κ := d.map Prod.fst
def values (d : Dict κ ν) : List ν := d.map Prod.snd

end Dict

/-! ### numpy -/

/-- `np.sort` on a one dimensional integer array. -/
def npSort (l : List Nat) : List Nat := l.insertionSort (· ≤ ·)

/-- `np.max` on a one dimensional array of non-negative integers; raises on empty input. -/
def npMax (l : List Nat) : Res Nat :=
  match l with
  | [] => .error .valueError
  | a :: t => .ok (t.foldl max a)

/-- Python list/array read access with a non-negative index. -/
def getIdx {α : Type} (l : List α) (i : Nat) : Res α :=
  match l[i]? with
  | some a => .ok a
  | none => .error .indexError

/-! ### networkx.DiGraph -/

/-- Append unless present: insertion into an insertion-ordered dict used as a set. -/
def addNew {α : Type} [DecidableEq α] (l : List α) (x : α) : List α :=
  if x ∈ l then l else l ++ [x]

/-- Distinct elements, in order of first occurrence (the keys of `dict.fromkeys(l)`). -/
def uniq {α : Type} [DecidableEq α] (l : List α) : List α := l.foldl addNew []

/-- `networkx.DiGraph`: nodes and edges in insertion order, without repetition.  The adjacency
dictionaries of networkx iterate successors and predecessors in edge insertion order. -/
structure DiGraph (N : Type) where
  nodes : List N
  edges : List (N × N)
  deriving Repr

namespace DiGraph
variable {N : Type} [DecidableEq N]

def empty : DiGraph N := ⟨[], []⟩

/-- `G.add_edge(u, v)`: adds the missing end points (`u` first) and the edge. -/
def addEdge (g : DiGraph N) (e : N × N) : DiGraph N :=
  ⟨addNew (addNew g.nodes e.1) e.2, addNew g.edges e⟩

/-- `nx.from_edgelist(l, create_using=nx.DiGraph)` -/
def ofEdges (l : List (N × N)) : DiGraph N := l.foldl addEdge empty

/-- `list(G.successors(u))`; raises `NetworkXError` for an unknown node. -/
def successors (g : DiGraph N) (u : N) : Res (List N) :=
  if u ∈ g.nodes then .ok ((g.edges.filter fun e => e.1 = u).map Prod.snd)
  else .error .networkXError

/-- `list(G.predecessors(v))`; raises `NetworkXError` for an unknown node. -/
def predecessors (g : DiGraph N) (v : N) : Res (List N) :=
  if v ∈ g.nodes then .ok ((g.edges.filter fun e => e.2 = v).map Prod.fst)
  else .error .networkXError

end DiGraph

end Verif
