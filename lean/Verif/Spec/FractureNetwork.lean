/-
Specification vocabulary of fracture networks.
-/
import Verif.Model.FractureNetwork
import Verif.Spec.Geometry
import Mathlib.Analysis.Convex.Segment

namespace Verif.Fracture
open MeshBuild MeshGraph Trace MeshMetrics Geometry

/-- The cell `v` is a vertex at the point `x`. -/
def HasVertex (net : Net) (v : Nat) (x : Pt ℝ) : Prop :=
  ∃ c k, net.cells[v]? = some c ∧ c.dimension = 0 ∧ c.pointId = some k ∧ net.points[k]? = some x

/-- A network in order: ids are positions, and the vertices correspond to the points. -/
structure NetOK (net : Net) : Prop where
  ids : ∀ (i : Nat) (c : FCell), net.cells[i]? = some c → c.id = i
  point : ∀ (i : Nat) (c : FCell), net.cells[i]? = some c → c.dimension = 0 →
    ∃ k, c.pointId = some k ∧ k < net.points.length
  vertex : ∀ k, k < net.points.length → ∃ (i : Nat) (c : FCell), net.cells[i]? = some c ∧
    c.dimension = 0 ∧ c.pointId = some k
  unique : ∀ (i j : Nat) (c d : FCell), net.cells[i]? = some c → net.cells[j]? = some d →
    c.dimension = 0 → d.dimension = 0 → c.pointId = d.pointId → i = j

/-- The points are at least `eps` apart. -/
def Apart (eps : ℝ) (l : List (Pt ℝ)) : Prop := l.Pairwise fun x y => eps ≤ norm3 (x - y)

/-- The end points of the fractures. -/
def ends (lines : List (Pt ℝ × Pt ℝ)) : List (Pt ℝ) := lines.flatMap fun f => [f.1, f.2]

/-- `x` is on fracture `i` and on another one. -/
def Common (lines : List (Pt ℝ × Pt ℝ)) (i : Nat) (x : Pt ℝ) : Prop :=
  ∃ l, lines[i]? = some l ∧ x ∈ segment ℝ l.1 l.2 ∧
    ∃ j m, j ≠ i ∧ lines[j]? = some m ∧ x ∈ segment ℝ m.1 m.2

/-- The end points and the common points. -/
def Special (lines : List (Pt ℝ × Pt ℝ)) (x : Pt ℝ) : Prop := x ∈ ends lines ∨ ∃ i, Common lines i x

/-- Two segments are parallel, and apart by more than the tolerance of the segment test. -/
def ApartParallel (pos : Fin 3 × Fin 3) (l m : Pt ℝ × Pt ℝ) : Prop :=
  det2 (proj pos l.1 - proj pos l.2) (proj pos m.1 - proj pos m.2) = 0 ∧
    2 / 10 ^ 12 ≤ |det2 (proj pos l.1 - proj pos m.1) (proj pos l.2 - proj pos m.1)|

/-- Fractures in a plane, any two of them not parallel within the tolerance of the segment test or
parallel and apart, with end points that are distinct and, like the common points, equal or at least
`eps` apart. -/
structure FracOK (eps : ℝ) (pos : Fin 3 × Fin 3) (lines : List (Pt ℝ × Pt ℝ)) : Prop where
  plane : ∃ (n : Pt ℝ) (h : ℝ), Keeps pos n ∧ ∀ l ∈ lines, dot n l.1 = h ∧ dot n l.2 = h
  cross : ∀ (i j : Nat) (l m : Pt ℝ × Pt ℝ), i < j → lines[i]? = some l → lines[j]? = some m →
    1 / 10 ^ 12 ≤ |det2 (proj pos l.1 - proj pos l.2) (proj pos m.1 - proj pos m.2)| ∨ ApartParallel pos l m
  apart : ∀ x y, Special lines x → Special lines y → norm3 (x - y) < eps → x = y
  ends : (ends lines).Nodup

/-- What `np.argsort` promises. -/
def IsArgsort (argsort : List ℝ → List Nat) : Prop :=
  ∀ l : List ℝ, (argsort l).Perm (List.range l.length) ∧
    (argsort l).Pairwise fun i j => ∀ x y, l[i]? = some x → l[j]? = some y → x ≤ y

/-- `chain` leads from `a` to `b` along the segment: its entries are vertices with their points,
in the order of the distance from `a`. -/
structure IsChain (net : Net) (v w : Nat) (a b : Pt ℝ) (chain : List (Nat × Pt ℝ)) : Prop where
  first : chain.head? = some (v, a)
  last : chain.getLast? = some (w, b)
  vertices : ∀ p ∈ chain, HasVertex net p.1 p.2
  segment : ∀ p ∈ chain, p.2 ∈ segment ℝ a b
  ordered : chain.Pairwise fun p q => norm3 (p.2 - a) < norm3 (q.2 - a)

/-- The cell `3 i + 2` has the sub-edges given by consecutive entries of the chain. -/
def IsSplit (net : Net) (i tag : Nat) (chain : List (Nat × Pt ℝ)) : Prop :=
  ∃ imm, net.cells[3 * i + 2]? = some ⟨1, 3 * i + 2, tag, none, [3 * i, 3 * i + 1], imm⟩ ∧
    List.Forall₂ (fun id (e : (Nat × Pt ℝ) × (Nat × Pt ℝ)) =>
      net.cells[id]? = some (edgeCell id tag [e.1.1, e.2.1])) imm (chain.zip chain.tail)

end Verif.Fracture
