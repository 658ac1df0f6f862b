/-
Lemmas on the planes.
-/
import Verif.Spec.Planes
import Verif.Props.DomainMarket

namespace Verif.Topology
open Shape MeshGraph
variable {P : Type} {argsort : List Int → List Nat} {close : P → P → Bool}

/-! ### The file -/

theorem triples_iff {α : Type} : ∀ {row : List α} {t : List (α × α × α)},
    triples row = .ok t ↔ coordinates t = row := by
  intro row
  induction row using triples.induct with
  | case1 => intro t; cases t <;> simp [triples, coordinates]
  | case2 x y z rest ih =>
    intro t
    rw [triples, Res.bind_eq_ok]
    constructor
    · rintro ⟨u, hu, h⟩
      cases h
      rw [← ih.1 hu]
      rfl
    · intro h
      match t with
      | [] => simp [coordinates] at h
      | (a, b, c) :: t =>
        have h' : a :: b :: c :: coordinates t = x :: y :: z :: rest := h
        simp only [List.cons.injEq] at h'
        obtain ⟨rfl, rfl, rfl, h'⟩ := h'
        exact ⟨t, ih.2 h', rfl⟩
  | case3 row h0 h3 =>
    intro t
    have : triples row = .error .valueError := by
      unfold triples
      split
      · exact absurd rfl h0
      · exact absurd rfl (h3 _ _ _ _)
      · rfl
    rw [this]
    constructor
    · intro h; cases h
    · intro h
      exfalso
      match t with
      | [] => exact h0 h.symm
      | (a, b, c) :: t => exact h3 a b c (coordinates t) h.symm

theorem readRow_iff {α : Type} {n : Nat} {row : List α} {t : List (α × α × α)} :
    readRow n row = .ok t ↔ coordinates t = row ∧ t.length = n := by
  unfold readRow
  rw [Res.bind_eq_ok]
  constructor
  · rintro ⟨u, hu, h⟩
    split at h
    · rename_i hl
      cases h
      exact ⟨triples_iff.1 hu, hl⟩
    · cases h
  · rintro ⟨h, hl⟩
    exact ⟨t, triples_iff.2 h, by rw [if_pos hl]; rfl⟩

/-! ### One plane -/

theorem joined_lt {t : Int} {p : Option Int} {v w : Shape P} (h : v.tag < w.tag) :
    joined t p v w = .composed .edge t p [v, w] [] := by
  unfold joined
  rw [if_pos h]

theorem joined_gt {t : Int} {p : Option Int} {v w : Shape P} (h : ¬ v.tag < w.tag) :
    joined t p v w = .composed .edge t p [w, v] [] := by
  unfold joined
  rw [if_neg h]

/-- The corners of a plane -/
def cornersOf (v : Int) (a b c d : P) : List (Shape P) :=
  [.vertex v none a, .vertex (v + 1) none b, .vertex (v + 2) none c, .vertex (v + 3) none d]

/-- The sides of a plane -/
def sidesOf (v e : Int) (a b c d : P) : List (Shape P) :=
  [joined e none (.vertex v none a) (.vertex (v + 1) none b),
   joined (e + 1) none (.vertex (v + 1) none b) (.vertex (v + 2) none c),
   joined (e + 2) none (.vertex (v + 2) none c) (.vertex (v + 3) none d),
   joined (e + 3) none (.vertex (v + 3) none d) (.vertex v none a)]

def wireOf (v e : Int) (a b c d : P) : Shape P :=
  .composed .wire (e + 4) none [.vertex v none a] (sidesOf v e a b c d)

def faceOf (v e f : Int) (tag : Option Int) (a b c d : P) : Shape P :=
  .composed .face f tag [wireOf v e a b c d] []

theorem sides_loop (hc : ∀ x, close x x = true) (v e : Int) (a b c d : P) :
    ClosedLoop close (sidesOf v e a b c d) (cornersOf v a b c d) :=
  square_loop hc rfl rfl rfl rfl joined_boundary joined_boundary joined_boundary joined_boundary
    (show v < v + 1 by omega) (show v + 1 ≠ v + 2 by omega) (show v + 2 ≠ v + 3 by omega)
    (show v + 3 ≠ v by omega)

theorem quad_of (hc : ∀ x, close x x = true) (v e f : Int) (tag : Option Int) (a b c d : P) :
    Quad close v e f tag a b c d (cornersOf v a b c d) (sidesOf v e a b c d) (wireOf v e a b c d)
      (faceOf v e f tag a b c d) where
  cornersEq := rfl
  sidesEq := by
    unfold sidesOf
    rw [joined_lt (v := .vertex v none a) (w := .vertex (v + 1) none b) (show v < v + 1 by omega),
      joined_lt (v := .vertex (v + 1) none b) (w := .vertex (v + 2) none c) (show v + 1 < v + 2 by omega),
      joined_lt (v := .vertex (v + 2) none c) (w := .vertex (v + 3) none d) (show v + 2 < v + 3 by omega),
      joined_gt (v := .vertex (v + 3) none d) (w := .vertex v none a) (show ¬ v + 3 < v by omega)]
  loop := sides_loop hc v e a b c d
  wireEq := rfl
  faceEq := rfl

theorem addPlane_ok (hc : ∀ x, close x x = true) (ha : IsArgsort argsort) (vs es fs ss : List (Shape P))
    (t : Tags) (a b c d : P) (p : Int) :
    addPlane close argsort ⟨3, [vs, es, fs, ss]⟩ t [a, b, c, d] p =
      .ok (⟨3, [vs ++ cornersOf t.v a b c d, es ++ (sidesOf t.v t.e a b c d ++ [wireOf t.v t.e a b c d]),
        fs ++ [faceOf t.v t.e t.f (some p) a b c d], ss]⟩, ⟨t.v + 4, t.e + 5, t.f + 1⟩) := by
  unfold addPlane
  simp only [show getIdx [a, b, c, d] 0 = .ok a from rfl, show getIdx [a, b, c, d] 1 = .ok b from rfl,
    show getIdx [a, b, c, d] 2 = .ok c from rfl, show getIdx [a, b, c, d] 3 = .ok d from rfl, Res.bind_ok]
  rw [mkSimple_edge ha (v := .vertex t.v none a) (w := .vertex (t.v + 1) none b) rfl rfl
    (show t.v ≠ t.v + 1 by omega), Res.bind_ok]
  rw [mkSimple_edge ha (v := .vertex (t.v + 1) none b) (w := .vertex (t.v + 2) none c) rfl rfl
    (show t.v + 1 ≠ t.v + 2 by omega), Res.bind_ok]
  rw [mkSimple_edge ha (v := .vertex (t.v + 2) none c) (w := .vertex (t.v + 3) none d) rfl rfl
    (show t.v + 2 ≠ t.v + 3 by omega), Res.bind_ok]
  rw [mkSimple_edge ha (v := .vertex (t.v + 3) none d) (w := .vertex t.v none a) rfl rfl
    (show t.v + 3 ≠ t.v by omega), Res.bind_ok]
  have hl := sides_loop (close := close) hc t.v t.e a b c d
  have hw := mkWire_loop (t := t.e + 4) (v := .vertex t.v none a) ha hl rfl (by
    intro s hs
    simp only [sidesOf, List.mem_cons, List.not_mem_nil, or_false] at hs
    rcases hs with rfl | rfl | rfl | rfl <;> exact ⟨_, _, _, _, rfl, rfl, rfl⟩)
  unfold sidesOf at hw
  rw [hw, Res.bind_ok]
  have hf : mkSimple argsort .face t.f [wireOf t.v t.e a b c d] =
      .ok (.composed .face t.f none [wireOf t.v t.e a b c d] []) := by
    rw [mkSimple, setBoundary_one ha (by simp [wireOf, Shape.dimension, Kind.dimension, Kind.admissible])]
    rfl
  unfold wireOf sidesOf at hf
  rw [hf, Res.bind_ok]
  rw [append_same (k := 0) (by simp) (by simp [Shape.dimension])]
  dsimp only [List.getElem?_cons_zero]
  rw [Res.bind_ok, append_same (k := 1) (by simp) (by simp [Shape.dimension, joined, Kind.dimension])]
  dsimp only [List.getElem?_cons_zero, List.getElem?_cons_succ, List.set]
  rw [Res.bind_ok, append_same (k := 2) (by simp) (by simp [Shape.dimension, Shape.tagged, Kind.dimension])]
  dsimp only [List.getElem?_cons_zero, List.getElem?_cons_succ, List.set]
  rw [Res.bind_ok]
  rfl

theorem addPlane_short {d : Domain P} {t : Tags} {plane : List P} {p : Int} (h : plane.length < 4) :
    addPlane close argsort d t plane p = .error .indexError := by
  unfold addPlane
  match plane, h with
  | [], _ => rfl
  | [_], _ => rfl
  | [_, _], _ => rfl
  | [_, _, _], _ => rfl

/-- The shapes of successive planes, by dimension. -/
def allCorners : Int → List (P × P × P × P) → List (Shape P)
  | _, [] => []
  | v, q :: qs => cornersOf v q.1 q.2.1 q.2.2.1 q.2.2.2 ++ allCorners (v + 4) qs

def allSides : Int → Int → List (P × P × P × P) → List (Shape P)
  | _, _, [] => []
  | v, e, q :: qs => (sidesOf v e q.1 q.2.1 q.2.2.1 q.2.2.2 ++ [wireOf v e q.1 q.2.1 q.2.2.1 q.2.2.2]) ++
      allSides (v + 4) (e + 5) qs

def allFaces : Tags → Int → List (P × P × P × P) → List (Shape P)
  | _, _, [] => []
  | t, p, q :: qs => faceOf t.v t.e t.f (some p) q.1 q.2.1 q.2.2.1 q.2.2.2 ::
      allFaces ⟨t.v + 4, t.e + 5, t.f + 1⟩ (p + 1) qs

def asList (q : P × P × P × P) : List P := [q.1, q.2.1, q.2.2.1, q.2.2.2]

theorem addPlanes_ok (hc : ∀ x, close x x = true) (ha : IsArgsort argsort) (ss : List (Shape P)) :
    ∀ (qs : List (P × P × P × P)) (vs es fs : List (Shape P)) (t : Tags) (k : Nat) (p : Int),
    addPlanes close argsort ⟨3, [vs, es, fs, ss]⟩ t
        (((qs.map asList).zipIdx k).map fun q => (q.1, (q.2 : Int) + p)) =
      .ok ⟨3, [vs ++ allCorners t.v qs, es ++ allSides t.v t.e qs, fs ++ allFaces t (k + p) qs, ss]⟩
  | [], vs, es, fs, t, k, p => by simp [addPlanes, allCorners, allSides, allFaces, Res.pure_eq]
  | q :: qs, vs, es, fs, t, k, p => by
    rw [List.map_cons, List.zipIdx_cons, List.map_cons, addPlanes]
    dsimp only
    rw [asList, addPlane_ok hc ha, Res.bind_ok]
    dsimp only
    rw [addPlanes_ok hc ha ss qs _ _ _ _ (k + 1) p]
    have hk : ((k + 1 : Nat) : Int) + p = (k : Int) + p + 1 := by push_cast; ring
    rw [hk]
    simp [allCorners, allSides, allFaces, List.append_assoc]

theorem allCorners_tags (qs : List (P × P × P × P)) : ∀ v : Int,
    (allCorners v qs).map tag = (List.range (4 * qs.length)).map fun i : Nat => v + (i : Int) := by
  induction qs with
  | nil => intro v; rfl
  | cons q qs ih =>
    intro v
    rw [allCorners, List.map_append, ih, List.length_cons, show 4 * (qs.length + 1) = 4 + 4 * qs.length by ring,
      List.range_add, List.map_append, List.map_map]
    congr 1
    · simp [cornersOf, tag, List.range_succ]
    · refine List.map_congr_left fun i _ => ?_
      simp only [Function.comp]
      push_cast
      ring

theorem allSides_tags (qs : List (P × P × P × P)) : ∀ v e : Int,
    (allSides v e qs).map tag = (List.range (5 * qs.length)).map fun i : Nat => e + (i : Int) := by
  induction qs with
  | nil => intro v e; rfl
  | cons q qs ih =>
    intro v e
    rw [allSides, List.map_append, ih, List.length_cons, show 5 * (qs.length + 1) = 5 + 5 * qs.length by ring,
      List.range_add, List.map_append (l₁ := List.range 5), List.map_map]
    congr 1
    · simp [sidesOf, wireOf, joined, tag, List.range_succ]
    · refine List.map_congr_left fun i _ => ?_
      simp only [Function.comp]
      push_cast
      ring

theorem allFaces_tags (qs : List (P × P × P × P)) : ∀ (t : Tags) (p : Int),
    (allFaces t p qs).map tag = (List.range qs.length).map fun i : Nat => t.f + (i : Int) := by
  induction qs with
  | nil => intro t p; rfl
  | cons q qs ih =>
    intro t p
    rw [allFaces, List.map_cons, ih, List.length_cons, List.range_succ_eq_map, List.map_cons, List.map_map]
    congr 1
    · simp [faceOf, tag]
    · refine List.map_congr_left fun i _ => ?_
      simp only [Function.comp, Nat.succ_eq_add_one]
      push_cast
      ring

theorem shifted_nodup (a : Int) (n : Nat) : ((List.range n).map fun i : Nat => a + (i : Int)).Nodup :=
  List.nodup_range.map fun i j h => by simpa using h

theorem allCorners_at : ∀ (qs : List (P × P × P × P)) (v : Int) (k : Nat) (q : P × P × P × P), qs[k]? = some q →
    ((allCorners v qs).drop (4 * k)).take 4 = cornersOf (v + 4 * k) q.1 q.2.1 q.2.2.1 q.2.2.2
  | [], _, _, _, h => by simp at h
  | q :: qs, v, 0, q', h => by
    simp only [List.getElem?_cons_zero, Option.some.injEq] at h
    subst h
    simp [allCorners, cornersOf]
  | q :: qs, v, k + 1, q', h => by
    have ih := allCorners_at qs (v + 4) k q' (by simpa using h)
    rw [allCorners, show 4 * (k + 1) = (cornersOf v q.1 q.2.1 q.2.2.1 q.2.2.2).length + 4 * k by
      simp [cornersOf]; ring, List.drop_append, List.drop_eq_nil_of_le (by omega), List.nil_append,
      Nat.add_sub_cancel_left, ih]
    congr 1
    push_cast
    ring

theorem allSides_at : ∀ (qs : List (P × P × P × P)) (v e : Int) (k : Nat) (q : P × P × P × P), qs[k]? = some q →
    ((allSides v e qs).drop (5 * k)).take 5 =
      sidesOf (v + 4 * k) (e + 5 * k) q.1 q.2.1 q.2.2.1 q.2.2.2 ++
        [wireOf (v + 4 * k) (e + 5 * k) q.1 q.2.1 q.2.2.1 q.2.2.2]
  | [], _, _, _, _, h => by simp at h
  | q :: qs, v, e, 0, q', h => by
    simp only [List.getElem?_cons_zero, Option.some.injEq] at h
    subst h
    simp [allSides, sidesOf]
  | q :: qs, v, e, k + 1, q', h => by
    have ih := allSides_at qs (v + 4) (e + 5) k q' (by simpa using h)
    rw [allSides, show 5 * (k + 1) = (sidesOf v e q.1 q.2.1 q.2.2.1 q.2.2.2 ++
        [wireOf v e q.1 q.2.1 q.2.2.1 q.2.2.2]).length + 5 * k by
      simp [sidesOf]; ring, List.drop_append, List.drop_eq_nil_of_le (by omega), List.nil_append,
      Nat.add_sub_cancel_left, ih]
    rw [show v + 4 + 4 * (k : Int) = v + 4 * ((k + 1 : Nat) : Int) by push_cast; ring,
      show e + 5 + 5 * (k : Int) = e + 5 * ((k + 1 : Nat) : Int) by push_cast; ring]

theorem allFaces_at : ∀ (qs : List (P × P × P × P)) (t : Tags) (p : Int) (k : Nat) (q : P × P × P × P),
    qs[k]? = some q → (allFaces t p qs)[k]? =
      some (faceOf (t.v + 4 * k) (t.e + 5 * k) (t.f + k) (some (p + k)) q.1 q.2.1 q.2.2.1 q.2.2.2)
  | [], _, _, _, _, h => by simp at h
  | q :: qs, t, p, 0, q', h => by
    simp only [List.getElem?_cons_zero, Option.some.injEq] at h
    subst h
    simp [allFaces]
  | q :: qs, t, p, k + 1, q', h => by
    have ih := allFaces_at qs ⟨t.v + 4, t.e + 5, t.f + 1⟩ (p + 1) k q' (by simpa using h)
    rw [allFaces, List.getElem?_cons_succ, ih]
    dsimp only
    rw [show t.v + 4 + 4 * (k : Int) = t.v + 4 * ((k + 1 : Nat) : Int) by push_cast; ring,
      show t.e + 5 + 5 * (k : Int) = t.e + 5 * ((k + 1 : Nat) : Int) by push_cast; ring,
      show t.f + 1 + (k : Int) = t.f + ((k + 1 : Nat) : Int) by push_cast; ring,
      show p + 1 + (k : Int) = p + ((k + 1 : Nat) : Int) by push_cast; ring]

theorem allCorners_dimension : ∀ (qs : List (P × P × P × P)) (v : Int), ∀ s ∈ allCorners v qs, s.dimension = 0
  | [], _, s, h => by simp [allCorners] at h
  | q :: qs, v, s, h => by
    rcases List.mem_append.1 h with h | h
    · simp only [cornersOf, List.mem_cons, List.not_mem_nil, or_false] at h
      rcases h with rfl | rfl | rfl | rfl <;> rfl
    · exact allCorners_dimension qs _ s h

theorem allSides_dimension : ∀ (qs : List (P × P × P × P)) (v e : Int), ∀ s ∈ allSides v e qs, s.dimension = 1
  | [], _, _, s, h => by simp [allSides] at h
  | q :: qs, v, e, s, h => by
    rcases List.mem_append.1 h with h | h
    · simp only [sidesOf, List.mem_cons, List.mem_append, List.not_mem_nil, or_false] at h
      rcases h with (rfl | rfl | rfl | rfl) | rfl <;> rfl
    · exact allSides_dimension qs _ _ s h

theorem allFaces_dimension : ∀ (qs : List (P × P × P × P)) (t : Tags) (p : Int), ∀ s ∈ allFaces t p qs, s.dimension = 2
  | [], _, _, s, h => by simp [allFaces] at h
  | q :: qs, t, p, s, h => by
    rcases List.mem_cons.1 h with rfl | h
    · rfl
    · exact allFaces_dimension qs _ _ s h

/-- Lists of four points -/
theorem exists_quads : ∀ (planes : List (List P)), (∀ q ∈ planes, q.length = 4) →
    ∃ qs : List (P × P × P × P), planes = qs.map asList
  | [], _ => ⟨[], rfl⟩
  | q :: planes, h => by
    obtain ⟨qs, rfl⟩ := exists_quads planes fun r hr => h r (by simp [hr])
    have := h q (by simp)
    match q, this with
    | [a, b, c, d], _ => exact ⟨(a, b, c, d) :: qs, rfl⟩

theorem buildPlanes_ok (hc : ∀ x, close x x = true) (ha : IsArgsort argsort) (qs : List (P × P × P × P)) (t : Tags)
    (p : Int) : buildPlanes close argsort (qs.map asList) t p =
      .ok ⟨3, [allCorners t.v qs, allSides t.v t.e qs, allFaces t p qs, []]⟩ := by
  have := addPlanes_ok hc ha [] qs [] [] [] t 0 p
  simpa [buildPlanes, Domain.new, List.replicate] using this

theorem append_dim {d : Domain P} {shapes : List (Shape P)} {k : Nat} {old : List (Shape P)}
    (h : ∀ s ∈ shapes, s.dimension = k) (ho : d.shapes[k]? = some old) :
    d.append shapes = .ok { d with shapes := d.shapes.set k (old ++ shapes) } := by
  by_cases hne : shapes = []
  · subst hne
    obtain ⟨hk, rfl⟩ := List.getElem?_eq_some_iff.1 ho
    simp [Domain.append]
  · rw [append_same hne h, ho]

end Verif.Topology
