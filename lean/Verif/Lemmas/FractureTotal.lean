/-
Lemmas on fracture networks: arbitrary fractures.
-/
import Verif.Lemmas.FractureSplit

namespace Verif.Fracture
open MeshBuild MeshGraph Trace MeshMetrics Geometry
open scoped Classical

/-- What holds of every network: `from0` is a list of points the network started with. -/
structure Wf (eps : ℝ) (n : Nat) (from0 : List (Pt ℝ)) (net : Net) : Prop where
  ok : NetOK net
  prefix0 : from0 <+: net.points
  apart : Apart eps from0 → Apart eps net.points
  frac : ∀ i, i < n → ∃ (c : FCell) (v w : Nat), net.cells[3 * i + 2]? = some c ∧
    c.dimension = 1 ∧ c.boundary = [v, w] ∧ (∃ x, HasVertex net v x) ∧ (∃ x, HasVertex net w x) ∧
    ∀ u ∈ c.immersed, ∃ x, HasVertex net u x

theorem wf_disjoint (eps : ℝ) (shift : Nat) (lines : List (Pt ℝ × Pt ℝ)) :
    Wf eps lines.length (ends lines) (disjointNet shift lines) := by
  refine ⟨disjoint_ok _ _, List.prefix_refl _, id, fun i hi => ?_⟩
  obtain ⟨h1, h2, h3⟩ := disjoint_frac shift (List.getElem?_eq_getElem hi)
  exact ⟨_, _, _, h1, rfl, rfl, ⟨_, h2⟩, ⟨_, h3⟩, by simp⟩

theorem endPoints_ok {net : Net} {c : FCell} {v w : Nat} (hb : c.boundary = [v, w])
    (hv : ∃ x, HasVertex net v x) (hw : ∃ x, HasVertex net w x) :
    ∃ a b, endPoints net c = .ok (a, b) := by
  obtain ⟨a, ha⟩ := hv
  obtain ⟨b, hb'⟩ := hw
  exact ⟨a, b, endPoints_spec hb ha hb'⟩

theorem wf_pair {eps : ℝ} (he : 0 < eps) (pos : Fin 3 × Fin 3) {n : Nat} {from0 : List (Pt ℝ)}
    {net : Net} (h : Wf eps n from0 net) {i j : Nat} (hi : i < n) (hj : j < n) (hij : i ≠ j) :
    ∃ net', intersectPair eps pos net (3 * i + 2, 3 * j + 2) = .ok net' ∧ Wf eps n from0 net' := by
  obtain ⟨ci, vi, wi, gi, di, bi, hvi, hwi, mi⟩ := h.frac i hi
  obtain ⟨cj, vj, wj, gj, dj, bj, hvj, hwj, mj⟩ := h.frac j hj
  obtain ⟨a, b, e1⟩ := endPoints_ok bi hvi hwi
  obtain ⟨p, q, e2⟩ := endPoints_ok bj hvj hwj
  unfold intersectPair
  simp only [getIdx_of gi, getIdx_of gj, e1, e2, Res.bind_ok]
  cases lineLineTest (1 / 10 ^ 12) pos a b p q with
  | none => exact ⟨net, rfl, h⟩
  | some r =>
    obtain ⟨x, y⟩ := r
    dsimp only
    obtain ⟨net1, v, z, e3, ok1, hv, -, hcase⟩ := insertVertex_spec he h.ok x
      (pairIntegers ci.physical cj.physical)
    have hext : Extends net net1 := by
      rcases hcase with ⟨rfl, -⟩ | ⟨-, -, h1, h2⟩
      · exact Extends.refl _
      · exact extends_insert h1 h2
    have hsame : ∀ (k : Nat) (c : FCell), net.cells[k]? = some c → net1.cells[k]? = some c := by
      intro k c hk
      rcases hcase with ⟨rfl, -⟩ | ⟨-, -, h1, h2⟩
      · exact hk
      · rw [h2, getElem?_append_singleton]; exact Or.inl hk
    have happ : Apart eps net.points → Apart eps net1.points := by
      intro h'
      rcases hcase with ⟨rfl, -⟩ | ⟨-, h0, h1, h2⟩
      · exact h'
      · rw [h1]
        refine List.pairwise_append.2 ⟨h', List.pairwise_singleton _ _, ?_⟩
        intro a ha b hb
        rw [List.mem_singleton] at hb; subst hb
        exact h0 a ha
    rw [e3]
    dsimp only
    obtain ⟨net2, e4, ok2, ext2, pts2, -, ci2, oth2⟩ := addImmersed_spec ok1 (v := v) (hsame _ _ gi)
    have cj1 : net2.cells[3 * j + 2]? = _ := (oth2 _ (by omega)).trans (hsame _ _ gj)
    obtain ⟨net3, e5, ok3, ext3, pts3, -, cj3, oth3⟩ := addImmersed_spec ok2 (v := v) cj1
    rw [e4, Res.bind_ok, e5]
    have hE : Extends net net3 := hext.trans (ext2.trans ext3)
    have hpts : net3.points = net1.points := pts3.trans pts2
    have hv3 : HasVertex net3 v z := ext3.hasVertex (ext2.hasVertex hv)
    refine ⟨net3, rfl, ok3, h.prefix0.trans hE.points, fun h0 => hpts ▸ happ (h.apart h0), ?_⟩
    intro k hk
    obtain ⟨c, v', w', g, d, b', ⟨x1, hv'⟩, ⟨x2, hw'⟩, m⟩ := h.frac k hk
    have hm : ∀ u ∈ c.immersed, ∃ x, HasVertex net3 u x := fun u hu => by
      obtain ⟨x, hx⟩ := m u hu
      exact ⟨x, hE.hasVertex hx⟩
    have hm' : ∀ u ∈ c.immersed ++ [v], ∃ x, HasVertex net3 u x := by
      intro u hu
      rcases List.mem_append.1 hu with hu | hu
      · exact hm u hu
      · rw [List.mem_singleton] at hu; subst hu
        exact ⟨z, hv3⟩
    by_cases hki : k = i
    · subst hki
      rw [gi] at g; cases g
      refine ⟨_, v', w', (oth3 _ (by omega)).trans ci2, d, b', ⟨x1, hE.hasVertex hv'⟩,
        ⟨x2, hE.hasVertex hw'⟩, hm'⟩
    · by_cases hkj : k = j
      · subst hkj
        rw [gj] at g; cases g
        exact ⟨_, v', w', cj3, d, b', ⟨x1, hE.hasVertex hv'⟩, ⟨x2, hE.hasVertex hw'⟩, hm'⟩
      · refine ⟨c, v', w', ?_, d, b', ⟨x1, hE.hasVertex hv'⟩, ⟨x2, hE.hasVertex hw'⟩, hm⟩
        rw [oth3 _ (by omega), oth2 _ (by omega)]
        exact hsame _ _ g

theorem wf_pairs {eps : ℝ} (he : 0 < eps) (pos : Fin 3 × Fin 3) {n : Nat} {from0 : List (Pt ℝ)} :
    ∀ (todo : List (Nat × Nat)) (net : Net), (∀ p ∈ todo, p.1 < p.2 ∧ p.2 < n) →
      Wf eps n from0 net →
      ∃ net', (todo.map fun p => (3 * p.1 + 2, 3 * p.2 + 2)).foldlM (intersectPair eps pos) net =
        .ok net' ∧ Wf eps n from0 net'
  | [], net, _, h => ⟨net, rfl, h⟩
  | (i, j) :: todo, net, ht, h => by
    obtain ⟨hij, hj⟩ := ht (i, j) (by simp)
    obtain ⟨net1, e1, h1⟩ := wf_pair he pos h (i := i) (j := j) (hij.trans hj) hj hij.ne
    obtain ⟨net2, e2, h2⟩ := wf_pairs he pos todo net1
      (fun p hp => ht p (List.mem_cons_of_mem _ hp)) h1
    refine ⟨net2, ?_, h2⟩
    rw [List.map_cons, List.foldlM_cons, e1, Res.bind_ok, e2]

/-- What holds during the splitting: the fractures in `todo` have not been split. -/
structure WfSplit (pts : List (Pt ℝ)) (todo : List Nat) (net : Net) : Prop where
  ok : NetOK net
  points : net.points = pts
  frac : ∀ i ∈ todo, ∃ (c : FCell) (v w : Nat), net.cells[3 * i + 2]? = some c ∧
    c.dimension = 1 ∧ c.boundary = [v, w] ∧ (∃ x, HasVertex net v x) ∧ (∃ x, HasVertex net w x) ∧
    ∀ u ∈ c.immersed, ∃ x, HasVertex net u x

/-- Splitting succeeds whenever the immersed cells are vertices. -/
theorem split_total {argsort : List ℝ → List Nat} (hs : IsArgsort argsort) {net : Net} {id v w : Nat}
    {c : FCell} (hc : net.cells[id]? = some c) (hb : c.boundary = [v, w])
    (hv : ∃ x, HasVertex net v x) (himm : ∀ u ∈ c.immersed, ∃ x, HasVertex net u x) :
    splitFracture argsort net id = .ok net ∨
    ∃ ids, splitFracture argsort net id = .ok ⟨net.points,
        net.cells.set id { c with immersed :=
          (subEdges net.cells.length c.physical ids).map FCell.id } ++
        subEdges net.cells.length c.physical ids⟩ := by
  by_cases hne : c.immersed = []
  · left
    unfold splitFracture
    rw [getIdx_of hc, Res.bind_ok]
    simp only [hb]
    rw [if_pos hne]
    rfl
  · right
    obtain ⟨a, ha⟩ := hv
    obtain ⟨sorted, s1, -, -⟩ := argsort_spec hs (D := fun u => norm3 (ptOf net u - a)) c.immersed
    have hpt : ∀ u, (∃ x, HasVertex net u x) → ∃ c k, net.cells[u]? = some c ∧
        c.pointId = some k ∧ net.points[k]? = some (ptOf net u) := by
      rintro u ⟨x, hx⟩
      rw [ptOf_eq hx]
      obtain ⟨c, k, h1, -, h2, h3⟩ := hx
      exact ⟨c, k, h1, h2, h3⟩
    have hvs : ∃ vs, mapRes (getIdx net.cells) c.immersed = .ok vs ∧
        mapRes (cellPoint net) vs = .ok (c.immersed.map (ptOf net)) := by
      clear hne s1
      generalize c.immersed = imm at himm
      induction imm with
      | nil => exact ⟨[], rfl, rfl⟩
      | cons u imm ih =>
        obtain ⟨vs, h1, h2⟩ := ih fun u hu => himm u (List.mem_cons_of_mem _ hu)
        obtain ⟨c, k, g1, g2, g3⟩ := hpt u (himm u (by simp))
        refine ⟨c :: vs, mapRes_iff.2 (.cons (getIdx_of g1) (mapRes_iff.1 h1)),
          mapRes_iff.2 (.cons ?_ (mapRes_iff.1 h2))⟩
        simp only [cellPoint, g2]
        exact getIdx_of g3
    obtain ⟨vs, h1, h2⟩ := hvs
    obtain ⟨cv, k, g1, g2, g3⟩ := hpt v ⟨a, ha⟩
    rw [ptOf_eq ha] at g3
    refine ⟨if w ∈ (if v ∈ uniq sorted then uniq sorted else v :: uniq sorted) then
        (if v ∈ uniq sorted then uniq sorted else v :: uniq sorted)
      else (if v ∈ uniq sorted then uniq sorted else v :: uniq sorted) ++ [w], ?_⟩
    unfold splitFracture
    rw [getIdx_of hc, Res.bind_ok]
    simp only [hb]
    rw [if_neg hne, h1, Res.bind_ok, h2, Res.bind_ok, getIdx_of g1, Res.bind_ok]
    simp only [cellPoint, g2, getIdx_of g3, Res.bind_ok, List.map_map]
    rw [show ((fun x => norm3 (x - a)) ∘ ptOf net) = fun u => norm3 (ptOf net u - a) from rfl, s1,
      Res.bind_ok]
    rfl

theorem wf_split_step {argsort : List ℝ → List Nat} (hs : IsArgsort argsort) {pts : List (Pt ℝ)}
    {i : Nat} {todo : List Nat} (hn : i ∉ todo) {net : Net} (h : WfSplit pts (i :: todo) net) :
    ∃ net', splitFracture argsort net (3 * i + 2) = .ok net' ∧ WfSplit pts todo net' := by
  obtain ⟨c, v, w, g, d, b, hv, hw, m⟩ := h.frac i (by simp)
  rcases split_total hs g b hv m with e | ⟨ids, e⟩
  · exact ⟨net, e, h.ok, h.points, fun j hj => h.frac j (List.mem_cons_of_mem _ hj)⟩
  have hk : 3 * i + 2 < net.cells.length := (List.getElem?_eq_some_iff.1 g).1
  -- where the cells come from
  have back : ∀ (k : Nat) (x : FCell) (X : FCell), (net.cells.set (3 * i + 2) X ++
      subEdges net.cells.length c.physical ids)[k]? = some x →
      (net.cells[k]? = some x ∧ k ≠ 3 * i + 2) ∨ (k = 3 * i + 2 ∧ x = X) ∨
      (x.dimension = 1 ∧ x.id = k ∧ net.cells.length ≤ k) := by
    intro k x X hx
    by_cases hk1 : k < net.cells.length
    · rw [List.getElem?_append_left (by simpa using hk1)] at hx
      by_cases hk2 : k = 3 * i + 2
      · subst hk2
        rw [List.getElem?_set_self hk] at hx
        exact Or.inr (Or.inl ⟨rfl, (Option.some.inj hx).symm⟩)
      · rw [List.getElem?_set_ne (Ne.symm hk2)] at hx
        exact Or.inl ⟨hx, hk2⟩
    · obtain ⟨j, rfl⟩ := Nat.exists_eq_add_of_le (not_lt.1 hk1)
      rw [List.getElem?_append_right (by simp)] at hx
      simp only [List.length_set, Nat.add_sub_cancel_left, subEdges_get,
        Option.map_eq_some_iff] at hx
      obtain ⟨con, -, rfl⟩ := hx
      exact Or.inr (Or.inr ⟨rfl, rfl, Nat.le_add_right _ _⟩)
  have forth : ∀ (k : Nat) (x : FCell) (X : FCell), net.cells[k]? = some x → k ≠ 3 * i + 2 →
      (net.cells.set (3 * i + 2) X ++ subEdges net.cells.length c.physical ids)[k]? = some x := by
    intro k x X hx hne
    have hk1 := (List.getElem?_eq_some_iff.1 hx).1
    rw [List.getElem?_append_left (by simpa using hk1), List.getElem?_set_ne (Ne.symm hne)]
    exact hx
  have dim0 : ∀ (k : Nat) (x : FCell), net.cells[k]? = some x → x.dimension = 0 →
      k ≠ 3 * i + 2 := by
    rintro k x hx h0 rfl
    rw [g] at hx; cases hx
    omega
  have hvert : ∀ {u x}, HasVertex net u x → HasVertex ⟨net.points, net.cells.set (3 * i + 2)
      { c with immersed := (subEdges net.cells.length c.physical ids).map FCell.id } ++
        subEdges net.cells.length c.physical ids⟩ u x := by
    rintro u x ⟨cu, k, h1, h2, h3, h4⟩
    exact ⟨cu, k, forth u cu _ h1 (dim0 u cu h1 h2), h2, h3, h4⟩
  refine ⟨_, e, ⟨?_, ?_, ?_, ?_⟩, h.points, ?_⟩
  · intro k x hx
    rcases back k x _ hx with ⟨h1, -⟩ | ⟨rfl, rfl⟩ | ⟨-, h1, -⟩
    · exact h.ok.ids k x h1
    · exact (h.ok.ids _ c g : c.id = _)
    · exact h1
  · intro k x hx h0
    rcases back k x _ hx with ⟨h1, -⟩ | ⟨rfl, rfl⟩ | ⟨h1, -⟩
    · exact h.ok.point k x h1 h0
    · exact absurd (h0 : c.dimension = 0) (by rw [d]; decide)
    · omega
  · intro k hk
    obtain ⟨j, x, h1, h2, h3⟩ := h.ok.vertex k hk
    exact ⟨j, x, forth j x _ h1 (dim0 j x h1 h2), h2, h3⟩
  · intro k l x y hx hy h0 h0' hxy
    rcases back k x _ hx with ⟨h1, -⟩ | ⟨rfl, rfl⟩ | ⟨h1, -⟩
    · rcases back l y _ hy with ⟨h2, -⟩ | ⟨rfl, rfl⟩ | ⟨h2, -⟩
      · exact h.ok.unique k l x y h1 h2 h0 h0' hxy
      · exact absurd (h0' : c.dimension = 0) (by rw [d]; decide)
      · omega
    · exact absurd (h0 : c.dimension = 0) (by rw [d]; decide)
    · omega
  · intro j hj
    obtain ⟨c', v', w', g', d', b', ⟨x1, hv'⟩, ⟨x2, hw'⟩, m'⟩ := h.frac j (List.mem_cons_of_mem _ hj)
    have hji : j ≠ i := by rintro rfl; exact hn hj
    refine ⟨c', v', w', forth _ _ _ g' (by omega), d', b', ⟨x1, hvert hv'⟩, ⟨x2, hvert hw'⟩, ?_⟩
    intro u hu
    obtain ⟨x, hx⟩ := m' u hu
    exact ⟨x, hvert hx⟩

theorem wf_splits {argsort : List ℝ → List Nat} (hs : IsArgsort argsort) {pts : List (Pt ℝ)} :
    ∀ (todo : List Nat) (net : Net), todo.Nodup → WfSplit pts todo net →
      ∃ net', (todo.map fun i => 3 * i + 2).foldlM (splitFracture argsort) net = .ok net' ∧
        NetOK net' ∧ net'.points = pts
  | [], net, _, h => ⟨net, rfl, h.ok, h.points⟩
  | i :: todo, net, hn, h => by
    obtain ⟨h1, h2⟩ := List.nodup_cons.1 hn
    obtain ⟨net1, e1, g1⟩ := wf_split_step hs h1 h
    obtain ⟨net2, e2, g2⟩ := wf_splits hs todo net1 h2 g1
    refine ⟨net2, ?_, g2⟩
    rw [List.map_cons, List.foldlM_cons, e1, Res.bind_ok, e2]

theorem mapRes_lines (lines : List (Pt ℝ × Pt ℝ)) :
    mapRes twoPoints (lines.map fun l => [l.1, l.2]) = .ok lines := by
  induction lines with
  | nil => rfl
  | cons l lines ih =>
    rw [mapRes_iff] at *
    exact .cons rfl ih

end Verif.Fracture
