/-
Lemmas on fracture networks: splitting the fractures at their immersed vertices.
-/
import Verif.Lemmas.FracturePairs
import Verif.Lemmas.PointGeometry

namespace Verif.Fracture
open MeshBuild MeshGraph Trace MeshMetrics Geometry
open scoped Classical

/-! ### Lists -/

theorem uniq_sublist (l : List Nat) : (uniq l).Sublist l := by
  induction l using List.reverseRecOn with
  | nil => exact List.Sublist.refl _
  | append_singleton l x ih =>
    have : uniq (l ++ [x]) = addNew (uniq l) x := by simp [uniq, List.foldl_append]
    rw [this]
    unfold addNew
    split
    · exact ih.trans (List.sublist_append_left _ _)
    · exact ih.append (List.Sublist.refl _)

theorem chain_front {D : Nat → ℝ} {b : Nat} {l : List Nat} (hl : l.Pairwise fun v w => D v < D w)
    (hb : ∀ v ∈ l, v ≠ b → D b < D v) :
    (if b ∈ l then l else b :: l).Pairwise (fun v w => D v < D w) ∧
    (if b ∈ l then l else b :: l).head? = some b ∧
    ∀ v, v ∈ (if b ∈ l then l else b :: l) ↔ v = b ∨ v ∈ l := by
  split
  · rename_i h
    refine ⟨hl, ?_, fun v => ⟨Or.inr, ?_⟩⟩
    · cases l with
      | nil => simp at h
      | cons a l =>
        by_cases hab : a = b
        · rw [hab]; rfl
        · have h1 := hb a (by simp) hab
          rcases List.mem_cons.1 h with rfl | h
          · exact absurd rfl hab
          · exact absurd ((List.pairwise_cons.1 hl).1 b h) (not_lt.2 h1.le)
    · rintro (rfl | h')
      · exact h
      · exact h'
  · rename_i h
    refine ⟨List.pairwise_cons.2 ⟨fun v hv => hb v hv ?_, hl⟩, rfl, fun v => List.mem_cons⟩
    rintro rfl; exact h hv

theorem chain_back {D : Nat → ℝ} {e : Nat} {l : List Nat} (hl : l.Pairwise fun v w => D v < D w)
    (he : ∀ v ∈ l, v ≠ e → D v < D e) (hne : l ≠ []) :
    (if e ∈ l then l else l ++ [e]).Pairwise (fun v w => D v < D w) ∧
    (if e ∈ l then l else l ++ [e]).head? = l.head? ∧
    (if e ∈ l then l else l ++ [e]).getLast? = some e ∧
    ∀ v, v ∈ (if e ∈ l then l else l ++ [e]) ↔ v ∈ l ∨ v = e := by
  split
  · rename_i h
    refine ⟨hl, rfl, ?_, fun v => ⟨Or.inl, ?_⟩⟩
    · obtain ⟨m, a, rfl⟩ := List.eq_nil_or_concat l |>.resolve_left hne
      rw [List.concat_eq_append] at *
      rw [List.getLast?_concat]
      by_cases hae : a = e
      · rw [hae]
      · have h1 := he a (by simp) hae
        rcases List.mem_append.1 h with h | h
        · exact absurd ((List.pairwise_append.1 hl).2.2 e h a (by simp)) (not_lt.2 h1.le)
        · exact absurd (List.mem_singleton.1 h).symm hae
    · rintro (h' | rfl)
      · exact h'
      · exact h
  · rename_i h
    refine ⟨List.pairwise_append.2 ⟨hl, List.pairwise_singleton _ _, ?_⟩, ?_, by simp, by simp⟩
    · intro v hv w hw
      rw [List.mem_singleton] at hw; subst hw
      exact he v hv (by rintro rfl; exact h hv)
    · cases l with
      | nil => exact absurd rfl hne
      | cons a l => rfl

/-- Points of a segment at the same distance from its start are equal. -/
theorem segment_dist {a b x y : Pt ℝ} (hx : x ∈ segment ℝ a b) (hy : y ∈ segment ℝ a b) :
    (norm3 (x - a) = norm3 (y - a) → x = y) ∧ norm3 (x - a) ≤ norm3 (b - a) := by
  obtain ⟨t, t0, t1, rfl⟩ := mem_segment_iff.1 hx
  obtain ⟨s, s0, s1, rfl⟩ := mem_segment_iff.1 hy
  have e : ∀ r : ℝ, 0 ≤ r → norm3 (a + r • (b - a) - a) = r * norm3 (b - a) := by
    intro r hr
    rw [show a + r • (b - a) - a = r • (b - a) by abel, norm3_smul, abs_of_nonneg hr]
  rw [e t t0, e s s0]
  constructor
  · intro h
    by_cases h0 : norm3 (b - a) = 0
    · rw [norm3_eq_zero.1 h0]; simp
    · rw [mul_right_cancel₀ h0 h]
  · have := norm3_nonneg (b - a)
    nlinarith

theorem argsort_spec {α : Type} {argsort : List ℝ → List Nat} (hs : IsArgsort argsort) {D : α → ℝ}
    (imm : List α) : ∃ sorted, fancy imm (argsort (imm.map D)) = .ok sorted ∧
      (∀ v, v ∈ sorted ↔ v ∈ imm) ∧ sorted.Pairwise fun v w => D v ≤ D w := by
  obtain ⟨hp, ho⟩ := hs (imm.map D)
  rw [List.length_map] at hp
  generalize argsort (imm.map D) = perm at *
  have hlt : ∀ k ∈ perm, k < imm.length := fun k hk => by simpa using hp.mem_iff.1 hk
  have hall : ∀ k, k < imm.length → k ∈ perm := fun k hk => hp.mem_iff.2 (by simpa using hk)
  clear hp
  have key : ∀ perm : List Nat, (∀ k ∈ perm, k < imm.length) →
      (perm.Pairwise fun i j => ∀ x y, (imm.map D)[i]? = some x → (imm.map D)[j]? = some y →
        x ≤ y) →
      ∃ sorted, List.Forall₂ (fun i b => imm[i]? = some b) perm sorted ∧
        (∀ v, v ∈ sorted ↔ ∃ k ∈ perm, imm[k]? = some v) ∧
        sorted.Pairwise fun v w => D v ≤ D w := by
    intro perm
    induction perm with
    | nil => exact fun _ _ => ⟨[], .nil, by simp, List.Pairwise.nil⟩
    | cons k perm ih =>
      intro h1 h2
      obtain ⟨h3, h4⟩ := List.pairwise_cons.1 h2
      obtain ⟨sorted, g1, g2, g3⟩ := ih (fun k hk => h1 k (List.mem_cons_of_mem _ hk)) h4
      have hk := List.getElem?_eq_getElem (h1 k (by simp))
      refine ⟨_ :: sorted, .cons hk g1, ?_, List.pairwise_cons.2 ⟨?_, g3⟩⟩
      · intro v
        rw [List.mem_cons, g2]
        constructor
        · rintro (rfl | ⟨j, hj, hv⟩)
          · exact ⟨k, by simp, hk⟩
          · exact ⟨j, List.mem_cons_of_mem _ hj, hv⟩
        · rintro ⟨j, hj, hv⟩
          rcases List.mem_cons.1 hj with rfl | hj
          · rw [hk] at hv; exact Or.inl (Option.some.inj hv).symm
          · exact Or.inr ⟨j, hj, hv⟩
      · intro w hw
        obtain ⟨j, hj, hv⟩ := (g2 w).1 hw
        exact h3 j hj _ _ (by rw [List.getElem?_map, hk]; rfl)
          (by rw [List.getElem?_map, hv]; rfl)
  obtain ⟨sorted, g1, g2, g3⟩ := key perm hlt ho
  refine ⟨sorted, fancy_iff.2 g1, fun v => ?_, g3⟩
  rw [g2]
  constructor
  · rintro ⟨k, -, hk⟩; exact List.mem_of_getElem? hk
  · intro hv
    obtain ⟨k, hk, rfl⟩ := List.getElem_of_mem hv
    exact ⟨k, hall k hk, List.getElem?_eq_getElem hk⟩

/-! ### One fracture -/

/-- The point of a vertex. -/
noncomputable def ptOf (net : Net) (v : Nat) : Pt ℝ :=
  if h : ∃ x, HasVertex net v x then h.choose else 0

theorem ptOf_eq {net : Net} {v : Nat} {x : Pt ℝ} (h : HasVertex net v x) : ptOf net v = x := by
  have h' : ∃ x, HasVertex net v x := ⟨x, h⟩
  unfold ptOf
  rw [dif_pos h']
  exact h'.choose_spec.unique h

/-- The sub-edges of a fracture. -/
def subEdges (start tag : Nat) (ids : List Nat) : List FCell :=
  (ids.zip ids.tail).mapIdx fun k con => edgeCell (start + k) tag [con.1, con.2]

/-- The vertices of the sub-edges: the immersed ones and the two ends in the order of the distance
from the first end. -/
structure IsIds (net : Net) (v w : Nat) (a b : Pt ℝ) (imm ids : List Nat) : Prop where
  head : ids.head? = some v
  last : ids.getLast? = some w
  mem : ∀ u, u ∈ ids ↔ u = v ∨ u = w ∨ u ∈ imm
  vertex : ∀ u ∈ ids, ∃ x, HasVertex net u x ∧ x ∈ segment ℝ a b
  ordered : ids.Pairwise fun u u' => norm3 (ptOf net u - a) < norm3 (ptOf net u' - a)

theorem split_spec {eps : ℝ} (he : 0 < eps) {argsort : List ℝ → List Nat} (hs : IsArgsort argsort)
    {net : Net} (hinj : ∀ v w x, HasVertex net v x → HasVertex net w x → v = w) {id tag v w : Nat}
    {a b : Pt ℝ} (hab : a ≠ b) (ha : HasVertex net v a) (hb : HasVertex net w b) {imm : List Nat}
    (hc : net.cells[id]? = some ⟨1, id, tag, none, [v, w], imm⟩)
    (himm : ∀ u ∈ imm, ∃ x, HasVertex net u x ∧ x ∈ segment ℝ a b) (hne : imm ≠ []) :
    ∃ ids, IsIds net v w a b imm ids ∧
      splitFracture argsort net id = .ok ⟨net.points,
        net.cells.set id ⟨1, id, tag, none, [v, w],
          (subEdges net.cells.length tag ids).map FCell.id⟩ ++
        subEdges net.cells.length tag ids⟩ := by
  obtain ⟨sorted, s1, s2, s3⟩ := argsort_spec hs (D := fun u => norm3 (ptOf net u - a)) imm
  have seg_a : a ∈ segment ℝ a b := left_mem_segment ℝ a b
  have seg_b : b ∈ segment ℝ a b := right_mem_segment ℝ a b
  -- strictly ordered distances
  have hstrict : ∀ {u u' : Nat}, (∃ x, HasVertex net u x ∧ x ∈ segment ℝ a b) →
      (∃ x, HasVertex net u' x ∧ x ∈ segment ℝ a b) →
      norm3 (ptOf net u - a) = norm3 (ptOf net u' - a) → u = u' := by
    rintro u u' ⟨x, hx, hx'⟩ ⟨y, hy, hy'⟩ h
    rw [ptOf_eq hx, ptOf_eq hy] at h
    have := (segment_dist hx' hy').1 h
    subst this
    exact hinj _ _ _ hx hy
  have hu : (uniq sorted).Pairwise fun u u' => norm3 (ptOf net u - a) < norm3 (ptOf net u' - a) := by
    have h1 := s3.sublist (uniq_sublist sorted)
    have h2 := nodup_uniq sorted
    refine List.Pairwise.imp_of_mem ?_ (h1.and h2)
    rintro u u' hu hu' ⟨h3, h4⟩
    refine lt_of_le_of_ne h3 fun h => h4 ?_
    rw [mem_uniq, s2] at hu hu'
    exact hstrict (himm u hu) (himm u' hu') h
  have hva : ptOf net v = a := ptOf_eq ha
  have hwb : ptOf net w = b := ptOf_eq hb
  have hlt_ab : norm3 (ptOf net v - a) < norm3 (ptOf net w - a) := by
    rw [hva, hwb, sub_self, norm3_zero]
    refine lt_of_le_of_ne (norm3_nonneg _) fun h => hab ?_
    exact (sub_eq_zero.1 (norm3_eq_zero.1 h.symm)).symm
  obtain ⟨f1, f2, f3⟩ := chain_front (D := fun u => norm3 (ptOf net u - a)) (b := v) hu (by
    intro u hu huv
    rw [mem_uniq, s2] at hu
    refine lt_of_le_of_ne ?_ fun h => huv (hstrict (himm u hu) ⟨a, ha, seg_a⟩ h.symm)
    rw [hva, sub_self, norm3_zero]
    exact norm3_nonneg _)
  obtain ⟨b1, b2, b3, b4⟩ := chain_back (D := fun u => norm3 (ptOf net u - a)) (e := w) f1 (by
    intro u hu huw
    rcases (f3 u).1 hu with rfl | hu
    · exact hlt_ab
    rw [mem_uniq, s2] at hu
    refine lt_of_le_of_ne ?_ fun h => huw (hstrict (himm u hu) ⟨b, hb, seg_b⟩ h)
    obtain ⟨x, hx, hx'⟩ := himm u hu
    show norm3 (ptOf net u - a) ≤ norm3 (ptOf net w - a)
    rw [hwb, ptOf_eq hx]
    exact (segment_dist hx' hx').2) (by
    intro h; rw [h] at f2; cases f2)
  refine ⟨_, ⟨b2.trans f2, b3, ?_, ?_, b1⟩, ?_⟩
  · intro u
    rw [b4, f3, mem_uniq, s2]
    tauto
  · intro u hu
    rw [b4, f3, mem_uniq, s2] at hu
    rcases hu with (rfl | hu) | rfl
    · exact ⟨a, ha, seg_a⟩
    · exact himm u hu
    · exact ⟨b, hb, seg_b⟩
  · -- the code
    have hpt : ∀ u, (∃ x, HasVertex net u x ∧ x ∈ segment ℝ a b) → ∃ c k, net.cells[u]? = some c ∧
        c.pointId = some k ∧ net.points[k]? = some (ptOf net u) := by
      rintro u ⟨x, hx, -⟩
      rw [ptOf_eq hx]
      obtain ⟨c, k, h1, -, h2, h3⟩ := hx
      exact ⟨c, k, h1, h2, h3⟩
    have hvs : ∃ vs, mapRes (getIdx net.cells) imm = .ok vs ∧
        mapRes (cellPoint net) vs = .ok (imm.map (ptOf net)) := by
      clear hc hne s1 s2 s3 hu f1 f2 f3 b1 b2 b3 b4
      induction imm with
      | nil => exact ⟨[], rfl, rfl⟩
      | cons u imm ih =>
        obtain ⟨vs, h1, h2⟩ := ih fun u hu => himm u (List.mem_cons_of_mem _ hu)
        obtain ⟨c, k, g1, g2, g3⟩ := hpt u (himm u (by simp))
        refine ⟨c :: vs, mapRes_iff.2 (.cons (getIdx_of g1) (mapRes_iff.1 h1)),
          mapRes_iff.2 (.cons ?_ (mapRes_iff.1 h2))⟩
        simp only [cellPoint, g2]
        exact getIdx_of g3
    obtain ⟨vs, h1, h2⟩ := hvs
    obtain ⟨c, k, g1, g2, g3⟩ := hpt v ⟨a, ha, seg_a⟩
    rw [hva] at g3
    unfold splitFracture
    rw [getIdx_of hc, Res.bind_ok]
    dsimp only
    rw [if_neg hne, h1, Res.bind_ok, h2, Res.bind_ok, getIdx_of g1, Res.bind_ok]
    simp only [cellPoint, g2, getIdx_of g3, Res.bind_ok, List.map_map]
    rw [show ((fun x => norm3 (x - a)) ∘ ptOf net) = fun u => norm3 (ptOf net u - a) from rfl, s1,
      Res.bind_ok]
    rfl

theorem split_empty (argsort : List ℝ → List Nat) {net : Net} {id tag v w : Nat}
    (hc : net.cells[id]? = some ⟨1, id, tag, none, [v, w], []⟩) :
    splitFracture argsort net id = .ok net := by
  unfold splitFracture
  rw [getIdx_of hc, Res.bind_ok]
  rfl

/-! ### All fractures -/

theorem subEdges_get {start tag : Nat} {ids : List Nat} {k : Nat} :
    (subEdges start tag ids)[k]? =
      (ids.zip ids.tail)[k]?.map fun con => edgeCell (start + k) tag [con.1, con.2] := by
  unfold subEdges
  rw [List.getElem?_mapIdx]

/-- What holds once the fractures `done` have been split; `net0` is the network before. -/
structure SplitInv (lines : List (Pt ℝ × Pt ℝ)) (shift : Nat) (net0 : Net) (done : List Nat)
    (net : Net) : Prop where
  points : net.points = net0.points
  length : net0.cells.length ≤ net.cells.length
  old : ∀ (k : Nat) (c : FCell), net0.cells[k]? = some c → (∀ i ∈ done, k ≠ 3 * i + 2) →
    net.cells[k]? = some c
  result : ∀ i ∈ done, ∀ imm, net0.cells[3 * i + 2]? =
      some ⟨1, 3 * i + 2, i + shift, none, [3 * i, 3 * i + 1], imm⟩ →
    (imm = [] ∧ net.cells[3 * i + 2]? =
      some ⟨1, 3 * i + 2, i + shift, none, [3 * i, 3 * i + 1], []⟩) ∨
    ∃ ids start, imm ≠ [] ∧ net0.cells.length ≤ start ∧
      (∀ l, lines[i]? = some l → IsIds net0 (3 * i) (3 * i + 1) l.1 l.2 imm ids) ∧
      net.cells[3 * i + 2]? = some ⟨1, 3 * i + 2, i + shift, none, [3 * i, 3 * i + 1],
        (subEdges start (i + shift) ids).map FCell.id⟩ ∧
      ∀ k c, (subEdges start (i + shift) ids)[k]? = some c → net.cells[start + k]? = some c

/-- What is known of a network before the splitting. -/
structure Ready (lines : List (Pt ℝ × Pt ℝ)) (shift : Nat) (net : Net) : Prop where
  inj : ∀ v w x, HasVertex net v x → HasVertex net w x → v = w
  ne : ∀ l ∈ lines, l.1 ≠ l.2
  frac : ∀ i l, lines[i]? = some l → HasVertex net (3 * i) l.1 ∧ HasVertex net (3 * i + 1) l.2 ∧
    ∃ imm, net.cells[3 * i + 2]? =
        some ⟨1, 3 * i + 2, i + shift, none, [3 * i, 3 * i + 1], imm⟩ ∧
      ∀ v ∈ imm, ∃ x, HasVertex net v x ∧ x ∈ segment ℝ l.1 l.2

theorem Ready.dimension {lines : List (Pt ℝ × Pt ℝ)} {shift : Nat} {net : Net}
    (h : Ready lines shift net) {i : Nat} (hi : i < lines.length) {c : FCell}
    (hc : net.cells[3 * i + 2]? = some c) : c.dimension = 1 := by
  obtain ⟨-, -, imm, h1, -⟩ := h.frac i _ (List.getElem?_eq_getElem hi)
  rw [h1] at hc; cases hc; rfl

/-- The vertices do not change. -/
theorem SplitInv.hasVertex {lines : List (Pt ℝ × Pt ℝ)} {shift : Nat} {net0 net : Net}
    {done : List Nat} (hr : Ready lines shift net0) (h : SplitInv lines shift net0 done net)
    (hd : ∀ i ∈ done, i < lines.length) {v : Nat} {x : Pt ℝ} (hv : HasVertex net0 v x) :
    HasVertex net v x := by
  obtain ⟨c, k, h1, h2, h3, h4⟩ := hv
  refine ⟨c, k, h.old v c h1 ?_, h2, h3, h.points ▸ h4⟩
  rintro i hi rfl
  have := hr.dimension (hd i hi) h1
  omega

theorem split_step {eps : ℝ} (he : 0 < eps) {argsort : List ℝ → List Nat} (hs : IsArgsort argsort)
    {lines : List (Pt ℝ × Pt ℝ)} {shift : Nat} {net0 net : Net} {done : List Nat}
    (hr : Ready lines shift net0) (h : SplitInv lines shift net0 done net)
    (hd : ∀ i ∈ done, i < lines.length) (hok : ∀ (k : Nat) (c : FCell), net.cells[k]? = some c →
      c.dimension = 0 → net0.cells[k]? = some c) {i : Nat} (hi : i < lines.length)
    (hnew : i ∉ done) :
    ∃ net', splitFracture argsort net (3 * i + 2) = .ok net' ∧
      SplitInv lines shift net0 (done ++ [i]) net' ∧
      ∀ (k : Nat) (c : FCell), net'.cells[k]? = some c → c.dimension = 0 →
        net0.cells[k]? = some c := by
  obtain ⟨l, hl⟩ : ∃ l, lines[i]? = some l := ⟨_, List.getElem?_eq_getElem hi⟩
  obtain ⟨ha, hb, imm, hc, himm⟩ := hr.frac i l hl
  have hab := hr.ne l (List.mem_of_getElem? hl)
  have hc' := h.old _ _ hc (fun j hj => by
    intro e; exact hnew ((by omega : i = j) ▸ hj))
  have hback : ∀ {v x}, HasVertex net v x → HasVertex net0 v x := by
    rintro v x ⟨c, k, h1, h2, h3, h4⟩
    exact ⟨c, k, hok v c h1 h2, h2, h3, h.points ▸ h4⟩
  have hk0 : 3 * i + 2 < net0.cells.length := (List.getElem?_eq_some_iff.1 hc).1
  by_cases hne : imm = []
  · subst hne
    refine ⟨net, split_empty argsort hc', ⟨h.points, h.length, ?_, ?_⟩, hok⟩
    · intro k c hk hne
      exact h.old k c hk fun j hj => hne j (List.mem_append_left _ hj)
    · intro j hj imm hj'
      rcases List.mem_append.1 hj with hj | hj
      · exact h.result j hj imm hj'
      · rw [List.mem_singleton] at hj; subst hj
        rw [hc] at hj'; cases hj'
        exact Or.inl ⟨rfl, hc'⟩
  · obtain ⟨ids, hids, e⟩ := split_spec he hs
      (fun v w x hv hw => hr.inj v w x (hback hv) (hback hw)) hab (h.hasVertex hr hd ha)
      (h.hasVertex hr hd hb) hc'
      (fun u hu => by
        obtain ⟨x, hx, hx'⟩ := himm u hu
        exact ⟨x, h.hasVertex hr hd hx, hx'⟩) hne
    have hk : 3 * i + 2 < net.cells.length := hk0.trans_le h.length
    -- the cells of the new network
    have get1 : ∀ (k : Nat) (X : FCell), k < net.cells.length → k ≠ 3 * i + 2 →
        (net.cells.set (3 * i + 2) X ++ subEdges net.cells.length (i + shift) ids)[k]? =
          net.cells[k]? := by
      intro k X hk hne
      rw [List.getElem?_append_left (by simpa using hk), List.getElem?_set_ne (Ne.symm hne)]
    have get2 : ∀ X : FCell,
        (net.cells.set (3 * i + 2) X ++ subEdges net.cells.length (i + shift) ids)[3 * i + 2]? =
          some X := by
      intro X
      rw [List.getElem?_append_left (by simpa using hk), List.getElem?_set_self hk]
    have get3 : ∀ (k : Nat) (X : FCell),
        (net.cells.set (3 * i + 2) X ++ subEdges net.cells.length (i + shift) ids)[
          net.cells.length + k]? = (subEdges net.cells.length (i + shift) ids)[k]? := by
      intro k X
      rw [List.getElem?_append_right (by simp)]
      simp
    refine ⟨_, e, ⟨h.points, by simpa using h.length.trans (Nat.le_add_right _ _), ?_, ?_⟩, ?_⟩
    · intro k c hk' hne'
      rw [get1 k _ ((List.getElem?_eq_some_iff.1 hk').1.trans_le h.length)
        (hne' i (by simp))]
      exact h.old k c hk' fun j hj => hne' j (List.mem_append_left _ hj)
    · intro j hj imm' hj'
      rcases List.mem_append.1 hj with hj0 | hj
      · have hji : j ≠ i := by rintro rfl; exact hnew hj0
        rcases h.result j hj0 imm' hj' with ⟨g1, g2⟩ | ⟨ids', start, g0, g1, g2, g3, g4⟩
        · refine Or.inl ⟨g1, ?_⟩
          rw [get1 _ _ (List.getElem?_eq_some_iff.1 g2).1 (by omega)]
          exact g2
        · refine Or.inr ⟨ids', start, g0, g1, g2, ?_, ?_⟩
          · rw [get1 _ _ (List.getElem?_eq_some_iff.1 g3).1 (by omega)]
            exact g3
          · intro k c hkc
            have := g4 k c hkc
            rw [get1 _ _ (List.getElem?_eq_some_iff.1 this).1 (by omega)]
            exact this
      · rw [List.mem_singleton] at hj; subst hj
        rw [hc] at hj'; cases hj'
        refine Or.inr ⟨ids, net.cells.length, hne, h.length, ?_, get2 _, ?_⟩
        · intro l' hl'
          rw [hl] at hl'; cases hl'
          have hpt : ∀ u ∈ ids, ptOf net u = ptOf net0 u := by
            intro u hu
            obtain ⟨x, hx, -⟩ := hids.vertex u hu
            rw [ptOf_eq hx, ptOf_eq (hback hx)]
          refine ⟨hids.head, hids.last, hids.mem, ?_, ?_⟩
          · intro u hu
            obtain ⟨x, hx, hx'⟩ := hids.vertex u hu
            exact ⟨x, hback hx, hx'⟩
          · refine List.Pairwise.imp_of_mem ?_ hids.ordered
            intro u u' hu hu' hlt
            rwa [← hpt u hu, ← hpt u' hu']
        · intro k c hkc
          rw [get3]; exact hkc
    · intro k c hkc h0
      by_cases hk1 : k < net.cells.length
      · by_cases hk2 : k = 3 * i + 2
        · subst hk2
          rw [get2] at hkc; cases hkc
          simp at h0
        · rw [get1 k _ hk1 hk2] at hkc
          exact hok k c hkc h0
      · obtain ⟨m, rfl⟩ := Nat.exists_eq_add_of_le (not_lt.1 hk1)
        rw [get3, subEdges_get, Option.map_eq_some_iff] at hkc
        obtain ⟨con, -, rfl⟩ := hkc
        simp [edgeCell] at h0

theorem split_stage {eps : ℝ} (he : 0 < eps) {argsort : List ℝ → List Nat} (hs : IsArgsort argsort)
    {lines : List (Pt ℝ × Pt ℝ)} {shift : Nat} {net0 : Net} (hr : Ready lines shift net0) :
    ∀ (todo done : List Nat) (net : Net), (done ++ todo).Nodup →
      (∀ i ∈ done ++ todo, i < lines.length) → SplitInv lines shift net0 done net →
      (∀ (k : Nat) (c : FCell), net.cells[k]? = some c → c.dimension = 0 →
        net0.cells[k]? = some c) →
      ∃ net', (todo.map fun i => 3 * i + 2).foldlM (splitFracture argsort) net = .ok net' ∧
        SplitInv lines shift net0 (done ++ todo) net'
  | [], done, net, _, _, h, _ => ⟨net, rfl, by simpa using h⟩
  | i :: todo, done, net, hn, hlt, h, hok => by
    have hnew : i ∉ done := fun hi =>
      (List.nodup_append.1 hn).2.2 i hi i (by simp) rfl
    obtain ⟨net1, e1, h1, hok1⟩ := split_step he hs hr h
      (fun j hj => hlt j (List.mem_append_left _ hj)) hok (hlt i (by simp)) hnew
    obtain ⟨net2, e2, h2⟩ := split_stage he hs hr todo (done ++ [i]) net1 (by simpa using hn)
      (by simpa using hlt) h1 hok1
    refine ⟨net2, ?_, by simpa using h2⟩
    rw [List.map_cons, List.foldlM_cons, e1, Res.bind_ok, e2]

end Verif.Fracture
