/-
Lemmas on networks of polygons.
-/
import Verif.Spec.PlaneNetwork
import Verif.Lemmas.FractureTotal
import Verif.Lemmas.Builder
import Verif.Props.FractureNetwork

namespace Verif.PlaneNet
open MeshGraph Trace Geometry Builder

/-! ### The separate polygons -/

theorem addEdges_ok {cellId n : Nat} {tag : Int} {cells : List GCell} (h : cells.length = cellId + n) :
    addEdges cellId n tag cells = .ok (cells ++ (List.range n).map fun i =>
      ⟨1, cellId + n + i, some tag, none, [cellId + i, cellId + (i + 1) % n], [], []⟩) := by
  unfold addEdges
  suffices key : ∀ m, m ≤ n → (List.range m).foldlM (fun cells k =>
      addCell cells 1 (cellId + n + k) (some tag) [cellId + k, cellId + (k + 1) % n] []) cells =
      .ok (cells ++ (List.range m).map fun i =>
        ⟨1, cellId + n + i, some tag, none, [cellId + i, cellId + (i + 1) % n], [], []⟩) from
    key n le_rfl
  intro m
  induction m with
  | zero => intro _; simp
  | succ m ih =>
    intro hm
    rw [List.range_succ, List.foldlM_append, ih (by omega), Res.bind_ok, List.foldlM_cons,
      addCell_ok, Res.bind_ok, List.foldlM_nil, Res.pure_eq, List.map_append, List.append_assoc]
    · rfl
    · intro i hi
      have := Nat.mod_lt (m + 1) (show 0 < n by omega)
      simp at hi
      simp
      omega

theorem insertPlane_ok {net : Planes} {f : List (Pt ℝ)} (hf : f ≠ []) :
    insertPlane net net.cells.length f net.cells.length =
      .ok (⟨net.points ++ f, net.cells ++ block net.cells.length f.length⟩,
        net.cells.length + f.length + f.length) := by
  unfold insertPlane
  rw [if_neg hf]
  dsimp only
  rw [addEdges_ok (by simp), Res.bind_ok, addCell_ok, Res.bind_ok, Res.pure_eq]
  · unfold block
    congr 3
    simp only [List.append_assoc, Builder.vertexCell, Nat.add_comm]
  · intro i hi
    simp at hi
    simp
    omega

theorem block_length (off n : Nat) : (block off n).length = n + n + 1 := by simp [block, Nat.add_assoc]

theorem insertPlanes_ok : ∀ {fs : List (List (Pt ℝ))} {net : Planes}, (∀ f ∈ fs, f ≠ []) →
    insertPlanes net net.cells.length fs =
      .ok ⟨net.points ++ fs.flatten, net.cells ++ blocks net.cells.length fs⟩
  | [], net, _ => by simp [insertPlanes, blocks]
  | f :: fs, net, h => by
    rw [insertPlanes, insertPlane_ok (h f (by simp)), Res.bind_ok]
    dsimp only
    have := insertPlanes_ok (fs := fs)
      (net := ⟨net.points ++ f, net.cells ++ block net.cells.length f.length⟩)
      fun g hg => h g (by simp [hg])
    dsimp only at this
    rw [List.length_append, block_length, ← Nat.add_assoc, ← Nat.add_assoc] at this
    rw [this]
    simp [blocks, List.append_assoc]

theorem insertPlanes_empty : ∀ {fs : List (List (Pt ℝ))} {net : Planes}, [] ∈ fs →
    insertPlanes net net.cells.length fs = .error .valueError
  | [], _, h => by simp at h
  | f :: fs, net, h => by
    by_cases hf : f = []
    · subst hf; rfl
    · rw [insertPlanes, insertPlane_ok hf, Res.bind_ok]
      dsimp only
      have := insertPlanes_empty (fs := fs)
        (net := ⟨net.points ++ f, net.cells ++ block net.cells.length f.length⟩)
        (by rcases List.mem_cons.1 h with h | h
            · exact absurd h.symm hf
            · exact h)
      dsimp only at this
      rw [List.length_append, block_length, ← Nat.add_assoc, ← Nat.add_assoc] at this
      exact this

/-! ### Surfaces -/

theorem surfacesOf_append (a b : List GCell) :
    surfacesOf (a ++ b) = surfacesOf a ++ (surfacesOf b).map (· + a.length) := by
  unfold surfacesOf
  rw [List.zipIdx_append, List.filter_append, List.map_append, List.zipIdx_eq_map_add (l := b) (i := 0 + a.length),
    List.filter_map, List.map_map, List.map_map]
  simp [Function.comp_def, Nat.add_comm]

theorem surfacesOf_none {a : List GCell} (h : ∀ c ∈ a, c.dimension ≠ 2) : surfacesOf a = [] := by
  unfold surfacesOf
  rw [List.map_eq_nil_iff, List.filter_eq_nil_iff]
  rintro ⟨c, k⟩ hp
  have := h c (List.fst_mem_of_mem_zipIdx hp)
  simpa using this

theorem surfacesOf_block (off n : Nat) : surfacesOf (block off n) = [n + n] := by
  unfold block
  rw [surfacesOf_append, surfacesOf_none]
  · simp [surfacesOf]
  · intro c hc
    rcases List.mem_append.1 hc with hc | hc <;>
    · obtain ⟨i, -, rfl⟩ := List.mem_map.1 hc
      simp

/-- The positions of the surfaces of polygons. -/
def surfaceIds : Nat → List (List (Pt ℝ)) → List Nat
  | _, [] => []
  | off, f :: fs => (off + f.length + f.length) :: surfaceIds (off + f.length + f.length + 1) fs

theorem surfaceIds_shift : ∀ (fs : List (List (Pt ℝ))) (a off : Nat),
    surfaceIds (a + off) fs = (surfaceIds off fs).map (a + ·)
  | [], _, _ => rfl
  | f :: fs, a, off => by
    have := surfaceIds_shift fs a (off + f.length + f.length + 1)
    simp only [surfaceIds, List.map_cons]
    rw [← this]
    simp only [Nat.add_assoc]

theorem surfacesOf_blocks : ∀ (fs : List (List (Pt ℝ))) (off : Nat),
    surfacesOf (blocks off fs) = surfaceIds 0 fs
  | [], _ => rfl
  | f :: fs, off => by
    rw [blocks, surfacesOf_append, surfacesOf_block, surfacesOf_blocks fs, block_length, surfaceIds,
      show 0 + f.length + f.length + 1 = (f.length + f.length + 1) + 0 by omega, surfaceIds_shift]
    simp [Nat.add_comm]

/-! ### Attaching -/

theorem addImmersed_ok {cells : List GCell} {i : Nat} (h : i < cells.length) (v : Nat) :
    addImmersed cells i v = .ok (cells.set i (withParts cells[i] [v])) := by
  unfold addImmersed
  rw [getIdx_of (List.getElem?_eq_getElem h), Res.bind_ok]
  rfl

theorem attach_ok {s : Nat} : ∀ {ls ts : List Nat} {cells : List GCell}, ts.length ≤ ls.length →
    s < cells.length → (∀ t ∈ ts, t < cells.length) → s ∉ ts → ts.Nodup →
    ∃ cells', attach s ls ts cells = .ok cells' ∧ cells'.length = cells.length ∧
      cells'[s]? = cells[s]?.map (withParts · (ls.take ts.length)) ∧
      (∀ (k t l : Nat), ts[k]? = some t → ls[k]? = some l → cells'[t]? = cells[t]?.map (withParts · [l])) ∧
      ∀ i, i ≠ s → i ∉ ts → cells'[i]? = cells[i]?
  | ls, [], cells, _, hs, _, _, _ => by
    refine ⟨cells, by rw [attach], rfl, ?_, by simp, fun _ _ _ => rfl⟩
    simp [withParts]
  | [], t :: ts, cells, h, _, _, _, _ => by simp at h
  | l :: ls, t :: ts, cells, h, hs, ht, hst, hn => by
    have hst0 : s ≠ t := fun e => hst (by simp [e])
    have hst1 : s ∉ ts := fun e => hst (by simp [e])
    have htt : t ∉ ts := (List.nodup_cons.1 hn).1
    have ht0 : t < cells.length := ht t (by simp)
    rw [attach, addImmersed_ok hs, Res.bind_ok, addImmersed_ok (by simpa using ht0), Res.bind_ok]
    have g : (cells.set s (withParts cells[s] [l]))[t]'(by simpa using ht0) = cells[t] := by
      rw [List.getElem_set, if_neg hst0]
    rw [g]
    obtain ⟨cells', e, hlen, h1, h2, h3⟩ := attach_ok (s := s) (ls := ls) (ts := ts)
      (cells := (cells.set s (withParts cells[s] [l])).set t (withParts cells[t] [l]))
      (by simpa using h) (by simpa using hs) (fun u hu => by simpa using ht u (by simp [hu])) hst1
      (List.nodup_cons.1 hn).2
    refine ⟨cells', e, by simpa using hlen, ?_, ?_, ?_⟩
    · rw [h1, List.getElem?_set_ne hst0.symm, List.getElem?_set_self hs, List.getElem?_eq_getElem hs]
      simp [withParts, List.append_assoc]
    · rintro (_ | k) u m hu hm
      · simp only [List.getElem?_cons_zero, Option.some.injEq] at hu hm
        subst hu; subst hm
        rw [h3 t hst0.symm htt, List.getElem?_set_self (by simpa using ht0), List.getElem?_eq_getElem ht0]
        rfl
      · simp only [List.getElem?_cons_succ] at hu hm
        have hmem : u ∈ ts := List.mem_of_getElem? hu
        have hut : t ≠ u := fun e => htt (e ▸ hmem)
        have hus : s ≠ u := fun e => hst1 (e ▸ hmem)
        rw [h2 k u m hu hm, List.getElem?_set_ne hut, List.getElem?_set_ne hus]
    · intro i hi hit
      have h1 : i ≠ t := fun e => hit (by simp [e])
      have h2 : i ∉ ts := fun e => hit (by simp [e])
      rw [h3 i hi h2, List.getElem?_set_ne h1.symm, List.getElem?_set_ne hi.symm]

theorem attach_short {s : Nat} : ∀ {ls ts : List Nat} {cells : List GCell}, ls.length < ts.length →
    s < cells.length → (∀ t ∈ ts, t < cells.length) → attach s ls ts cells = .error .indexError
  | _, [], _, h, _, _ => by simp at h
  | [], t :: ts, cells, _, _, _ => by rw [attach]
  | l :: ls, t :: ts, cells, h, hs, ht => by
    have ht0 : t < cells.length := ht t (by simp)
    rw [attach, addImmersed_ok hs, Res.bind_ok, addImmersed_ok (by simpa using ht0), Res.bind_ok]
    exact attach_short (by simpa using h) (by simpa using hs)
      fun u hu => by simpa using ht u (by simp [hu])

/-! ### The edges of the lines -/

/-- Only the cells of the lines have immersed cells. -/
def Only (n : Nat) (net : Fracture.Net) : Prop :=
  ∀ k c, net.cells[k]? = some c → c.immersed ≠ [] → ∃ i, i < n ∧ k = 3 * i + 2

theorem only_disjoint (shift : Nat) (lines : List Line) :
    Only lines.length (Fracture.disjointNet shift lines) := by
  intro k c hk hc
  obtain ⟨i, hi, h⟩ := Fracture.disjoint_cell.1 hk
  rcases h with ⟨-, rfl⟩ | ⟨-, rfl⟩ | ⟨-, rfl⟩ <;> exact absurd rfl hc

theorem only_add {n : Nat} {net net' : Fracture.Net} {i v : Nat} (hi : i < n) (h : Only n net)
    (e : Fracture.addImmersed net (3 * i + 2) v = .ok net') : Only n net' := by
  unfold Fracture.addImmersed at e
  obtain ⟨c, hc, e⟩ := Res.bind_eq_ok.1 e
  cases e
  intro k d hk hd
  by_cases hki : k = 3 * i + 2
  · exact ⟨i, hi, hki⟩
  · rw [List.getElem?_set_ne (Ne.symm hki)] at hk
    exact h k d hk hd

theorem only_insert {n : Nat} {eps : ℝ} {net net' : Fracture.Net} {x : Pt ℝ} {tag : Nat} {v : Option Nat}
    (h : Only n net) (e : Fracture.insertVertex eps net x tag = (net', v)) : Only n net' := by
  unfold Fracture.insertVertex at e
  split at e
  · cases e
    intro k d hk hd
    rcases lt_or_ge k net.cells.length with hlt | hge
    · rw [List.getElem?_append_left hlt] at hk
      exact h k d hk hd
    · rw [List.getElem?_append_right hge, List.getElem?_singleton] at hk
      split at hk
      · cases hk; exact absurd rfl hd
      · cases hk
  · cases e; exact h

theorem only_pair {n : Nat} {eps : ℝ} {pos : Fin 3 × Fin 3} {net net' : Fracture.Net} {i j : Nat} (hi : i < n)
    (hj : j < n) (h : Only n net)
    (e : Fracture.intersectPair eps pos net (3 * i + 2, 3 * j + 2) = .ok net') : Only n net' := by
  unfold Fracture.intersectPair at e
  obtain ⟨ci, -, e⟩ := Res.bind_eq_ok.1 e
  obtain ⟨cj, -, e⟩ := Res.bind_eq_ok.1 e
  obtain ⟨⟨a, b⟩, -, e⟩ := Res.bind_eq_ok.1 e
  obtain ⟨⟨p, q⟩, -, e⟩ := Res.bind_eq_ok.1 e
  dsimp only at e
  split at e
  · cases e; exact h
  · split at e
    · cases e
    · rename_i net1 v he
      obtain ⟨net2, e2, e3⟩ := Res.bind_eq_ok.1 e
      exact only_add hj (only_add hi (only_insert h he) e2) e3

theorem only_split {n : Nat} {argsort : List ℝ → List Nat} {net net' : Fracture.Net} {i : Nat} (hi : i < n)
    (h : Only n net) (e : Fracture.splitFracture argsort net (3 * i + 2) = .ok net') : Only n net' := by
  unfold Fracture.splitFracture at e
  obtain ⟨c, -, e⟩ := Res.bind_eq_ok.1 e
  split at e
  · split at e
    · cases e; exact h
    · obtain ⟨vs, -, e⟩ := Res.bind_eq_ok.1 e
      obtain ⟨xs, -, e⟩ := Res.bind_eq_ok.1 e
      obtain ⟨cb, -, e⟩ := Res.bind_eq_ok.1 e
      obtain ⟨xb, -, e⟩ := Res.bind_eq_ok.1 e
      obtain ⟨sorted, -, e⟩ := Res.bind_eq_ok.1 e
      cases e
      intro k d hk hd
      dsimp only at hk
      rcases lt_or_ge k net.cells.length with hlt | hge
      · rw [List.getElem?_append_left (by simpa using hlt)] at hk
        by_cases hki : k = 3 * i + 2
        · exact ⟨i, hi, hki⟩
        · rw [List.getElem?_set_ne (Ne.symm hki)] at hk
          exact h k d hk hd
      · rw [List.getElem?_append_right (by simpa using hge), List.getElem?_mapIdx,
          Option.map_eq_some_iff] at hk
        obtain ⟨con, -, rfl⟩ := hk
        exact absurd rfl hd
  · cases e

theorem only_fold {n : Nat} {α : Type} {step : Fracture.Net → α → Res Fracture.Net} :
    ∀ {l : List α} {net net' : Fracture.Net},
    (∀ a ∈ l, ∀ net net', Only n net → step net a = .ok net' → Only n net') → Only n net →
    l.foldlM step net = .ok net' → Only n net'
  | [], net, net', _, h, e => by cases e; exact h
  | a :: l, net, net', hstep, h, e => by
    rw [List.foldlM_cons] at e
    obtain ⟨net1, e1, e2⟩ := Res.bind_eq_ok.1 e
    exact only_fold (fun b hb => hstep b (by simp [hb])) (hstep a (by simp) _ _ h e1) e2

theorem only_run {eps : ℝ} {argsort : List ℝ → List Nat} {pos : Fin 3 × Fin 3} {shift : Nat} {lines : List Line}
    {net : Fracture.Net}
    (e : Fracture.intersectFractures eps argsort pos shift (lines.map fun l => [l.1, l.2]) = .ok net) :
    Only lines.length net := by
  unfold Fracture.intersectFractures at e
  rw [Fracture.mapRes_lines, Res.bind_ok] at e
  split at e
  · cases e
  · dsimp only at e
    obtain ⟨net1, e1, e2⟩ := Res.bind_eq_ok.1 e
    refine only_fold ?_ (only_fold ?_ (only_disjoint shift lines) e1) e2
    · intro a ha net net' h e
      obtain ⟨i, hi, rfl⟩ := List.mem_map.1 ha
      exact only_split (List.mem_range.1 hi) h e
    · rw [Fracture.pairsOf_map]
      rintro a ha net net' h e
      obtain ⟨⟨i, j⟩, hp, rfl⟩ := List.mem_map.1 ha
      obtain ⟨h1, h2⟩ := Fracture.mem_pairs_range.1 hp
      exact only_pair (by omega) h2 h e

/-- The positions of the selected edges: increasing, so determined by their members. -/
theorem lineEdges_eq {n : Nat} {cells : List Fracture.FCell} {l : List Nat} (hl : l.Pairwise (· < ·))
    (h : ∀ k, k ∈ l ↔ ∃ c, cells[k]? = some c ∧ c.dimension = 1 ∧ (n = 1 ∨ c.immersed ≠ [])) :
    lineEdges n cells = l := by
  have hs : (lineEdges n cells).Pairwise (· < ·) := by
    unfold lineEdges
    have : (cells.zipIdx.map Prod.snd).Pairwise (· < ·) := by
      rw [List.zipIdx_map_snd]
      exact List.pairwise_lt_range'
    exact this.sublist (List.Sublist.map _ List.filter_sublist)
  have hmem : ∀ k, k ∈ lineEdges n cells ↔ k ∈ l := by
    intro k
    rw [h]
    unfold lineEdges
    simp only [List.mem_map, List.mem_filter, Prod.exists, List.mem_zipIdx_iff_getElem?]
    constructor
    · rintro ⟨c, j, ⟨h1, h2⟩, rfl⟩
      refine ⟨c, h1, ?_⟩
      simpa [List.length_pos_iff] using h2
    · rintro ⟨c, h1, h2, h3⟩
      refine ⟨c, k, ⟨h1, ?_⟩, rfl⟩
      simpa [h2, List.length_pos_iff] using h3
  exact (List.perm_of_nodup_nodup_toFinset_eq (hs.imp fun h => ne_of_lt h) (hl.imp fun h => ne_of_lt h)
    (by ext k; simp [hmem])).eq_of_pairwise (fun a b _ _ h1 h2 => absurd h1 (by omega)) hs hl

/-! ### Rows -/

/-- The surfaces of the partners. -/
def partnersOf (surfaces : List Nat) (row : List (Option Line)) : List Nat :=
  ((surfaces.zip row).filter fun p => p.2.isSome).map Prod.fst

theorem partners_length : ∀ {surfaces : List Nat} {row : List (Option Line)}, surfaces.length = row.length →
    (partnersOf surfaces row).length = (linesOf row).length
  | [], [], _ => rfl
  | [], _ :: _, h => by simp at h
  | _ :: _, [], h => by simp at h
  | s :: surfaces, r :: row, h => by
    have := partners_length (surfaces := surfaces) (row := row) (by simpa using h)
    unfold partnersOf linesOf at this ⊢
    cases r <;> simp_all

theorem partners_sublist : ∀ (surfaces : List Nat) (row : List (Option Line)),
    (partnersOf surfaces row).Sublist surfaces
  | [], row => by simp [partnersOf]
  | s :: surfaces, [] => by simp [partnersOf]
  | s :: surfaces, r :: row => by
    have := partners_sublist surfaces row
    unfold partnersOf at this ⊢
    cases r
    · simpa using this.cons s
    · simpa using this.cons_cons s

theorem partners_get : ∀ {surfaces : List Nat} {row : List (Option Line)} {j t : Nat} {l : Line},
    row[j]? = some (some l) → surfaces[j]? = some t → (partnersOf surfaces row)[rankOf row j]? = some t
  | [], _, _, _, _, _, h => by simp at h
  | _ :: _, [], _, _, _, h, _ => by simp at h
  | s :: surfaces, r :: row, 0, t, l, h1, h2 => by
    simp only [List.getElem?_cons_zero, Option.some.injEq] at h1 h2
    subst h1; subst h2
    rfl
  | s :: surfaces, r :: row, j + 1, t, l, h1, h2 => by
    simp only [List.getElem?_cons_succ] at h1 h2
    have := partners_get h1 h2
    unfold partnersOf rankOf linesOf at this ⊢
    cases r <;> simpa using this

theorem mem_partners {surfaces : List Nat} {row : List (Option Line)} {t : Nat}
    (h : t ∈ partnersOf surfaces row) : ∃ (j : Nat) (l : Line), row[j]? = some (some l) ∧ surfaces[j]? = some t := by
  unfold partnersOf at h
  simp only [List.mem_map, List.mem_filter, Prod.exists, exists_and_right, exists_eq_right] at h
  obtain ⟨r, h1, h2⟩ := h
  obtain ⟨j, hj⟩ := List.mem_iff_getElem?.1 h1
  rw [List.getElem?_zip_eq_some] at hj
  obtain ⟨l, rfl⟩ := Option.isSome_iff_exists.1 h2
  exact ⟨j, l, hj.2, hj.1⟩

theorem rank_lt {row : List (Option Line)} {j : Nat} {l : Line} (h : row[j]? = some (some l)) :
    rankOf row j < (linesOf row).length := by
  have hj := (List.getElem?_eq_some_iff.1 h).1
  have e : row = row.take j ++ some l :: row.drop (j + 1) := by
    rw [← (List.getElem?_eq_some_iff.1 h).2, List.getElem_cons_drop, List.take_append_drop]
  unfold rankOf linesOf
  conv_rhs => rw [e]
  simp

/-! ### The lines of one fracture -/

theorem single_run (eps : ℝ) (argsort : List ℝ → List Nat) (pos : Fin 3 × Fin 3) (shift : Nat) (l : Line) :
    Fracture.intersectFractures eps argsort pos shift ([l].map fun l => [l.1, l.2]) =
      .ok (Fracture.disjointNet shift [l]) := by
  unfold Fracture.intersectFractures
  rw [Fracture.mapRes_lines, Res.bind_ok, if_neg (by simp)]
  dsimp only
  simp only [List.length_singleton, List.range_one, List.map_cons, List.map_nil, Fracture.pairsOf,
    List.append_nil, List.foldlM_nil, Res.pure_eq, Res.bind_ok, List.foldlM_cons]
  rw [Fracture.split_empty (v := 0) (w := 1) (tag := shift)]
  · rfl
  · simp [Fracture.disjointNet, Fracture.edgeCell]

theorem pair_run (eps : ℝ) (argsort : List ℝ → List Nat) {pos : Fin 3 × Fin 3} (shift : Nat) {a b : Line}
    (hab : lineLineTest (1 / 10 ^ 12) pos a.1 a.2 b.1 b.2 = none) :
    Fracture.intersectFractures eps argsort pos shift ([a, b].map fun l => [l.1, l.2]) =
      .ok (Fracture.disjointNet shift [a, b]) := by
  have c0 : (Fracture.disjointNet shift [a, b]).cells[2]? = some ⟨1, 2, shift, none, [0, 1], []⟩ := by
    simp [Fracture.disjointNet, Fracture.edgeCell, List.range, List.range.loop]
  have c1 : (Fracture.disjointNet shift [a, b]).cells[5]? = some ⟨1, 5, 1 + shift, none, [3, 4], []⟩ := by
    simp [Fracture.disjointNet, Fracture.edgeCell, List.range, List.range.loop]
  have e0 : Fracture.endPoints (Fracture.disjointNet shift [a, b]) ⟨1, 2, shift, none, [0, 1], []⟩ =
      .ok (a.1, a.2) := rfl
  have e1 : Fracture.endPoints (Fracture.disjointNet shift [a, b]) ⟨1, 5, 1 + shift, none, [3, 4], []⟩ =
      .ok (b.1, b.2) := rfl
  have hp : Fracture.intersectPair eps pos (Fracture.disjointNet shift [a, b]) (2, 5) =
      .ok (Fracture.disjointNet shift [a, b]) := by
    unfold Fracture.intersectPair
    rw [getIdx_of c0, Res.bind_ok, getIdx_of c1, Res.bind_ok, e0, Res.bind_ok]
    dsimp only
    rw [e1, Res.bind_ok]
    dsimp only
    rw [hab]
    rfl
  unfold Fracture.intersectFractures
  rw [Fracture.mapRes_lines, Res.bind_ok, if_neg (by simp)]
  dsimp only
  rw [show (List.range [a, b].length).map (fun i => 3 * i + 2) = [2, 5] from rfl,
    show Fracture.pairsOf [2, 5] = [(2, 5)] from rfl, List.foldlM_cons, hp, Res.bind_ok, List.foldlM_nil,
    Res.pure_eq, Res.bind_ok, List.foldlM_cons, Fracture.split_empty argsort c0, Res.bind_ok, List.foldlM_cons,
    Fracture.split_empty argsort c1]
  rfl

theorem single_edges (shift : Nat) (l : Line) :
    lineEdges 1 (Fracture.disjointNet shift [l]).cells = [2] := by
  simp [lineEdges, Fracture.disjointNet, Fracture.edgeCell, Fracture.vertexCell]

open Classical in
/-- The selected edges: those of the lines that meet others. -/
theorem many_edges {eps : ℝ} (he : 0 < eps) {argsort : List ℝ → List Nat} (hs : Fracture.IsArgsort argsort)
    {pos : Fin 3 × Fin 3} (shift : Nat) {lines : List Line} (h2 : 2 ≤ lines.length)
    (hf : Fracture.FracOK eps pos lines) :
    ∃ sub, Fracture.intersectFractures eps argsort pos shift (lines.map fun l => [l.1, l.2]) = .ok sub ∧
      lineEdges lines.length sub.cells =
        ((List.range lines.length).filter fun i => ∃ x, Fracture.Common lines i x).map (3 * · + 2) := by
  obtain ⟨sub, e, -, -, -, h⟩ := Fracture.C64_split he hs shift (lines := lines)
    (by rintro rfl; simp at h2) hf
  refine ⟨sub, e, lineEdges_eq ?_ ?_⟩
  · rw [List.pairwise_map]
    exact (List.pairwise_lt_range.sublist List.filter_sublist).imp fun h => by omega
  · intro k
    simp only [List.mem_map, List.mem_filter, List.mem_range, decide_eq_true_eq]
    constructor
    · rintro ⟨i, ⟨hi, x, hx⟩, rfl⟩
      rcases h i _ (List.getElem?_eq_getElem hi) with ⟨h1, -⟩ | ⟨-, chain, h1, ⟨imm, h3, h4⟩, h5⟩
      · exact absurd hx (h1 x)
      · refine ⟨_, h3, rfl, Or.inr ?_⟩
        rintro rfl
        have hl := h4.length_eq
        have hfirst := h1.first
        have hlast := h1.last
        match chain, hl, hfirst, hlast with
        | [], _, hfirst, _ => simp at hfirst
        | [p], _, hfirst, hlast =>
          simp at hfirst hlast
          rw [hfirst] at hlast
          simp at hlast
        | p :: q :: c, hl, _, _ => simp at hl
    · rintro ⟨c, hk, hd, h1 | h1⟩
      · omega
      · obtain ⟨i, hi, rfl⟩ := only_run e k c hk h1
        refine ⟨i, ⟨hi, ?_⟩, rfl⟩
        rcases h i _ (List.getElem?_eq_getElem hi) with ⟨-, h3⟩ | ⟨hx, -⟩
        · rw [h3] at hk; cases hk
          exact absurd rfl h1
        · exact hx

/-! ### One fracture -/

theorem step_none {eps : ℝ} {argsort : List ℝ → List Nat} {surfaces : List Nat} {net : Planes} {i : Nat}
    {f : List (Pt ℝ)} {row : List (Option Line)} (h : linesOf row = []) :
    stepPlane eps argsort surfaces net i f row = .ok net := by
  unfold stepPlane
  dsimp only
  exact if_pos h

theorem step_short {eps : ℝ} {argsort : List ℝ → List Nat} {surfaces : List Nat} {net : Planes} {i : Nat}
    {f : List (Pt ℝ)} {row : List (Option Line)} (h : linesOf row ≠ []) (hf : f.length < 4) :
    stepPlane eps argsort surfaces net i f row = .error .indexError := by
  unfold stepPlane
  dsimp only
  rw [if_neg (show ¬ row.filterMap id = [] from h)]
  match f, hf with
  | [], _ => rfl
  | [_], _ => rfl
  | [_, _], _ => rfl
  | [_, _, _], _ => rfl

theorem step_attach {eps : ℝ} {argsort : List ℝ → List Nat} {surfaces : List Nat} {net : Planes} {i s : Nat}
    {f : List (Pt ℝ)} {row : List (Option Line)} {sub : Fracture.Net} (h : linesOf row ≠ [])
    (hf : 4 ≤ f.length) (hs : surfaces[i]? = some s)
    (e : Fracture.intersectFractures eps argsort (axesOf f) 1 ((linesOf row).map fun l => [l.1, l.2]) = .ok sub) :
    stepPlane eps argsort surfaces net i f row = (do
      let cells ← attach s ((lineEdges (linesOf row).length sub.cells).map (· + net.cells.length))
        (partnersOf surfaces row) (net.cells ++ sub.cells.map (toGeo net.cells.length net.points.length))
      pure ⟨net.points ++ sub.points, cells⟩) := by
  unfold stepPlane
  dsimp only
  rw [if_neg (show ¬ row.filterMap id = [] from h)]
  match f, hf with
  | p :: q :: _ :: r :: _, _ =>
    have e' : Fracture.intersectFractures eps argsort (keptAxes (cross (p - q) (r - q))) 1
        ((row.filterMap id).map fun l => [l.1, l.2]) = .ok sub := e
    rw [getIdx_of (a := p) (by simp), Res.bind_ok, getIdx_of (a := q) (by simp), Res.bind_ok,
      getIdx_of (a := r) (by simp), Res.bind_ok, e', Res.bind_ok, getIdx_of hs, Res.bind_ok]
    rfl

/-- What the step does with a fracture whose lines all have their edges. -/
theorem step_ok {eps : ℝ} {argsort : List ℝ → List Nat} {surfaces : List Nat} {net : Planes} {i s : Nat}
    {f : List (Pt ℝ)} {row : List (Option Line)} {sub : Fracture.Net} (h : linesOf row ≠ [])
    (hf : 4 ≤ f.length) (hs : surfaces[i]? = some s) (hlen : surfaces.length = row.length)
    (hnd : surfaces.Nodup) (hlt : ∀ t ∈ surfaces, t < net.cells.length) (hi : row[i]? = some none)
    (e : Fracture.intersectFractures eps argsort (axesOf f) 1 ((linesOf row).map fun l => [l.1, l.2]) = .ok sub)
    (hed : lineEdges (linesOf row).length sub.cells = (List.range (linesOf row).length).map (3 * · + 2)) :
    ∃ net', stepPlane eps argsort surfaces net i f row = .ok net' ∧ net'.points = net.points ++ sub.points ∧
      net'.cells.length = net.cells.length + sub.cells.length ∧
      (∀ k c, sub.cells[k]? = some c →
        net'.cells[net.cells.length + k]? = some (toGeo net.cells.length net.points.length c)) ∧
      net'.cells[s]? = net.cells[s]?.map (withParts · ((List.range (linesOf row).length).map
        (net.cells.length + 3 * · + 2))) ∧
      (∀ (j : Nat) (l : Line) (t : Nat), row[j]? = some (some l) → surfaces[j]? = some t → net'.cells[t]? = net.cells[t]?.map
        (withParts · [net.cells.length + 3 * rankOf row j + 2])) ∧
      (∀ k, k < net.cells.length → k ≠ s → (∀ (j : Nat) (l : Line), row[j]? = some (some l) → surfaces[j]? ≠ some k) →
        net'.cells[k]? = net.cells[k]?) := by
  have hsm : s ∈ surfaces := List.mem_of_getElem? hs
  have hps := partners_sublist surfaces row
  have hpl := partners_length hlen
  have hsp : s ∉ partnersOf surfaces row := by
    intro hm
    obtain ⟨j, l, h1, h2⟩ := mem_partners hm
    have : i = j := (List.getElem?_inj (List.getElem?_eq_some_iff.1 hs).1 hnd).1 (hs.trans h2.symm)
    subst this
    rw [hi] at h1
    simp at h1
  have hin : ∀ t ∈ surfaces, t < (net.cells ++ sub.cells.map (toGeo net.cells.length net.points.length)).length := by
    intro t ht
    have := hlt t ht
    simp; omega
  obtain ⟨cells, e1, h1, h2, h3, h4⟩ := attach_ok
    (ls := (lineEdges (linesOf row).length sub.cells).map (· + net.cells.length))
    (ts := partnersOf surfaces row) (s := s)
    (cells := net.cells ++ sub.cells.map (toGeo net.cells.length net.points.length))
    (by rw [hed]; simp [hpl]) (hin s hsm) (fun t ht => hin t (hps.mem ht)) hsp (hnd.sublist hps)
  rw [step_attach h hf hs e, e1, Res.bind_ok]
  have old : ∀ k, k < net.cells.length →
      (net.cells ++ sub.cells.map (toGeo net.cells.length net.points.length))[k]? = net.cells[k]? :=
    fun k hk => List.getElem?_append_left hk
  refine ⟨_, rfl, rfl, by simpa using h1, ?_, ?_, ?_, ?_⟩
  · intro k c hk
    dsimp only
    rw [h4 _ (fun e => by have := hlt s hsm; omega)
      (fun hm => by have := hlt _ (hps.mem hm); omega), List.getElem?_append_right (by omega)]
    simp [hk]
  · dsimp only
    rw [h2, old s (hlt s hsm), hed, hpl, List.take_of_length_le (by simp), List.map_map,
      show ((fun x => x + net.cells.length) ∘ fun x => 3 * x + 2) = fun x => net.cells.length + 3 * x + 2 from by
        funext k
        simp only [Function.comp]
        omega]
  · intro j l t hj ht
    dsimp only
    have hr := rank_lt hj
    rw [h3 _ t (3 * rankOf row j + 2 + net.cells.length) (partners_get hj ht) (by rw [hed]; simp [hr]),
      old t (hlt t (List.mem_of_getElem? ht)),
      show 3 * rankOf row j + 2 + net.cells.length = net.cells.length + 3 * rankOf row j + 2 by omega]
  · intro k hk hks hkt
    dsimp only
    rw [h4 k hks ?_, old k hk]
    intro hm
    obtain ⟨j, l, g1, g2⟩ := mem_partners hm
    exact hkt j l g1 g2

theorem step_missing {eps : ℝ} {argsort : List ℝ → List Nat} {surfaces : List Nat} {net : Planes} {i s : Nat}
    {f : List (Pt ℝ)} {row : List (Option Line)} {sub : Fracture.Net} (h : linesOf row ≠ [])
    (hf : 4 ≤ f.length) (hs : surfaces[i]? = some s) (hlen : surfaces.length = row.length)
    (hlt : ∀ t ∈ surfaces, t < net.cells.length)
    (e : Fracture.intersectFractures eps argsort (axesOf f) 1 ((linesOf row).map fun l => [l.1, l.2]) = .ok sub)
    (hed : (lineEdges (linesOf row).length sub.cells).length < (linesOf row).length) :
    stepPlane eps argsort surfaces net i f row = .error .indexError := by
  have hin : ∀ t ∈ surfaces, t < (net.cells ++ sub.cells.map (toGeo net.cells.length net.points.length)).length := by
    intro t ht
    have := hlt t ht
    simp; omega
  rw [step_attach h hf hs e, attach_short (by rw [partners_length hlen]; simpa using hed)
    (hin s (List.mem_of_getElem? hs)) fun t ht => hin t ((partners_sublist surfaces row).mem ht)]
  rfl

theorem fracOK_mono {eps eps' : ℝ} {pos : Fin 3 × Fin 3} {lines : List Line} (h : eps' ≤ eps)
    (hf : Fracture.FracOK eps pos lines) : Fracture.FracOK eps' pos lines :=
  ⟨hf.plane, hf.cross, fun x y hx hy hlt => hf.apart x y hx hy (hlt.trans_le h), hf.ends⟩

/-! ### All fractures -/

theorem surfaceIds_length : ∀ (fs : List (List (Pt ℝ))) (off : Nat), (surfaceIds off fs).length = fs.length
  | [], _ => rfl
  | f :: fs, off => by simp [surfaceIds, surfaceIds_length fs]

theorem surfaceIds_ge : ∀ (fs : List (List (Pt ℝ))) (off t : Nat), t ∈ surfaceIds off fs → off ≤ t
  | [], _, _, h => by simp [surfaceIds] at h
  | f :: fs, off, t, h => by
    rw [surfaceIds, List.mem_cons] at h
    rcases h with rfl | h
    · omega
    · have := surfaceIds_ge fs _ t h
      omega

theorem surfaceIds_nodup : ∀ (fs : List (List (Pt ℝ))) (off : Nat), (surfaceIds off fs).Nodup
  | [], _ => List.nodup_nil
  | f :: fs, off => by
    rw [surfaceIds, List.nodup_cons]
    refine ⟨fun h => ?_, surfaceIds_nodup fs _⟩
    have := surfaceIds_ge fs _ _ h
    omega

theorem surfaceIds_lt : ∀ (fs : List (List (Pt ℝ))) (off t : Nat), t ∈ surfaceIds off fs →
    t < off + (blocks off fs).length
  | [], _, _, h => by simp [surfaceIds] at h
  | f :: fs, off, t, h => by
    rw [surfaceIds, List.mem_cons] at h
    rw [blocks, List.length_append, block_length]
    rcases h with rfl | h
    · omega
    · have := surfaceIds_lt fs _ t h
      omega

theorem table_spec {meet : List (Pt ℝ) → List (Pt ℝ) → Res (Option Line)} {fs : List (List (Pt ℝ))}
    {table : List (List (Option Line))} (h : meetTable meet fs = .ok table) :
    table.length = fs.length ∧ ∀ (k : Nat) row, table[k]? = some row → row.length = fs.length ∧
      row[k]? = some none ∧ ∀ (j : Nat) f g, fs[k]? = some f → fs[j]? = some g → k < j →
        ∃ r, row[j]? = some r ∧ meet f g = .ok r := by
  unfold meetTable at h
  rw [mapRes_iff] at h
  have hl := h.length_eq
  rw [List.length_zipIdx] at hl
  refine ⟨hl.symm, fun k row hr => ?_⟩
  obtain ⟨hk, rfl⟩ := List.getElem?_eq_some_iff.1 hr
  have hk' : k < fs.zipIdx.length := by simpa using hl ▸ hk
  have hrow := (List.forall₂_iff_get.1 h).2 k hk' hk
  simp only [List.get_eq_getElem, List.getElem_zipIdx] at hrow
  rw [mapRes_iff] at hrow
  have hl2 := hrow.length_eq
  rw [List.length_zipIdx] at hl2
  have entry : ∀ (j : Nat) (hj : j < fs.length), ∃ r, table[k][j]? = some r ∧
      (if j ≤ k then .ok none else meet (fs[k]'(by simpa using hk')) fs[j]) = (.ok r : Res (Option Line)) := by
    intro j hj
    have := (List.forall₂_iff_get.1 hrow).2 j (by simpa using hj) (by omega)
    simp only [List.get_eq_getElem, List.getElem_zipIdx, Nat.zero_add] at this
    exact ⟨_, List.getElem?_eq_getElem (by omega), this⟩
  refine ⟨hl2.symm, ?_, ?_⟩
  · obtain ⟨r, h1, h2⟩ := entry k (by simpa using hk')
    rw [if_pos le_rfl] at h2
    cases h2
    exact h1
  · intro j f g hf hg hkj
    obtain ⟨hj, rfl⟩ := List.getElem?_eq_some_iff.1 hg
    obtain ⟨-, rfl⟩ := List.getElem?_eq_some_iff.1 hf
    obtain ⟨r, h1, h2⟩ := entry j hj
    rw [if_neg (by omega)] at h2
    exact ⟨r, h1, h2⟩

theorem table_none {meet : List (Pt ℝ) → List (Pt ℝ) → Res (Option Line)} {fs : List (List (Pt ℝ))}
    (hm : ∀ f ∈ fs, ∀ g ∈ fs, meet f g = .ok none) :
    ∃ table, meetTable meet fs = .ok table ∧ ∀ row ∈ table, linesOf row = [] := by
  refine ⟨fs.zipIdx.map fun _ => fs.zipIdx.map fun _ => none, ?_, ?_⟩
  · unfold meetTable
    rw [mapRes_iff, List.forall₂_map_right_iff, List.forall₂_same]
    rintro ⟨f, i⟩ hf
    dsimp only
    rw [mapRes_iff, List.forall₂_map_right_iff, List.forall₂_same]
    rintro ⟨g, j⟩ hg
    dsimp only
    rw [hm f (List.fst_mem_of_mem_zipIdx hf) g (List.fst_mem_of_mem_zipIdx hg), ite_self]
  · intro row hr
    obtain ⟨-, -, rfl⟩ := List.mem_map.1 hr
    unfold linesOf
    rw [List.filterMap_eq_nil_iff]
    intro a ha
    obtain ⟨-, -, rfl⟩ := List.mem_map.1 ha
    rfl

theorem steps_none {eps : ℝ} {argsort : List ℝ → List Nat} {surfaces : List Nat} :
    ∀ {rows : List (List (Option Line))} {fs : List (List (Pt ℝ))} {net : Planes} {i : Nat},
    (∀ row ∈ rows, linesOf row = []) → stepPlanes eps argsort surfaces net i fs rows = .ok net
  | [], [], _, _, _ => rfl
  | [], _ :: _, _, _, _ => rfl
  | _ :: _, [], _, _, _ => rfl
  | row :: rows, f :: fs, net, i, h => by
    rw [stepPlanes, step_none (h row (by simp)), Res.bind_ok]
    exact steps_none fun r hr => h r (by simp [hr])

/-- What the rows from the fracture `i` on satisfy. -/
def RowsReady (eps : ℝ) (surfaces : List Nat) (i : Nat) (fs : List (List (Pt ℝ)))
    (rows : List (List (Option Line))) : Prop :=
  fs.length = rows.length ∧ ∀ (k : Nat) f row, fs[k]? = some f → rows[k]? = some row →
    surfaces.length = row.length ∧ row[i + k]? = some none ∧ i + k < surfaces.length ∧
    (2 ≤ (linesOf row).length → Fracture.FracOK eps (axesOf f) (linesOf row))

theorem RowsReady.tail {eps : ℝ} {surfaces : List Nat} {i : Nat} {f : List (Pt ℝ)} {fs : List (List (Pt ℝ))}
    {row : List (Option Line)} {rows : List (List (Option Line))}
    (h : RowsReady eps surfaces i (f :: fs) (row :: rows)) : RowsReady eps surfaces (i + 1) fs rows := by
  refine ⟨by simpa using h.1, fun k g r hk hr => ?_⟩
  have := h.2 (k + 1) g r (by simpa using hk) (by simpa using hr)
  rwa [show i + (k + 1) = i + 1 + k by omega] at this

theorem step_total {eps : ℝ} (he : 0 < eps) {argsort : List ℝ → List Nat} (hsort : Fracture.IsArgsort argsort)
    {surfaces : List Nat} {net : Planes} {i : Nat} {f : List (Pt ℝ)} {row : List (Option Line)}
    (hnd : surfaces.Nodup) (hlt : ∀ t ∈ surfaces, t < net.cells.length)
    (hlen : surfaces.length = row.length) (hi : row[i]? = some none) (his : i < surfaces.length)
    (hfr : 2 ≤ (linesOf row).length → Fracture.FracOK eps (axesOf f) (linesOf row)) :
    (RowOK f row → ∃ net', stepPlane eps argsort surfaces net i f row = .ok net' ∧
      net.cells.length ≤ net'.cells.length) ∧
    (¬ RowOK f row → stepPlane eps argsort surfaces net i f row = .error .indexError) := by
  classical
  have hs : surfaces[i]? = some surfaces[i] := List.getElem?_eq_getElem his
  by_cases h0 : linesOf row = []
  · exact ⟨fun _ => ⟨net, step_none h0, le_rfl⟩, fun h => absurd (Or.inl h0) h⟩
  by_cases hf : 4 ≤ f.length
  · by_cases h1 : (linesOf row).length = 1
    · refine ⟨fun _ => ?_, fun h => absurd (Or.inr ⟨hf, Or.inl h1⟩) h⟩
      obtain ⟨l, hl⟩ := List.length_eq_one_iff.1 h1
      obtain ⟨net', e, -, h2, -⟩ := step_ok (sub := Fracture.disjointNet 1 [l]) h0 hf hs hlen hnd hlt hi
        (by rw [hl]; exact single_run eps argsort (axesOf f) 1 l) (by rw [hl]; exact single_edges 1 l)
      exact ⟨net', e, by omega⟩
    · have h2 : 2 ≤ (linesOf row).length := by
        have := List.length_pos_iff.2 h0
        omega
      obtain ⟨sub, e, hed⟩ := many_edges he hsort 1 h2 (hfr h2)
      constructor
      · rintro (h | ⟨-, h | h⟩)
        · exact absurd h h0
        · exact absurd h h1
        · rw [List.filter_eq_self.2 (fun i hi => by simpa using h i (List.mem_range.1 hi))] at hed
          obtain ⟨net', e, -, h2, -⟩ := step_ok h0 hf hs hlen hnd hlt hi e hed
          exact ⟨net', e, by omega⟩
      · intro h
        refine step_missing h0 hf hs hlen hlt e ?_
        rw [hed, List.length_map]
        refine lt_of_le_of_ne ((List.length_filter_le _ _).trans_eq (by simp)) fun h' =>
          h (Or.inr ⟨hf, Or.inr ?_⟩)
        have := List.length_filter_eq_length_iff.1 (h'.trans (List.length_range).symm)
        intro k hk
        simpa using this k (List.mem_range.2 hk)
  · refine ⟨fun h => ?_, fun _ => step_short h0 (by omega)⟩
    rcases h with h | ⟨h, -⟩
    · exact absurd h h0
    · exact absurd h hf

theorem steps_ok {eps : ℝ} (he : 0 < eps) {argsort : List ℝ → List Nat} (hsort : Fracture.IsArgsort argsort)
    {surfaces : List Nat} (hnd : surfaces.Nodup) :
    ∀ {fs : List (List (Pt ℝ))} {rows : List (List (Option Line))} {net : Planes} {i : Nat},
    RowsReady eps surfaces i fs rows → (∀ t ∈ surfaces, t < net.cells.length) →
    (∀ (k : Nat) f row, fs[k]? = some f → rows[k]? = some row → RowOK f row) →
    ∃ net', stepPlanes eps argsort surfaces net i fs rows = .ok net' ∧ net.cells.length ≤ net'.cells.length
  | [], rows, net, i, _, _, _ => ⟨net, by rw [stepPlanes], le_rfl⟩
  | f :: fs, [], net, i, h, _, _ => by simp [RowsReady] at h
  | f :: fs, row :: rows, net, i, h, hlt, hok => by
    obtain ⟨h1, h2, h3, h4⟩ := h.2 0 f row rfl rfl
    obtain ⟨net1, e1, l1⟩ := (step_total he hsort (net := net) hnd hlt h1 h2 h3 h4).1 (hok 0 f row rfl rfl)
    obtain ⟨net2, e2, l2⟩ := steps_ok he hsort hnd (net := net1) h.tail (fun t ht => (hlt t ht).trans_le l1)
      fun k g r hk hr => hok (k + 1) g r (by simpa using hk) (by simpa using hr)
    refine ⟨net2, ?_, l1.trans l2⟩
    rw [stepPlanes]
    rw [Nat.add_zero] at e1
    rw [e1, Res.bind_ok, e2]

theorem steps_error {eps : ℝ} (he : 0 < eps) {argsort : List ℝ → List Nat} (hsort : Fracture.IsArgsort argsort)
    {surfaces : List Nat} (hnd : surfaces.Nodup) :
    ∀ {fs : List (List (Pt ℝ))} {rows : List (List (Option Line))} {net : Planes} {i : Nat},
    RowsReady eps surfaces i fs rows → (∀ t ∈ surfaces, t < net.cells.length) →
    (∃ (k : Nat) (f : List (Pt ℝ)) (row : List (Option Line)), fs[k]? = some f ∧ rows[k]? = some row ∧
      ¬ RowOK f row) → stepPlanes eps argsort surfaces net i fs rows = .error .indexError
  | [], rows, net, i, _, _, ⟨k, f, row, hk, _⟩ => by simp at hk
  | f :: fs, [], net, i, h, _, _ => by simp [RowsReady] at h
  | f :: fs, row :: rows, net, i, h, hlt, ⟨k, g, r, hk, hr, hno⟩ => by
    obtain ⟨h1, h2, h3, h4⟩ := h.2 0 f row rfl rfl
    obtain ⟨hy, hn⟩ := step_total he hsort (net := net) hnd hlt h1 h2 h3 h4
    rw [Nat.add_zero] at hy hn
    rw [stepPlanes]
    by_cases h0 : RowOK f row
    · obtain ⟨net1, e1, l1⟩ := hy h0
      rw [e1, Res.bind_ok]
      refine steps_error he hsort hnd (net := net1) h.tail (fun t ht => (hlt t ht).trans_le l1) ?_
      match k, hk, hr with
      | 0, hk, hr =>
        simp only [List.getElem?_cons_zero, Option.some.injEq] at hk hr
        subst hk; subst hr
        exact absurd h0 hno
      | k + 1, hk, hr => exact ⟨k, g, r, by simpa using hk, by simpa using hr, hno⟩
    · rw [hn h0]; rfl

end Verif.PlaneNet
