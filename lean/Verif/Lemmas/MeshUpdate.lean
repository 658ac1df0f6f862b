/-
Lemmas for C33: `update_cells_with_cell_pairs`.
-/
import Verif.Lemmas.MeshOps
import Verif.Props.MeshGraph
import Verif.Lemmas.MeshMetrics
import Mathlib.Data.List.Forall2

namespace Verif.MeshOps
open MeshBuild MeshGraph MeshStore Trace MeshMetrics

/-! ### One replacement -/

/-- The id recorded for a sub-cell by the replacements `L`. -/
def rep (L : Dict Node Nat) (e x : Nat) : Nat := (L.get? (e, x)).getD x

/-- `c'` is `c` after the replacements `L`. -/
structure CellRel (cells : Cells) (L : Dict Node Nat) (c c' : Cell) : Prop where
  dimension : c'.dimension = c.dimension
  id : c'.id = c.id
  material : c'.material = c.material
  len : c'.sub.length = c.sub.length
  sub : ∀ (e : Nat) ids, c.sub[e]? = some ids → c'.sub[e]? = some (ids.map (rep L e))
  nodes : ∀ vs, c.sub[0]? = some vs → List.Forall₂ (VTag cells) (vs.map (rep L 0)) c'.nodeTags
  untouched : L = [] → c' = c

theorem get?_append {κ ν : Type} [DecidableEq κ] (L M : Dict κ ν) (k : κ) :
    Dict.get? (L ++ M) k = (Dict.get? L k).or (Dict.get? M k) := by
  induction L with
  | nil => simp
  | cons p t ih =>
    obtain ⟨a, b⟩ := p
    by_cases h : a = k <;> simp [Dict.get?, h, ih]

theorem rep_nil (e x : Nat) : rep [] e x = x := rfl

theorem CellRel.refl {cells : Cells} (h : NodesOK cells) {i : Nat} {c : Cell}
    (hc : Stored cells i c) : CellRel cells [] c c where
  dimension := rfl
  id := rfl
  material := rfl
  len := rfl
  sub := by intro e ids h; simp [h, show rep [] e = _root_.id from rfl]
  nodes := by
    intro vs hv
    simpa [show rep [] 0 = _root_.id from rfl] using h.aligned i c hc vs hv
  untouched := fun _ => rfl

theorem rep_append (L : Dict Node Nat) {e o n : Nat} (hk : (e, o) ∉ L.keys) (e' x : Nat) :
    rep (L ++ [((e, o), n)]) e' x = if e' = e ∧ x = o then n else rep L e' x := by
  unfold rep
  rw [get?_append]
  by_cases h : e' = e ∧ x = o
  · obtain ⟨rfl, rfl⟩ := h
    rw [Dict.get?_eq_none.2 hk]
    simp [Dict.get?]
  · rw [if_neg h]
    have : ((e, o) : Node) ≠ (e', x) := by
      intro h'; apply h; simpa [eq_comm] using h'
    simp [Dict.get?, this]

/-- The value `o` stays where it was, and only there. -/
theorem rep_eq_iff {L : Dict Node Nat} {e o x : Nat} (hk : (e, o) ∉ L.keys)
    (hv : ∀ x y, ((e, x), y) ∈ L → y ≠ o) : rep L e x = o ↔ x = o := by
  constructor
  · intro h
    unfold rep at h
    cases hg : Dict.get? L (e, x) with
    | none => simpa [hg] using h
    | some y =>
      rw [hg] at h
      exact absurd h (hv x y (Dict.mem_of_get? hg))
  · rintro rfl
    unfold rep
    rw [Dict.get?_eq_none.2 hk]; rfl

theorem set_rep {L : Dict Node Nat} {e o n : Nat} (hk : (e, o) ∉ L.keys)
    (hv : ∀ x y, ((e, x), y) ∈ L → y ≠ o) : ∀ {ids : List Nat}, ids.Nodup → o ∈ ids →
    o ∈ ids.map (rep L e) ∧
    (ids.map (rep L e)).set ((ids.map (rep L e)).idxOf o) n =
      ids.map (rep (L ++ [((e, o), n)]) e)
  | [], _, h => by simp at h
  | x :: ids, hn, h => by
    rw [List.nodup_cons] at hn
    by_cases hx : x = o
    · subst hx
      have h1 : rep L e x = x := (rep_eq_iff hk hv).2 rfl
      refine ⟨by simp [h1], ?_⟩
      simp only [List.map_cons, h1, List.idxOf_cons_self, List.set_cons_zero, rep_append L hk,
        and_self, if_true, List.cons.injEq, true_and]
      apply List.map_congr_left
      intro y hy
      have hyx : y ≠ x := by rintro rfl; exact hn.1 hy
      simp [rep_append L hk, hyx]
    · have ho : o ∈ ids := by
        rcases List.mem_cons.1 h with h | h
        · exact absurd h.symm hx
        · exact h
      obtain ⟨h1, h2⟩ := set_rep (n := n) hk hv hn.2 ho
      have h3 : rep L e x ≠ o := fun h => hx ((rep_eq_iff hk hv).1 h)
      refine ⟨List.mem_cons_of_mem _ h1, ?_⟩
      rw [List.map_cons, List.idxOf_cons_ne _ h3, List.set_cons_succ, h2]
      simp [rep_append L hk, hx]

theorem map_rep_ne {L : Dict Node Nat} {e o n e' : Nat} (hk : (e, o) ∉ L.keys) (he : e' ≠ e)
    (ids : List Nat) : ids.map (rep (L ++ [((e, o), n)]) e') = ids.map (rep L e') := by
  apply List.map_congr_left
  intro y _
  simp [rep_append L hk, he]

/-- Positions agree in lists related by a relation that is injective and functional at `o`. -/
theorem idxOf_forall₂ {R : Nat → Nat → Prop} {o t : Nat} (h1 : ∀ x, R x t → x = o)
    (h2 : ∀ y, R o y → y = t) : ∀ {xs ys : List Nat}, List.Forall₂ R xs ys →
    xs.idxOf o = ys.idxOf t ∧ (o ∈ xs → t ∈ ys)
  | _, _, .nil => by simp
  | _, _, .cons (a := x) (b := y) hxy h => by
    obtain ⟨h3, h4⟩ := idxOf_forall₂ h1 h2 h
    by_cases hx : x = o
    · subst hx
      have := h2 y hxy
      subst this
      simp
    · have hy : y ≠ t := by rintro rfl; exact hx (h1 x hxy)
      rw [List.idxOf_cons_ne _ hx, List.idxOf_cons_ne _ hy]
      refine ⟨by rw [h3], ?_⟩
      intro ho
      rcases List.mem_cons.1 ho with rfl | ho
      · exact absurd rfl hx
      · exact List.mem_cons_of_mem _ (h4 ho)

theorem forall₂_set {α β : Type} {R : α → β → Prop} {a : α} {b : β} (hab : R a b) :
    ∀ {xs : List α} {ys : List β} (i : Nat), List.Forall₂ R xs ys →
      List.Forall₂ R (xs.set i a) (ys.set i b)
  | _, _, _, .nil => by simp
  | _, _, 0, .cons _ h => .cons hab h
  | _, _, i + 1, .cons h0 h => .cons h0 (forall₂_set hab i h)

theorem VTag.functional {cells : Cells} {v t t' : Nat} (h : VTag cells v t)
    (h' : VTag cells v t') : t = t' := by
  obtain ⟨c, h1, -, h2⟩ := h
  obtain ⟨c', h1', -, h2'⟩ := h'
  unfold Stored at h1 h1'
  rw [h1] at h1'
  obtain rfl : c = c' := by simpa using h1'
  rw [h2] at h2'
  simpa using h2'

theorem vtag_of_dim {cells : Cells} (hw : WellFormed cells) (hn : NodesOK cells) {v : Nat}
    (h : HasDim cells 0 v) : ∃ t, VTag cells v t := by
  obtain ⟨c, hc, hd⟩ := h
  have h1 := hw.self v c hc
  rw [hd] at h1
  obtain ⟨b, _, h, _⟩ := List.forall₂_cons_left_iff.1 (hn.aligned v c hc _ h1)
  exact ⟨b, h⟩

theorem stored_unique {cells : Cells} {i : Nat} {c c' : Cell} (h : Stored cells i c)
    (h' : Stored cells i c') : c = c' := by
  unfold Stored at h h'
  rw [h] at h'
  simpa using h'

/-- mesh_operations.py:253-271 for one cell. -/
theorem cell_step {cells cur : Cells} (hw : WellFormed cells) (hn : NodesOK cells)
    (hvert : ∀ v c, Stored cells v c → c.dimension = 0 → Stored cur v c)
    {L : Dict Node Nat} {i k : Nat} {c c' : Cell} (hrel : CellRel cells L c c')
    (hst : Stored cur i c') {e o n : Nat} {ids : List Nat} (hids : c.sub[e]? = some ids)
    (hnd : ids.Nodup) (ho : o ∈ ids) (hod : HasDim cells e o) (hk : (e, o) ∉ L.keys)
    (hv : ∀ x y, ((e, x), y) ∈ L → y ≠ o) (hnew : HasDim cells e n) :
    ∃ c'', updateCell (e, o) (e, n) cur (k, i) = .ok (cur.set i (some c'')) ∧
      CellRel cells (L ++ [((e, o), n)]) c c'' := by
  obtain ⟨hmem, hset⟩ := set_rep (n := n) hk hv hnd ho
  have hsub := hrel.sub e ids hids
  have hlt : e < c'.sub.length := by
    rw [hrel.len]; exact (List.getElem?_eq_some_iff.1 hids).1
  have hpos : (ids.map (rep L e)).idxOf o < (ids.map (rep L e)).length :=
    List.idxOf_lt_length_of_mem hmem
  set c1 : Cell := { c' with
    sub := c'.sub.set e ((ids.map (rep L e)).set ((ids.map (rep L e)).idxOf o) n) } with hc1
  have hgo : updateCell (e, o) (e, n) cur (k, i) =
      (updateTags cur c1 (e, o) (e, n) >>= fun c => .ok (cur.set i (some c))) := by
    unfold updateCell
    have : cellAt cur i = .ok c' := cellAt_of_stored hst
    simp only [this, Res.bind_ok, Cell.subIds, getIdx, hsub, firstIndex, if_pos hmem, if_pos hpos]
    rfl
  have hsub1 : ∀ (e' : Nat) ids', c.sub[e']? = some ids' →
      c1.sub[e']? = some (ids'.map (rep (L ++ [((e, o), n)]) e')) := by
    intro e' ids' h'
    simp only [hc1]
    by_cases he : e' = e
    · subst he
      rw [hids] at h'
      obtain rfl : ids = ids' := by simpa using h'
      rw [List.getElem?_set_self hlt, hset]
    · rw [List.getElem?_set_ne (Ne.symm he), hrel.sub e' ids' h', map_rep_ne hk he]
  by_cases he0 : e = 0
  · subst he0
    obtain ⟨t, ht⟩ := vtag_of_dim hw hn hod
    obtain ⟨t', ht'⟩ := vtag_of_dim hw hn hnew
    have hal := hrel.nodes ids hids
    obtain ⟨h1, h2⟩ := idxOf_forall₂ (R := VTag cells) (o := o) (t := t)
      (fun x hx => hn.distinct _ _ _ hx ht) (fun y hy => hy.functional ht) hal
    have hset2 := forall₂_set ht' ((ids.map (rep L 0)).idxOf o) hal
    rw [hset, h1] at hset2
    obtain ⟨co, hco, hd0, hnt⟩ := ht
    obtain ⟨cn, hcn, hd0', hnt'⟩ := ht'
    refine ⟨{ c1 with nodeTags := c'.nodeTags.set (c'.nodeTags.idxOf t) t' }, ?_, ?_⟩
    · rw [hgo]
      unfold updateTags
      have e1 : cellAt cur o = .ok co := cellAt_of_stored (hvert o co hco hd0)
      have e2 : cellAt cur n = .ok cn := cellAt_of_stored (hvert n cn hcn hd0')
      have hmt : t ∈ c'.nodeTags := h2 hmem
      simp only [and_self, if_true, e1, e2, Res.bind_ok, hnt, hnt', firstIndex,
        show c1.nodeTags = c'.nodeTags from rfl, if_pos hmt, getIdx]
      rfl
    · exact ⟨hrel.dimension, hrel.id, hrel.material, by simp [hc1, hrel.len], hsub1,
        fun vs hvs => by
          rw [hids] at hvs
          obtain rfl : ids = vs := by simpa using hvs
          exact hset2, by simp⟩
  · refine ⟨c1, ?_, ?_⟩
    · rw [hgo]
      unfold updateTags
      simp [he0]
    · refine ⟨hrel.dimension, hrel.id, hrel.material, by simp [hc1, hrel.len], hsub1, ?_, by simp⟩
      intro vs hvs
      rw [map_rep_ne hk (Ne.symm he0)]
      exact hrel.nodes vs hvs

/-! ### The loops -/

/-- One replacement: the pair of graph nodes, and the position of the cell changed. -/
abbrev Op := (Node × Node) × Nat

/-- The replacements made in the cell at position `i`. -/
def opsAt (ops : List Op) (i : Nat) : Dict Node Nat :=
  (ops.filter fun o => o.2 = i).map fun o => (o.1.1, o.1.2.2)

/-- What the replacements must satisfy. -/
structure OpsOK (cells : Cells) (ops : List Op) : Prop where
  cell : ∀ o ∈ ops, ∃ e x n c ids, o.1 = ((e, x), (e, n)) ∧ Stored cells o.2 c ∧
    e < c.dimension ∧ c.sub[e]? = some ids ∧ x ∈ ids ∧ HasDim cells e n
  once : (ops.map fun o => (o.1.1, o.2)).Nodup
  fresh : ∀ o ∈ ops, ∀ o' ∈ ops, o.1.2 ≠ o'.1.1

/-- The cells after some replacements. -/
def Inv (cells : Cells) (ops : List Op) (cur : Cells) : Prop :=
  cur.length = cells.length ∧
    ∀ i c, Stored cells i c → ∃ c', Stored cur i c' ∧ CellRel cells (opsAt ops i) c c'

theorem opsAt_append (ops : List Op) (o : Op) (i : Nat) :
    opsAt (ops ++ [o]) i = if o.2 = i then opsAt ops i ++ [(o.1.1, o.1.2.2)] else opsAt ops i := by
  unfold opsAt
  by_cases h : o.2 = i <;> simp [List.filter_append, h]

theorem mem_opsAt {ops : List Op} {i : Nat} {p : Node × Nat} :
    p ∈ opsAt ops i ↔ ∃ o ∈ ops, o.2 = i ∧ p = (o.1.1, o.1.2.2) := by
  unfold opsAt
  simp only [List.mem_map, List.mem_filter, decide_eq_true_eq]
  constructor
  · rintro ⟨o, ⟨h1, h2⟩, rfl⟩; exact ⟨o, h1, h2, rfl⟩
  · rintro ⟨o, h1, h2, rfl⟩; exact ⟨o, ⟨h1, h2⟩, rfl⟩

theorem inv_step {cells : Cells} (hw : WellFormed cells) (hs : SubNodup cells)
    (hn : NodesOK cells) {done : List Op} {op : Op} {k : Nat}
    (hops : OpsOK cells (done ++ [op])) {cur : Cells} (hinv : Inv cells done cur) :
    ∃ cur', updateCell op.1.1 op.1.2 cur (k, op.2) = .ok cur' ∧ Inv cells (done ++ [op]) cur' := by
  obtain ⟨e, x, n, c, ids, he, hc, hlt, hids, hx, hdn⟩ := hops.cell op (by simp)
  obtain ⟨c', hst, hrel⟩ := hinv.2 op.2 c hc
  have hod : HasDim cells e x := hw.subOk _ c hc e ids hids x hx
  have hvert : ∀ v c, Stored cells v c → c.dimension = 0 → Stored cur v c := by
    intro v cv hv hd
    obtain ⟨cv', h1, h2⟩ := hinv.2 v cv hv
    have : opsAt done v = [] := by
      rw [List.eq_nil_iff_forall_not_mem]
      intro p hp
      obtain ⟨o, ho, rfl, -⟩ := mem_opsAt.1 hp
      obtain ⟨e', x', n', c1, ids', -, h3, h4, -⟩ := hops.cell o (by simp [ho])
      rw [stored_unique h3 hv] at h4
      omega
    rw [h2.untouched this] at h1
    exact h1
  have hk : (e, x) ∉ Dict.keys (opsAt done op.2) := by
    intro h
    obtain ⟨p, hp, hpe⟩ := List.mem_map.1 h
    obtain ⟨o, ho, ho2, rfl⟩ := mem_opsAt.1 hp
    have := hops.once
    rw [List.map_append, List.nodup_append] at this
    refine this.2.2 (o.1.1, o.2) (List.mem_map_of_mem (f := fun o : Op => (o.1.1, o.2)) ho)
      (op.1.1, op.2) (by simp) ?_
    simp only at hpe
    rw [hpe, ho2, he]
  have hv : ∀ a b, ((e, a), b) ∈ opsAt done op.2 → b ≠ x := by
    intro a b h hbx
    obtain ⟨o, ho, ho2, hpo⟩ := mem_opsAt.1 h
    obtain ⟨e', x', n', _, _, h3, -⟩ := hops.cell o (by simp [ho])
    apply hops.fresh o (by simp [ho]) op (by simp)
    rw [h3] at hpo ⊢
    rw [he]
    simp only [Prod.mk.injEq] at hpo ⊢
    exact ⟨hpo.1.1.symm, by rw [← hpo.2, hbx]⟩
  obtain ⟨c'', h1, h2⟩ := cell_step (k := k) hw hn hvert hrel hst hids
    (hs _ c hc ids (List.mem_of_getElem? hids)) hx hod hk hv hdn
  refine ⟨cur.set op.2 (some c''), by rw [he]; exact h1, by simp [hinv.1], ?_⟩
  intro i ci hci
  rw [opsAt_append]
  by_cases hi : op.2 = i
  · subst hi
    rw [if_pos rfl]
    obtain rfl := stored_unique hc hci
    refine ⟨c'', ?_, by rw [he]; exact h2⟩
    unfold Stored
    have : op.2 < cur.length := (List.getElem?_eq_some_iff.1 hst).1
    simp [this]
  · rw [if_neg hi]
    obtain ⟨ci', h3, h4⟩ := hinv.2 i ci hci
    refine ⟨ci', ?_, h4⟩
    unfold Stored at h3 ⊢
    rw [List.getElem?_set_ne hi]
    exact h3

theorem OpsOK.sublist {cells : Cells} {ops ops' : List Op} (h : OpsOK cells ops)
    (hs : ops'.Sublist ops) : OpsOK cells ops' :=
  ⟨fun o ho => h.cell o (hs.subset ho), h.once.sublist (hs.map _),
    fun o ho o' ho' => h.fresh o (hs.subset ho) o' (hs.subset ho')⟩

theorem inv_loop {cells : Cells} (hw : WellFormed cells) (hs : SubNodup cells)
    (hn : NodesOK cells) (k : Nat) : ∀ (todo done : List Op), OpsOK cells (done ++ todo) →
    ∀ {cur : Cells}, Inv cells done cur →
    ∃ cur', todo.foldlM (fun cs o => updateCell o.1.1 o.1.2 cs (k, o.2)) cur = .ok cur' ∧
      Inv cells (done ++ todo) cur'
  | [], done, _, cur, h => ⟨cur, rfl, by simpa using h⟩
  | op :: todo, done, hops, cur, h => by
    rw [List.append_cons] at hops ⊢
    obtain ⟨cur1, h1, h2⟩ := inv_step (k := k) hw hs hn
      (hops.sublist (List.sublist_append_left _ _)) h
    obtain ⟨cur2, h3, h4⟩ := inv_loop hw hs hn k todo (done ++ [op]) hops h2
    refine ⟨cur2, ?_, h4⟩
    rw [List.foldlM_cons, h1]
    exact h3

/-- The nested loops as one. -/
theorem pairs_loop {patch : DiGraph Node} {k : Nat} (ps : Node × Node → List Nat) :
    ∀ (items : List (Node × Node)),
    (∀ it ∈ items, patch.predecessors it.1 = .ok ((ps it).map fun i => (k, i))) →
    ∀ (cur : Cells), items.foldlM (updatePair patch) cur =
      (items.flatMap fun it => (ps it).map fun i => (it, i)).foldlM
        (fun cs (o : Op) => updateCell o.1.1 o.1.2 cs (k, o.2)) cur
  | [], _, cur => rfl
  | it :: items, h, cur => by
    rw [List.foldlM_cons, List.flatMap_cons, List.foldlM_append]
    have h1 : updatePair patch cur it = ((ps it).map fun i => (it, i)).foldlM
        (fun cs (o : Op) => updateCell o.1.1 o.1.2 cs (k, o.2)) cur := by
      unfold updatePair
      rw [h it (by simp)]
      simp only [Res.bind_ok, List.foldlM_map]
    rw [h1]
    congr 1
    funext cs
    exact pairs_loop ps items (fun it hit => h it (List.mem_cons_of_mem _ hit)) cs


/-! ### The patch graph -/

/-- The patch graph of the dimensions below `n`. -/
structure IsPatch (cells : Cells) (ids : List Nat) (k n : Nat) (g : DiGraph Node) : Prop where
  edges : ∀ u v, (u, v) ∈ g.edges ↔
    ∃ e < n, ∃ i j, u = (k, i) ∧ v = (e, j) ∧ i ∈ ids ∧ SubEntity cells i e j
  nodup : g.edges.Nodup
  nodes : ∀ x, x ∈ g.nodes ↔ ∃ u v, (u, v) ∈ g.edges ∧ (x = u ∨ x = v)

theorem gather_loop {m : Mesh} (hw : WellFormed m.cells) {ids : List Nat} {k : Nat}
    (hids : ∀ i ∈ ids, HasDim m.cells k i) {pairs : Pairs} {P : Nat → List (Cell × Cell)}
    (hentry : ∀ e < k, pairs[k - e]? = some (some (P e))) : ∀ n ≤ k,
    ∃ g, (List.range n).foldlM (gatherStep m ids k pairs) (DiGraph.empty, []) =
        .ok (g, (List.range n).map fun e =>
          Dict.ofList ((P e).map fun p => (cellIndex p.1, cellIndex p.2))) ∧
      IsPatch m.cells ids k n g
  | 0, _ => ⟨DiGraph.empty, rfl, ⟨by simp [DiGraph.empty], by simp [DiGraph.empty],
      by simp [DiGraph.empty]⟩⟩
  | n + 1, hn => by
    obtain ⟨g, h1, h2⟩ := gather_loop hw hids hentry n (by omega)
    have hlt : ∀ i ∈ ids, i < m.cells.length := by
      intro i hi
      obtain ⟨c, hc, -⟩ := hids i hi
      exact (List.getElem?_eq_some_iff.1 hc).1
    obtain ⟨gl, h3, h4⟩ := (C07_build_graph_from_cell_ids m hw ids k (k - n)).1 (by omega) hlt
    rw [show k - (k - n) = n by omega] at h4
    have hsrc : ∀ e ∈ gl.edges, e.1 ∈ gl.nodes := fun e he =>
      (h4.nodes e.1).2 ⟨e.1, e.2, he, Or.inl rfl⟩
    refine ⟨g.addEdges gl.edgesInOrder, ?_, ?_, ?_, ?_⟩
    · rw [List.range_succ, List.foldlM_append, h1]
      simp only [Res.bind_ok, List.foldlM_cons, List.foldlM_nil]
      unfold gatherStep
      simp only [h3, Res.bind_ok, getIdx, hentry n (by omega), Res.pure_eq, List.map_append,
        List.map_cons, List.map_nil]
    · intro u v
      rw [DiGraph.mem_addEdges_edges, DiGraph.mem_edgesInOrder hsrc, h2.edges, h4.edges]
      constructor
      · rintro (⟨e, he, h⟩ | ⟨i, j, rfl, rfl, ⟨-, hi⟩, hs⟩)
        · exact ⟨e, by omega, h⟩
        · exact ⟨n, by omega, i, j, rfl, rfl, hi, hs⟩
      · rintro ⟨e, he, i, j, rfl, rfl, hi, hs⟩
        by_cases hen : e = n
        · subst hen
          exact Or.inr ⟨i, j, rfl, rfl, ⟨hids i hi, hi⟩, hs⟩
        · exact Or.inl ⟨e, by omega, i, j, rfl, rfl, hi, hs⟩
    · rw [DiGraph.addEdges_edges]
      exact nodup_foldl_addNew _ _ h2.nodup
    · intro x
      rw [DiGraph.mem_addEdges_nodes, h2.nodes]
      constructor
      · rintro (⟨u, v, h, h'⟩ | ⟨e, he, h'⟩)
        · exact ⟨u, v, DiGraph.mem_addEdges_edges.2 (Or.inl h), h'⟩
        · exact ⟨e.1, e.2, DiGraph.mem_addEdges_edges.2 (Or.inr he), h'⟩
      · rintro ⟨u, v, h, h'⟩
        rcases DiGraph.mem_addEdges_edges.1 h with h | h
        · exact Or.inl ⟨u, v, h, h'⟩
        · exact Or.inr ⟨(u, v), h, h'⟩

theorem npMax_const {l : List Nat} {k : Nat} (h : l ≠ []) (hk : ∀ x ∈ l, x = k) :
    npMax l = .ok k := by
  cases l with
  | nil => exact absurd rfl h
  | cons a t =>
    have ha := hk a (by simp)
    subst ha
    simp only [npMax, Except.ok.injEq]
    have : ∀ x ∈ t, x = a := fun x hx => hk x (by simp [hx])
    clear hk h
    induction t with
    | nil => rfl
    | cons b t ih =>
      rw [List.foldl_cons, this b (by simp), max_self]
      exact ih fun x hx => this x (by simp [hx])

theorem npMin_const {l : List Nat} {k : Nat} (h : l ≠ []) (hk : ∀ x ∈ l, x = k) :
    npMin l = .ok k := by
  obtain ⟨m, hm⟩ := npMin_exists h
  rw [hm, hk m (npMin_ok hm).1]

theorem newId_of_mem {pairs : List (Cell × Cell)} (hn : (pairs.map (·.1.id)).Nodup)
    {p : Cell × Cell} (hp : p ∈ pairs) : newId pairs p.1.id = p.2.id := by
  induction pairs with
  | nil => simp at hp
  | cons q t ih =>
    simp only [List.map_cons, List.nodup_cons] at hn
    unfold newId
    rcases List.mem_cons.1 hp with rfl | hp
    · simp
    · have : q.1.id ≠ p.1.id := by
        intro h
        exact hn.1 (List.mem_map.2 ⟨p, hp, h.symm⟩)
      have h := ih hn.2 hp
      unfold newId at h
      simp only [List.find?_cons, this, decide_false]
      exact h

theorem newId_of_not_mem {pairs : List (Cell × Cell)} {x : Nat} (h : ∀ p ∈ pairs, p.1.id ≠ x) :
    newId pairs x = x := by
  unfold newId
  rw [List.find?_eq_none.2]
  intro p hp
  simpa using h p hp

/-- The pairs of graph nodes, by dimension. -/
def itemsOf (P : Nat → List (Cell × Cell)) (k : Nat) : List (Node × Node) :=
  (List.range k).flatMap fun e => (P e).map fun p => (cellIndex p.1, cellIndex p.2)

section
variable {m : Mesh} {targets : List Cell} {pairs : Pairs} {k : Nat} {P : Nat → List (Cell × Cell)}

theorem UpdateOK.mem_items (hu : UpdateOK m.cells targets pairs k P) {it : Node × Node} :
    it ∈ itemsOf P k ↔ ∃ e < k, ∃ p ∈ P e, it = ((e, p.1.id), (e, p.2.id)) := by
  unfold itemsOf
  simp only [List.mem_flatMap, List.mem_range, List.mem_map]
  constructor
  · rintro ⟨e, he, p, hp, rfl⟩
    refine ⟨e, he, p, hp, ?_⟩
    simp [cellIndex, hu.oldDim e he p hp, (hu.newDim e he p hp).1]
  · rintro ⟨e, he, p, hp, rfl⟩
    refine ⟨e, he, p, hp, ?_⟩
    simp [cellIndex, hu.oldDim e he p hp, (hu.newDim e he p hp).1]

theorem UpdateOK.items_nodup (hu : UpdateOK m.cells targets pairs k P) :
    ((itemsOf P k).map (·.1)).Nodup := by
  unfold itemsOf
  rw [List.map_flatMap]
  refine List.nodup_flatMap.2 ⟨?_, ?_⟩
  · intro e he
    rw [List.mem_range] at he
    rw [List.map_map]
    have h1 : (P e).map ((fun x : Node × Node => x.1) ∘ fun p => (cellIndex p.1, cellIndex p.2)) =
        ((P e).map (·.1.id)).map fun i => (e, i) := by
      rw [List.map_map]
      apply List.map_congr_left
      intro p hp
      simp [cellIndex, hu.oldDim e he p hp]
    rw [h1]
    exact (hu.oldNodup e he).map (fun a b h => by simpa using h)
  · refine List.Pairwise.imp_of_mem ?_ List.nodup_range
    intro a b ha hb hab
    rw [List.mem_range] at ha hb
    rw [Function.onFun, List.disjoint_left]
    intro x hx hx'
    simp only [List.mem_map] at hx hx'
    obtain ⟨_, ⟨p, hp, rfl⟩, rfl⟩ := hx
    obtain ⟨_, ⟨q, hq, rfl⟩, h⟩ := hx'
    apply hab
    have := congrArg Prod.fst h
    simp only [cellIndex] at this
    rw [hu.oldDim a ha p hp, hu.oldDim b hb q hq] at this
    exact this.symm

theorem UpdateOK.dicts (hu : UpdateOK m.cells targets pairs k P) :
    ((List.range k).map fun e =>
      Dict.ofList ((P e).map fun p => (cellIndex p.1, cellIndex p.2))).flatten = itemsOf P k := by
  unfold itemsOf
  rw [← List.flatMap_def]
  apply List.flatMap_congr
  intro e he
  rw [List.mem_range] at he
  apply ofList_nodup
  have h1 : ((P e).map fun p => (cellIndex p.1, cellIndex p.2)).map Prod.fst =
      ((P e).map (·.1.id)).map fun i => (e, i) := by
    rw [List.map_map, List.map_map]
    apply List.map_congr_left
    intro p hp
    simp [cellIndex, hu.oldDim e he p hp]
  rw [h1]
  exact (hu.oldNodup e he).map (fun a b h => by simpa using h)

/-- All replacements, for the patch graph `g`. -/
def allOps (P : Nat → List (Cell × Cell)) (k : Nat) (g : DiGraph Node) : List Op :=
  (itemsOf P k).flatMap fun it =>
    (((g.edges.filter fun e => e.2 = it.1).map fun e => e.1.2)).map fun i => (it, i)

theorem UpdateOK.mem_allOps (hu : UpdateOK m.cells targets pairs k P) {g : DiGraph Node}
    (hg : IsPatch m.cells (targets.map (·.id)) k k g) {o : Op} :
    o ∈ allOps P k g ↔ ∃ e < k, ∃ p ∈ P e, ∃ i ∈ targets.map (·.id),
      SubEntity m.cells i e p.1.id ∧ o = (((e, p.1.id), (e, p.2.id)), i) := by
  unfold allOps
  simp only [List.mem_flatMap, hu.mem_items, List.map_map, List.mem_map, List.mem_filter,
    decide_eq_true_eq]
  constructor
  · rintro ⟨_, ⟨e, he, p, hp, rfl⟩, ⟨u, v⟩, ⟨h1, h2⟩, rfl⟩
    simp only at h2
    subst h2
    obtain ⟨e', he', i, j, rfl, h3, hi, hs⟩ := (hg.edges _ _).1 h1
    simp only [Prod.mk.injEq] at h3
    obtain ⟨rfl, rfl⟩ := h3
    exact ⟨e, he, p, hp, i, List.mem_map.1 hi, hs, rfl⟩
  · rintro ⟨e, he, p, hp, i, hi, hs, rfl⟩
    exact ⟨_, ⟨e, he, p, hp, rfl⟩, ((k, i), (e, p.1.id)),
      ⟨(hg.edges _ _).2 ⟨e, he, i, p.1.id, rfl, rfl, List.mem_map.2 hi, hs⟩, rfl⟩, rfl⟩

theorem UpdateOK.opsOK (hu : UpdateOK m.cells targets pairs k P) {g : DiGraph Node}
    (hg : IsPatch m.cells (targets.map (·.id)) k k g) : OpsOK m.cells (allOps P k g) := by
  refine ⟨?_, ?_, ?_⟩
  · intro o ho
    obtain ⟨e, he, p, hp, i, hi, ⟨c, hc, ids, hids, hx⟩, rfl⟩ := (hu.mem_allOps hg).1 ho
    obtain ⟨t, ht, rfl⟩ := List.mem_map.1 hi
    obtain ⟨c', hc', hd⟩ := (hu.dim t ht).2
    rw [stored_unique hc' hc] at hd
    exact ⟨e, _, _, c, ids, rfl, hc, by omega, hids, hx, (hu.newDim e he p hp).2⟩
  · unfold allOps
    rw [List.map_flatMap]
    refine List.nodup_flatMap.2 ⟨?_, ?_⟩
    · intro it _
      rw [List.map_map, List.map_map]
      refine List.Nodup.map_on ?_ (hg.nodup.filter _)
      rintro ⟨u, v⟩ hx ⟨u', v'⟩ hy hxy
      simp only [List.mem_filter, decide_eq_true_eq] at hx hy
      obtain ⟨e, _, i, j, rfl, rfl, _, _⟩ := (hg.edges _ _).1 hx.1
      obtain ⟨e', _, i', j', rfl, rfl, _, _⟩ := (hg.edges _ _).1 hy.1
      simp only [Function.comp, Prod.mk.injEq, true_and] at hxy
      rw [hx.2, hy.2, hxy]
    · have h := hu.items_nodup
      rw [List.Nodup, List.pairwise_map] at h
      refine h.imp ?_
      intro a b hab
      rw [Function.onFun, List.disjoint_left]
      intro x hx hx'
      simp only [List.mem_map] at hx hx'
      obtain ⟨_, ⟨_, _, rfl⟩, rfl⟩ := hx
      obtain ⟨_, ⟨_, _, rfl⟩, h'⟩ := hx'
      exact hab (congrArg Prod.fst h').symm
  · intro o ho o' ho'
    obtain ⟨e, he, p, hp, i, hi, hs, rfl⟩ := (hu.mem_allOps hg).1 ho
    obtain ⟨e', he', p', hp', i', hi', hs', rfl⟩ := (hu.mem_allOps hg).1 ho'
    intro h
    simp only [Prod.mk.injEq] at h
    obtain ⟨rfl, h⟩ := h
    exact hu.fresh e he p hp p' hp' h

theorem UpdateOK.rep_eq (hu : UpdateOK m.cells targets pairs k P) {g : DiGraph Node}
    (hg : IsPatch m.cells (targets.map (·.id)) k k g) {i e x : Nat}
    (hi : i ∈ targets.map (·.id)) (he : e < k) (hx : SubEntity m.cells i e x) :
    rep (opsAt (allOps P k g) i) e x = newId (P e) x := by
  by_cases h : ∃ p ∈ P e, p.1.id = x
  · obtain ⟨p, hp, rfl⟩ := h
    rw [newId_of_mem (hu.oldNodup e he) hp]
    have h1 : ((e, p.1.id), p.2.id) ∈ opsAt (allOps P k g) i :=
      mem_opsAt.2 ⟨_, (hu.mem_allOps hg).2 ⟨e, he, p, hp, i, hi, hx, rfl⟩, rfl, rfl⟩
    have h2 : (Dict.keys (opsAt (allOps P k g) i)).Nodup := by
      unfold Dict.keys opsAt
      rw [List.map_map]
      refine List.Nodup.map_on ?_ (List.Nodup.filter _ (List.Nodup.of_map _ (hu.opsOK hg).once))
      intro a ha b hb hab
      simp only [List.mem_filter, decide_eq_true_eq] at ha hb
      exact List.inj_on_of_nodup_map (hu.opsOK hg).once ha.1 hb.1
        (by simp only [Function.comp] at hab; rw [hab, ha.2, hb.2])
    unfold rep
    rw [Dict.get?_of_mem h2 h1]; rfl
  · have h' : ∀ p ∈ P e, p.1.id ≠ x := fun p hp hpx => h ⟨p, hp, hpx⟩
    rw [newId_of_not_mem h']
    unfold rep
    rw [Dict.get?_eq_none.2]
    · rfl
    · intro hk
      obtain ⟨q, hq, hqe⟩ := List.mem_map.1 hk
      obtain ⟨o, ho, -, rfl⟩ := mem_opsAt.1 hq
      obtain ⟨e', he', p, hp, i', hi', hs, rfl⟩ := (hu.mem_allOps hg).1 ho
      simp only [Prod.mk.injEq] at hqe
      obtain ⟨rfl, hqe⟩ := hqe
      exact h' p hp hqe

theorem updateCells_loop (hw : WellFormed m.cells)
    (hu : UpdateOK m.cells targets pairs k P) :
    ∃ g, updateCells m targets pairs = (itemsOf P k).foldlM (updatePair g) m.cells ∧
      IsPatch m.cells (targets.map (·.id)) k k g := by
  have hids : ∀ i ∈ targets.map (·.id), HasDim m.cells k i := by
    intro i hi
    obtain ⟨c, hc, rfl⟩ := List.mem_map.1 hi
    exact (hu.dim c hc).2
  obtain ⟨g, h1, hg⟩ := gather_loop hw hids hu.entry k le_rfl
  have hdims : ∀ x ∈ targets.map (·.dimension), x = k := by
    intro x hx
    obtain ⟨c, hc, rfl⟩ := List.mem_map.1 hx
    exact (hu.dim c hc).1
  have hne : targets.map (·.dimension) ≠ [] := by simpa using hu.nonempty
  refine ⟨g, ?_, hg⟩
  unfold updateCells
  simp only [npMax_const hne hdims, npMin_const hne hdims, Res.bind_ok, ne_eq, not_true,
    if_false, h1, hu.dicts]

/-- The predecessors of a node of the patch graph. -/
theorem IsPatch.preds {cells : Cells} {ids : List Nat} {n : Nat} {g : DiGraph Node}
    (hg : IsPatch cells ids k n g) {v : Node} (hv : v ∈ g.nodes) : g.predecessors v =
      .ok ((((g.edges.filter fun e => e.2 = v).map fun e => e.1.2)).map fun i => (k, i)) := by
  unfold DiGraph.predecessors
  rw [if_pos hv, List.map_map]
  congr 1
  apply List.map_congr_left
  rintro ⟨u, v⟩ hx
  obtain ⟨_, _, i, j, rfl, _⟩ := (hg.edges u v).1 (List.mem_filter.1 hx).1
  rfl

theorem UpdateOK.node (hu : UpdateOK m.cells targets pairs k P) {g : DiGraph Node}
    (hg : IsPatch m.cells (targets.map (·.id)) k k g) {e : Nat} (he : e < k) {x : Nat} :
    (e, x) ∈ g.nodes ↔ ∃ c ∈ targets, SubEntity m.cells c.id e x := by
  rw [hg.nodes]
  constructor
  · rintro ⟨u, v, h, h' | h'⟩
    · obtain ⟨_, _, i, j, rfl, rfl, _⟩ := (hg.edges u v).1 h
      simp only [Prod.mk.injEq] at h'
      omega
    · obtain ⟨_, _, i, j, rfl, rfl, hi, hs⟩ := (hg.edges u v).1 h
      simp only [Prod.mk.injEq] at h'
      obtain ⟨rfl, rfl⟩ := h'
      obtain ⟨c, hc, rfl⟩ := List.mem_map.1 hi
      exact ⟨c, hc, hs⟩
  · rintro ⟨c, hc, hs⟩
    exact ⟨(k, c.id), (e, x), (hg.edges _ _).2
      ⟨e, he, c.id, x, rfl, rfl, List.mem_map_of_mem hc, hs⟩, Or.inr rfl⟩

theorem items_error (hw : WellFormed m.cells) (hs : SubNodup m.cells) (hn : NodesOK m.cells)
    {ids : List Nat} {n : Nat} {g : DiGraph Node} (hg : IsPatch m.cells ids k n g) :
    ∀ (items : List (Node × Node)) (done : List Op),
    OpsOK m.cells (done ++ items.flatMap fun it =>
      (((g.edges.filter fun e => e.2 = it.1).map fun e => e.1.2)).map fun i => (it, i)) →
    ∀ {cur : Cells}, Inv m.cells done cur → (∃ it ∈ items, it.1 ∉ g.nodes) →
    items.foldlM (updatePair g) cur = .error .networkXError
  | [], _, _, _, _, h => by simp at h
  | it :: items, done, hops, cur, hinv, h => by
    rw [List.foldlM_cons]
    by_cases hit : it.1 ∈ g.nodes
    · rw [List.flatMap_cons, ← List.append_assoc] at hops
      obtain ⟨cur', h1, h2⟩ := inv_loop hw hs hn k _ done
        (hops.sublist (List.sublist_append_left _ _)) hinv
      have h3 := pairs_loop (patch := g) (k := k)
        (fun it => (g.edges.filter fun e => e.2 = it.1).map fun e => e.1.2) [it]
        (by simpa using hg.preds hit) cur
      rw [List.flatMap_cons, List.flatMap_nil, List.append_nil, h1] at h3
      simp only [List.foldlM_cons, List.foldlM_nil] at h3
      have h4 : updatePair g cur it = .ok cur' := by
        cases hc : updatePair g cur it with
        | ok a => rw [hc] at h3; simpa using h3
        | error e => rw [hc] at h3; simp at h3
      rw [h4]
      refine items_error hw hs hn hg items _ hops h2 ?_
      obtain ⟨it', h5, h6⟩ := h
      rcases List.mem_cons.1 h5 with rfl | h5
      · exact absurd hit h6
      · exact ⟨it', h5, h6⟩
    · unfold updatePair DiGraph.predecessors
      rw [if_neg hit]; rfl

theorem updateCells_absent (hw : WellFormed m.cells) (hs : SubNodup m.cells)
    (hn : NodesOK m.cells) (hu : UpdateOK m.cells targets pairs k P)
    (hf : ¬ Found m.cells targets k P) :
    updateCells m targets pairs = .error .networkXError := by
  obtain ⟨g, hgo, hg⟩ := updateCells_loop hw hu
  rw [hgo]
  refine items_error hw hs hn hg _ [] (hu.opsOK hg)
    ⟨rfl, fun i c hc => ⟨c, hc, CellRel.refl hn hc⟩⟩ ?_
  unfold Found at hf
  push Not at hf
  obtain ⟨e, he, p, hp, h⟩ := hf
  refine ⟨_, hu.mem_items.2 ⟨e, he, p, hp, rfl⟩, fun h' => ?_⟩
  obtain ⟨c, hc, hsub⟩ := (hu.node hg he).1 h'
  exact h c hc hsub

theorem updateCells_ok (hw : WellFormed m.cells) (hs : SubNodup m.cells) (hn : NodesOK m.cells)
    (hu : UpdateOK m.cells targets pairs k P) (hf : Found m.cells targets k P) :
    ∃ cells', updateCells m targets pairs = .ok cells' ∧ cells'.length = m.cells.length ∧
      ∀ i c, Stored m.cells i c → ∃ c', Stored cells' i c' ∧
        (i ∉ targets.map (·.id) → c' = c) ∧
        (i ∈ targets.map (·.id) → Updated P c c' ∧
          ∀ vs, c'.sub[0]? = some vs → List.Forall₂ (VTag m.cells) vs c'.nodeTags) := by
  have hids : ∀ i ∈ targets.map (·.id), HasDim m.cells k i := by
    intro i hi
    obtain ⟨c, hc, rfl⟩ := List.mem_map.1 hi
    exact (hu.dim c hc).2
  obtain ⟨g, hgo, hg⟩ := updateCells_loop hw hu
  have hpred : ∀ it ∈ itemsOf P k, g.predecessors it.1 =
      .ok ((((g.edges.filter fun e => e.2 = it.1).map fun e => e.1.2)).map fun i => (k, i)) := by
    intro it hit
    obtain ⟨e, he, p, hp, rfl⟩ := hu.mem_items.1 hit
    exact hg.preds ((hu.node hg he).2 (hf e he p hp))
  have hinv : Inv m.cells [] m.cells :=
    ⟨rfl, fun i c hc => ⟨c, hc, CellRel.refl hn hc⟩⟩
  obtain ⟨cur, h2, h3⟩ := inv_loop hw hs hn k (allOps P k g) [] (hu.opsOK hg) hinv
  refine ⟨cur, ?_, h3.1, ?_⟩
  · rw [hgo, pairs_loop _ _ hpred]; exact h2
  · intro i c hc
    obtain ⟨c', h4, h5⟩ := h3.2 i c hc
    simp only [List.nil_append] at h5
    refine ⟨c', h4, ?_, ?_⟩
    · intro hi
      apply h5.untouched
      rw [List.eq_nil_iff_forall_not_mem]
      intro p hp
      obtain ⟨o, ho, rfl, -⟩ := mem_opsAt.1 hp
      obtain ⟨e', he', p, hp, i', hi', hs, rfl⟩ := (hu.mem_allOps hg).1 ho
      exact hi hi'
    · intro hi
      obtain ⟨d, hd, hdk⟩ := hids i hi
      obtain rfl := stored_unique hc hd
      refine ⟨⟨h5.dimension, h5.id, h5.material, ?_, ?_, h5.len⟩, ?_⟩
      · have hself := hw.self i c hc
        rw [h5.sub _ _ hself, hself]
        congr 1
        simp only [List.map_cons, List.map_nil, List.cons.injEq, and_true]
        unfold rep
        rw [Dict.get?_eq_none.2]
        · rfl
        · intro hk
          obtain ⟨q, hq, hqe⟩ := List.mem_map.1 hk
          obtain ⟨o, ho, -, rfl⟩ := mem_opsAt.1 hq
          obtain ⟨e', he', p, hp, i', hi', hs, rfl⟩ := (hu.mem_allOps hg).1 ho
          simp only [Prod.mk.injEq] at hqe
          omega
      · intro e he
        have hlt : e < c.sub.length := by rw [hw.subLen i c hc]; omega
        have hget : c.sub[e]? = some c.sub[e] := List.getElem?_eq_getElem hlt
        rw [h5.sub e _ hget, hget]
        simp only [Option.map_some, Option.some.injEq]
        apply List.map_congr_left
        intro x hx
        exact hu.rep_eq hg hi (by omega) ⟨c, hc, _, hget, hx⟩
      · intro vs hvs
        have hlt : 0 < c.sub.length := by rw [hw.subLen i c hc]; omega
        have hget : c.sub[0]? = some c.sub[0] := List.getElem?_eq_getElem hlt
        have h6 := h5.nodes _ hget
        rw [h5.sub 0 _ hget] at hvs
        obtain rfl : c.sub[0].map (rep (opsAt (allOps P k g) i) 0) = vs := by simpa using hvs
        exact h6

theorem UpdateOK.newId_inj (hu : UpdateOK m.cells targets pairs k P) {t : Cell}
    (ht : t ∈ targets) {e : Nat} (he : e < k) {x y : Nat} (hx : SubEntity m.cells t.id e x)
    (hy : SubEntity m.cells t.id e y) (h : newId (P e) x = newId (P e) y) : x = y := by
  by_cases h1 : ∃ p ∈ P e, p.1.id = x
  · obtain ⟨p, hp, rfl⟩ := h1
    rw [newId_of_mem (hu.oldNodup e he) hp] at h
    by_cases h2 : ∃ q ∈ P e, q.1.id = y
    · obtain ⟨q, hq, rfl⟩ := h2
      rw [newId_of_mem (hu.oldNodup e he) hq] at h
      rw [List.inj_on_of_nodup_map (hu.newNodup e he) hp hq h]
    · push Not at h2
      rw [newId_of_not_mem h2] at h
      exact absurd (h ▸ hy) (hu.unused e he p hp t ht)
  · push Not at h1
    rw [newId_of_not_mem h1] at h
    by_cases h2 : ∃ q ∈ P e, q.1.id = y
    · obtain ⟨q, hq, rfl⟩ := h2
      rw [newId_of_mem (hu.oldNodup e he) hq] at h
      exact absurd (h ▸ hx) (hu.unused e he q hq t ht)
    · push Not at h2
      rw [newId_of_not_mem h2] at h
      exact h

theorem updateCells_keeps (hw : WellFormed m.cells) (hs : SubNodup m.cells)
    (hn : NodesOK m.cells) (hu : UpdateOK m.cells targets pairs k P) (hk : 0 < k)
    {cells' : Cells} (hlen : cells'.length = m.cells.length)
    (h : ∀ i c, Stored m.cells i c → ∃ c', Stored cells' i c' ∧
        (i ∉ targets.map (·.id) → c' = c) ∧
        (i ∈ targets.map (·.id) → Updated P c c' ∧
          ∀ vs, c'.sub[0]? = some vs → List.Forall₂ (VTag m.cells) vs c'.nodeTags)) :
    WellFormed cells' ∧ SubNodup cells' ∧ NodesOK cells' ∧
      (∀ v t, VTag cells' v t ↔ VTag m.cells v t) := by
  -- every cell of the result, with the cell it comes from
  have hback : ∀ i c', Stored cells' i c' → ∃ c, Stored m.cells i c ∧
      (i ∉ targets.map (·.id) → c' = c) ∧
        (i ∈ targets.map (·.id) → Updated P c c' ∧
          ∀ vs, c'.sub[0]? = some vs → List.Forall₂ (VTag m.cells) vs c'.nodeTags) := by
    intro i c' hc'
    have hi := (List.getElem?_eq_some_iff.1 hc').1
    obtain ⟨c, hc⟩ := hw.filled i (by omega)
    obtain ⟨c1, h1, h2⟩ := h i c hc
    rw [stored_unique hc' h1]
    exact ⟨c, hc, h2⟩
  have htd : ∀ i c, Stored m.cells i c → i ∈ targets.map (·.id) → c.dimension = k := by
    intro i c hc hi
    obtain ⟨t, ht, rfl⟩ := List.mem_map.1 hi
    obtain ⟨d, hd, hdk⟩ := (hu.dim t ht).2
    rw [stored_unique hc hd]; exact hdk
  have hsame : ∀ i c c', Stored m.cells i c → Stored cells' i c' →
      c'.dimension = c.dimension ∧ c'.id = c.id ∧ c'.sub.length = c.sub.length := by
    intro i c c' hc hc'
    obtain ⟨c1, h1, h2, h3⟩ := hback i c' hc'
    obtain rfl := stored_unique hc h1
    by_cases hi : i ∈ targets.map (·.id)
    · exact ⟨(h3 hi).1.dimension, (h3 hi).1.id, (h3 hi).1.len⟩
    · rw [h2 hi]; exact ⟨rfl, rfl, rfl⟩
  have hdim : ∀ e i, HasDim m.cells e i → HasDim cells' e i := by
    rintro e i ⟨c, hc, rfl⟩
    obtain ⟨c', hc', -⟩ := h i c hc
    exact ⟨c', hc', (hsame i c c' hc hc').1⟩
  -- sub-cells of the result
  have hsub : ∀ i c', Stored cells' i c' → ∀ (e : Nat) ids, c'.sub[e]? = some ids →
      ids ≠ [] ∧ ids.Nodup ∧ ∀ x ∈ ids, HasDim m.cells e x := by
    intro i c' hc' e ids hids
    obtain ⟨c, hc, h2, h3⟩ := hback i c' hc'
    by_cases hi : i ∈ targets.map (·.id)
    · obtain ⟨hup, -⟩ := h3 hi
      have hdk := htd i c hc hi
      obtain ⟨t, ht, rfl⟩ := List.mem_map.1 hi
      have hlt : e < c.sub.length := by
        rw [← hup.len]; exact (List.getElem?_eq_some_iff.1 hids).1
      obtain ⟨l, hget⟩ : ∃ l, c.sub[e]? = some l := ⟨_, List.getElem?_eq_getElem hlt⟩
      rw [hw.subLen _ c hc] at hlt
      by_cases he : e = c.dimension
      · subst he
        rw [hup.self] at hids
        exact ⟨hw.subNe _ c hc ids (List.mem_of_getElem? hids),
          hs _ c hc ids (List.mem_of_getElem? hids),
          fun x hx => hw.subOk _ c hc _ ids hids x hx⟩
      · have hek : e < k := by omega
        rw [hup.sub e (by omega), hget] at hids
        obtain rfl : l.map (newId (P e)) = ids := by simpa using hids
        refine ⟨by simpa using hw.subNe _ c hc l (List.mem_of_getElem? hget), ?_, ?_⟩
        · refine List.Nodup.map_on ?_ (hs _ c hc _ (List.mem_of_getElem? hget))
          intro x hx y hy hxy
          exact hu.newId_inj ht hek ⟨c, hc, _, hget, hx⟩ ⟨c, hc, _, hget, hy⟩ hxy
        · intro x hx
          obtain ⟨y, hy, rfl⟩ := List.mem_map.1 hx
          by_cases h1 : ∃ p ∈ P e, p.1.id = y
          · obtain ⟨p, hp, rfl⟩ := h1
            rw [newId_of_mem (hu.oldNodup e hek) hp]
            exact (hu.newDim e hek p hp).2
          · push Not at h1
            rw [newId_of_not_mem h1]
            exact hw.subOk _ c hc e _ hget y hy
    · rw [h2 hi] at hids
      exact ⟨hw.subNe _ c hc ids (List.mem_of_getElem? hids),
          hs _ c hc ids (List.mem_of_getElem? hids),
        fun x hx => hw.subOk _ c hc e ids hids x hx⟩
  have hvt : ∀ v t, VTag cells' v t ↔ VTag m.cells v t := by
    intro v t
    have hnot : ∀ c, Stored m.cells v c → c.dimension = 0 → v ∉ targets.map (·.id) := by
      intro c hc hd hv
      have := htd v c hc hv
      omega
    constructor
    · rintro ⟨c', hc', hd, ht⟩
      obtain ⟨c, hc, h2, -⟩ := hback v c' hc'
      have := (hsame v c c' hc hc').1
      rw [h2 (hnot c hc (by omega))] at hd ht
      exact ⟨c, hc, hd, ht⟩
    · rintro ⟨c, hc, hd, ht⟩
      obtain ⟨c', hc', h2, -⟩ := h v c hc
      rw [h2 (hnot c hc hd)] at hc'
      exact ⟨c, hc', hd, ht⟩
  have hvt' : VTag cells' = VTag m.cells := by
    funext v t; exact propext (hvt v t)
  refine ⟨⟨?_, ?_, ?_, ?_, ?_, ?_, ?_⟩, ?_, ⟨?_, ?_⟩, hvt⟩
  · intro i hi
    obtain ⟨c, hc⟩ := hw.filled i (by omega)
    obtain ⟨c', hc', -⟩ := h i c hc
    exact ⟨c', hc'⟩
  · intro i c' hc'
    obtain ⟨c, hc, -⟩ := hback i c' hc'
    rw [(hsame i c c' hc hc').2.1]; exact hw.ids i c hc
  · intro i c' hc'
    obtain ⟨c, hc, -⟩ := hback i c' hc'
    rw [(hsame i c c' hc hc').1]; exact hw.dims i c hc
  · intro i c' hc'
    obtain ⟨c, hc, -⟩ := hback i c' hc'
    rw [(hsame i c c' hc hc').1, (hsame i c c' hc hc').2.2]; exact hw.subLen i c hc
  · intro i c' hc' e ids hids x hx
    obtain ⟨s, h1, h2⟩ := hdim e x ((hsub i c' hc' e ids hids).2.2 x hx)
    exact ⟨s, h1, h2⟩
  · intro i c' hc' ids hids
    obtain ⟨e, he⟩ := List.mem_iff_getElem?.1 hids
    exact (hsub i c' hc' e ids he).1
  · intro i c' hc'
    obtain ⟨c, hc, h2, h3⟩ := hback i c' hc'
    rw [(hsame i c c' hc hc').1]
    by_cases hi : i ∈ targets.map (·.id)
    · rw [(h3 hi).1.self]; exact hw.self i c hc
    · rw [h2 hi]; exact hw.self i c hc
  · intro i c' hc' ids hids
    obtain ⟨e, he⟩ := List.mem_iff_getElem?.1 hids
    exact (hsub i c' hc' e ids he).2.1
  · intro i c' hc' vs hvs
    rw [hvt']
    obtain ⟨c, hc, h2, h3⟩ := hback i c' hc'
    by_cases hi : i ∈ targets.map (·.id)
    · exact (h3 hi).2 vs hvs
    · rw [h2 hi] at hvs ⊢
      exact hn.aligned i c hc vs hvs
  · intro v w t h1 h2
    exact hn.distinct v w t ((hvt v t).1 h1) ((hvt w t).1 h2)

end

end Verif.MeshOps
