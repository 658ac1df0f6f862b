/- Insertion phase of `build_conformal_mesh`: helper lemmas. -/
import Verif.Lemmas.MeshKeys

namespace Verif.MeshBuild

/-- The entry `id` listed for the face `x` is the number of `x`, and the slot is filled. -/
def Pointed (E : Ents) (cells : Cells) (x : List Nat) (id : Nat) : Prop :=
  E.get (x.length - 1) (npSort x) = some id ∧ ∃ s, cells[id]? = some (some s)

structure Good (E : Ents) (cells : Cells) (i : Nat) (c : Cell) : Prop where
  id : c.id = i
  num : E.get c.dimension (npSort c.nodeTags) = some i
  nodes : c.nodeTags.length = c.dimension + 1
  subLen : c.sub.length = c.dimension + 1
  subs : ∀ e ids, c.sub[e]? = some ids →
    List.Forall₂ (fun id x => Pointed E cells x id) ids (faces e c.nodeTags)

structure AllGood (E : Ents) (cells : Cells) : Prop where
  len : cells.length = E.count
  good : ∀ i c, cells[i]? = some (some c) → Good E cells i c

/-- Only untagged new cells, all of them faces of `nodes`, were added. -/
structure Grow (nodes : List Nat) (cells cells' : Cells) : Prop where
  len : cells'.length = cells.length
  old : ∀ (i : Nat) (c : Cell), cells[i]? = some (some c) → cells'[i]? = some (some c)
  new : ∀ (i : Nat) (c : Cell), cells'[i]? = some (some c) → cells[i]? = some (some c) ∨
    (c.material = none ∧ IsFaceOf c.nodeTags nodes)

theorem Grow.refl (nodes : List Nat) (cells : Cells) : Grow nodes cells cells :=
  ⟨rfl, fun _ _ h => h, fun _ _ h => .inl h⟩

theorem Grow.trans {nodes : List Nat} {a b c : Cells} (h1 : Grow nodes a b) (h2 : Grow nodes b c) :
    Grow nodes a c := by
  refine ⟨h2.len.trans h1.len, fun i x h => h2.old i x (h1.old i x h), fun i x h => ?_⟩
  rcases h2.new i x h with h | h
  · exact h1.new i x h
  · exact .inr h

theorem Grow.mono {n m : List Nat} {a b : Cells} (hnm : n.Subperm m) (h : Grow n a b) :
    Grow m a b := by
  refine ⟨h.len, h.old, fun i x hx => ?_⟩
  rcases h.new i x hx with h | ⟨h1, h2, h3⟩
  · exact .inl h
  · exact .inr ⟨h1, h2, h3.trans hnm⟩

theorem Pointed.mono {E : Ents} {a b : Cells} {x : List Nat} {id : Nat}
    (h : ∀ (i : Nat) (c : Cell), a[i]? = some (some c) → ∃ c', b[i]? = some (some c'))
    (hp : Pointed E a x id) : Pointed E b x id :=
  ⟨hp.1, by obtain ⟨s, hs⟩ := hp.2; exact h _ _ hs⟩

theorem Good.mono {E : Ents} {a b : Cells} {i : Nat} {c : Cell}
    (h : ∀ (i : Nat) (c : Cell), a[i]? = some (some c) → ∃ c', b[i]? = some (some c'))
    (hg : Good E a i c) : Good E b i c :=
  ⟨hg.id, hg.num, hg.nodes, hg.subLen, fun e ids he =>
    (hg.subs e ids he).imp fun _ _ hp => hp.mono h⟩

/-- All nonempty sub-multisets of `nodes` are numbered. -/
def HasKeys (E : Ents) (nodes : List Nat) : Prop :=
  ∀ x, IsFaceOf x nodes → ∃ i, E.get (x.length - 1) (npSort x) = some i

theorem HasKeys.mono {E : Ents} {n m : List Nat} (h : HasKeys E m) (hnm : n.Subperm m) :
    HasKeys E n := fun x hx => h x ⟨hx.1, hx.2.trans hnm⟩

theorem HasKeys.self {E : Ents} {n : List Nat} (h : HasKeys E n) (hn : n ≠ []) :
    ∃ i, E.get (n.length - 1) (npSort n) = some i := h n ⟨hn, List.Subperm.refl _⟩

/-- What every insertion without a tag guarantees. -/
def InsOK (E : Ents) (cells : Cells) (nodes : List Nat) (r : Res (Cells × Nat)) : Prop :=
  ∃ cells' id, r = .ok (cells', id) ∧ AllGood E cells' ∧ Grow nodes cells cells' ∧
    Pointed E cells' nodes id

theorem set_present {cells : Cells} {j : Nat} {c : Cell} (i : Nat) (d : Cell)
    (h : cells[i]? = some (some d)) : ∃ d', (cells.set j (some c))[i]? = some (some d') := by
  by_cases hij : j = i
  · subst hij
    have := (List.getElem?_eq_some_iff.1 h).1
    exact ⟨c, by simp [this]⟩
  · exact ⟨d, by simp [List.getElem?_set, hij, h]⟩

theorem set_self_present {cells : Cells} {j : Nat} {c : Cell} (h : j < cells.length) :
    ∃ d', (cells.set j (some c))[j]? = some (some d') := ⟨c, by simp [h]⟩

/-- Storing a freshly made cell. -/
theorem store {f : MeshFile} {E : Ents} (_hE : EntsOK f E) {nodes : List Nat} {cells₀ cells : Cells}
    {id d : Nat} {subs : List (List Nat)}
    (hG : AllGood E cells) (hgrow : Grow nodes cells₀ cells) (hslot : cells₀[id]? = some none)
    (hid : E.get d (npSort nodes) = some id) (hlen : nodes.length = d + 1)
    (hsl : subs.length = d + 1)
    (hsubs : ∀ e ids, subs[e]? = some ids →
      List.Forall₂ (fun i x => Pointed E (cells.set id (some ⟨d, id, none, nodes, subs⟩)) x i)
        ids (faces e nodes)) :
    AllGood E (cells.set id (some ⟨d, id, none, nodes, subs⟩)) ∧
      Grow nodes cells₀ (cells.set id (some ⟨d, id, none, nodes, subs⟩)) ∧
      Pointed E (cells.set id (some ⟨d, id, none, nodes, subs⟩)) nodes id := by
  have hlt : id < cells.length := by
    rw [hgrow.len]; exact (List.getElem?_eq_some_iff.1 hslot).1
  refine ⟨⟨by simp [hG.len], ?_⟩, ⟨by simp [hgrow.len], ?_, ?_⟩, ?_, ?_⟩
  · intro i c hc
    by_cases hi : id = i
    · subst hi
      simp [hlt] at hc
      subst hc
      exact ⟨rfl, hid, hlen, hsl, hsubs⟩
    · rw [List.getElem?_set_ne hi] at hc
      exact (hG.good i c hc).mono set_present
  · intro i c hc
    have hi : id ≠ i := by rintro rfl; rw [hslot] at hc; simp at hc
    rw [List.getElem?_set_ne hi]; exact hgrow.old i c hc
  · intro i c hc
    by_cases hi : id = i
    · subst hi
      simp [hlt] at hc
      subst hc
      refine .inr ⟨rfl, ?_, List.Subperm.refl _⟩
      intro h; change nodes = [] at h; subst h; simp at hlen
    · rw [List.getElem?_set_ne hi] at hc; exact hgrow.new i c hc
  · rw [hlen]; exact hid
  · exact set_self_present hlt

theorem insertVertex_ok {f : MeshFile} {E : Ents} (hE : EntsOK f E) {cells : Cells}
    (hG : AllGood E cells) {n : Nat} (hk : HasKeys E [n]) :
    InsOK E cells [n] (insertVertex E cells n none) := by
  obtain ⟨id, hid⟩ := hk.self (by simp)
  have hid0 : E.get 0 [n] = some id := by simpa using hid
  obtain ⟨hnid, hnlt⟩ := hE.get_zero.1 hid0
  have hnid : n = id := by simpa using hnid
  subst hnid
  have hlt : n < cells.length := by rw [hG.len]; exact hE.get_lt hid0
  have hget : E.e0.getItem n = .ok n := Dict.getItem_of_get? hid0
  have hslot : getIdx cells n = .ok cells[n] := getIdx_of (by simp [hlt])
  have hcell : cells[n]? = some cells[n] := by simp [hlt]
  unfold insertVertex
  rw [hget, Res.bind_ok, hslot, Res.bind_ok]
  cases hs : cells[n] with
  | some c =>
    exact ⟨cells, n, by simp [tagCell], hG, Grow.refl _ _, hid, c, by rw [hcell, hs]⟩
  | none =>
    refine ⟨cells.set n (some ⟨0, n, none, [n], [[n]]⟩), n, ?_, ?_⟩
    · simp [createCell, Cell.setSub, tagCell]
    · refine store hE hG (Grow.refl _ _) (by rw [hcell, hs]) hid0 rfl rfl ?_
      intro e ids he
      match e with
      | 0 =>
        simp at he; subst he
        simp only [faces]
        refine .cons ⟨hid, ?_⟩ .nil
        exact set_self_present hlt
      | e + 1 => simp at he

theorem insertLoop_ok {E : Ents} {ρ : Type} {ins : Cells → ρ → Res (Cells × Nat)}
    {key : ρ → List Nat} {nodes : List Nat} :
    ∀ (rows : List ρ)
      (_ : ∀ r ∈ rows, (key r).Subperm nodes ∧
        ∀ cells, AllGood E cells → InsOK E cells (key r) (ins cells r))
      (cells : Cells), AllGood E cells →
      ∃ cells' ids, insertLoop ins cells rows = .ok (cells', ids) ∧ AllGood E cells' ∧
        Grow nodes cells cells' ∧
        List.Forall₂ (fun id x => Pointed E cells' x id) ids (rows.map key)
  | [], _, cells, hG => ⟨cells, [], rfl, hG, Grow.refl _ _, .nil⟩
  | r :: rs, hr, cells, hG => by
    obtain ⟨hsub, hins⟩ := hr r (by simp)
    obtain ⟨c1, id, h1, hG1, hgr1, hp1⟩ := hins cells hG
    obtain ⟨c2, ids, h2, hG2, hgr2, hp2⟩ :=
      insertLoop_ok rs (fun r' h' => hr r' (List.mem_cons_of_mem _ h')) c1 hG1
    refine ⟨c2, id :: ids, ?_, hG2, (hgr1.mono hsub).trans hgr2, ?_⟩
    · simp only [insertLoop, h1, Res.bind_ok, h2]; rfl
    · exact .cons (hp1.mono fun i c h => ⟨c, hgr2.old i c h⟩) hp2

theorem lookupVertices_ok {f : MeshFile} {E : Ents} (hE : EntsOK f E) :
    ∀ (nodes : List Nat), HasKeys E nodes → lookupVertices E nodes = .ok nodes
  | [], _ => rfl
  | n :: ns, hk => by
    have h1 : HasKeys E [n] := hk.mono (List.singleton_subperm_iff.2 (by simp))
    obtain ⟨id, hid⟩ := h1.self (by simp)
    have hid0 : E.get 0 [n] = some id := by simpa using hid
    obtain ⟨hnid, hnlt⟩ := hE.get_zero.1 hid0
    have hnid : n = id := by simpa using hnid
    subst hnid
    have hget : E.e0.getItem n = .ok n := Dict.getItem_of_get? hid0
    have ih := lookupVertices_ok hE ns (hk.mono (List.subperm_cons_self))
    simp [lookupVertices, hget, ih]

/-- Vertices listed by number, once they are present. -/
theorem vertices_pointed {f : MeshFile} {E : Ents} (hE : EntsOK f E) {cells : Cells}
    {nodes : List Nat} (hk : HasKeys E nodes)
    (hp : ∀ n ∈ nodes, ∃ c, cells[n]? = some (some c)) :
    List.Forall₂ (fun id x => Pointed E cells x id) nodes (faces 0 nodes) := by
  simp only [faces, if_true]
  induction nodes with
  | nil => exact .nil
  | cons n ns ih =>
    refine .cons ⟨?_, hp n (by simp)⟩ (ih (hk.mono List.subperm_cons_self)
      (fun m hm => hp m (List.mem_cons_of_mem _ hm)))
    have h1 : HasKeys E [n] := hk.mono (List.singleton_subperm_iff.2 (by simp))
    obtain ⟨id, hid⟩ := h1.self (by simp)
    have hid0 : E.get 0 [n] = some id := by simpa using hid
    obtain ⟨hnid, hnlt⟩ := hE.get_zero.1 hid0
    have hnid : n = id := by simpa using hnid
    subst hnid
    simpa using hid0

theorem Pointed.congr {E : Ents} {cells : Cells} {x y : List Nat} {id : Nat} (h : x.Perm y)
    (hp : Pointed E cells x id) : Pointed E cells y id := by
  refine ⟨?_, hp.2⟩
  rw [← h.length_eq, ← npSort_eq_iff.2 h]; exact hp.1

theorem forall₂_pointed_set {E : Ents} {cells : Cells} {j : Nat} {c : Cell} {ids : List Nat}
    {xs : List (List Nat)}
    (h : List.Forall₂ (fun id x => Pointed E cells x id) ids xs) :
    List.Forall₂ (fun id x => Pointed E (cells.set j (some c)) x id) ids xs :=
  h.imp fun _ _ hp => hp.mono set_present

theorem insertEdge_ok {f : MeshFile} {E : Ents} (hE : EntsOK f E) {cells : Cells}
    (hG : AllGood E cells) {nodes : List Nat} (hn : nodes.length = 2) (hk : HasKeys E nodes) :
    InsOK E cells nodes (insertEdge E cells nodes none) := by
  obtain ⟨id, hid⟩ := hk.self (by rintro rfl; simp at hn)
  have hid1 : E.get 1 (npSort nodes) = some id := by simpa [hn] using hid
  have hlt : id < cells.length := by rw [hG.len]; exact hE.get_lt hid1
  have hget : E.e1.getItem (npSort nodes) = .ok id := Dict.getItem_of_get? hid1
  have hslot : getIdx cells id = .ok cells[id] := getIdx_of (by simp [hlt])
  have hcell : cells[id]? = some cells[id] := by simp [hlt]
  unfold insertEdge
  rw [hget, Res.bind_ok, hslot, Res.bind_ok]
  cases hs : cells[id] with
  | some c =>
    exact ⟨cells, id, by simp [tagCell], hG, Grow.refl _ _, hid, c, by rw [hcell, hs]⟩
  | none =>
    obtain ⟨c1, ids, h1, hG1, hgr1, hp1⟩ := insertLoop_ok (E := E)
      (ins := fun cs n => insertVertex E cs n none) (key := fun n => [n]) (nodes := nodes) nodes
      (fun r hr => ⟨List.singleton_subperm_iff.2 hr, fun cs hcs =>
        insertVertex_ok hE hcs (hk.mono (List.singleton_subperm_iff.2 hr))⟩) cells hG
    refine ⟨c1.set id (some ⟨1, id, none, nodes, [ids, [id]]⟩), id, ?_, ?_⟩
    · simp [h1, createCell, Cell.setSub, tagCell]
    · refine store hE hG1 hgr1 (by rw [hcell, hs]) hid1 hn rfl ?_
      intro e sub he
      match e with
      | 0 =>
        simp at he; subst he
        simp only [faces, if_true]
        exact forall₂_pointed_set hp1
      | 1 =>
        simp at he; subst he
        have : faces 1 nodes = [nodes] := by
          simp [faces, ← hn]
        rw [this]
        refine .cons ⟨hid, ?_⟩ .nil
        exact set_self_present (by rw [hgr1.len]; exact hlt)
      | e + 2 => simp at he

theorem AllGood.vertex_present {f : MeshFile} {E : Ents} (hE : EntsOK f E) {cells : Cells}
    (hG : AllGood E cells) {id : Nat} {c : Cell} (hc : cells[id]? = some (some c)) {n : Nat}
    (hn : n ∈ c.nodeTags) : ∃ v, cells[n]? = some (some v) := by
  have hg := hG.good _ _ hc
  have hl : 0 < c.sub.length := by rw [hg.subLen]; omega
  have h := hg.subs 0 c.sub[0] (by simp [hl])
  simp only [faces, if_true] at h
  have : [n] ∈ c.nodeTags.map fun a => [a] := List.mem_map.2 ⟨n, hn, rfl⟩
  obtain ⟨j, hj, hjv⟩ := List.mem_iff_getElem.1 this
  have h2 := List.Forall₂.get h (i := j) (by rw [h.length_eq]; exact hj) hj
  simp only [List.get_eq_getElem, hjv] at h2
  obtain ⟨hnum, v, hv⟩ := h2
  have := (hE.get_zero.1 (by simpa using hnum : E.get 0 [n] = some _)).1
  have : n = c.sub[0][j]'(by rw [h.length_eq]; exact hj) := by simpa using this
  exact ⟨v, by rw [this]; exact hv⟩

/-- An edge that is present has its end points present. -/
theorem Pointed.vertices {f : MeshFile} {E : Ents} (hE : EntsOK f E) {cells : Cells}
    (hG : AllGood E cells) {id : Nat} {x : List Nat} (hp : Pointed E cells x id) {n : Nat}
    (hn : n ∈ x) : ∃ v, cells[n]? = some (some v) := by
  obtain ⟨h1, s, hs⟩ := hp
  have hg := hG.good _ _ hs
  have := (hE.get_inj h1 hg.num).2
  refine hG.vertex_present hE hs (n := n) ?_
  have hperm := npSort_eq_iff.1 this
  exact hperm.mem_iff.1 hn

theorem sub2_0 (a b c : Nat) : [b, c].Subperm [a, b, c] :=
  (by simp : [b, c].Sublist [a, b, c]).subperm
theorem sub2_1 (a b c : Nat) : [a, c].Subperm [a, b, c] :=
  (by simp : [a, c].Sublist [a, b, c]).subperm
theorem sub2_2 (a b c : Nat) : [a, b].Subperm [a, b, c] :=
  (by simp : [a, b].Sublist [a, b, c]).subperm

theorem insertPolygon_ok {f : MeshFile} {E : Ents} (hE : EntsOK f E) {cells : Cells}
    (hG : AllGood E cells) (t : Nat × Nat × Nat) (hk : HasKeys E [t.1, t.2.1, t.2.2]) :
    InsOK E cells [t.1, t.2.1, t.2.2] (insertPolygon E cells t none) := by
  obtain ⟨n0, n1, n2⟩ := t
  simp only at hk ⊢
  obtain ⟨id, hid⟩ := hk.self (by simp)
  have hid2 : E.get 2 (npSort [n0, n1, n2]) = some id := by simpa using hid
  have hlt : id < cells.length := by rw [hG.len]; exact hE.get_lt hid2
  have hget : E.e2.getItem (npSort [n0, n1, n2]) = .ok id := Dict.getItem_of_get? hid2
  have hslot : getIdx cells id = .ok cells[id] := getIdx_of (by simp [hlt])
  have hcell : cells[id]? = some cells[id] := by simp [hlt]
  unfold insertPolygon
  simp only
  rw [hget, Res.bind_ok, hslot, Res.bind_ok]
  cases hs : cells[id] with
  | some c =>
    exact ⟨cells, id, by simp [tagCell], hG, Grow.refl _ _, hid, c, by rw [hcell, hs]⟩
  | none =>
    have hsubs : ∀ r ∈ [npSort [n1, n2], npSort [n0, n2], npSort [n0, n1]],
        r.length = 2 ∧ r.Subperm [n0, n1, n2] := by
      intro r hr
      simp only [List.mem_cons, List.not_mem_nil, or_false] at hr
      rcases hr with rfl | rfl | rfl
      · exact ⟨by simp, (npSort_perm _).subperm.trans (sub2_0 _ _ _)⟩
      · exact ⟨by simp, (npSort_perm _).subperm.trans (sub2_1 _ _ _)⟩
      · exact ⟨by simp, (npSort_perm _).subperm.trans (sub2_2 _ _ _)⟩
    obtain ⟨c1, ids, h1, hG1, hgr1, hp1⟩ := insertLoop_ok (E := E)
      (ins := fun cs e => insertEdge E cs e none) (key := fun n => n) (nodes := [n0, n1, n2])
      [npSort [n1, n2], npSort [n0, n2], npSort [n0, n1]]
      (fun r hr => ⟨(hsubs r hr).2, fun cs hcs =>
        insertEdge_ok hE hcs (hsubs r hr).1 (hk.mono (hsubs r hr).2)⟩) cells hG
    have hv := lookupVertices_ok hE _ hk
    simp only [List.map_cons, List.map_nil] at hp1
    refine ⟨c1.set id (some ⟨2, id, none, [n0, n1, n2], [[n0, n1, n2], ids, [id]]⟩), id, ?_, ?_⟩
    · simp [hv, h1, createCell, Cell.setSub, tagCell]
    · refine store hE hG1 hgr1 (by rw [hcell, hs]) hid2 rfl rfl ?_
      cases hp1 with
      | cons p0 hp1 =>
      cases hp1 with
      | cons p1 hp1 =>
      cases hp1 with
      | cons p2 hp1 =>
      cases hp1
      have q0 := p0.congr (npSort_perm _)
      have q1 := p1.congr (npSort_perm _)
      have q2 := p2.congr (npSort_perm _)
      intro e sub he
      match e with
      | 0 =>
        simp at he; subst he
        refine forall₂_pointed_set (vertices_pointed hE hk ?_)
        intro n hn
        simp only [List.mem_cons, List.not_mem_nil, or_false] at hn
        rcases hn with rfl | rfl | rfl
        · exact q1.vertices hE hG1 (by simp)
        · exact q0.vertices hE hG1 (by simp)
        · exact q0.vertices hE hG1 (by simp)
      | 1 =>
        simp at he; subst he
        exact forall₂_pointed_set (.cons q0 (.cons q1 (.cons q2 .nil)))
      | 2 =>
        simp at he; subst he
        refine .cons ⟨hid, ?_⟩ .nil
        exact set_self_present (by rw [hgr1.len]; exact hlt)
      | e + 3 => simp at he

theorem insertPolyhedron_ok {f : MeshFile} {E : Ents} (hE : EntsOK f E) {cells : Cells}
    (hG : AllGood E cells) (t : Nat × Nat × Nat × Nat)
    (hk : HasKeys E [t.1, t.2.1, t.2.2.1, t.2.2.2]) :
    InsOK E cells [t.1, t.2.1, t.2.2.1, t.2.2.2] (insertPolyhedron E cells t none) := by
  obtain ⟨n0, n1, n2, n3⟩ := t
  simp only at hk ⊢
  obtain ⟨id, hid⟩ := hk.self (by simp)
  have hid2 : E.get 3 (npSort [n0, n1, n2, n3]) = some id := by simpa using hid
  have hlt : id < cells.length := by rw [hG.len]; exact hE.get_lt hid2
  have hget : E.e3.getItem (npSort [n0, n1, n2, n3]) = .ok id := Dict.getItem_of_get? hid2
  have hslot : getIdx cells id = .ok cells[id] := getIdx_of (by simp [hlt])
  have hcell : cells[id]? = some cells[id] := by simp [hlt]
  unfold insertPolyhedron
  simp only
  rw [hget, Res.bind_ok, hslot, Res.bind_ok]
  cases hs : cells[id] with
  | some c =>
    exact ⟨cells, id, by simp [tagCell], hG, Grow.refl _ _, hid, c, by rw [hcell, hs]⟩
  | none =>
    have hsubs : ∀ r ∈ [[n2, n3], [n1, n3], [n1, n2], [n0, n3], [n0, n2], [n0, n1]],
        r.length = 2 ∧ r.Subperm [n0, n1, n2, n3] := by
      intro r hr
      have hr' : r ∈ List.sublistsLen 2 [n0, n1, n2, n3] := hr
      have := List.mem_sublistsLen.1 hr'
      exact ⟨this.2, this.1.subperm⟩
    obtain ⟨c1, ids, h1, hG1, hgr1, hp1⟩ := insertLoop_ok (E := E)
      (ins := fun cs e => insertEdge E cs e none) (key := fun n => n) (nodes := [n0, n1, n2, n3])
      [[n2, n3], [n1, n3], [n1, n2], [n0, n3], [n0, n2], [n0, n1]]
      (fun r hr => ⟨(hsubs r hr).2, fun cs hcs =>
        insertEdge_ok hE hcs (hsubs r hr).1 (hk.mono (hsubs r hr).2)⟩) cells hG
    have hsubs2 : ∀ r ∈ [(n1, n2, n3), (n0, n2, n3), (n0, n1, n3), (n0, n1, n2)],
        ([r.1, r.2.1, r.2.2]).Subperm [n0, n1, n2, n3] := by
      intro r hr
      have hr' : [r.1, r.2.1, r.2.2] ∈ List.sublistsLen 3 [n0, n1, n2, n3] := by
        have := List.mem_map_of_mem (f := fun r : Nat × Nat × Nat => [r.1, r.2.1, r.2.2]) hr
        exact this
      exact (List.mem_sublistsLen.1 hr').1.subperm
    obtain ⟨c2, ids2, h2, hG2, hgr2, hp2⟩ := insertLoop_ok (E := E)
      (ins := fun cs t => insertPolygon E cs t none)
      (key := fun t => [t.1, t.2.1, t.2.2]) (nodes := [n0, n1, n2, n3])
      [(n1, n2, n3), (n0, n2, n3), (n0, n1, n3), (n0, n1, n2)]
      (fun r hr => ⟨hsubs2 r hr, fun cs hcs =>
        insertPolygon_ok hE hcs r (hk.mono (hsubs2 r hr))⟩) c1 hG1
    have hv := lookupVertices_ok hE _ hk
    have hp1 := hp1.imp fun _ _ hp => hp.mono fun i c h => ⟨c, hgr2.old i c h⟩
    refine ⟨c2.set id (some ⟨3, id, none, [n0, n1, n2, n3],
      [[n0, n1, n2, n3], ids, ids2, [id]]⟩), id, ?_, ?_⟩
    · simp [hv, h1, h2, createCell, Cell.setSub, tagCell]
    · refine store hE hG2 (hgr1.trans hgr2) (by rw [hcell, hs]) hid2 rfl rfl ?_
      intro e sub he
      match e with
      | 0 =>
        simp at he; subst he
        refine forall₂_pointed_set (vertices_pointed hE hk ?_)
        intro n hn
        simp only [List.map_cons, List.map_nil] at hp2
        cases hp2 with
        | cons p0 hp2 =>
        cases hp2 with
        | cons p1 hp2 =>
        simp only [List.mem_cons, List.not_mem_nil, or_false] at hn
        rcases hn with rfl | rfl | rfl | rfl
        · exact p1.vertices hE hG2 (by simp)
        · exact p0.vertices hE hG2 (by simp)
        · exact p0.vertices hE hG2 (by simp)
        · exact p0.vertices hE hG2 (by simp)
      | 1 =>
        simp at he; subst he
        simp only [List.map_id'] at hp1
        exact forall₂_pointed_set hp1
      | 2 =>
        simp at he; subst he
        exact forall₂_pointed_set hp2
      | 3 =>
        simp at he; subst he
        refine .cons ⟨hid, ?_⟩ .nil
        exact set_self_present (by rw [hgr2.len, hgr1.len]; exact hlt)
      | e + 4 => simp at he

end Verif.MeshBuild
