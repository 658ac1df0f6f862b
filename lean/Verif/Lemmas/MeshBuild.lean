/- `build_conformal_mesh`: tagging, the block loop and the final invariant. -/
import Verif.Lemmas.MeshInsert
import Mathlib.Tactic.ByContra

namespace Verif.MeshBuild

theorem tagCell_set_congr (cells : Cells) (id : Nat) (c c' : Cell) (p : Int)
    (h : ({ c with material := some p } : Cell) = { c' with material := some p }) :
    tagCell (cells.set id (some c)) id (some p) = tagCell (cells.set id (some c')) id (some p) := by
  by_cases hlt : id < cells.length
  · simp [tagCell, hlt, h]
  · simp [tagCell, hlt]

/-- Insert without a tag, then tag. -/
def thenTag (r : Res (Cells × Nat)) (p : Int) : Res (Cells × Nat) := do
  let (cells, id) ← r
  let cells ← tagCell cells id (some p)
  pure (cells, id)

theorem insertVertex_tag (E : Ents) (cells : Cells) (n : Nat) (p : Int) :
    insertVertex E cells n (some p) = thenTag (insertVertex E cells n none) p := by
  unfold insertVertex thenTag
  cases E.e0.getItem n with
  | error e => simp
  | ok id =>
    simp only [Res.bind_ok]
    cases getIdx cells id with
    | error e => simp
    | ok slot =>
      cases slot with
      | some c => simp [tagCell]
      | none =>
        simp [createCell, Cell.setSub]
        rw [tagCell_set_congr cells id ⟨0, id, some p, [n], [[n]]⟩ ⟨0, id, none, [n], [[n]]⟩ p rfl]
        rfl

theorem insertEdge_tag (E : Ents) (cells : Cells) (nodes : List Nat) (p : Int) :
    insertEdge E cells nodes (some p) = thenTag (insertEdge E cells nodes none) p := by
  unfold insertEdge thenTag
  cases E.e1.getItem (npSort nodes) with
  | error e => simp
  | ok id =>
    simp only [Res.bind_ok]
    cases getIdx cells id with
    | error e => simp
    | ok slot =>
      cases slot with
      | some c => simp [tagCell]
      | none =>
        simp only [Res.bind_ok]
        cases insertLoop (fun cs n => insertVertex E cs n none) cells nodes with
        | error e => simp
        | ok r =>
          simp [createCell, Cell.setSub]
          rw [tagCell_set_congr r.1 id ⟨1, id, some p, nodes, [r.2, [id]]⟩
            ⟨1, id, none, nodes, [r.2, [id]]⟩ p rfl]
          rfl

theorem insertPolygon_tag (E : Ents) (cells : Cells) (t : Nat × Nat × Nat) (p : Int) :
    insertPolygon E cells t (some p) = thenTag (insertPolygon E cells t none) p := by
  obtain ⟨n0, n1, n2⟩ := t
  unfold insertPolygon thenTag
  simp only
  cases E.e2.getItem (npSort [n0, n1, n2]) with
  | error e => simp
  | ok id =>
    simp only [Res.bind_ok]
    cases getIdx cells id with
    | error e => simp
    | ok slot =>
      cases slot with
      | some c => simp [tagCell]
      | none =>
        simp only [Res.bind_ok]
        cases lookupVertices E [n0, n1, n2] with
        | error e => simp
        | ok vs =>
        simp only [Res.bind_ok]
        cases insertLoop (fun cs e => insertEdge E cs e none) cells
          [npSort [n1, n2], npSort [n0, n2], npSort [n0, n1]] with
        | error e => simp
        | ok r =>
          simp [createCell, Cell.setSub]
          rw [tagCell_set_congr r.1 id ⟨2, id, some p, [n0, n1, n2], [vs, r.2, [id]]⟩
            ⟨2, id, none, [n0, n1, n2], [vs, r.2, [id]]⟩ p rfl]
          rfl

theorem insertPolyhedron_tag (E : Ents) (cells : Cells) (t : Nat × Nat × Nat × Nat) (p : Int) :
    insertPolyhedron E cells t (some p) = thenTag (insertPolyhedron E cells t none) p := by
  obtain ⟨n0, n1, n2, n3⟩ := t
  unfold insertPolyhedron thenTag
  simp only
  cases E.e3.getItem (npSort [n0, n1, n2, n3]) with
  | error e => simp
  | ok id =>
    simp only [Res.bind_ok]
    cases getIdx cells id with
    | error e => simp
    | ok slot =>
      cases slot with
      | some c => simp [tagCell]
      | none =>
        simp only [Res.bind_ok]
        cases lookupVertices E [n0, n1, n2, n3] with
        | error e => simp
        | ok vs =>
        simp only [Res.bind_ok]
        cases insertLoop (fun cs e => insertEdge E cs e none) cells
          [[n2, n3], [n1, n3], [n1, n2], [n0, n3], [n0, n2], [n0, n1]] with
        | error e => simp
        | ok r =>
        simp only [Res.bind_ok]
        cases insertLoop (fun cs t => insertPolygon E cs t none) r.1
          [(n1, n2, n3), (n0, n2, n3), (n0, n1, n3), (n0, n1, n2)] with
        | error e => simp
        | ok r2 =>
          simp [createCell, Cell.setSub]
          rw [tagCell_set_congr r2.1 id ⟨3, id, some p, [n0, n1, n2, n3], [vs, r.2, r2.2, [id]]⟩
            ⟨3, id, none, [n0, n1, n2, n3], [vs, r.2, r2.2, [id]]⟩ p rfl]
          rfl

/-! ### The invariant of the block loop -/

/-- State after the tagged simplices `done` have been inserted. -/
structure Inv (E : Ents) (cells : Cells) (done : List (List Nat × Int)) : Prop where
  all : AllGood E cells
  mat : ∀ (i : Nat) (c : Cell), cells[i]? = some (some c) → c.material = lastTag done c.nodeTags
  origin : ∀ (i : Nat) (c : Cell), cells[i]? = some (some c) →
    ∃ p ∈ done, IsFaceOf c.nodeTags p.1
  present : ∀ p ∈ done, ∀ id, E.get (p.1.length - 1) (npSort p.1) = some id →
    ∃ c, cells[id]? = some (some c)

theorem lastTag_append (done : List (List Nat × Int)) (n : List Nat) (p : Int) (x : List Nat) :
    lastTag (done ++ [(n, p)]) x = if n.Perm x then some p else lastTag done x := by
  unfold lastTag
  simp only [List.reverse_append, List.reverse_cons, List.reverse_nil, List.nil_append,
    List.singleton_append, List.find?_cons, List.cons_append]
  by_cases h : n.Perm x
  · have : n.isPerm x = true := List.isPerm_iff.2 h
    simp [this, h]
  · have : n.isPerm x = false := by
      rw [Bool.eq_false_iff]; intro h'; exact h (List.isPerm_iff.1 h')
    simp [this, h]

theorem lastTag_isSome {done : List (List Nat × Int)} {x : List Nat} {t : Int}
    (h : lastTag done x = some t) : ∃ p ∈ done, p.1.Perm x := by
  unfold lastTag at h
  cases hf : done.reverse.find? (fun p => p.1.isPerm x) with
  | none => simp [hf] at h
  | some p =>
    have h1 := List.mem_of_find?_eq_some hf
    have h2 := List.find?_some hf
    exact ⟨p, List.mem_reverse.1 h1, List.isPerm_iff.1 h2⟩

theorem Good.retag {E : Ents} {cells : Cells} {i : Nat} {c : Cell} (m : Option Int)
    (h : Good E cells i c) : Good E cells i { c with material := m } :=
  ⟨h.id, h.num, h.nodes, h.subLen, h.subs⟩

/-- One tagged insertion. -/
theorem Inv.step {f : MeshFile} {E : Ents} (hE : EntsOK f E) {cells : Cells}
    {done : List (List Nat × Int)} (hI : Inv E cells done) {nodes : List Nat} {p : Int}
    {r : Res (Cells × Nat)} (hr : InsOK E cells nodes r) (hn : nodes ≠ []) :
    ∃ cells' id, thenTag r p = .ok (cells', id) ∧ Inv E cells' (done ++ [(nodes, p)]) := by
  obtain ⟨c1, id, rfl, hG, hgrow, hnum, s, hs⟩ := hr
  have hlt : id < c1.length := (List.getElem?_eq_some_iff.1 hs).1
  refine ⟨c1.set id (some { s with material := some p }), id, ?_, ?_⟩
  · simp [thenTag, tagCell, hs]
  have hget : ∀ (i : Nat) (c : Cell),
      (c1.set id (some { s with material := some p }))[i]? = some (some c) →
      (i = id ∧ c = { s with material := some p }) ∨ (i ≠ id ∧ c1[i]? = some (some c)) := by
    intro i c hc
    by_cases hi : id = i
    · subst hi; simp [hlt] at hc; exact .inl ⟨rfl, hc.symm⟩
    · rw [List.getElem?_set_ne hi] at hc; exact .inr ⟨fun h => hi h.symm, hc⟩
  have hgs := hG.good _ _ hs
  have hperm : nodes.Perm s.nodeTags := npSort_eq_iff.1 (hE.get_inj hnum hgs.num).2
  have hmat : ∀ (i : Nat) (c : Cell), c1[i]? = some (some c) →
      c.material = lastTag done c.nodeTags := by
    intro i c hc
    rcases hgrow.new i c hc with h | ⟨h1, h2⟩
    · exact hI.mat i c h
    · -- a new, untagged cell: either it was already there or no tag was given to it
      rw [h1]
      cases ht : lastTag done c.nodeTags with
      | none => rfl
      | some t =>
        obtain ⟨q, hq, hqp⟩ := lastTag_isSome ht
        have hgc := hG.good _ _ hc
        have hnumc : E.get (q.1.length - 1) (npSort q.1) = some i := by
          rw [hqp.length_eq, hgc.nodes, npSort_eq_iff.2 hqp]; exact hgc.num
        obtain ⟨c0, hc0⟩ := hI.present q hq i hnumc
        have := hgrow.old i c0 hc0
        rw [hc] at this; simp at this; subst this
        have := hI.mat i c hc0
        rw [h1, ht] at this; simp at this
  constructor
  · refine ⟨by simp [hG.len], fun i c hc => ?_⟩
    rcases hget i c hc with ⟨rfl, rfl⟩ | ⟨_, h⟩
    · exact (hgs.retag _).mono set_present
    · exact (hG.good i c h).mono set_present
  · intro i c hc
    rw [lastTag_append]
    rcases hget i c hc with ⟨rfl, rfl⟩ | ⟨hi, h⟩
    · rw [if_pos hperm]
    · have : ¬ nodes.Perm c.nodeTags := by
        intro hp
        have hgc := hG.good _ _ h
        apply hi
        have : E.get c.dimension (npSort c.nodeTags) = some id := by
          rw [← npSort_eq_iff.2 hp]
          have h1 := hp.length_eq
          have h2 := hgc.nodes
          have : c.dimension = nodes.length - 1 := by omega
          rw [this]; exact hnum
        rw [hgc.num] at this; simpa using this
      rw [if_neg this]; exact hmat i c h
  · intro i c hc
    rcases hget i c hc with ⟨rfl, rfl⟩ | ⟨hi, h⟩
    · exact ⟨(nodes, p), by simp, by
        intro h; have := hgs.nodes; change s.nodeTags = [] at h; rw [h] at this; simp at this,
        hperm.symm.subperm⟩
    · rcases hgrow.new i c h with h | ⟨_, h⟩
      · obtain ⟨q, hq, hqf⟩ := hI.origin i c h
        exact ⟨q, by simp [hq], hqf⟩
      · exact ⟨(nodes, p), by simp, h⟩
  · intro q hq j hj
    rw [List.mem_append, List.mem_singleton] at hq
    rcases hq with hq | rfl
    · obtain ⟨c, hc⟩ := hI.present q hq j hj
      exact set_present j c (hgrow.old j c hc)
    · rw [hnum] at hj; simp at hj; subst hj
      exact set_self_present hlt

theorem insertRows_ok {f : MeshFile} {E : Ents} (hE : EntsOK f E) {ρ : Type}
    {ins : Cells → ρ → Option Int → Res (Cells × Nat)} {key : ρ → List Nat}
    (hne : ∀ r, key r ≠ [])
    (htag : ∀ cs r p, ins cs r (some p) = thenTag (ins cs r none) p)
    (hins : ∀ cs r, AllGood E cs → HasKeys E (key r) → InsOK E cs (key r) (ins cs r none)) :
    ∀ (rows : List (ρ × Int)) (cells : Cells) (done : List (List Nat × Int)),
      (∀ r ∈ rows, HasKeys E (key r.1)) → Inv E cells done →
      ∃ cells', insertRows ins cells rows = .ok cells' ∧
        Inv E cells' (done ++ rows.map fun r => (key r.1, r.2))
  | [], cells, done, _, hI => ⟨cells, rfl, by simpa using hI⟩
  | (r, p) :: rest, cells, done, hk, hI => by
    obtain ⟨c1, id, h1, hI1⟩ := hI.step hE (p := p)
      (hins cells r hI.all (hk (r, p) (by simp))) (hne r)
    obtain ⟨c2, h2, hI2⟩ := insertRows_ok hE hne htag hins rest c1 _
      (fun r' hr' => hk r' (List.mem_cons_of_mem _ hr')) hI1
    refine ⟨c2, ?_, by simpa using hI2⟩
    simp [insertRows, htag, h1, h2]

theorem zip_map_left' {α β γ : Type} (g : α → γ) (l : List α) (m : List β) :
    (l.map g).zip m = (l.zip m).map fun p => (g p.1, p.2) := by
  induction l generalizing m with
  | nil => simp
  | cons a l ih => cases m <;> simp [ih]

theorem insertBlock_ok {f : MeshFile} {E : Ents} (hE : EntsOK f E) (b : Block) (cells : Cells)
    (done : List (List Nat × Int)) (hk : ∀ p ∈ b.simplices.zip b.phys, HasKeys E p.1)
    (hI : Inv E cells done) :
    ∃ cells', insertBlock E cells b = .ok cells' ∧
      Inv E cells' (done ++ b.simplices.zip b.phys) := by
  cases b with
  | vertex rows phys =>
    simp only [Block.simplices, Block.phys, zip_map_left', List.mem_map] at hk ⊢
    exact insertRows_ok hE (key := fun n => [n]) (by simp) (insertVertex_tag E)
      (fun cs r hcs hkr => insertVertex_ok hE hcs hkr) _ _ _
      (fun r hr => hk _ ⟨r, hr, rfl⟩) hI
  | line rows phys =>
    simp only [Block.simplices, Block.phys, zip_map_left', List.mem_map] at hk ⊢
    exact insertRows_ok hE (key := fun r => [r.1, r.2]) (by simp)
      (fun cs r p => insertEdge_tag E cs _ p)
      (fun cs r hcs hkr => insertEdge_ok hE hcs rfl hkr) _ _ _
      (fun r hr => hk _ ⟨r, hr, rfl⟩) hI
  | triangle rows phys =>
    simp only [Block.simplices, Block.phys, zip_map_left', List.mem_map] at hk ⊢
    exact insertRows_ok hE (key := fun r => [r.1, r.2.1, r.2.2]) (by simp) (insertPolygon_tag E)
      (fun cs r hcs hkr => insertPolygon_ok hE hcs r hkr) _ _ _
      (fun r hr => hk _ ⟨r, hr, rfl⟩) hI
  | tetra rows phys =>
    simp only [Block.simplices, Block.phys, zip_map_left', List.mem_map] at hk ⊢
    exact insertRows_ok hE (key := fun r => [r.1, r.2.1, r.2.2.1, r.2.2.2]) (by simp)
      (insertPolyhedron_tag E)
      (fun cs r hcs hkr => insertPolyhedron_ok hE hcs r hkr) _ _ _
      (fun r hr => hk _ ⟨r, hr, rfl⟩) hI

theorem insertBlocks_ok {f : MeshFile} {E : Ents} (hE : EntsOK f E) :
    ∀ (bs : List Block) (cells : Cells) (done : List (List Nat × Int)),
      (∀ b ∈ bs, ∀ p ∈ b.simplices.zip b.phys, HasKeys E p.1) → Inv E cells done →
      ∃ cells', insertBlocks E cells bs = .ok cells' ∧
        Inv E cells' (done ++ bs.flatMap fun b => b.simplices.zip b.phys)
  | [], cells, done, _, hI => ⟨cells, rfl, by simpa using hI⟩
  | b :: bs, cells, done, hk, hI => by
    obtain ⟨c1, h1, hI1⟩ := insertBlock_ok hE b cells done (hk b (by simp)) hI
    obtain ⟨c2, h2, hI2⟩ := insertBlocks_ok hE bs c1 _
      (fun b' hb' => hk b' (List.mem_cons_of_mem _ hb')) hI1
    exact ⟨c2, by simp [insertBlocks, h1, h2], by simpa using hI2⟩

theorem Inv.init (E : Ents) : Inv E (List.replicate E.count none) [] := by
  have hno : ∀ (i : Nat) (c : Cell), (List.replicate E.count (none : Option Cell))[i]?
      ≠ some (some c) := by
    intro i c h
    have := List.mem_of_getElem? h
    simp at this
  exact ⟨⟨by simp, fun i c h => absurd h (hno i c)⟩, fun i c h => absurd h (hno i c),
    fun i c h => absurd h (hno i c), by simp⟩

theorem hasKeys_of_row {f : MeshFile} {E : Ents} (hE : EntsOK f E) {s : List Nat}
    (hs : s ∈ f.simplices) (hlt : ∀ n ∈ s, n < f.nPoints) : HasKeys E s := by
  intro x ⟨hne, hsub⟩
  by_cases h1 : x.length = 1
  · obtain ⟨a, rfl⟩ := List.length_eq_one_iff.1 h1
    exact ⟨a, hE.get_zero.2 ⟨rfl, hlt a (List.singleton_subperm_iff.1 hsub)⟩⟩
  · have hl : x.length ≠ 0 := fun h => hne (List.length_eq_zero_iff.1 h)
    have hx : x.length = (x.length - 1) + 1 := by omega
    rw [hE.get_exists (by omega), mem_entityKeys (by omega)]
    obtain ⟨y, hy, hp⟩ := (subperm_iff_mem_faces hx).1 hsub
    exact ⟨s, hs, y, hy, npSort_eq_iff.2 hp⟩

theorem tagged_mem_simplices {f : MeshFile} {p : List Nat × Int} (hp : p ∈ f.tagged) :
    p.1 ∈ f.simplices := by
  simp only [MeshFile.tagged, List.mem_flatMap] at hp
  obtain ⟨b, hb, hp⟩ := hp
  exact List.mem_flatMap.2 ⟨b, hb, (List.of_mem_zip (a := p.1) (b := p.2) hp).1⟩

/-- A well-formed file is accepted, and the result satisfies the invariant. -/
theorem build_ok {f : MeshFile} (hf : f.WF) :
    ∃ E cells, EntsOK f E ∧ buildConformalMesh f = .ok cells ∧ Inv E cells f.tagged := by
  obtain ⟨h0, h1, h2⟩ := hf
  obtain ⟨E, hEeq, hE⟩ := (numberEntities_spec f).1 ⟨h0, edgeKeys_ne_nil.2 h1⟩
  obtain ⟨cells, hc, hI⟩ := insertBlocks_ok hE f.blocks _ []
    (fun b hb p hp => hasKeys_of_row hE
      (tagged_mem_simplices (p := p) (List.mem_flatMap.2 ⟨b, hb, hp⟩))
      (h2 p (List.mem_flatMap.2 ⟨b, hb, hp⟩))) (Inv.init E)
  refine ⟨E, cells, hE, ?_, by simpa [MeshFile.tagged] using hI⟩
  simp [buildConformalMesh, hEeq, hc]

/-! ### Rejected files -/

theorem e0_none {f : MeshFile} {E : Ents} (hE : EntsOK f E) {n : Nat} (hn : ¬ n < f.nPoints) :
    E.e0.getItem n = .error .keyError := by
  unfold Dict.getItem
  have : E.e0.get? n = none := by
    cases h : E.e0.get? n with
    | none => rfl
    | some i => rw [hE.e0, numberPoints_get?] at h; exact absurd h.1 hn
  rw [this]

theorem hasKeys_singleton {f : MeshFile} {E : Ents} (hE : EntsOK f E) {n : Nat}
    (hn : n < f.nPoints) : HasKeys E [n] := by
  intro x ⟨hne, hsub⟩
  have hl : x.length ≤ 1 := by simpa using hsub.length_le
  have hl0 : x.length ≠ 0 := fun h => hne (List.length_eq_zero_iff.1 h)
  obtain ⟨a, rfl⟩ := List.length_eq_one_iff.1 (by omega : x.length = 1)
  have : a = n := by simpa using List.singleton_subperm_iff.1 hsub
  subst this
  exact ⟨a, hE.get_zero.2 ⟨rfl, hn⟩⟩

/-- A filled slot only uses existing points. -/
theorem AllGood.nodes_lt {f : MeshFile} {E : Ents} (hE : EntsOK f E) {cells : Cells}
    (hG : AllGood E cells) {id : Nat} {c : Cell} (hc : cells[id]? = some (some c)) {n : Nat}
    (hn : n ∈ c.nodeTags) : n < f.nPoints := by
  have hg := hG.good _ _ hc
  have hl : 0 < c.sub.length := by rw [hg.subLen]; omega
  have h := hg.subs 0 c.sub[0] (by simp [hl])
  simp only [faces, if_true] at h
  have : [n] ∈ c.nodeTags.map fun a => [a] := List.mem_map.2 ⟨n, hn, rfl⟩
  obtain ⟨j, hj, hjv⟩ := List.mem_iff_getElem.1 this
  have h2 := List.Forall₂.get h (i := j) (by rw [h.length_eq]; exact hj) hj
  simp only [List.get_eq_getElem, hjv] at h2
  have hz := (hE.get_zero.1 (by simpa using h2.1 : E.get 0 [n] = some _))
  have : n = c.sub[0][j]'(by rw [h.length_eq]; exact hj) := by simpa using hz.1
  rw [this]; exact hz.2

theorem insertVertex_bad {f : MeshFile} {E : Ents} (hE : EntsOK f E) {cells : Cells} {n : Nat}
    (hn : ¬ n < f.nPoints) (p : Option Int) :
    insertVertex E cells n p = .error .keyError := by
  unfold insertVertex; rw [e0_none hE hn]; rfl

theorem vertexLoop_bad {f : MeshFile} {E : Ents} (hE : EntsOK f E) :
    ∀ (nodes : List Nat) (cells : Cells), AllGood E cells → (∃ n ∈ nodes, ¬ n < f.nPoints) →
      insertLoop (fun cs n => insertVertex E cs n none) cells nodes = .error .keyError
  | [], _, _, h => by simp at h
  | n :: ns, cells, hG, h => by
    by_cases hn : n < f.nPoints
    · obtain ⟨c1, id, h1, hG1, -, -⟩ := insertVertex_ok hE hG (hasKeys_singleton hE hn)
      have h' : ∃ n ∈ ns, ¬ n < f.nPoints := by
        obtain ⟨m, hm, hmb⟩ := h
        rcases List.mem_cons.1 hm with rfl | hm
        · exact absurd hn hmb
        · exact ⟨m, hm, hmb⟩
      have := vertexLoop_bad hE ns c1 hG1 h'
      simp [insertLoop, h1, this]
    · simp [insertLoop, insertVertex_bad hE hn]

theorem lookupVertices_bad {f : MeshFile} {E : Ents} (hE : EntsOK f E) :
    ∀ (nodes : List Nat), (∃ n ∈ nodes, ¬ n < f.nPoints) →
      lookupVertices E nodes = .error .keyError
  | [], h => by simp at h
  | n :: ns, h => by
    by_cases hn : n < f.nPoints
    · have h' : ∃ n ∈ ns, ¬ n < f.nPoints := by
        obtain ⟨m, hm, hmb⟩ := h
        rcases List.mem_cons.1 hm with rfl | hm
        · exact absurd hn hmb
        · exact ⟨m, hm, hmb⟩
      have h1 : E.e0.get? n = some n := by rw [hE.e0, numberPoints_get?]; exact ⟨hn, rfl⟩
      simp [lookupVertices, Dict.getItem_of_get? h1, lookupVertices_bad hE ns h']
    · simp [lookupVertices, e0_none hE hn]

/-- The slot numbered by a simplex with a missing point is empty. -/
theorem slot_none {f : MeshFile} {E : Ents} (hE : EntsOK f E) {cells : Cells}
    (hG : AllGood E cells) {e id : Nat} {nodes : List Nat}
    (hid : E.get e (npSort nodes) = some id)
    (hbad : ∃ n ∈ nodes, ¬ n < f.nPoints) : getIdx cells id = .ok none := by
  have hlt : id < cells.length := by rw [hG.len]; exact hE.get_lt hid
  refine getIdx_of ?_
  have hcell : cells[id]? = some cells[id] := by simp [hlt]
  cases hs : cells[id] with
  | none => rw [hcell, hs]
  | some c =>
    exfalso
    rw [hs] at hcell
    have hg := hG.good _ _ hcell
    have hp := npSort_eq_iff.1 (hE.get_inj hid hg.num).2
    obtain ⟨n, hn, hnb⟩ := hbad
    exact hnb (hG.nodes_lt hE hcell (hp.mem_iff.1 hn))

theorem getItem_cases {κ : Type} [DecidableEq κ] (d : Dict κ Nat) (k : κ) :
    d.getItem k = .error .keyError ∨ ∃ i, d.get? k = some i ∧ d.getItem k = .ok i := by
  unfold Dict.getItem
  cases d.get? k <;> simp

theorem insertEdge_bad {f : MeshFile} {E : Ents} (hE : EntsOK f E) {cells : Cells}
    (hG : AllGood E cells) {nodes : List Nat} (hbad : ∃ n ∈ nodes, ¬ n < f.nPoints)
    (p : Option Int) : insertEdge E cells nodes p = .error .keyError := by
  unfold insertEdge
  rcases getItem_cases E.e1 (npSort nodes) with h | ⟨id, hid, h⟩
  · simp [h]
  · simp [h, slot_none hE hG (e := 1) hid hbad, vertexLoop_bad hE nodes cells hG hbad]

theorem insertPolygon_bad {f : MeshFile} {E : Ents} (hE : EntsOK f E) {cells : Cells}
    (hG : AllGood E cells) (t : Nat × Nat × Nat)
    (hbad : ∃ n ∈ [t.1, t.2.1, t.2.2], ¬ n < f.nPoints)
    (p : Option Int) : insertPolygon E cells t p = .error .keyError := by
  obtain ⟨n0, n1, n2⟩ := t
  unfold insertPolygon
  simp only at hbad ⊢
  rcases getItem_cases E.e2 (npSort [n0, n1, n2]) with h | ⟨id, hid, h⟩
  · simp [h]
  · simp [h, slot_none hE hG (e := 2) hid hbad, lookupVertices_bad hE _ hbad]

theorem insertPolyhedron_bad {f : MeshFile} {E : Ents} (hE : EntsOK f E) {cells : Cells}
    (hG : AllGood E cells) (t : Nat × Nat × Nat × Nat)
    (hbad : ∃ n ∈ [t.1, t.2.1, t.2.2.1, t.2.2.2], ¬ n < f.nPoints)
    (p : Option Int) : insertPolyhedron E cells t p = .error .keyError := by
  obtain ⟨n0, n1, n2, n3⟩ := t
  unfold insertPolyhedron
  simp only at hbad ⊢
  rcases getItem_cases E.e3 (npSort [n0, n1, n2, n3]) with h | ⟨id, hid, h⟩
  · simp [h]
  · simp [h, slot_none hE hG (e := 3) hid hbad, lookupVertices_bad hE _ hbad]

theorem insertRows_bad {f : MeshFile} {E : Ents} (hE : EntsOK f E) {ρ : Type}
    {ins : Cells → ρ → Option Int → Res (Cells × Nat)} {key : ρ → List Nat}
    (hne : ∀ r, key r ≠ [])
    (htag : ∀ cs r p, ins cs r (some p) = thenTag (ins cs r none) p)
    (hins : ∀ cs r, AllGood E cs → HasKeys E (key r) → InsOK E cs (key r) (ins cs r none))
    (hbad : ∀ cs r p, AllGood E cs → (∃ n ∈ key r, ¬ n < f.nPoints) →
      ins cs r p = .error .keyError) :
    ∀ (rows : List (ρ × Int)) (cells : Cells) (done : List (List Nat × Int)),
      (∀ r ∈ rows, key r.1 ∈ f.simplices) → Inv E cells done →
      (∃ r ∈ rows, ∃ n ∈ key r.1, ¬ n < f.nPoints) →
      insertRows ins cells rows = .error .keyError
  | [], _, _, _, _, h => by simp at h
  | (r, p) :: rest, cells, done, hk, hI, h => by
    by_cases hr : ∀ n ∈ key r, n < f.nPoints
    · obtain ⟨c1, id, h1, hI1⟩ := hI.step hE (p := p)
        (hins cells r hI.all (hasKeys_of_row hE (hk (r, p) (by simp)) hr)) (hne r)
      have h' : ∃ r ∈ rest, ∃ n ∈ key r.1, ¬ n < f.nPoints := by
        obtain ⟨q, hq, n, hn, hnb⟩ := h
        rcases List.mem_cons.1 hq with rfl | hq
        · exact absurd (hr n hn) hnb
        · exact ⟨q, hq, n, hn, hnb⟩
      have := insertRows_bad hE hne htag hins hbad rest c1 _
        (fun r' hr' => hk r' (List.mem_cons_of_mem _ hr')) hI1 h'
      simp [insertRows, htag, h1, this]
    · have hr' : ∃ n ∈ key r, ¬ n < f.nPoints := by
        by_contra hcon
        exact hr fun n hn => by
          by_contra hnb; exact hcon ⟨n, hn, hnb⟩
      simp [insertRows, hbad cells r (some p) hI.all hr']

theorem insertBlock_bad {f : MeshFile} {E : Ents} (hE : EntsOK f E) (b : Block) (cells : Cells)
    (done : List (List Nat × Int)) (hk : ∀ p ∈ b.simplices.zip b.phys, p.1 ∈ f.simplices)
    (hI : Inv E cells done)
    (hbad : ∃ p ∈ b.simplices.zip b.phys, ∃ n ∈ p.1, ¬ n < f.nPoints) :
    insertBlock E cells b = .error .keyError := by
  cases b with
  | vertex rows phys =>
    simp only [Block.simplices, Block.phys, zip_map_left', List.mem_map] at hk hbad ⊢
    refine insertRows_bad hE (key := fun n => [n]) (by simp) (insertVertex_tag E)
      (fun cs r hcs hkr => insertVertex_ok hE hcs hkr)
      (fun cs r p _ h => insertVertex_bad hE (by simpa using h) p) _ _ _
      (fun r hr => hk _ ⟨r, hr, rfl⟩) hI ?_
    obtain ⟨_, ⟨r, hr, rfl⟩, h⟩ := hbad
    exact ⟨r, hr, h⟩
  | line rows phys =>
    simp only [Block.simplices, Block.phys, zip_map_left', List.mem_map] at hk hbad ⊢
    refine insertRows_bad hE (key := fun r => [r.1, r.2]) (by simp)
      (fun cs r p => insertEdge_tag E cs _ p)
      (fun cs r hcs hkr => insertEdge_ok hE hcs rfl hkr)
      (fun cs r p hcs h => insertEdge_bad hE hcs h p) _ _ _
      (fun r hr => hk _ ⟨r, hr, rfl⟩) hI ?_
    obtain ⟨_, ⟨r, hr, rfl⟩, h⟩ := hbad
    exact ⟨r, hr, h⟩
  | triangle rows phys =>
    simp only [Block.simplices, Block.phys, zip_map_left', List.mem_map] at hk hbad ⊢
    refine insertRows_bad hE (key := fun r => [r.1, r.2.1, r.2.2]) (by simp) (insertPolygon_tag E)
      (fun cs r hcs hkr => insertPolygon_ok hE hcs r hkr)
      (fun cs r p hcs h => insertPolygon_bad hE hcs r h p) _ _ _
      (fun r hr => hk _ ⟨r, hr, rfl⟩) hI ?_
    obtain ⟨_, ⟨r, hr, rfl⟩, h⟩ := hbad
    exact ⟨r, hr, h⟩
  | tetra rows phys =>
    simp only [Block.simplices, Block.phys, zip_map_left', List.mem_map] at hk hbad ⊢
    refine insertRows_bad hE (key := fun r => [r.1, r.2.1, r.2.2.1, r.2.2.2]) (by simp)
      (insertPolyhedron_tag E)
      (fun cs r hcs hkr => insertPolyhedron_ok hE hcs r hkr)
      (fun cs r p hcs h => insertPolyhedron_bad hE hcs r h p) _ _ _
      (fun r hr => hk _ ⟨r, hr, rfl⟩) hI ?_
    obtain ⟨_, ⟨r, hr, rfl⟩, h⟩ := hbad
    exact ⟨r, hr, h⟩

theorem insertBlocks_bad {f : MeshFile} {E : Ents} (hE : EntsOK f E) :
    ∀ (bs : List Block) (cells : Cells) (done : List (List Nat × Int)),
      (∀ b ∈ bs, ∀ p ∈ b.simplices.zip b.phys, p.1 ∈ f.simplices) → Inv E cells done →
      (∃ b ∈ bs, ∃ p ∈ b.simplices.zip b.phys, ∃ n ∈ p.1, ¬ n < f.nPoints) →
      insertBlocks E cells bs = .error .keyError
  | [], _, _, _, _, h => by simp at h
  | b :: bs, cells, done, hk, hI, h => by
    by_cases hb : ∀ p ∈ b.simplices.zip b.phys, ∀ n ∈ p.1, n < f.nPoints
    · obtain ⟨c1, h1, hI1⟩ := insertBlock_ok hE b cells done
        (fun p hp => hasKeys_of_row hE (hk b (by simp) p hp) (hb p hp)) hI
      have h' : ∃ b ∈ bs, ∃ p ∈ b.simplices.zip b.phys, ∃ n ∈ p.1, ¬ n < f.nPoints := by
        obtain ⟨q, hq, p, hp, n, hn, hnb⟩ := h
        rcases List.mem_cons.1 hq with rfl | hq
        · exact absurd (hb p hp n hn) hnb
        · exact ⟨q, hq, p, hp, n, hn, hnb⟩
      have := insertBlocks_bad hE bs c1 _
        (fun b' hb' => hk b' (List.mem_cons_of_mem _ hb')) hI1 h'
      simp [insertBlocks, h1, this]
    · have hb' : ∃ p ∈ b.simplices.zip b.phys, ∃ n ∈ p.1, ¬ n < f.nPoints := by
        by_contra hcon
        exact hb fun p hp n hn => by
          by_contra hnb; exact hcon ⟨p, hp, n, hn, hnb⟩
      simp [insertBlocks, insertBlock_bad hE b cells done (hk b (by simp)) hI hb']

theorem build_rejects_empty {f : MeshFile}
    (h : ¬ (f.nPoints ≠ 0 ∧ ∃ s ∈ f.simplices, 2 ≤ s.length)) :
    buildConformalMesh f = .error .valueError := by
  have := (numberEntities_spec f).2 (by rw [edgeKeys_ne_nil]; exact h)
  simp [buildConformalMesh, this]

theorem build_rejects_bad {f : MeshFile} (h0 : f.nPoints ≠ 0)
    (h1 : ∃ s ∈ f.simplices, 2 ≤ s.length)
    (h2 : ∃ p ∈ f.tagged, ∃ n ∈ p.1, ¬ n < f.nPoints) :
    buildConformalMesh f = .error .keyError := by
  obtain ⟨E, hEeq, hE⟩ := (numberEntities_spec f).1 ⟨h0, edgeKeys_ne_nil.2 h1⟩
  have := insertBlocks_bad hE f.blocks _ []
    (fun b hb p hp => tagged_mem_simplices (p := p) (List.mem_flatMap.2 ⟨b, hb, hp⟩))
    (Inv.init E) (by
      obtain ⟨p, hp, h⟩ := h2
      obtain ⟨b, hb, hp⟩ := List.mem_flatMap.1 hp
      exact ⟨b, hb, p, hp, h⟩)
  simp [buildConformalMesh, hEeq, this]

/-- Success is exactly well-formedness. -/
theorem build_wf {f : MeshFile} {cells : Cells} (h : buildConformalMesh f = .ok cells) :
    f.WF := by
  by_cases h01 : f.nPoints ≠ 0 ∧ ∃ s ∈ f.simplices, 2 ≤ s.length
  · refine ⟨h01.1, h01.2, fun p hp n hn => ?_⟩
    by_contra hnb
    rw [build_rejects_bad h01.1 h01.2 ⟨p, hp, n, hn, hnb⟩] at h
    simp at h
  · rw [build_rejects_empty h01] at h; simp at h

theorem build_inv {f : MeshFile} {cells : Cells} (h : buildConformalMesh f = .ok cells) :
    ∃ E, EntsOK f E ∧ Inv E cells f.tagged := by
  obtain ⟨E, cells', hE, h', hI⟩ := build_ok (build_wf h)
  rw [h] at h'; cases h'
  exact ⟨E, hE, hI⟩

end Verif.MeshBuild
