/-
Helper lemmas for C83.
-/
import Verif.Spec.Vtk
import Verif.Lemmas.L2Error
import Verif.Lemmas.MeshGraph

namespace Verif.Vtk
open Assembly MeshBuild MeshGraph Trace L2Error

/-- The discrete function on a cell. -/
theorem cellValue_spec {dim : Nat} {fe : VFe} {name : String} {s : VSpace} {alpha : List ℝ} {c : Cell}
    (hs : SpaceReady dim s) (h : CellReady dim fe name s alpha.length c) {point : Res (Option Nat)}
    {p : Option Nat} (hp : point = .ok p) :
    ∃ m, cellValue dim fe name s alpha c point = .ok m ∧ m.rows = s.nComp ∧
      m.cols = (if s.family = .lagrange then 1 else dim) ∧
      ∀ i < m.rows, ∀ j < m.cols, m.val i j = oneSided fe name s alpha c p i j := by
  obtain ⟨k, el, d, l, h1, h2, h3, h4, h5, h6, h7, h8⟩ := h.element
  obtain ⟨al, a1, a2, a3⟩ := fancy_coefs h6
  have e0 : elementIdx s c = k := by simp [elementIdx, h1]
  have e1 : basisOn s c = el := by
    simp [basisOn, e0, List.getD_eq_getElem?_getD, h2]
  have e2 : dofsOn fe name s c = l := by simp [dofsOn, e0, h3, h4]
  have e3 : splitCols al.length el.nPhi = .ok s.nComp := by rw [a2, h5]; exact splitCols_ok h7
  have e4 : getIdx s.elements k = .ok el := by simp [getIdx, h2]
  have key : ∀ i < s.nComp, ∀ j, ∑ a ∈ Finset.range el.nPhi, el.value p a j * al.getD (a * s.nComp + i) 0 =
      oneSided fe name s alpha c p i j := by
    intro i hi j
    unfold oneSided
    rw [e1, e2]
    refine Finset.sum_congr rfl fun a ha => ?_
    rw [a3 _ (by rw [h5]; exact lt_mul_of (Finset.mem_range.1 ha) hi), coef]
  unfold cellValue
  simp only [Dict.getItem, h1, e4, h3, h4, a1, hp, e3, Res.bind_ok]
  by_cases hl : s.family = .lagrange
  · simp only [if_pos hl]
    have hm : min dim s.nComp = s.nComp := Nat.min_eq_right (hs.lagrange hl)
    refine ⟨⟨s.nComp, 1, fun i _ => ∑ a ∈ Finset.range el.nPhi, el.value p a 0 *
      al.getD (a * s.nComp + i) 0⟩, ?_, rfl, rfl, fun i hi j hj => ?_⟩
    · rw [hm]; rfl
    · obtain rfl : j = 0 := Nat.lt_one_iff.1 hj
      exact key i hi 0
  · simp only [if_neg hl]
    rw [if_neg (hs.vector hl).ne', if_neg (lt_irrefl _)]
    refine ⟨⟨s.nComp, dim, fun i j => ∑ a ∈ Finset.range el.nPhi, el.value p a j *
      al.getD (a * s.nComp + i) 0⟩, ?_, rfl, rfl, fun i hi j hj => key i hi j⟩
    rw [Nat.min_eq_left (h8 hl)]
    rfl

/-- The rows that are written. -/
theorem ravel_row {dim : Nat} {s : VSpace} {m : Mat} {v : Nat → Nat → ℝ} (h1 : m.rows = s.nComp)
    (h2 : m.cols = (if s.family = .lagrange then 1 else dim))
    (h3 : ∀ i < m.rows, ∀ j < m.cols, m.val i j = v i j) :
    m.ravel.map some = fieldRow dim s v := by
  unfold Mat.ravel fieldRow nData
  rw [List.map_map]
  by_cases hl : s.family = .lagrange
  · rw [if_pos hl] at h2
    simp only [if_pos hl]
    rw [h1, h2, Nat.mul_one]
    refine List.map_congr_left fun k hk => ?_
    have hk := List.mem_range.1 hk
    simp only [Function.comp, Nat.div_one, Nat.mod_one]
    rw [h3 k (by omega) 0 (by omega)]
  · rw [if_neg hl] at h2
    simp only [if_neg hl]
    rw [h1, h2]
    refine List.map_congr_left fun k hk => ?_
    have hk := List.mem_range.1 hk
    have hd : 0 < dim := Nat.pos_of_ne_zero fun h0 => by rw [h0, Nat.mul_zero] at hk; omega
    simp only [Function.comp]
    rw [h3 _ (by rw [h1]; exact Nat.div_lt_of_lt_mul (by rwa [Nat.mul_comm])) _
      (by rw [h2]; exact Nat.mod_lt _ hd)]

theorem fieldRow_length (dim : Nat) (s : VSpace) (v : Nat → Nat → ℝ) :
    (fieldRow dim s v).length = nData dim s := by simp [fieldRow]

theorem zipIdx_filter_eq {x : Nat} : ∀ (l : List Nat) (n : Nat), l.Nodup → x ∈ l →
    ((l.zipIdx n).filter fun q => q.1 == x).map Prod.snd = [n + l.idxOf x]
  | [], _, _, h => absurd h (List.not_mem_nil)
  | a :: l, n, hn, h => by
    rw [List.nodup_cons] at hn
    rw [List.zipIdx_cons, List.filter_cons]
    by_cases ha : a = x
    · subst ha
      have : ((l.zipIdx (n + 1)).filter fun q => q.1 == a) = [] := by
        rw [List.filter_eq_nil_iff]
        intro q hq
        have := List.fst_mem_of_mem_zipIdx hq
        simp only [beq_iff_eq]
        rintro rfl
        exact hn.1 this
      simp [this]
    · have h' : x ∈ l := by
        rcases List.mem_cons.1 h with h | h
        · exact absurd h.symm ha
        · exact h
      rw [if_neg (by simpa using ha), zipIdx_filter_eq l (n + 1) hn.2 h', List.idxOf_cons_ne _ ha]
      congr 1
      omega

theorem vertexOf_spec {s : VSpace} {c : Cell} {node : Nat} (h : HasNode s c node) :
    vertexOf s c node = .ok (some (c.nodeTags.idxOf node)) := by
  unfold vertexOf
  rw [zipIdx_filter_eq _ 0 h.nodup h.mem, Nat.zero_add]
  exact if_pos (by rw [← h.length]; exact List.idxOf_lt_length_iff.2 h.mem)

/-- The values collected over the cells of the field. -/
theorem values_spec {g : VMesh} {fe : VFe} {name : String} {s : VSpace} {alpha : List ℝ} {node : Nat}
    {tags : List (Option Int)} (ht : fe.tags.get? name = some tags) (hs : SpaceReady g.dimension s) :
    ∀ (cells : List Cell) (_ : ∀ c ∈ cells.filter fun c => tags.contains c.material,
      CellReady g.dimension fe name s alpha.length c ∧ HasNode s c node) (acc : List Mat),
    ∃ ms, cells.foldlM (fun acc c => do
        let tags ← fe.tags.getItem name
        if c.material ∉ tags then pure acc
        else do
          let v ← cellValue g.dimension fe name s alpha c (vertexOf s c node)
          pure (acc ++ [v])) acc = (.ok (acc ++ ms) : Res (List Mat)) ∧
      List.Forall₂ (fun c m => m.rows = s.nComp ∧
        m.cols = (if s.family = .lagrange then 1 else g.dimension) ∧
        ∀ i < m.rows, ∀ j < m.cols,
          m.val i j = oneSided fe name s alpha c (some (c.nodeTags.idxOf node)) i j)
        (cells.filter fun c => tags.contains c.material) ms
  | [], _, acc => ⟨[], by simp [pure, Except.pure], .nil⟩
  | c :: cells, h, acc => by
    by_cases hc : c.material ∈ tags
    · have hf : ((c :: cells).filter fun c => tags.contains c.material) =
          c :: cells.filter fun c => tags.contains c.material := by
        simp [hc]
      rw [hf] at h ⊢
      obtain ⟨h1, h2⟩ := h c (by simp)
      obtain ⟨m, m1, m2⟩ := cellValue_spec hs h1 (vertexOf_spec h2)
      obtain ⟨ms, e1, e2⟩ := values_spec ht hs cells (fun c hc => h c (List.mem_cons_of_mem _ hc)) (acc ++ [m])
      refine ⟨m :: ms, ?_, .cons m2 e2⟩
      rw [List.foldlM_cons]
      simp only [Dict.getItem, ht, Res.bind_ok, hc, not_true_eq_false, if_false, m1, Res.pure_eq]
      simp only [Dict.getItem, ht, Res.bind_ok, Res.pure_eq] at e1
      refine e1.trans ?_
      simp
    · have hf : ((c :: cells).filter fun c => tags.contains c.material) =
          cells.filter fun c => tags.contains c.material := by
        simp [hc]
      rw [hf] at h ⊢
      obtain ⟨ms, e1, e2⟩ := values_spec ht hs cells h acc
      refine ⟨ms, ?_, e2⟩
      rw [List.foldlM_cons]
      simp only [Dict.getItem, ht, Res.bind_ok, hc, not_false_eq_true, if_true, Res.pure_eq]
      simpa only [Dict.getItem, ht, Res.bind_ok, Res.pure_eq] using e1

theorem npMean_spec {R S : Nat} {cells : List Cell} {ms : List Mat} {v : Cell → Nat → Nat → ℝ}
    (h : List.Forall₂ (fun c m => m.rows = R ∧ m.cols = S ∧
      ∀ i < m.rows, ∀ j < m.cols, m.val i j = v c i j) cells ms) (hne : cells ≠ []) :
    ∃ m, npMean ms = .ok (some m) ∧ m.rows = R ∧ m.cols = S ∧
      ∀ i < m.rows, ∀ j < m.cols, m.val i j = (cells.map fun c => v c i j).sum / cells.length := by
  cases h with
  | nil => exact absurd rfl hne
  | @cons c m cs ms h hs =>
    have hall : (ms.all fun n => n.rows == m.rows && n.cols == m.cols) = true := by
      rw [List.all_eq_true]
      intro n hn
      obtain ⟨i, hi, rfl⟩ := List.getElem_of_mem hn
      have := (List.forall₂_iff_get.1 hs).2 i (hs.length_eq ▸ hi) hi
      simp only [List.get_eq_getElem] at this
      simp [this.1, this.2.1, h.1, h.2.1]
    refine ⟨⟨m.rows, m.cols, fun i j => ((m :: ms).map fun n => n.val i j).sum / (ms.length + 1 : Nat)⟩,
      by rw [npMean, if_pos hall], h.1, h.2.1, ?_⟩
    intro i hi j hj
    have hi' : i < R := h.1 ▸ hi
    have hj' : j < S := h.2.1 ▸ hj
    have hsum : ∀ {cs : List Cell} {ms : List Mat}, List.Forall₂ (fun c m => m.rows = R ∧ m.cols = S ∧
      ∀ i < m.rows, ∀ j < m.cols, m.val i j = v c i j) cs ms →
        (ms.map fun n => n.val i j) = cs.map fun c => v c i j := by
      intro cs ms hh
      induction hh with
      | nil => rfl
      | cons h _ ih =>
        rw [List.map_cons, List.map_cons, ih, h.2.2 i (by omega) j (by omega)]
    show ((m :: ms).map fun n => n.val i j).sum / (ms.length + 1 : Nat) = _
    rw [hsum (.cons h hs), List.length_cons, hs.length_eq]

/-- The average in a node. -/
theorem nodeAverage_spec {g : VMesh} {fe : VFe} {name : String} {s : VSpace} {alpha : List ℝ}
    {node : Nat} {idxs : List Node} {cells : List Cell} {tags : List (Option Int)}
    (hsp : fe.spaces.get? name = some s) (ht : fe.tags.get? name = some tags)
    (hc : mapRes (fun i : Node => cellAt g.cells i.2) idxs = .ok cells)
    (hs : SpaceReady g.dimension s)
    (h : ∀ c ∈ cells.filter fun c => tags.contains c.material,
      CellReady g.dimension fe name s alpha.length c ∧ HasNode s c node) :
    if (cells.filter fun c => tags.contains c.material) = [] then
      nodeAverage g fe name alpha node idxs = .ok none
    else ∃ m, nodeAverage g fe name alpha node idxs = .ok (some m) ∧ m.rows = s.nComp ∧
      m.cols = (if s.family = .lagrange then 1 else g.dimension) ∧
      ∀ i < m.rows, ∀ j < m.cols, m.val i j =
        average fe name s alpha node (cells.filter fun c => tags.contains c.material) i j := by
  obtain ⟨ms, e1, e2⟩ := values_spec (alpha := alpha) (node := node) ht hs cells h []
  have e0 : nodeAverage g fe name alpha node idxs = npMean ms := by
    unfold nodeAverage
    have hsp' : fe.spaces.getItem name = .ok s := by simp [Dict.getItem, hsp]
    rw [hsp', Res.bind_ok, hc, Res.bind_ok, e1]
    rfl
  split
  · rename_i hn
    rw [hn] at e2
    cases e2
    rw [e0]
    rfl
  · rename_i hn
    obtain ⟨m, m1, m2, m3, m4⟩ := npMean_spec e2 hn
    exact ⟨m, e0.trans m1, m2, m3, m4⟩

theorem assignRow_same {n : Nat} {l : List (Option ℝ)} (h : l.length = n) : assignRow n l = .ok l :=
  if_pos h

theorem assignRow_nan (n : Nat) : assignRow n [none] = .ok (List.replicate n none) := by
  unfold assignRow
  split
  · rename_i h
    rw [← h]; rfl
  · rfl

/-- The loop over the vertices. -/
theorem overVertices_spec {g : VMesh} {s : VSpace} {n : Nat}
    {row : Nat → List Node → Res (Option (List (Option ℝ)))} {init : Option ℝ}
    {r : Nat → List (Option ℝ)} (hv : VerticesReady g s)
    (h : ∀ v ∈ s.vertices, ∃ o, row (nodeOf g v) ((s.graph.edges.filter fun e => e.2 = (0, v)).map Prod.fst) =
      .ok o ∧ (match o with
        | none => r v = List.replicate n init
        | some l => assignRow n l = .ok (r v))) :
    overVertices g s n row init = .ok (nodal g s r (List.replicate n init)) := by
  have key : ∀ (vs : List Nat) (data : List (List (Option ℝ))), (∀ v ∈ vs, v ∈ s.vertices) →
      (vs.map (nodeOf g)).Nodup → data.length = g.nPoints →
      (∀ v ∈ vs, data[nodeOf g v]? = some (List.replicate n init)) →
      vs.foldlM (fun data v => do
        if (0, v) ∉ s.graph.nodes then pure data
        else do
          let node ← vertexNode g v
          let cells ← s.graph.predecessors (0, v)
          let r ← row node cells
          writeRow data node n r) data =
      (.ok ((List.range g.nPoints).map fun i =>
        match vs.find? fun v => nodeOf g v == i with
        | some v => r v
        | none => data.getD i []) : Res (List (List (Option ℝ)))) := by
    intro vs
    induction vs with
    | nil =>
      intro data _ _ hl _
      simp only [List.foldlM_nil, Res.pure_eq, List.find?_nil]
      congr 1
      refine List.ext_getElem (by simp [hl]) fun i hi hi' => ?_
      simp [List.getD_eq_getElem?_getD, hi]
    | cons v vs ih =>
      intro data hm hn hl hd
      have hvm := hm v (by simp)
      obtain ⟨h1, c, h2, h3, h4⟩ := hv.node v hvm
      obtain ⟨o, h5, h6⟩ := h v hvm
      rw [List.map_cons, List.nodup_cons] at hn
      have e1 : vertexNode g v = .ok (nodeOf g v) := by
        obtain ⟨x, xs, hx⟩ := List.exists_cons_of_ne_nil h3
        simp [vertexNode, cellAt, h2, getIdx, hx, nodeOf]
      have e2 : s.graph.predecessors (0, v) =
          .ok ((s.graph.edges.filter fun e => e.2 = (0, v)).map Prod.fst) := by
        unfold DiGraph.predecessors
        rw [if_pos h1]
      have fin : ∀ data' : List (List (Option ℝ)), data' = data.set (nodeOf g v) (r v) →
          vs.foldlM (fun data v => do
            if (0, v) ∉ s.graph.nodes then pure data
            else do
              let node ← vertexNode g v
              let cells ← s.graph.predecessors (0, v)
              let r ← row node cells
              writeRow data node n r) data' =
          (.ok ((List.range g.nPoints).map fun i =>
            match (v :: vs).find? fun v => nodeOf g v == i with
            | some v => r v
            | none => data.getD i []) : Res (List (List (Option ℝ)))) := by
        rintro data' rfl
        rw [ih _ (fun w hw => hm w (by simp [hw])) hn.2 (by simp [hl]) (fun w hw => by
          have : nodeOf g w ≠ nodeOf g v := fun he => hn.1 (he ▸ List.mem_map_of_mem hw)
          rw [List.getElem?_set_ne this.symm]
          exact hd w (by simp [hw]))]
        congr 1
        refine List.map_congr_left fun i hi => ?_
        have hi := List.mem_range.1 hi
        rw [List.find?_cons]
        by_cases hiv : nodeOf g v = i
        · have hnone : vs.find? (fun v => nodeOf g v == i) = none := by
            rw [List.find?_eq_none]
            intro w hw
            simp only [beq_iff_eq]
            rintro rfl
            exact hn.1 (hiv ▸ List.mem_map_of_mem hw)
          rw [hnone]
          subst hiv
          simp [List.getD_eq_getElem?_getD, hl, hi]
        · have : (nodeOf g v == i) = false := by simpa using hiv
          rw [this]
          cases vs.find? (fun v => nodeOf g v == i) with
          | some w => rfl
          | none =>
            simp only [List.getD_eq_getElem?_getD]
            rw [List.getElem?_set_ne hiv]
      rw [List.foldlM_cons]
      simp only [h1, not_true_eq_false, if_false, e1, e2, h5, Res.bind_ok]
      cases o with
      | none =>
        simp only [writeRow, Res.bind_ok]
        refine fin data ?_
        simp only at h6
        rw [h6]
        have := hd v (by simp)
        refine List.ext_getElem? fun i => ?_
        by_cases hiv : nodeOf g v = i
        · subst hiv
          rw [List.getElem?_set_self (by rw [hl]; exact h4), this]
        · rw [List.getElem?_set_ne hiv]
      | some l =>
        simp only at h6
        simp only [writeRow, setRow, if_pos (hl ▸ h4 : nodeOf g v < data.length), h6, Res.bind_ok, Res.pure_eq]
        exact fin _ rfl
  unfold overVertices
  rw [key s.vertices _ (fun v hv => hv) hv.nodup (by simp) (fun v hvm => by
    obtain ⟨-, c, -, -, h4⟩ := hv.node v hvm
    simp [h4])]
  unfold nodal
  congr 1
  refine List.map_congr_left fun i hi => ?_
  have hi := List.mem_range.1 hi
  cases s.vertices.find? (fun v => nodeOf g v == i) with
  | some v => rfl
  | none => simp [List.getD_eq_getElem?_getD, hi]

theorem overCells_spec {cells : List Cell} {n : Nat} {row : Cell → Res (Option (List (Option ℝ)))}
    {init : Option ℝ} {r : Cell → List (Option ℝ)}
    (h : ∀ c ∈ cells, ∃ o, row c = .ok o ∧ (match o with
        | none => r c = List.replicate n init
        | some l => assignRow n l = .ok (r c))) :
    overCells cells n row init = .ok (cells.map r) := by
  unfold overCells
  induction cells with
  | nil => rfl
  | cons c cs ih =>
    obtain ⟨o, h1, h2⟩ := h c (by simp)
    have e : (do
        let r ← row c
        rowOr n init r) = (.ok (r c) : Res (List (Option ℝ))) := by
      rw [h1, Res.bind_ok]
      cases o with
      | none => simp only at h2; rw [h2]; rfl
      | some l => exact h2
    unfold mapRes
    rw [e, ih fun c hc => h c (by simp [hc])]
    rfl

theorem selectCells_topCells {g : VMesh} (h : none ∉ g.cells) :
    selectCells (fun c => c.dimension == g.dimension) g.cells = .ok (topCells g) := by
  unfold topCells
  generalize g.cells = cells at h
  induction cells with
  | nil => rfl
  | cons c cells ih =>
    cases c with
    | none => simp at h
    | some c =>
      unfold selectCells
      rw [ih (by simpa using h)]
      simp only [List.filterMap_cons, id, List.filter_cons, Res.bind_ok, Res.pure_eq]

theorem connectivity_ok {cells : List Cell} {n : Nat} (h : ∀ c ∈ cells, c.nodeTags.length = n) :
    connectivity cells = .ok (cells.map Cell.nodeTags) := by
  unfold connectivity
  cases cells with
  | nil => rfl
  | cons c cs =>
    refine if_pos ?_
    rw [List.all_eq_true]
    intro d hd
    simp [h d (by simp [hd]), h c (by simp)]

end Verif.Vtk

namespace Verif.Vtk
open Assembly MeshBuild MeshGraph Trace L2Error

/-- Data of arrays by name. -/
abbrev Arrays := Dict String (List (List (Option ℝ)))

/-- `d[k] = v` for the entries of a list. -/
def setAll (d l : Arrays) : Arrays := l.foldl (fun d p => d.set p.1 p.2) d

theorem set_new {κ ν : Type} [DecidableEq κ] {k : κ} {v : ν} : ∀ {d : Dict κ ν}, k ∉ d.map Prod.fst →
    d.set k v = d ++ [(k, v)]
  | [], _ => rfl
  | (k', v') :: d, h => by
    simp only [List.map_cons, List.mem_cons, not_or] at h
    have h1 : ¬ k' = k := fun e => h.1 e.symm
    simp [Dict.set, h1, set_new h.2]

theorem setAll_new : ∀ {l d : Arrays}, ((d ++ l).map Prod.fst).Nodup → setAll d l = d ++ l
  | [], d, _ => by simp [setAll]
  | (k, v) :: l, d, h => by
    have h1 : k ∉ d.map Prod.fst := by
      intro hk
      rw [List.map_append, List.nodup_append] at h
      exact h.2.2 k hk k (by simp) rfl
    have h2 : ((d ++ [(k, v)] ++ l).map Prod.fst).Nodup := by simpa using h
    have := setAll_new h2
    unfold setAll at this ⊢
    rw [List.foldl_cons]
    simp only [set_new h1]
    rw [this]
    simp

/-- The loop over the fields: every field appends its entries. -/
theorem fold_entries {step : Entries → String × VSpace → Res Entries}
    {P C : String × VSpace → Arrays} : ∀ {spaces : List (String × VSpace)} {acc : Entries},
    (∀ q ∈ spaces, ∀ acc, step acc q = .ok (setAll acc.1 (P q), setAll acc.2 (C q))) →
    ((acc.1 ++ spaces.flatMap P).map Prod.fst).Nodup →
    ((acc.2 ++ spaces.flatMap C).map Prod.fst).Nodup →
    spaces.foldlM step acc = .ok (acc.1 ++ spaces.flatMap P, acc.2 ++ spaces.flatMap C)
  | [], acc, _, _, _ => by simp [pure, Except.pure]
  | q :: spaces, acc, h, h1, h2 => by
    rw [List.flatMap_cons, ← List.append_assoc] at h1 h2
    rw [List.foldlM_cons, h q (by simp), Res.bind_ok]
    have h1' : ((acc.1 ++ P q).map Prod.fst).Nodup := by
      rw [List.map_append] at h1; exact (List.nodup_append.1 h1).1
    have h2' : ((acc.2 ++ C q).map Prod.fst).Nodup := by
      rw [List.map_append] at h2; exact (List.nodup_append.1 h2).1
    rw [setAll_new h1', setAll_new h2', fold_entries (fun q hq => h q (by simp [hq])) h1 h2]
    simp

theorem append_inj {a b s : String} (h : a ++ s = b ++ s) : a = b := by
  have := congrArg String.toList h
  rw [String.toList_append, String.toList_append, List.append_left_inj] at this
  exact String.toList_inj.1 this

theorem suffix_ne (a b : String) : a ++ "_h" ≠ b ++ "_e" := by
  intro h
  have := congrArg (fun s => s.toList.getLast?) h
  simp [String.toList_append] at this

/-- The names of the entries differ: one entry for each field. -/
theorem nodup_single {spaces : List (String × VSpace)} (h : (spaces.map Prod.fst).Nodup) (s : String)
    (w : String × VSpace → Bool) (D : String × VSpace → List (List (Option ℝ))) :
    ((spaces.flatMap fun q => if w q then [(q.1 ++ s, D q)] else []).map Prod.fst).Nodup := by
  induction spaces with
  | nil => simp
  | cons q spaces ih =>
    rw [List.map_cons, List.nodup_cons] at h
    rw [List.flatMap_cons, List.map_append, List.nodup_append]
    refine ⟨by split <;> simp, ih h.2, ?_⟩
    intro x hx y hy hxy
    subst hxy
    have hx' : x = q.1 ++ s := by
      split at hx
      · simpa using hx
      · simp at hx
    simp only [List.mem_map, List.mem_flatMap] at hy
    obtain ⟨e, ⟨p, hp, he⟩, rfl⟩ := hy
    split at he
    · rw [List.mem_singleton] at he
      subst he
      exact h.1 (append_inj hx' ▸ List.mem_map_of_mem hp)
    · simp at he

/-- The names of the entries differ: two entries for each field. -/
theorem nodup_double {spaces : List (String × VSpace)} (h : (spaces.map Prod.fst).Nodup)
    (w : String × VSpace → Bool) (D E : String × VSpace → List (List (Option ℝ))) :
    ((spaces.flatMap fun q => if w q then [(q.1 ++ "_h", D q), (q.1 ++ "_e", E q)] else []).map
      Prod.fst).Nodup := by
  induction spaces with
  | nil => simp
  | cons q spaces ih =>
    rw [List.map_cons, List.nodup_cons] at h
    rw [List.flatMap_cons, List.map_append, List.nodup_append]
    refine ⟨by split <;> simp [suffix_ne], ih h.2, ?_⟩
    intro x hx y hy hxy
    subst hxy
    have hx' : x = q.1 ++ "_h" ∨ x = q.1 ++ "_e" := by
      split at hx
      · simpa using hx
      · simp at hx
    simp only [List.mem_map, List.mem_flatMap] at hy
    obtain ⟨e, ⟨p, hp, he⟩, rfl⟩ := hy
    split at he
    · simp only [List.mem_cons, List.not_mem_nil, or_false] at he
      rcases he with rfl | rfl <;> rcases hx' with hx' | hx'
      · exact h.1 (append_inj hx' ▸ List.mem_map_of_mem hp)
      · exact suffix_ne _ _ hx'
      · exact suffix_ne _ _ hx'.symm
      · exact h.1 (append_inj hx' ▸ List.mem_map_of_mem hp)
    · simp at he

/-- The mean in the node of a vertex, as a row. -/
theorem average_row {g : VMesh} {fe : VFe} {alpha : List ℝ} {q : String × VSpace}
    (h : NodalReady g fe alpha.length q) {v : Nat} (hv : v ∈ q.2.vertices) :
    ∃ m, nodeAverage g fe q.1 alpha (nodeOf g v)
        ((q.2.graph.edges.filter fun e => e.2 = (0, v)).map Prod.fst) = .ok m ∧
      assignRow (nData g.dimension q.2) (ravelMean m) = .ok (averageRow g fe alpha q v) ∧
      (match m with
        | none => support g fe q.1 q.2 v = []
        | some m => support g fe q.1 q.2 v ≠ [] ∧ m.rows = q.2.nComp ∧
          m.cols = (if q.2.family = .lagrange then 1 else g.dimension) ∧
          ∀ i < m.rows, ∀ j < m.cols, m.val i j =
            average fe q.1 q.2 alpha (nodeOf g v) (support g fe q.1 q.2 v) i j) := by
  obtain ⟨tags, ht⟩ := Option.isSome_iff_exists.1 h.tags
  have hc : mapRes (fun i : Node => cellAt g.cells i.2)
      ((q.2.graph.edges.filter fun e => e.2 = (0, v)).map Prod.fst) = .ok (around g q.2 v) := by
    unfold around
    have : ∀ i ∈ (q.2.graph.edges.filter fun e => e.2 = (0, v)).map Prod.fst,
        ∃ c, g.cells[i.2]? = some (some c) := by
      intro i hi
      obtain ⟨e, he, rfl⟩ := List.mem_map.1 hi
      have he := List.mem_filter.1 he
      exact h.vertices.cells v hv e he.1 (by simpa using he.2)
    generalize ((q.2.graph.edges.filter fun e => e.2 = (0, v)).map Prod.fst) = l at this
    induction l with
    | nil => rfl
    | cons i l ih =>
      obtain ⟨c, hc⟩ := this i (by simp)
      unfold mapRes
      rw [ih fun i hi => this i (by simp [hi])]
      simp [cellAt, hc]
  have hsup : (around g q.2 v).filter (fun c => tags.contains c.material) = support g fe q.1 q.2 v := by
    simp [support, ht]
  have e := nodeAverage_spec (node := nodeOf g v) (alpha := alpha) h.space ht hc h.shape (by
    rw [hsup]; exact h.cells v hv)
  rw [hsup] at e
  split at e
  · rename_i hn
    refine ⟨none, e, ?_, hn⟩
    rw [averageRow, if_pos hn]
    exact assignRow_nan _
  · rename_i hn
    obtain ⟨m, m1, m2, m3, m4⟩ := e
    refine ⟨some m, m1, ?_, hn, m2, m3, m4⟩
    rw [averageRow, if_neg hn, ravelMean, ravel_row m2 m3 m4]
    exact assignRow_same (fieldRow_length _ _ _)

/-- The value in the centre of a cell, as a row. -/
theorem centre_row {g : VMesh} {fe : VFe} {alpha : List ℝ} {q : String × VSpace} {c : Cell}
    (hsp : fe.spaces.get? q.1 = some q.2) (hs : SpaceReady g.dimension q.2)
    (h : CellReady g.dimension fe q.1 q.2 alpha.length c) :
    ∃ m, cellCentered g fe q.1 alpha c = .ok m ∧ m.ravel.map some = centreRow g fe alpha q c ∧
      m.rows = q.2.nComp ∧ m.cols = (if q.2.family = .lagrange then 1 else g.dimension) ∧
      ∀ i < m.rows, ∀ j < m.cols, m.val i j = oneSided fe q.1 q.2 alpha c none i j := by
  obtain ⟨m, m1, m2, m3, m4⟩ := cellValue_spec hs h (point := .ok none) rfl
  refine ⟨m, ?_, ravel_row m2 m3 m4, m2, m3, m4⟩
  unfold cellCentered
  simp only [Dict.getItem, hsp, Res.bind_ok]
  exact m1

theorem nodal_length (g : VMesh) (s : VSpace) (row : Nat → List (Option ℝ)) (init : List (Option ℝ)) :
    (nodal g s row init).length = g.nPoints := by simp [nodal]

/-- All arrays have the lengths of the points and of the cells. -/
theorem meshio_ok {nPoints : Nat} {f : File} (h1 : ∀ d ∈ f.points, d.2.length = nPoints)
    (h2 : ∀ d ∈ f.cellData, d.2.length = f.cells.length) : meshio nPoints f = .ok f := by
  unfold meshio
  rw [if_pos]
  simp only [Bool.and_eq_true, List.all_eq_true, beq_iff_eq]
  exact ⟨h1, h2⟩

end Verif.Vtk
