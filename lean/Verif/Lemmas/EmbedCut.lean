/-
Lemmas for C34.
-/
import Verif.Spec.EmbedCut
import Verif.Lemmas.Skin
import Verif.Lemmas.MeshCutMain
import Verif.Lemmas.DofMap

namespace Verif.EmbedCut
open MeshBuild MeshGraph Trace MeshMetrics MeshOps Skin

/-! ### Renaming -/

theorem rename_eq {keys : List Nat} (h : keys.Nodup) {s n : Nat} (hn : n = keys.length) (x : Nat) :
    rename (Dict.ofList (keys.zip (List.range' s n))) x = copyOf keys s x := by
  subst hn
  have h1 := Dict.get?_zip_range' (f := fun i : Nat => i) keys s x
  have h2 := Dict.map_fst_zip_range' (f := fun i : Nat => i) keys s
  rw [List.map_id'] at h1 h2
  unfold rename copyOf
  rw [Dict.ofList_nodup (by rw [h2]; exact h), h1]
  split <;> rfl

theorem copyOf_nil (s x : Nat) : copyOf [] s x = x := by simp [copyOf]

theorem copyOf_of_not_mem {old : List Nat} {s x : Nat} (h : x ∉ old) : copyOf old s x = x := by
  simp [copyOf, h]

theorem copyOf_of_get {old : List Nat} (hn : old.Nodup) {s j x : Nat} (h : old[j]? = some x) :
    copyOf old s x = s + j := by
  obtain ⟨hj, rfl⟩ := List.getElem?_eq_some_iff.1 h
  simp [copyOf, hn.idxOf_getElem]

theorem copyOf_bound {old : List Nat} {s x : Nat} (h : x ∈ old) :
    s ≤ copyOf old s x ∧ copyOf old s x < s + old.length := by
  have := List.idxOf_lt_length_iff.2 h
  simp only [copyOf, h, if_true]
  omega

theorem copyOf_idem {old : List Nat} {s : Nat} (h : ∀ x ∈ old, x < s) (x : Nat) :
    copyOf old s (copyOf old s x) = copyOf old s x := by
  by_cases hx : x ∈ old
  · refine copyOf_of_not_mem fun h' => ?_
    have := h _ h'
    have := (copyOf_bound (s := s) hx).1
    omega
  · rw [copyOf_of_not_mem hx, copyOf_of_not_mem hx]

theorem copyOf_inj {old : List Nat} {s : Nat} {x y : Nat} (hx : x < s) (hy : y < s)
    (h : copyOf old s x = copyOf old s y) : x = y := by
  by_cases h1 : x ∈ old <;> by_cases h2 : y ∈ old
  · simp only [copyOf, h1, h2, if_true] at h
    exact (List.idxOf_inj h1).1 (by omega)
  · have := (copyOf_bound (s := s) h1).1
    rw [h, copyOf_of_not_mem h2] at this
    omega
  · have := (copyOf_bound (s := s) h2).1
    rw [← h, copyOf_of_not_mem h1] at this
    omega
  · rwa [copyOf_of_not_mem h1, copyOf_of_not_mem h2] at h

/-- The sub-cells of dimension `e` renamed. -/
def mapSub (e : Nat) (g : Nat → Nat) (c : Cell) : Cell := { c with sub := c.sub.modify e (·.map g) }

/-- The vertices and the nodes renamed. -/
def mapVertices (V T : Nat → Nat) (c : Cell) : Cell :=
  { c with sub := c.sub.modify 0 (·.map V), nodeTags := c.nodeTags.map T }

theorem renamed_two {E V T : Nat → Nat} {c : Cell} (h : c.dimension = 2) :
    renamed E V T c = mapVertices V T (mapSub 1 E c) := by
  simp [renamed, mapVertices, mapSub, h]

theorem renamed_one {E V T : Nat → Nat} {c : Cell} (h : c.dimension = 1) :
    renamed E V T c = mapVertices V T c := by
  simp [renamed, mapVertices, h]

theorem modify_idem {l : List (List Nat)} {e : Nat} {g : Nat → Nat} (h : ∀ x, g (g x) = g x) :
    (l.modify e (·.map g)).modify e (·.map g) = l.modify e (·.map g) := by
  apply List.ext_getElem?
  intro i
  rw [List.getElem?_modify, List.getElem?_modify]
  by_cases hi : e = i
  · simp only [hi, if_true]
    cases l[i]? with
    | none => rfl
    | some x => simp [Function.comp_def, h]
  · simp [hi]

theorem mapSub_idem {e : Nat} {g : Nat → Nat} (h : ∀ x, g (g x) = g x) (c : Cell) :
    mapSub e g (mapSub e g c) = mapSub e g c := by
  simp [mapSub, modify_idem h]

theorem mapVertices_idem {V T : Nat → Nat} (h : ∀ x, V (V x) = V x) (h' : ∀ x, T (T x) = T x)
    (c : Cell) : mapVertices V T (mapVertices V T c) = mapVertices V T c := by
  simp [mapVertices, modify_idem h, Function.comp_def, h']

theorem modify_id {l : List (List Nat)} {e : Nat} {g : Nat → Nat}
    (h : ∀ ids, l[e]? = some ids → ∀ x ∈ ids, g x = x) : l.modify e (·.map g) = l := by
  apply List.ext_getElem?
  intro i
  rw [List.getElem?_modify]
  by_cases hi : e = i
  · subst hi
    cases hl : l[e]? with
    | none => rfl
    | some x =>
      simp only [if_true, Option.map_eq_map, Option.map_some]
      rw [List.map_congr_left (h x hl), List.map_id']
  · simp [hi]

theorem mapSub_id {e : Nat} {g : Nat → Nat} {c : Cell}
    (h : ∀ ids, c.sub[e]? = some ids → ∀ x ∈ ids, g x = x) : mapSub e g c = c := by
  simp [mapSub, modify_id h]

theorem mapVertices_id {V T : Nat → Nat} {c : Cell}
    (h : ∀ ids, c.sub[0]? = some ids → ∀ x ∈ ids, V x = x) (h' : ∀ t ∈ c.nodeTags, T t = t) :
    mapVertices V T c = c := by
  unfold mapVertices
  rw [modify_id h, List.map_congr_left h', List.map_id']

/-! ### Updates -/

theorem stored_set {cells : Cells} {i j : Nat} {c d : Cell} (hi : i < cells.length) :
    Stored (cells.set i (some c)) j d ↔ if i = j then c = d else Stored cells j d := by
  unfold Stored
  rw [List.getElem?_set]
  by_cases h : i = j
  · subst h; simp [hi]
  · simp [h]

theorem stored_unique' {cells : Cells} {i : Nat} {c d : Cell} (h : Stored cells i c)
    (h' : Stored cells i d) : c = d := by
  unfold Stored at h h'
  rw [h] at h'
  simpa using h'

/-- Applying an idempotent change to the cells of a list of ids. -/
theorem foldlM_set {step : Cells → Nat → Res Cells} {g : Cell → Cell} {good : Cell → Prop}
    (hstep : ∀ cells i c, Stored cells i c → good c → step cells i = .ok (cells.set i (some (g c))))
    (hidem : ∀ c, g (g c) = g c) (hgood : ∀ c, good c → good (g c)) :
    ∀ (L : List Nat) (cells : Cells), (∀ i ∈ L, ∃ c, Stored cells i c ∧ good c) →
      ∃ cells', L.foldlM step cells = .ok cells' ∧ cells'.length = cells.length ∧
        ∀ i c, Stored cells i c → (i ∈ L → Stored cells' i (g c)) ∧ (i ∉ L → Stored cells' i c)
  | [], cells, _ => ⟨cells, rfl, rfl, fun i c hc => ⟨by simp, fun _ => hc⟩⟩
  | a :: L, cells, h => by
    obtain ⟨c, hc, hg⟩ := h a (by simp)
    have ha := stored_lt hc
    obtain ⟨cells', h1, h2, h3⟩ := foldlM_set hstep hidem hgood L (cells.set a (some (g c))) (by
      intro i hi
      obtain ⟨d, hd, hgd⟩ := h i (by simp [hi])
      by_cases hia : a = i
      · subst hia
        exact ⟨g c, (stored_set ha).2 (by simp), hgood c hg⟩
      · exact ⟨d, (stored_set ha).2 (by simp [hia, hd]), hgd⟩)
    refine ⟨cells', by rw [List.foldlM_cons, hstep _ _ _ hc hg]; exact h1, by simpa using h2, ?_⟩
    intro i d hd
    by_cases hia : a = i
    · subst hia
      obtain rfl := stored_unique' hc hd
      have := h3 a (g c) ((stored_set ha).2 (by simp))
      refine ⟨fun _ => ?_, fun hn => absurd (by simp) hn⟩
      by_cases hL : a ∈ L
      · have := this.1 hL
        rwa [hidem] at this
      · exact this.2 hL
    · have := h3 i d ((stored_set ha).2 (by simp [hia, hd]))
      refine ⟨fun hi => this.1 ?_, fun hi => this.2 fun h' => hi (by simp [h'])⟩
      rcases List.mem_cons.1 hi with rfl | hi
      · exact absurd rfl hia
      · exact hi

theorem updateEntity_ok {e : Nat} {m : Dict Nat Nat} {cells : Cells} {i : Nat} {c : Cell}
    (hc : Stored cells i c) (he : e < c.sub.length) :
    updateEntity e m cells i = .ok (cells.set i (some (mapSub e (rename m) c))) := by
  unfold updateEntity
  rw [cellAt_iff.2 hc, Res.bind_ok]
  have h1 : Cell.subIds c e = .ok c.sub[e] := getIdx_of (List.getElem?_eq_getElem he)
  rw [h1, Res.bind_ok, Res.pure_eq]
  congr 3
  unfold mapSub
  rw [List.modify_eq_set_getElem?, List.getElem?_eq_getElem he]
  rfl

theorem updateVertices_ok {vm nm : Dict Nat Nat} {cells : Cells} {i : Nat} {c : Cell}
    (hc : Stored cells i c) (he : 0 < c.sub.length) :
    updateVertices vm nm cells i =
      .ok (cells.set i (some (mapVertices (rename vm) (rename nm) c))) := by
  unfold updateVertices
  rw [updateEntity_ok hc he, Res.bind_ok]
  unfold updateNodes
  have hi := stored_lt hc
  have h1 : Stored (cells.set i (some (mapSub 0 (rename vm) c))) i (mapSub 0 (rename vm) c) :=
    (stored_set hi).2 (by simp)
  rw [cellAt_iff.2 h1, Res.bind_ok, Res.pure_eq, List.set_set]
  rfl

/-- Renaming the sub-cells of dimension `e` of the cells of a list of ids. -/
theorem fold_updateEntity {e s n : Nat} {keys L : List Nat} {cells : Cells} (hn : keys.Nodup)
    (hl : n = keys.length) (hlt : ∀ x ∈ keys, x < s)
    (h : ∀ i ∈ L, ∃ c, Stored cells i c ∧ e < c.sub.length) :
    ∃ cells', L.foldlM (updateEntity e (Dict.ofList (keys.zip (List.range' s n)))) cells =
        .ok cells' ∧ cells'.length = cells.length ∧
      ∀ i c, Stored cells i c → (i ∈ L → Stored cells' i (mapSub e (copyOf keys s) c)) ∧
        (i ∉ L → Stored cells' i c) := by
  have he : rename (Dict.ofList (keys.zip (List.range' s n))) = copyOf keys s :=
    funext fun x => rename_eq hn hl x
  refine foldlM_set (g := mapSub e (copyOf keys s)) (good := fun c => e < c.sub.length) ?_
    (mapSub_idem (copyOf_idem hlt)) ?_ L cells h
  · intro cells i c hc h'
    rw [updateEntity_ok hc h', he]
  · intro c h'
    simpa [mapSub] using h'

theorem fold_updateVertices {s n s' n' : Nat} {keys keys' L : List Nat} {cells : Cells}
    (hn : keys.Nodup) (hl : n = keys.length) (hlt : ∀ x ∈ keys, x < s)
    (hn' : keys'.Nodup) (hl' : n' = keys'.length) (hlt' : ∀ x ∈ keys', x < s')
    (h : ∀ i ∈ L, ∃ c, Stored cells i c ∧ 0 < c.sub.length) :
    ∃ cells', L.foldlM (updateVertices (Dict.ofList (keys.zip (List.range' s n)))
        (Dict.ofList (keys'.zip (List.range' s' n')))) cells = .ok cells' ∧
      cells'.length = cells.length ∧
      ∀ i c, Stored cells i c →
        (i ∈ L → Stored cells' i (mapVertices (copyOf keys s) (copyOf keys' s') c)) ∧
        (i ∉ L → Stored cells' i c) := by
  have he : rename (Dict.ofList (keys.zip (List.range' s n))) = copyOf keys s :=
    funext fun x => rename_eq hn hl x
  have he' : rename (Dict.ofList (keys'.zip (List.range' s' n'))) = copyOf keys' s' :=
    funext fun x => rename_eq hn' hl' x
  refine foldlM_set (g := mapVertices (copyOf keys s) (copyOf keys' s'))
    (good := fun c => 0 < c.sub.length) ?_
    (mapVertices_idem (copyOf_idem hlt) (copyOf_idem hlt')) ?_ L cells h
  · intro cells i c hc h'
    rw [updateVertices_ok hc h', he, he']
  · intro c h'
    simpa [mapVertices] using h'

/-! ### Sides -/

theorem splitSides_ok {side : Nat → Res Bool} : ∀ {l : List Nat} {r : List Nat × List Nat},
    splitSides side l = .ok r → (∀ i, i ∈ r.1 ↔ i ∈ l ∧ side i = .ok true) ∧
      (∀ i, i ∈ r.2 ↔ i ∈ l ∧ side i = .ok false)
  | [], r, h => by cases h; simp
  | a :: l, r, h => by
    rw [splitSides] at h
    obtain ⟨b, h1, h⟩ := Res.bind_eq_ok.1 h
    obtain ⟨r', h2, h⟩ := Res.bind_eq_ok.1 h
    obtain ⟨e1, e2⟩ := splitSides_ok h2
    cases h
    have aux : ∀ {i : Nat} {b' : Bool}, side i = .ok b' → i = a → b' = b := by
      rintro i b' hi rfl
      rw [h1] at hi
      exact (Except.ok.inj hi).symm
    cases b with
    | true =>
      refine ⟨fun i => ?_, fun i => ?_⟩
      · simp only [if_true, List.mem_cons, e1]
        constructor
        · rintro (rfl | ⟨h3, h4⟩)
          · exact ⟨.inl rfl, h1⟩
          · exact ⟨.inr h3, h4⟩
        · rintro ⟨rfl | h3, h4⟩
          · exact .inl rfl
          · exact .inr ⟨h3, h4⟩
      · simp only [if_true, List.mem_cons, e2]
        constructor
        · rintro ⟨h3, h4⟩; exact ⟨.inr h3, h4⟩
        · rintro ⟨h3 | h3, h4⟩
          · cases aux h4 h3
          · exact ⟨h3, h4⟩
    | false =>
      refine ⟨fun i => ?_, fun i => ?_⟩
      · simp only [Bool.false_eq_true, if_false, List.mem_cons, e1]
        constructor
        · rintro ⟨h3, h4⟩; exact ⟨.inr h3, h4⟩
        · rintro ⟨h3 | h3, h4⟩
          · cases aux h4 h3
          · exact ⟨h3, h4⟩
      · simp only [Bool.false_eq_true, if_false, List.mem_cons, e2]
        constructor
        · rintro (rfl | ⟨h3, h4⟩)
          · exact ⟨.inl rfl, h1⟩
          · exact ⟨.inr h3, h4⟩
        · rintro ⟨rfl | h3, h4⟩
          · exact .inl rfl
          · exact .inr ⟨h3, h4⟩

theorem splitSides_total {side : Nat → Res Bool} : ∀ {l : List Nat},
    (∀ i ∈ l, ∃ b, side i = .ok b) → ∃ r, splitSides side l = .ok r
  | [], _ => ⟨_, rfl⟩
  | a :: l, h => by
    obtain ⟨b, hb⟩ := h a (by simp)
    obtain ⟨r, hr⟩ := splitSides_total (l := l) fun x hx => h x (List.mem_cons_of_mem _ hx)
    exact ⟨_, by rw [splitSides, hb, Res.bind_ok, hr, Res.bind_ok]; rfl⟩

theorem positiveQ_iff {k : Cut} {p : Parts} {i : Nat} {c : Cell} (hc : Stored p.cells i c)
    {σ : Bool} : positiveQ k p i = .ok σ ↔ Side k p.points c σ := by
  unfold positiveQ Side
  rw [cellAt_iff.2 hc, Res.bind_ok]
  constructor
  · intro h
    obtain ⟨x, h1, h2⟩ := Res.bind_eq_ok.1 h
    refine ⟨x, h1, ?_⟩
    obtain rfl := Except.ok.inj h2
    simp
  · rintro ⟨x, h1, h2⟩
    rw [h1, Res.bind_ok, Res.pure_eq]
    congr 1
    rw [Bool.eq_iff_iff, h2]
    simp

theorem Side.unique {k : Cut} {points : Points ℝ} {c : Cell} {σ σ' : Bool}
    (h : Side k points c σ) (h' : Side k points c σ') : σ = σ' := by
  obtain ⟨x, h1, h2⟩ := h
  obtain ⟨x', h3, h4⟩ := h'
  rw [h1] at h3
  obtain rfl := Except.ok.inj h3
  rw [Bool.eq_iff_iff, h2, h4]

theorem side_congr {k : Cut} {points : Points ℝ} {c d : Cell} (h : c.nodeTags = d.nodeTags)
    {σ : Bool} : Side k points c σ ↔ Side k points d σ := by
  unfold Side cellCentroid
  rw [h]

/-! ### Copies -/

theorem copyEdges_ok {s : Style} {mat : Option Int} {σ : Int} : ∀ {f r : List Cell} {n : Nat},
    copyEdges s mat σ n f = .ok r → r.length = f.length ∧
      ∀ (j : Nat) c, f[j]? = some c → ∃ m, mat = some m ∧ r[j]? = some
        { c with material := some (s.scale * m + σ), id := n + j,
                 sub := c.sub.set c.dimension (s.own (n + j) c.id) }
  | [], r, n, h => by cases h; simp
  | a :: f, r, n, h => by
    rw [copyEdges] at h
    obtain ⟨t, h1, h⟩ := Res.bind_eq_ok.1 h
    obtain ⟨c', h2, h⟩ := Res.bind_eq_ok.1 h
    obtain ⟨r', h3, h⟩ := Res.bind_eq_ok.1 h
    obtain ⟨e1, e2⟩ := copyEdges_ok h3
    cases h
    refine ⟨by simp [e1], fun j c hj => ?_⟩
    cases j with
    | zero =>
      obtain rfl : a = c := by simpa using hj
      cases mat with
      | none => cases h1
      | some m =>
        cases h1
        unfold Cell.setSub at h2
        rw [if_pos (le_refl _)] at h2
        cases h2
        exact ⟨m, rfl, rfl⟩
    | succ j =>
      obtain ⟨m, hm, h4⟩ := e2 j c (by simpa using hj)
      refine ⟨m, hm, ?_⟩
      rw [List.getElem?_cons_succ, h4]
      simp only [Nat.add_assoc, Nat.add_comm 1 j]

theorem copyEdges_total {s : Style} {mat : Option Int} {σ : Int} (hm : mat ≠ none) :
    ∀ {f : List Cell} {n : Nat}, ∃ r, copyEdges s mat σ n f = .ok r
  | [], n => ⟨_, rfl⟩
  | a :: f, n => by
    obtain ⟨r, hr⟩ := copyEdges_total (s := s) (σ := σ) hm (f := f) (n := n + 1)
    cases mat with
    | none => exact absurd rfl hm
    | some m =>
      rw [copyEdges]
      simp only [sideTag, Res.bind_ok, Cell.setSub, le_refl, if_true, hr]
      exact ⟨_, rfl⟩

theorem copyVertices_ok {s : Style} {mat : Option Int} {σ : Int} {cells : Cells} :
    ∀ {vs : List Nat} {r : List Cell} {n t : Nat}, copyVertices s mat σ cells n t vs = .ok r →
      r.length = vs.length ∧ ∀ (j : Nat) v, vs[j]? = some v → ∃ c, Stored cells v c ∧
        (c.material = none ∨ mat ≠ none) ∧ r[j]? = some ⟨0, n + j,
          c.material.bind fun _ => mat.map fun m => s.scale * m + σ, [t + j], [[t + j]]⟩
  | [], r, n, t, h => by cases h; simp
  | a :: vs, r, n, t, h => by
    rw [copyVertices] at h
    obtain ⟨c, h1, h⟩ := Res.bind_eq_ok.1 h
    obtain ⟨m, h2, h⟩ := Res.bind_eq_ok.1 h
    obtain ⟨c', h3, h⟩ := Res.bind_eq_ok.1 h
    obtain ⟨r', h4, h⟩ := Res.bind_eq_ok.1 h
    obtain ⟨e1, e2⟩ := copyVertices_ok h4
    cases h
    refine ⟨by simp [e1], fun j v hj => ?_⟩
    cases j with
    | zero =>
      obtain rfl : a = v := by simpa using hj
      refine ⟨c, cellAt_iff.1 h1, ?_⟩
      unfold Cell.setSub createCell at h3
      simp only [le_refl, if_true] at h3
      cases h3
      cases hcm : c.material with
      | none =>
        rw [hcm] at h2
        cases h2
        exact ⟨.inl rfl, rfl⟩
      | some _ =>
        rw [hcm] at h2
        cases mat with
        | none => cases h2
        | some m => cases h2; exact ⟨.inr (by simp), rfl⟩
    | succ j =>
      obtain ⟨d, hd, hd', h5⟩ := e2 j v (by simpa using hj)
      refine ⟨d, hd, hd', ?_⟩
      rw [List.getElem?_cons_succ, h5]
      simp only [Nat.add_assoc, Nat.add_comm 1 j]

theorem copyVertices_total {s : Style} {mat : Option Int} {σ : Int} {cells : Cells}
    (hm : mat ≠ none) : ∀ {vs : List Nat} {n t : Nat}, (∀ v ∈ vs, ∃ c, Stored cells v c) →
      ∃ r, copyVertices s mat σ cells n t vs = .ok r
  | [], n, t, _ => ⟨_, rfl⟩
  | a :: vs, n, t, h => by
    obtain ⟨r, hr⟩ := copyVertices_total (s := s) (σ := σ) hm (vs := vs) (n := n + 1) (t := t + 1)
      fun v hv => h v (by simp [hv])
    obtain ⟨c, hc⟩ := h a (by simp)
    cases mat with
    | none => exact absurd rfl hm
    | some m =>
      rw [copyVertices, cellAt_iff.2 hc, Res.bind_ok]
      cases c.material <;>
        simp only [sideTag, Res.bind_ok, Cell.setSub, createCell, le_refl, if_true, hr] <;>
        exact ⟨_, rfl⟩

/-! ### Graphs -/

theorem CutOK.eq_map {cells : Cells} {n : Nat} (h : CutOK cells n) :
    ∃ cs : List Cell, cells = cs.map some := by
  refine ⟨cells.filterMap id, ?_⟩
  apply List.ext_getElem?
  intro i
  have key : ∀ l : Cells, (∀ i < l.length, ∃ c, Stored l i c) → l = (l.filterMap id).map some := by
    intro l
    induction l with
    | nil => intro _; rfl
    | cons a l ih =>
      intro hl
      obtain ⟨c, hc⟩ := hl 0 (by simp)
      obtain rfl : a = some c := by simpa [Stored] using hc
      have := ih fun i hi => by
        obtain ⟨d, hd⟩ := hl (i + 1) (by simpa using hi)
        exact ⟨d, by simpa [Stored] using hd⟩
      simpa using this
  rw [← key cells h.filled]

/-- The graph of the cells of dimension `d` and their sub-cells of dimension `t < d`. -/
theorem CutOK.graph {cells : Cells} {n : Nat} (h : CutOK cells n) {d co : Nat} (hd : d ≤ 2)
    (hco : 0 < co) (hco' : co ≤ d) : ∃ g, buildGraph ⟨2, cells⟩ d co = .ok g ∧
      (∀ j l, g.predecessors (d - co, j) = .ok l → ∀ i,
        i ∈ l.map Prod.snd ↔ HasDim cells d i ∧ SubEntity cells i (d - co) j) ∧
      (∀ j, (∃ i, HasDim cells d i ∧ SubEntity cells i (d - co) j) →
        ∃ l, g.predecessors (d - co, j) = .ok l) ∧
      (∀ j, (¬ ∃ i, HasDim cells d i ∧ SubEntity cells i (d - co) j) →
        g.predecessors (d - co, j) = .error .networkXError) := by
  obtain ⟨cs, hcs⟩ := h.eq_map
  set sel := cs.filter fun c => c.dimension == d with hsel
  have hmem : ∀ c, c ∈ sel ↔ Stored cells c.id c ∧ c.dimension = d := by
    intro c
    rw [hsel, List.mem_filter, beq_iff_eq]
    constructor
    · rintro ⟨hc, hcd⟩
      obtain ⟨i, hi, rfl⟩ := List.mem_iff_getElem.1 hc
      have hst : Stored cells i cs[i] := by rw [hcs]; exact stored_map.2 (by simp [hi])
      rw [h.ids _ _ hst]
      exact ⟨hst, hcd⟩
    · rintro ⟨hst, hcd⟩
      rw [hcs, stored_map] at hst
      exact ⟨List.mem_of_getElem? hst, hcd⟩
  have hgather : ∀ (l : List Cell), (∀ c ∈ l, c ∈ sel) →
      gatherAll cells ((d - co : Nat) : Int) l = .ok (l.flatMap (cellEdges (d - co))) := by
    intro l
    induction l with
    | nil => intro _; rfl
    | cons c l ih =>
      intro hl
      obtain ⟨hst, hcd⟩ := (hmem c).1 (hl c (by simp))
      have hlen := h.subLen _ _ hst
      have hlt : d - co < c.sub.length := by omega
      have hsub : c.sub[d - co]? = some (subD c (d - co)) := by
        simp [subD, List.getElem?_eq_getElem hlt]
      have h1 : gatherGraphEdges cells recursionLimit ((d - co : Nat) : Int) c =
          .ok (cellEdges (d - co) c) := by
        have hcond : ((d - co : Nat) : Int) = 0 ∨ ((d - co : Nat) : Int) = 1 ∨
          ((d - co : Nat) : Int) = 2 ∨ ((d - co : Nat) : Int) = 3 := by omega
        rw [recursionLimit, gatherGraphEdges, if_pos hcond]
        have : Cell.subIds c (((d - co : Nat) : Int).toNat) = .ok (subD c (d - co)) := by
          simp only [Int.toNat_natCast]; exact getIdx_of hsub
        rw [this, Res.bind_ok, gather_foldlM]
        · simp [cellEdges]
        · intro id hid
          obtain ⟨s, hs, hsd⟩ := h.sub _ c hst (d - co) (by omega) _ hsub id hid
          exact ⟨s, hs, hsd, h.ids _ _ hs⟩
      rw [gatherAll, h1, Res.bind_ok, ih fun c hc => hl c (by simp [hc])]
      rfl
  have hb : buildGraph ⟨2, cells⟩ d co =
      .ok (DiGraph.ofEdges (sel.flatMap (cellEdges (d - co)))) := by
    unfold buildGraph
    have h1 : selectCells (fun c => c.dimension == d) cells = .ok sel := by
      rw [hcs]; exact selectCells_filled _ cs
    have h2 : (d : Int) - co = ((d - co : Nat) : Int) := by omega
    dsimp only
    rw [h1, Res.bind_ok, h2, hgather sel fun c hc => hc]
    rfl
  refine ⟨_, hb, ?_, ?_, ?_⟩
  · intro j l hl i
    unfold DiGraph.predecessors at hl
    split at hl
    · cases hl
      simp only [List.mem_map, List.mem_filter, DiGraph.mem_ofEdges_edges, List.mem_flatMap,
        decide_eq_true_eq]
      constructor
      · rintro ⟨u, ⟨e, ⟨⟨c, hc, he⟩, he2⟩, rfl⟩, rfl⟩
        obtain ⟨h1, h2, h3⟩ := mem_cellEdges.1 he
        obtain ⟨hst, hcd⟩ := (hmem c).1 hc
        rw [h1]
        rw [he2] at h3
        exact ⟨⟨c, hst, hcd⟩, (subEntity_iff hst).2 h3⟩
      · rintro ⟨⟨c, hc, hcd⟩, hs⟩
        have hi := h.ids _ _ hc
        subst hi
        exact ⟨(d, c.id), ⟨((d, c.id), (d - co, j)), ⟨⟨c, (hmem c).2 ⟨hc, hcd⟩, mem_cellEdges.2
          ⟨by rw [hcd], rfl, (subEntity_iff hc).1 hs⟩⟩, rfl⟩, rfl⟩, rfl⟩
    · cases hl
  · rintro j ⟨i, ⟨c, hc, hcd⟩, hs⟩
    have hi := h.ids _ _ hc
    subst hi
    unfold DiGraph.predecessors
    rw [if_pos]
    · exact ⟨_, rfl⟩
    · rw [DiGraph.mem_ofEdges_nodes]
      exact ⟨((d, c.id), (d - co, j)), List.mem_flatMap.2 ⟨c, (hmem c).2 ⟨hc, hcd⟩,
        mem_cellEdges.2 ⟨by rw [hcd], rfl, (subEntity_iff hc).1 hs⟩⟩, .inr rfl⟩
  · intro j hj
    unfold DiGraph.predecessors
    rw [if_neg]
    rw [DiGraph.mem_ofEdges_nodes]
    rintro ⟨e, he, h1⟩
    obtain ⟨c, hc, he⟩ := List.mem_flatMap.1 he
    obtain ⟨e1, e2, e3⟩ := mem_cellEdges.1 he
    obtain ⟨hst, hcd⟩ := (hmem c).1 hc
    rcases h1 with h1 | h1
    · rw [e1, hcd] at h1
      have := congrArg Prod.fst h1
      simp only at this
      omega
    · rw [← h1] at e3
      exact hj ⟨c.id, ⟨c, hst, hcd⟩, (subEntity_iff hst).2 e3⟩

end Verif.EmbedCut
