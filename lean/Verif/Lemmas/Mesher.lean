/-
Lemmas on the transfer of a domain to gmsh.
-/
import Verif.Spec.Mesher
import Verif.Lemmas.Trace
import Verif.Lemmas.Graph

namespace Verif.Mesher
open Topology Topology.Shape MeshGraph
variable {P : Type}

/-! ### Sequences of calls -/

theorem wf_append : ∀ (cs cs' : List (Call P)) (made : List Ent),
    WellFormed made (cs ++ cs') ↔ WellFormed made cs ∧ WellFormed (made ++ created cs) cs'
  | [], cs', made => by simp [WellFormed, created]
  | c :: cs, cs', made => by
    rw [List.cons_append]
    simp only [WellFormed]
    rw [wf_append cs cs', and_assoc]
    have : made ++ c.creates ++ created cs = made ++ created (c :: cs) := by
      simp [created]
    rw [this]

theorem wf_mono : ∀ (cs : List (Call P)) {made made' : List Ent}, (∀ e ∈ made, e ∈ made') →
    WellFormed made cs → WellFormed made' cs
  | [], _, _, _, _ => trivial
  | c :: cs, made, made', h, hw => by
    refine ⟨fun r hr => h r (hw.1 r hr), wf_mono cs ?_ hw.2⟩
    intro e he
    rcases List.mem_append.1 he with he | he
    · exact List.mem_append_left _ (h e he)
    · exact List.mem_append_right _ he

theorem callsOf_wf {f : Shape P → Res (List (Call P))} {g : Shape P → List Ent} {made : List Ent} :
    ∀ l : List (Shape P), (∀ s ∈ l, ∃ cs, f s = .ok cs ∧ WellFormed made cs ∧ created cs = g s) →
      ∃ cs, callsOf f l = .ok cs ∧ WellFormed made cs ∧ created cs = l.flatMap g
  | [], _ => ⟨[], rfl, trivial, rfl⟩
  | s :: l, h => by
    obtain ⟨cs, h1, h2, h3⟩ := h s (by simp)
    obtain ⟨cs', h4, h5, h6⟩ := callsOf_wf l fun s hs => h s (List.mem_cons_of_mem _ hs)
    refine ⟨cs ++ cs', ?_, (wf_append _ _ _).2 ⟨h2, wf_mono _ ?_ h5⟩, ?_⟩
    · unfold callsOf at h4 ⊢
      obtain ⟨r, e1, e2⟩ := Res.bind_eq_ok.1 h4
      cases e2
      rw [show mapRes f (s :: l) = .ok (cs :: r) from
        Trace.mapRes_iff.2 (.cons h1 (Trace.mapRes_iff.1 e1)), Res.bind_ok]
      rfl
    · intro e he; exact List.mem_append_left _ he
    · rw [List.flatMap_cons, ← h3, ← h6]; simp [created]

/-! ### Dimensions and strides -/

theorem scan_lt {shapes : List (List (Shape P))} (h : 0 < shapes.length) :
    scanDimension shapes < shapes.length := by
  unfold scanDimension
  cases hf : (List.range shapes.length).find? (noShapes shapes) with
  | none => simp only [Option.getD_none]; omega
  | some i => simpa using List.mem_of_find?_eq_some hf

/-- Dimensions below the one found have shapes. -/
theorem scan_spec {shapes : List (List (Shape P))} {k : Nat} (h : k < scanDimension shapes) :
    ∃ s l, shapes[k]? = some (s :: l) := by
  have hpos : 0 < shapes.length := by
    by_contra hn
    have : shapes = [] := List.length_eq_zero_iff.1 (by omega)
    subst this
    simp [scanDimension] at h
  have hlt := scan_lt hpos
  have hk : k < shapes.length := h.trans hlt
  have hg := List.getElem?_eq_getElem hk
  have hne : ¬ (shapes[k]? = some []) := by
    intro he
    unfold scanDimension at h
    cases hf : (List.range shapes.length).find? (noShapes shapes) with
    | none =>
      have := List.find?_eq_none.1 hf k (by simpa using hk)
      simp [noShapes, he] at this
    | some i =>
      rw [hf] at h
      simp only [Option.getD_some] at h
      obtain ⟨-, as, bs, e, hall⟩ := List.find?_eq_some_iff_append.1 hf
      have hmem : k ∈ as := by
        have h1 : (List.range shapes.length)[k]? = some k := by simp [hk]
        have hi : as.length = i := by
          have h2 : (List.range shapes.length)[as.length]? = some i := by rw [e]; simp
          rw [List.getElem?_range] at h2
          · simpa using h2
          · by_contra hc
            rw [List.getElem?_eq_none (by simpa using hc)] at h2
            cases h2
        rw [e, List.getElem?_append_left (by omega)] at h1
        exact List.mem_of_getElem? h1
      have := hall k hmem
      simp [noShapes, he] at this
  rw [hg] at hne ⊢
  cases hs : shapes[k] with
  | nil => rw [hs] at hne; exact absurd rfl hne
  | cons s l => exact ⟨s, l, rfl⟩

theorem stride_nonneg (shapes : List (List (Shape P))) (k : Nat) : 0 ≤ stride shapes k :=
  Int.natCast_nonneg _

theorem stride_zero (shapes : List (List (Shape P))) : stride shapes 0 = 0 := by simp [stride]

theorem stride_mono {shapes : List (List (Shape P))} {j k : Nat} (h : j < k) {l : List (Shape P)}
    (hl : shapes[j]? = some l) : stride shapes j + l.length ≤ stride shapes k := by
  have e1 : stride shapes (j + 1) = stride shapes j + l.length := by
    unfold stride
    rw [List.take_add_one, hl]
    simp
  have e2 : ∀ m, stride shapes (j + 1) ≤ stride shapes (j + 1 + m) := by
    intro m
    unfold stride
    rw [List.take_add (i := j + 1) (j := m), List.map_append, List.sum_append]
    exact Int.ofNat_le.2 (Nat.le_add_right _ _)
  have := e2 (k - (j + 1))
  rw [show j + 1 + (k - (j + 1)) = k by omega] at this
  omega

theorem gmshTag_inj {shapes : List (List (Shape P))} {k : Nat} {s s' : Shape P} :
    gmshTag shapes k s = gmshTag shapes k s' ↔ s.tag = s'.tag := by
  unfold gmshTag; omega

/-! ### Entities -/

def pointEnt (shapes : List (List (Shape P))) (s : Shape P) : List Ent := [.dim 0 (gmshTag shapes 0 s)]

def lineEnt (v : Variant P) (shapes : List (List (Shape P))) (s : Shape P) : List Ent :=
  if v.skipCurve s then [] else [.dim 1 (gmshTag shapes 1 s)]

def surfaceEnt (shapes : List (List (Shape P))) (s : Shape P) : List Ent :=
  if s.composite then [] else [.curveLoop (gmshTag shapes 2 s), .dim 2 (gmshTag shapes 2 s)]

def volumeEnt (shapes : List (List (Shape P))) (s : Shape P) : List Ent :=
  if s.composite then [] else [.surfaceLoop (gmshTag shapes 3 s), .dim 3 (gmshTag shapes 3 s)]

/-- The entities of the shapes of one dimension. -/
def ents (shapes : List (List (Shape P))) (k : Nat) (g : Shape P → List Ent) : List Ent :=
  (shapes[k]?.getD []).flatMap g

/-- All entities. -/
def allEnts (v : Variant P) (shapes : List (List (Shape P))) : List Ent :=
  ents shapes 0 (pointEnt shapes) ++ ents shapes 1 (lineEnt v shapes) ++
    (if scanDimension shapes > 1 then ents shapes 2 (surfaceEnt shapes) else []) ++
    (if scanDimension shapes > 2 then ents shapes 3 (volumeEnt shapes) else [])

theorem mem_ents {shapes : List (List (Shape P))} {k : Nat} {g : Shape P → List Ent} {e : Ent} :
    e ∈ ents shapes k g ↔ ∃ l, shapes[k]? = some l ∧ ∃ s ∈ l, e ∈ g s := by
  unfold ents
  cases h : shapes[k]? with
  | none => simp
  | some l => simp

/-- Known shapes have their entity among those of their dimension. -/
theorem known_mem {v : Variant P} {shapes : List (List (Shape P))} {t : Int} :
    (Known v shapes 0 t → .dim 0 (t + 1) ∈ ents shapes 0 (pointEnt shapes)) ∧
    (Known v shapes 1 t → .dim 1 (stride shapes 1 + t + 1) ∈ ents shapes 1 (lineEnt v shapes)) ∧
    (Known v shapes 2 t → .dim 2 (stride shapes 2 + t + 1) ∈ ents shapes 2 (surfaceEnt shapes)) ∧
    (Known v shapes 3 t → .dim 3 (stride shapes 3 + t + 1) ∈ ents shapes 3 (volumeEnt shapes)) := by
  refine ⟨?_, ?_, ?_, ?_⟩
  · rintro ⟨l, hl, s, hs, -, rfl⟩
    refine mem_ents.2 ⟨l, hl, s, hs, ?_⟩
    simp [pointEnt, gmshTag, stride_zero]
  · rintro ⟨l, hl, s, hs, ht, rfl⟩
    refine mem_ents.2 ⟨l, hl, s, hs, ?_⟩
    simp only [Transferred, if_true] at ht
    simp [lineEnt, gmshTag, ht]
  · rintro ⟨l, hl, s, hs, ht, rfl⟩
    refine mem_ents.2 ⟨l, hl, s, hs, ?_⟩
    simp [Transferred] at ht
    simp [surfaceEnt, gmshTag, ht]
  · rintro ⟨l, hl, s, hs, ht, rfl⟩
    refine mem_ents.2 ⟨l, hl, s, hs, ?_⟩
    simp [Transferred] at ht
    simp [volumeEnt, gmshTag, ht]

theorem signedTags_spec : ∀ (ts os : List Int), os.length ≤ ts.length → (∀ x ∈ os, x = 1 ∨ x = -1) →
    (∀ t ∈ ts, 0 ≤ t) → ∃ r, signedTags ts os = .ok r ∧ ∀ x ∈ r, |x| ∈ ts
  | ts, [], _, _, _ => ⟨[], by cases ts <;> rfl, by simp⟩
  | [], _ :: _, h, _, _ => by simp at h
  | t :: ts, o :: os, h, ho, ht => by
    obtain ⟨r, h1, h2⟩ := signedTags_spec ts os (by simpa using h)
      (fun x hx => ho x (List.mem_cons_of_mem _ hx)) (fun x hx => ht x (List.mem_cons_of_mem _ hx))
    refine ⟨t * o :: r, by rw [signedTags, h1, Res.bind_ok]; rfl, ?_⟩
    intro x hx
    rcases List.mem_cons.1 hx with rfl | hx
    · have := ht t (by simp)
      rcases ho o (by simp) with rfl | rfl
      · rw [mul_one, abs_of_nonneg this]; simp
      · rw [mul_neg_one, abs_neg, abs_of_nonneg this]; simp
    · exact List.mem_cons_of_mem _ (h2 x hx)

theorem getIdx_some {α : Type} {l : List α} {i : Nat} {x : α} (h : l[i]? = some x) :
    getIdx l i = .ok x := getIdx_of h

theorem ifDimension_wf {shapes : List (List (Shape P))} {k : Nat}
    {f : Shape P → Res (List (Call P))} {g : Shape P → List Ent} {made : List Ent}
    (h : scanDimension shapes > k → ∀ l, shapes[k + 1]? = some l → ∀ s ∈ l,
      ∃ cs, f s = .ok cs ∧ WellFormed made cs ∧ created cs = g s) :
    ∃ cs, ifDimension shapes k f = .ok cs ∧ WellFormed made cs ∧
      created cs = if scanDimension shapes > k then ents shapes (k + 1) g else [] := by
  unfold ifDimension
  by_cases hk : scanDimension shapes > k
  · rw [if_pos hk, if_pos hk]
    have hpos : 0 < shapes.length := by
      obtain ⟨s, l, e⟩ := scan_spec hk
      exact (Nat.zero_le k).trans_lt (List.getElem?_eq_some_iff.1 e).1
    have hlt := scan_lt hpos
    have hg := List.getElem?_eq_getElem (show k + 1 < shapes.length by omega)
    obtain ⟨cs, h1, h2, h3⟩ := callsOf_wf _ (h hk _ hg)
    refine ⟨cs, by rw [getIdx_some hg, Res.bind_ok, h1], h2, ?_⟩
    rw [h3]; simp [ents, hg]
  · rw [if_neg hk, if_neg hk]
    exact ⟨[], rfl, trivial, rfl⟩

/-- The entities of a complete domain are made, each from parts made before. -/
theorem entities_spec {v : Variant P} {shapes : List (List (Shape P))} (h : Complete v shapes) :
    ∃ calls, entities v shapes = .ok calls ∧ WellFormed [] calls ∧
      created calls = allEnts v shapes := by
  obtain ⟨l0, h0⟩ : ∃ l, shapes[0]? = some l :=
    ⟨_, List.getElem?_eq_getElem (by have := h.two; omega)⟩
  obtain ⟨l1, h1⟩ : ∃ l, shapes[1]? = some l :=
    ⟨_, List.getElem?_eq_getElem (by have := h.two; omega)⟩
  -- points
  obtain ⟨c0, a1, a2, a3⟩ := callsOf_wf (f := addVertex) (g := pointEnt shapes) (made := []) l0 (by
    intro s hs
    obtain ⟨t, p, x, rfl⟩ := h.vertices l0 h0 s hs
    exact ⟨_, rfl, ⟨by simp [Call.refs], trivial⟩,
      by simp [created, Call.creates, pointEnt, gmshTag, stride_zero, Shape.tag]⟩)
  have a3' : created c0 = ents shapes 0 (pointEnt shapes) := by rw [a3]; simp [ents, h0]
  -- lines
  obtain ⟨c1, b1, b2, b3⟩ := callsOf_wf (f := addCurve v shapes) (g := lineEnt v shapes)
    (made := created c0) l1 (by
    intro s hs
    unfold addCurve lineEnt
    by_cases hk : v.skipCurve s
    · rw [if_pos hk, if_pos hk]
      exact ⟨[], rfl, trivial, rfl⟩
    · obtain ⟨b, e, rest, e1, e2, e3⟩ := h.curves l1 h1 s hs (by simpa using hk)
      rw [if_neg hk, if_neg hk, getIdx_some (x := b) (by rw [e1]; rfl), Res.bind_ok,
        getIdx_some (x := e) (by rw [e1]; rfl), Res.bind_ok]
      refine ⟨_, rfl, ⟨?_, trivial⟩, rfl⟩
      intro r hr
      rw [a3']
      simp only [Call.refs, List.mem_cons, List.not_mem_nil, or_false] at hr
      rcases hr with rfl | rfl
      · exact known_mem.1 e2
      · exact known_mem.1 e3)
  have b3' : created c1 = ents shapes 1 (lineEnt v shapes) := by rw [b3]; simp [ents, h1]
  -- surfaces
  obtain ⟨c2, d1, d2, d3⟩ := ifDimension_wf (k := 1) (f := addSurface v shapes)
    (g := surfaceEnt shapes) (made := created c0 ++ created c1) (by
    intro _ l hl s hs
    unfold addSurface surfaceEnt
    by_cases hk : s.composite
    · rw [if_pos hk, if_pos hk]
      exact ⟨[], rfl, trivial, rfl⟩
    · obtain ⟨wire, rest, o, e1, e2, e3, e4, e5⟩ := h.surfaces l hl s hs (by simpa using hk)
      have hnn : ∀ t ∈ wire.immersed.map (gmshTag shapes 1), 0 ≤ t := by
        intro t ht
        obtain ⟨c, hc, rfl⟩ := List.mem_map.1 ht
        obtain ⟨l', hl', s', hs', -, hst⟩ := e5 c hc
        have := h.nonneg 1 l' hl' s' hs'
        have := stride_nonneg shapes 1
        unfold gmshTag; omega
      obtain ⟨r, r1, r2⟩ := signedTags_spec _ o (by simpa using e3) e4 hnn
      rw [if_neg hk, if_neg hk, getIdx_some (x := wire) (by rw [e1]; rfl), Res.bind_ok, e2,
        Res.bind_ok, r1, Res.bind_ok]
      refine ⟨_, rfl, ⟨?_, ?_, trivial⟩, rfl⟩
      · intro x hx
        simp only [Call.refs, List.mem_map] at hx
        obtain ⟨c, hc, rfl⟩ := hx
        obtain ⟨c', hc', hct⟩ := List.mem_map.1 (r2 c hc)
        rw [← hct]
        refine List.mem_append_right _ ?_
        rw [b3']
        exact known_mem.2.1 (e5 c' hc')
      · intro x hx
        simp only [Call.refs, List.map_cons, List.map_nil, List.mem_singleton] at hx
        subst hx
        simp [Call.creates])
  -- volumes
  obtain ⟨c3, f1, f2, f3⟩ := ifDimension_wf (k := 2) (f := addVolume shapes)
    (g := volumeEnt shapes) (made := created c0 ++ created c1 ++ created c2) (by
    intro hscan l hl s hs
    unfold addVolume volumeEnt
    by_cases hk : s.composite
    · rw [if_pos hk, if_pos hk]
      exact ⟨[], rfl, trivial, rfl⟩
    · obtain ⟨shell, rest, e1, e2⟩ := h.volumes l hl s hs (by simpa using hk)
      rw [if_neg hk, if_neg hk, getIdx_some (x := shell) (by rw [e1]; rfl), Res.bind_ok]
      refine ⟨_, rfl, ⟨?_, ?_, trivial⟩, rfl⟩
      · intro x hx
        simp only [Call.refs, List.map_map, List.mem_map] at hx
        obtain ⟨c, hc, rfl⟩ := hx
        refine List.mem_append_right _ ?_
        rw [d3, if_pos (by omega)]
        exact known_mem.2.2.1 (e2 c hc)
      · intro x hx
        simp only [Call.refs, List.map_cons, List.map_nil, List.mem_singleton] at hx
        subst hx
        simp [Call.creates])
  have hc : ∀ l l' : List (Call P), created (l ++ l') = created l ++ created l' := by
    intro l l'; simp [created]
  refine ⟨c0 ++ c1 ++ c2 ++ c3, ?_, ?_, ?_⟩
  · unfold entities
    rw [getIdx_some h0, Res.bind_ok, a1, Res.bind_ok, getIdx_some h1, Res.bind_ok, b1, Res.bind_ok,
      d1, Res.bind_ok, f1, Res.bind_ok]
    rfl
  · rw [wf_append, wf_append, wf_append]
    refine ⟨⟨⟨a2, ?_⟩, ?_⟩, ?_⟩
    · simpa using b2
    · simpa [hc] using d2
    · simpa [hc] using f2
  · rw [hc, hc, hc, a3', b3', d3, f3]
    rfl

/-! ### The entities are distinct -/

theorem nodup_flatMap_ents {l : List (Shape P)} {g : Shape P → List Ent} (f : Shape P → Int)
    (hg : ∀ s ∈ l, (g s).Nodup ∧ ∀ e ∈ g s, e.tag = f s)
    (hf : (l.map f).Nodup) : (l.flatMap g).Nodup := by
  rw [List.nodup_flatMap]
  refine ⟨fun s hs => (hg s hs).1, ?_⟩
  have : l.Pairwise fun s s' => f s ≠ f s' := List.pairwise_map.1 hf
  refine List.Pairwise.imp_of_mem ?_ this
  intro s s' hs hs' hne e he he'
  exact hne (((hg s hs).2 e he).symm.trans ((hg s' hs').2 e he'))

theorem ents_nodup {v : Variant P} {shapes : List (List (Shape P))} (h : Complete v shapes) (k : Nat)
    {g : Shape P → List Ent} (hg : ∀ s, (g s).Nodup ∧ ∀ e ∈ g s, e.tag = gmshTag shapes k s) :
    (ents shapes k g).Nodup := by
  unfold ents
  cases hl : shapes[k]? with
  | none => simp
  | some l =>
    refine nodup_flatMap_ents (gmshTag shapes k) (fun s _ => hg s) ?_
    have h1 := h.unique k l hl
    have h2 : l.Pairwise fun s s' => s.tag ≠ s'.tag := List.pairwise_map.1 h1
    exact List.pairwise_map.2 (h2.imp fun hne e => hne (gmshTag_inj.1 e))

theorem ent_cases (v : Variant P) (shapes : List (List (Shape P))) :
    (∀ s, (pointEnt shapes s).Nodup ∧ ∀ e ∈ pointEnt shapes s, e.tag = gmshTag shapes 0 s) ∧
    (∀ s, (lineEnt v shapes s).Nodup ∧ ∀ e ∈ lineEnt v shapes s, e.tag = gmshTag shapes 1 s) ∧
    (∀ s, (surfaceEnt shapes s).Nodup ∧ ∀ e ∈ surfaceEnt shapes s, e.tag = gmshTag shapes 2 s) ∧
    (∀ s, (volumeEnt shapes s).Nodup ∧ ∀ e ∈ volumeEnt shapes s, e.tag = gmshTag shapes 3 s) := by
  refine ⟨fun s => ?_, fun s => ?_, fun s => ?_, fun s => ?_⟩
  · simp [pointEnt, Ent.tag]
  · unfold lineEnt; split <;> simp [Ent.tag]
  · unfold surfaceEnt; split <;> simp [Ent.tag]
  · unfold volumeEnt; split <;> simp [Ent.tag]

/-- The kind of the entities made in each phase. -/
def Ent.phase : Ent → Nat
  | dim k _ => k
  | curveLoop _ => 2
  | surfaceLoop _ => 3

theorem ents_phase (v : Variant P) (shapes : List (List (Shape P))) {e : Ent} :
    (e ∈ ents shapes 0 (pointEnt shapes) → e.phase = 0) ∧
    (e ∈ ents shapes 1 (lineEnt v shapes) → e.phase = 1) ∧
    (e ∈ (if scanDimension shapes > 1 then ents shapes 2 (surfaceEnt shapes) else []) →
      e.phase = 2) ∧
    (e ∈ (if scanDimension shapes > 2 then ents shapes 3 (volumeEnt shapes) else []) →
      e.phase = 3) := by
  refine ⟨?_, ?_, ?_, ?_⟩
  · rw [mem_ents]
    rintro ⟨l, -, s, -, hs⟩
    simp only [pointEnt, List.mem_singleton] at hs
    subst hs; rfl
  · rw [mem_ents]
    rintro ⟨l, -, s, -, hs⟩
    unfold lineEnt at hs
    split at hs
    · cases hs
    · rw [List.mem_singleton] at hs; subst hs; rfl
  · split
    · rw [mem_ents]
      rintro ⟨l, -, s, -, hs⟩
      unfold surfaceEnt at hs
      split at hs
      · cases hs
      · simp only [List.mem_cons, List.not_mem_nil, or_false] at hs
        rcases hs with rfl | rfl <;> rfl
    · intro h; cases h
  · split
    · rw [mem_ents]
      rintro ⟨l, -, s, -, hs⟩
      unfold volumeEnt at hs
      split at hs
      · cases hs
      · simp only [List.mem_cons, List.not_mem_nil, or_false] at hs
        rcases hs with rfl | rfl <;> rfl
    · intro h; cases h

theorem allEnts_nodup {v : Variant P} {shapes : List (List (Shape P))} (h : Complete v shapes) :
    (allEnts v shapes).Nodup := by
  obtain ⟨g0, g1, g2, g3⟩ := ent_cases v shapes
  have n0 := ents_nodup h 0 g0
  have n1 := ents_nodup h 1 g1
  have n2 : (if scanDimension shapes > 1 then ents shapes 2 (surfaceEnt shapes) else []).Nodup := by
    split
    · exact ents_nodup h 2 g2
    · exact List.nodup_nil
  have n3 : (if scanDimension shapes > 2 then ents shapes 3 (volumeEnt shapes) else []).Nodup := by
    split
    · exact ents_nodup h 3 g3
    · exact List.nodup_nil
  have ph := fun e => ents_phase v shapes (e := e)
  unfold allEnts
  rw [List.nodup_append, List.nodup_append, List.nodup_append]
  refine ⟨⟨⟨n0, n1, ?_⟩, n2, ?_⟩, n3, ?_⟩
  · rintro a ha b hb rfl
    have := (ph a).1 ha; have := (ph a).2.1 hb; omega
  · rintro a ha b hb rfl
    have := (ph a).2.2.1 hb
    rcases List.mem_append.1 ha with ha | ha
    · have := (ph a).1 ha; omega
    · have := (ph a).2.1 ha; omega
  · rintro a ha b hb rfl
    have := (ph a).2.2.2 hb
    rcases List.mem_append.1 ha with ha | ha
    · rcases List.mem_append.1 ha with ha | ha
      · have := (ph a).1 ha; omega
      · have := (ph a).2.1 ha; omega
    · have := (ph a).2.2.1 ha; omega

/-- Every entity comes from a shape of its dimension. -/
theorem mem_allEnts {v : Variant P} {shapes : List (List (Shape P))} {e : Ent}
    (he : e ∈ allEnts v shapes) :
    ∃ l, shapes[e.phase]? = some l ∧ ∃ s ∈ l, Transferred v e.phase s ∧
      e.tag = gmshTag shapes e.phase s := by
  obtain ⟨g0, g1, g2, g3⟩ := ent_cases v shapes
  obtain ⟨p0, p1, p2, p3⟩ := ents_phase v shapes (e := e)
  unfold allEnts at he
  rcases List.mem_append.1 he with he | he
  · rcases List.mem_append.1 he with he | he
    · rcases List.mem_append.1 he with he | he
      · rw [p0 he]
        obtain ⟨l, hl, s, hs, h⟩ := mem_ents.1 he
        exact ⟨l, hl, s, hs, by simp [Transferred], (g0 s).2 e h⟩
      · rw [p1 he]
        obtain ⟨l, hl, s, hs, h⟩ := mem_ents.1 he
        refine ⟨l, hl, s, hs, ?_, (g1 s).2 e h⟩
        unfold lineEnt at h
        split at h
        · cases h
        · rename_i hk; simpa [Transferred] using hk
    · rw [p2 he]
      split at he
      · obtain ⟨l, hl, s, hs, h⟩ := mem_ents.1 he
        refine ⟨l, hl, s, hs, ?_, (g2 s).2 e h⟩
        unfold surfaceEnt at h
        split at h
        · cases h
        · rename_i hk; simpa [Transferred] using hk
      · cases he
  · rw [p3 he]
    split at he
    · obtain ⟨l, hl, s, hs, h⟩ := mem_ents.1 he
      refine ⟨l, hl, s, hs, ?_, (g3 s).2 e h⟩
      unfold volumeEnt at h
      split at h
      · cases h
      · rename_i hk; simpa [Transferred] using hk
    · cases he

/-! ### Physical groups -/

/-- Known shapes of a dimension that is transferred have their entity. -/
theorem known_made {v : Variant P} {shapes : List (List (Shape P))} {k : Nat} {t : Int}
    (h : Known v shapes k t) (hk : k < 2 ∨ (k < 4 ∧ scanDimension shapes ≥ k)) :
    .dim k (stride shapes k + t + 1) ∈ allEnts v shapes := by
  unfold allEnts
  match k, h, hk with
  | 0, h, _ =>
    rw [stride_zero, zero_add]
    exact List.mem_append_left _ (List.mem_append_left _ (List.mem_append_left _ (known_mem.1 h)))
  | 1, h, _ =>
    exact List.mem_append_left _ (List.mem_append_left _ (List.mem_append_right _ (known_mem.2.1 h)))
  | 2, h, hk =>
    refine List.mem_append_left _ (List.mem_append_right _ ?_)
    rw [if_pos (by omega)]
    exact known_mem.2.2.1 h
  | 3, h, hk =>
    refine List.mem_append_right _ ?_
    rw [if_pos (by omega)]
    exact known_mem.2.2.2 h
  | n + 4, _, hk => omega

/-- All dimensions below have shapes. -/
theorem le_scan {shapes : List (List (Shape P))} {k : Nat} (hk : k < shapes.length)
    (h : ∀ j < k, noShapes shapes j = false) : k ≤ scanDimension shapes := by
  unfold scanDimension
  cases hf : (List.range shapes.length).find? (noShapes shapes) with
  | none => simp only [Option.getD_none]; omega
  | some i =>
    simp only [Option.getD_some]
    by_contra hc
    have h1 := List.find?_some hf
    rw [h i (by omega)] at h1
    cases h1

/-- The calls make nothing and refer to things made before. -/
def OnlyRefs (made : List Ent) (cs : List (Call P)) : Prop :=
  ∀ c ∈ cs, c.creates = [] ∧ ∀ r ∈ c.refs, r ∈ made

theorem OnlyRefs.spec {made : List Ent} : ∀ {cs : List (Call P)}, OnlyRefs made cs →
    WellFormed made cs ∧ created cs = []
  | [], _ => ⟨trivial, rfl⟩
  | c :: cs, h => by
    obtain ⟨h1, h2⟩ := h c (by simp)
    obtain ⟨h3, h4⟩ := OnlyRefs.spec (cs := cs) fun c hc => h c (List.mem_cons_of_mem _ hc)
    refine ⟨⟨h2, by rw [h1, List.append_nil]; exact h3⟩, ?_⟩
    unfold created at h4 ⊢
    rw [List.flatMap_cons, h1, h4]; rfl

theorem OnlyRefs.append {made : List Ent} {cs cs' : List (Call P)} (h : OnlyRefs made cs)
    (h' : OnlyRefs made cs') : OnlyRefs made (cs ++ cs') := by
  intro c hc
  rcases List.mem_append.1 hc with hc | hc
  · exact h c hc
  · exact h' c hc

theorem OnlyRefs.flatMap {made : List Ent} {f : Shape P → List (Call P)} {l : List (Shape P)}
    (h : ∀ s ∈ l, OnlyRefs made (f s)) : OnlyRefs made (l.flatMap f) := by
  intro c hc
  obtain ⟨s, hs, hc⟩ := List.mem_flatMap.1 hc
  exact h s hs c hc

theorem callsOf_pure (f : Shape P → List (Call P)) :
    ∀ l : List (Shape P), callsOf (fun s => pure (f s)) l = .ok (l.flatMap f) := by
  intro l
  unfold callsOf
  have : mapRes (fun s => pure (f s)) l = .ok (l.map f) := by
    rw [Trace.mapRes_iff]
    induction l with
    | nil => exact .nil
    | cons s l ih => exact .cons rfl ih
  rw [this, Res.bind_ok, List.flatMap_def]; rfl

theorem ifDimension_pure (shapes : List (List (Shape P))) (k : Nat) (f : Shape P → List (Call P)) :
    ifDimension shapes k (fun s => pure (f s)) = .ok ((seen shapes k).flatMap f) := by
  unfold ifDimension seen
  by_cases hk : scanDimension shapes > k
  · have hpos : 0 < shapes.length := by
      obtain ⟨s, l, e⟩ := scan_spec hk
      exact (Nat.zero_le k).trans_lt (List.getElem?_eq_some_iff.1 e).1
    have hlt := scan_lt hpos
    have hg := List.getElem?_eq_getElem (show k + 1 < shapes.length by omega)
    rw [if_pos hk, if_pos hk, getIdx_some hg, Res.bind_ok, callsOf_pure, hg]; rfl
  · rw [if_neg hk, if_neg hk]; rfl

theorem mem_seen {shapes : List (List (Shape P))} {k : Nat} {s : Shape P} (h : s ∈ seen shapes k) :
    scanDimension shapes > k ∧ ∃ l, shapes[k + 1]? = some l ∧ s ∈ l := by
  unfold seen at h
  split at h
  · rename_i hk
    cases hl : shapes[k + 1]? with
    | none => rw [hl] at h; cases h
    | some l => rw [hl] at h; exact ⟨hk, l, rfl, h⟩
  · cases h

theorem seen_of {shapes : List (List (Shape P))} {k : Nat} {s : Shape P} {l : List (Shape P)}
    (hk : scanDimension shapes > k) (hl : shapes[k + 1]? = some l) (h : s ∈ l) :
    s ∈ seen shapes k := by
  unfold seen
  rw [if_pos hk, hl]; exact h

theorem physicalGroup_refs {v : Variant P} {shapes : List (List (Shape P))} {k : Nat} {s : Shape P}
    {l : List (Shape P)} (hl : shapes[k]? = some l) (hs : s ∈ l)
    (ht : s.physicalTag ≠ none → Transferred v k s)
    (hk : k < 2 ∨ (k < 4 ∧ scanDimension shapes ≥ k)) :
    OnlyRefs (allEnts v shapes) (physicalGroup shapes k s) := by
  unfold physicalGroup
  cases hp : s.physicalTag with
  | none => intro c hc; cases hc
  | some p =>
    intro c hc
    rw [List.mem_singleton] at hc
    subst hc
    refine ⟨rfl, ?_⟩
    intro r hr
    simp only [Call.refs, List.map_cons, List.map_nil, List.mem_singleton] at hr
    subst hr
    exact known_made ⟨l, hl, s, hs, ht (by rw [hp]; simp), rfl⟩ hk

theorem mem_sortedUnique {l : List Int} {x : Int} : x ∈ sortedUnique l ↔ x ∈ l := by
  unfold sortedUnique
  rw [(List.mergeSort_perm _ _).mem_iff, mem_uniq]

theorem sortedUnique_pairwise (l : List Int) : (sortedUnique l).Pairwise (· < ·) := by
  have h1 : (sortedUnique l).Pairwise fun a b => decide (a ≤ b) = true :=
    List.pairwise_mergeSort (fun a b c h1 h2 => by simp only [decide_eq_true_eq] at *; omega)
      (fun a b => by simp only [Bool.or_eq_true, decide_eq_true_eq]; omega) _
  have h2 : (sortedUnique l).Nodup := (List.mergeSort_perm _ _).nodup_iff.2 (nodup_uniq l)
  refine (h1.and h2).imp ?_
  rintro a b ⟨h3, h4⟩
  simp only [decide_eq_true_eq] at h3
  omega

theorem eq_of_sorted_mem {l l' : List Int} (h : l.Pairwise (· < ·)) (h' : l'.Pairwise (· < ·))
    (hm : ∀ x, x ∈ l ↔ x ∈ l') : l = l' := by
  have n : l.Nodup := h.imp fun h e => by omega
  have n' : l'.Nodup := h'.imp fun h e => by omega
  exact ((List.perm_ext_iff_of_nodup n n').2 hm).eq_of_pairwise (le := (· < ·))
    (fun a b _ _ h1 h2 => by omega) h h'

/-! ### The occ variant -/

theorem dims01 {v : Variant P} {shapes : List (List (Shape P))} {t : Int} :
    (Known v shapes 0 t → .dim 0 (t + 1) ∈ allEnts v shapes) ∧
    (Known v shapes 1 t → .dim 1 (stride shapes 1 + t + 1) ∈ allEnts v shapes) := by
  refine ⟨fun h => ?_, fun h => known_made h (by omega)⟩
  have := known_made h (by omega)
  rwa [stride_zero, zero_add] at this

theorem group_refs {made : List Ent} {k : Nat} {ts : List Int} {p : Int}
    (h : ∀ t ∈ ts, .dim k t ∈ made) : OnlyRefs made [(Call.addPhysicalGroup k ts p : Call P)] := by
  intro c hc
  rw [List.mem_singleton] at hc
  subst hc
  refine ⟨rfl, fun r hr => ?_⟩
  simp only [Call.refs, List.mem_map] at hr
  obtain ⟨t, ht, rfl⟩ := hr
  exact h t ht

theorem embed_refs {made : List Ent} {k k' : Nat} {ts : List Int} {t : Int}
    (h : ∀ t ∈ ts, .dim k t ∈ made) (h' : .dim k' t ∈ made) :
    OnlyRefs made [(Call.embed k ts k' t : Call P)] := by
  intro c hc
  rw [List.mem_singleton] at hc
  subst hc
  refine ⟨rfl, fun r hr => ?_⟩
  simp only [Call.refs, List.mem_append, List.mem_map, List.mem_singleton] at hr
  rcases hr with ⟨t, ht, rfl⟩ | rfl
  · exact h t ht
  · exact h'

theorem transfinite_refs {made : List Ent} {ts : List Int}
    (h : ∀ t ∈ ts, .dim 1 t ∈ made) :
    OnlyRefs made (ts.map fun t => (Call.setTransfiniteCurve t : Call P)) := by
  intro c hc
  obtain ⟨t, ht, rfl⟩ := List.mem_map.1 hc
  refine ⟨rfl, fun r hr => ?_⟩
  simp only [Call.refs, List.mem_singleton] at hr
  subst hr
  exact h t ht

theorem occCurveGroup_refs {close : P → P → Bool} {graph : DiGraph (Int × Int)} {dim : Nat}
    {shapes : List (List (Shape P))} (ho : CompleteOcc (occ close) shapes) {l : List (Shape P)}
    (hl : shapes[1]? = some l) {s : Shape P} (hs : s ∈ l)
    (hg : dim = 1 → s.physicalTag ≠ none → s.immersed = [] → (0, s.tag) ∈ graph.nodes) :
    ∃ cs, occCurveGroup dim graph shapes s = .ok cs ∧ OnlyRefs (allEnts (occ close) shapes) cs := by
  unfold occCurveGroup
  cases hp : s.physicalTag with
  | none => exact ⟨[], rfl, fun c hc => by cases hc⟩
  | some p =>
    have hne : s.physicalTag ≠ none := by rw [hp]; simp
    have hb : ∀ t ∈ untagged s, .dim 0 t ∈ allEnts (occ close) shapes := by
      intro t ht
      unfold untagged at ht
      obtain ⟨w, hw, rfl⟩ := List.mem_map.1 ht
      exact dims01.1 (ho.boundary l hl s hs hne w (List.mem_filter.1 hw).1)
    obtain ⟨hi, hcomp⟩ := ho.curve l hl s hs hne
    dsimp only
    by_cases hlen : s.immersed.length > 0
    · rw [if_pos hlen]
      refine ⟨_, rfl, ?_⟩
      have h1 : OnlyRefs (allEnts (occ close) shapes) [(Call.addPhysicalGroup 1
          (sortedUnique (s.immersed.map (gmshTag shapes 1))) p : Call P)] := group_refs (by
        intro t ht
        rw [mem_sortedUnique] at ht
        obtain ⟨c, hc, rfl⟩ := List.mem_map.1 ht
        exact dims01.2 (hi c hc))
      by_cases hd : dim > 1
      · rw [if_pos hd]
        exact h1.append (group_refs hb)
      · rw [if_neg hd]
        exact h1
    · rw [if_neg hlen]
      have him : s.immersed = [] := by
        cases h : s.immersed with
        | nil => rfl
        | cons a r => rw [h] at hlen; simp at hlen
      have hme : .dim 1 (gmshTag shapes 1 s) ∈ allEnts (occ close) shapes := by
        refine dims01.2 ⟨l, hl, s, hs, ?_, rfl⟩
        simp [Transferred, occ, him, hcomp him]
      have hgr : OnlyRefs (allEnts (occ close) shapes)
          [(Call.addPhysicalGroup 1 [gmshTag shapes 1 s] p : Call P)] := group_refs (by
        intro t ht
        rw [List.mem_singleton] at ht
        subst ht
        exact hme)
      by_cases h1 : dim = 1
      · rw [if_pos h1]
        have hn := hg h1 hne him
        obtain ⟨ps, hps⟩ : ∃ ps, graph.predecessors (0, s.tag) = .ok ps := by
          unfold DiGraph.predecessors
          rw [if_pos (by simpa using hn)]
          exact ⟨_, rfl⟩
        rw [hps, Res.bind_ok]
        refine ⟨_, rfl, ?_⟩
        split
        · exact hgr
        · intro c hc; cases hc
      · rw [if_neg h1]
        by_cases h2 : dim = 2
        · rw [if_pos h2]
          exact ⟨_, rfl, (group_refs hb).append hgr⟩
        · rw [if_neg h2]
          exact ⟨_, rfl, fun c hc => by cases hc⟩

theorem callsOf_refs {f : Shape P → Res (List (Call P))} {made : List Ent} :
    ∀ l : List (Shape P), (∀ s ∈ l, ∃ cs, f s = .ok cs ∧ OnlyRefs made cs) →
      ∃ cs, callsOf f l = .ok cs ∧ OnlyRefs made cs
  | [], _ => ⟨[], rfl, fun c hc => by cases hc⟩
  | s :: l, h => by
    obtain ⟨cs, h1, h2⟩ := h s (by simp)
    obtain ⟨cs', h4, h5⟩ := callsOf_refs l fun s hs => h s (List.mem_cons_of_mem _ hs)
    refine ⟨cs ++ cs', ?_, h2.append h5⟩
    unfold callsOf at h4 ⊢
    obtain ⟨r, e1, e2⟩ := Res.bind_eq_ok.1 h4
    cases e2
    rw [show mapRes f (s :: l) = .ok (cs :: r) from
      Trace.mapRes_iff.2 (.cons h1 (Trace.mapRes_iff.1 e1)), Res.bind_ok]
    rfl

theorem occCurveGroups_refs {close : P → P → Bool} {graph : DiGraph (Int × Int)} {dim : Nat}
    {shapes : List (List (Shape P))} (ho : CompleteOcc (occ close) shapes) {l : List (Shape P)}
    (hl : shapes[1]? = some l)
    (hg : dim = 1 → ∀ s ∈ l, s.physicalTag ≠ none → s.immersed = [] → (0, s.tag) ∈ graph.nodes) :
    ∃ cs, callsOf (occCurveGroup dim graph shapes) l = .ok cs ∧
      OnlyRefs (allEnts (occ close) shapes) cs :=
  callsOf_refs l fun s hs => occCurveGroup_refs ho hl hs fun hd => hg hd s hs

theorem embedSurface_refs {close : P → P → Bool} {shapes : List (List (Shape P))}
    (ho : CompleteOcc (occ close) shapes) (hk : scanDimension shapes > 1) {l : List (Shape P)}
    (hl : shapes[2]? = some l) {s : Shape P} (hs : s ∈ l) :
    OnlyRefs (allEnts (occ close) shapes) (embedSurface shapes s) := by
  unfold embedSurface
  by_cases hc : s.composite
  · rw [if_pos hc]; intro c hc; cases hc
  · rw [if_neg hc]
    have hc' : s.composite = false := by simpa using hc
    have hin := ho.inSurface l hl s hs hc'
    have hme : .dim 2 (gmshTag shapes 2 s) ∈ allEnts (occ close) shapes :=
      known_made ⟨l, hl, s, hs, by simpa [Transferred] using hc', rfl⟩ (by omega)
    have ht1 : ∀ t ∈ sortedUnique (s.immersed.flatMap fun c =>
        if c.immersed.length > 0 then c.immersed.map (gmshTag shapes 1) else [gmshTag shapes 1 c]),
        .dim 1 t ∈ allEnts (occ close) shapes := by
      intro t ht
      rw [mem_sortedUnique, List.mem_flatMap] at ht
      obtain ⟨c, hcm, ht⟩ := ht
      obtain ⟨-, h2, h3⟩ := hin c hcm
      split at ht
      · obtain ⟨w, hw, rfl⟩ := List.mem_map.1 ht
        exact dims01.2 (h2 w hw)
      · rename_i hlen
        rw [List.mem_singleton] at ht
        subst ht
        exact dims01.2 (h3 (List.length_eq_zero_iff.1 (by omega)))
    refine OnlyRefs.append (OnlyRefs.append (cs := [_]) (cs' := [_]) (embed_refs ?_ hme)
      (embed_refs ht1 hme)) (transfinite_refs ht1)
    intro t ht
    rw [mem_sortedUnique, List.mem_flatMap] at ht
    obtain ⟨c, hcm, ht⟩ := ht
    obtain ⟨w, hw, rfl⟩ := List.mem_map.1 ht
    exact dims01.1 ((hin c hcm).1 w hw)

theorem embedVolume_refs {close : P → P → Bool} {shapes : List (List (Shape P))}
    (ho : CompleteOcc (occ close) shapes) (hk : scanDimension shapes > 2) {l : List (Shape P)}
    (hl : shapes[3]? = some l) {s : Shape P} (hs : s ∈ l) :
    OnlyRefs (allEnts (occ close) shapes) (embedVolume shapes s) := by
  unfold embedVolume
  by_cases hc : s.composite
  · rw [if_pos hc]; intro c hc; cases hc
  · rw [if_neg hc]
    have hc' : s.composite = false := by simpa using hc
    have hin := ho.inVolume l hl s hs hc'
    have hme : .dim 3 (gmshTag shapes 3 s) ∈ allEnts (occ close) shapes :=
      known_made ⟨l, hl, s, hs, by simpa [Transferred] using hc', rfl⟩ (by omega)
    have ht1 : ∀ t ∈ sortedUnique (s.immersed.flatMap fun c =>
        (if c.immersed.length > 0 then c.immersed.map (gmshTag shapes 1) else []) ++
          c.boundary.flatMap fun w => w.immersed.map (gmshTag shapes 1)),
        .dim 1 t ∈ allEnts (occ close) shapes := by
      intro t ht
      rw [mem_sortedUnique, List.mem_flatMap] at ht
      obtain ⟨c, hcm, ht⟩ := ht
      obtain ⟨h1, h2, -⟩ := hin c hcm
      rcases List.mem_append.1 ht with ht | ht
      · split at ht
        · obtain ⟨w, hw, rfl⟩ := List.mem_map.1 ht
          exact dims01.2 (h2 w hw)
        · cases ht
      · obtain ⟨w, hw, ht⟩ := List.mem_flatMap.1 ht
        obtain ⟨x, hx, rfl⟩ := List.mem_map.1 ht
        exact dims01.2 (h1 w hw x hx)
    refine OnlyRefs.append (OnlyRefs.append (cs := [_]) (cs' := [_]) (embed_refs ht1 hme)
      (embed_refs ?_ hme)) (transfinite_refs ht1)
    intro t ht
    rw [mem_sortedUnique, List.mem_flatMap] at ht
    obtain ⟨c, hcm, ht⟩ := ht
    split at ht
    · cases ht
    · rename_i hlen
      rw [List.mem_singleton] at ht
      subst ht
      exact known_made ((hin c hcm).2.2 (List.length_eq_zero_iff.1 (by omega))) (by omega)

/-! ### No groups among the entities -/

theorem callsOf_mem {f : Shape P → Res (List (Call P))} {l : List (Shape P)} {cs : List (Call P)}
    (h : callsOf f l = .ok cs) {c : Call P} (hc : c ∈ cs) : ∃ s ∈ l, ∃ cs', f s = .ok cs' ∧ c ∈ cs' := by
  unfold callsOf at h
  obtain ⟨r, h1, h2⟩ := Res.bind_eq_ok.1 h
  cases h2
  replace h1 := Trace.mapRes_iff.1 h1
  obtain ⟨cs', hcs', hin⟩ := List.mem_flatten.1 hc
  clear h hc
  induction h1 with
  | nil => cases hcs'
  | cons e _ ih =>
    rcases List.mem_cons.1 hcs' with rfl | hcs'
    · exact ⟨_, List.mem_cons_self, _, e, hin⟩
    · obtain ⟨s, hs, x⟩ := ih hcs'
      exact ⟨s, List.mem_cons_of_mem _ hs, x⟩

theorem ifDimension_mem {shapes : List (List (Shape P))} {k : Nat}
    {f : Shape P → Res (List (Call P))} {cs : List (Call P)} (h : ifDimension shapes k f = .ok cs)
    {c : Call P} (hc : c ∈ cs) : ∃ s cs', f s = .ok cs' ∧ c ∈ cs' := by
  unfold ifDimension at h
  split at h
  · obtain ⟨l, -, h⟩ := Res.bind_eq_ok.1 h
    obtain ⟨s, -, x⟩ := callsOf_mem h hc
    exact ⟨s, x⟩
  · cases h; cases hc

theorem entities_no_group {v : Variant P} {shapes : List (List (Shape P))} {calls : List (Call P)}
    (h : entities v shapes = .ok calls) {k : Nat} {ts : List Int} {p : Int} :
    .addPhysicalGroup k ts p ∉ calls := by
  intro hc
  unfold entities at h
  obtain ⟨l0, -, h⟩ := Res.bind_eq_ok.1 h
  obtain ⟨c0, h0, h⟩ := Res.bind_eq_ok.1 h
  obtain ⟨l1, -, h⟩ := Res.bind_eq_ok.1 h
  obtain ⟨c1, h1, h⟩ := Res.bind_eq_ok.1 h
  obtain ⟨c2, h2, h⟩ := Res.bind_eq_ok.1 h
  obtain ⟨c3, h3, h⟩ := Res.bind_eq_ok.1 h
  cases h
  simp only [List.mem_append] at hc
  rcases hc with ((hc | hc) | hc) | hc
  · obtain ⟨s, -, cs, e, hc⟩ := callsOf_mem h0 hc
    unfold addVertex at e
    obtain ⟨x, -, e⟩ := Res.bind_eq_ok.1 e
    cases e
    simp at hc
  · obtain ⟨s, -, cs, e, hc⟩ := callsOf_mem h1 hc
    unfold addCurve at e
    split at e
    · cases e; cases hc
    · obtain ⟨x, -, e⟩ := Res.bind_eq_ok.1 e
      obtain ⟨y, -, e⟩ := Res.bind_eq_ok.1 e
      cases e
      simp at hc
  · obtain ⟨s, cs, e, hc⟩ := ifDimension_mem h2 hc
    unfold addSurface at e
    split at e
    · cases e; cases hc
    · obtain ⟨x, -, e⟩ := Res.bind_eq_ok.1 e
      obtain ⟨y, -, e⟩ := Res.bind_eq_ok.1 e
      obtain ⟨z, -, e⟩ := Res.bind_eq_ok.1 e
      cases e
      simp at hc
  · obtain ⟨s, cs, e, hc⟩ := ifDimension_mem h3 hc
    unfold addVolume at e
    split at e
    · cases e; cases hc
    · obtain ⟨x, -, e⟩ := Res.bind_eq_ok.1 e
      cases e
      simp at hc

/-! ### The calls that make entities -/

theorem callsOf_mem_iff {f : Shape P → Res (List (Call P))} {l : List (Shape P)}
    {cs : List (Call P)} (h : callsOf f l = .ok cs) {c : Call P} :
    c ∈ cs ↔ ∃ s ∈ l, ∃ cs', f s = .ok cs' ∧ c ∈ cs' := by
  refine ⟨callsOf_mem h, ?_⟩
  rintro ⟨s, hs, cs', h1, h2⟩
  unfold callsOf at h
  obtain ⟨r, h3, h4⟩ := Res.bind_eq_ok.1 h
  cases h4
  replace h3 := Trace.mapRes_iff.1 h3
  clear h
  induction h3 with
  | nil => cases hs
  | cons e _ ih =>
    rcases List.mem_cons.1 hs with rfl | hs
    · rw [h1] at e; cases e; simp [h2]
    · rw [List.flatten_cons]; exact List.mem_append_right _ (ih hs)

theorem ifDimension_mem_iff {shapes : List (List (Shape P))} {k : Nat}
    {f : Shape P → Res (List (Call P))} {cs : List (Call P)} (h : ifDimension shapes k f = .ok cs)
    {c : Call P} : c ∈ cs ↔ ∃ s ∈ seen shapes k, ∃ cs', f s = .ok cs' ∧ c ∈ cs' := by
  unfold ifDimension at h
  unfold seen
  split at h
  · rename_i hk
    obtain ⟨l, hl, h⟩ := Res.bind_eq_ok.1 h
    rw [if_pos hk, getIdx_eq_ok.1 hl]
    exact callsOf_mem_iff h
  · rename_i hk
    cases h
    rw [if_neg hk]; simp

theorem signedTags_ok : ∀ {ts os : List Int}, os.length ≤ ts.length → ∃ r, signedTags ts os = .ok r
  | ts, [], _ => ⟨[], by cases ts <;> rfl⟩
  | [], _ :: _, h => by simp at h
  | t :: ts, o :: os, h => by
    obtain ⟨r, h1⟩ := signedTags_ok (ts := ts) (os := os) (by simpa using h)
    exact ⟨t * o :: r, by rw [signedTags, h1, Res.bind_ok]; rfl⟩

theorem signedTags_zip : ∀ {ts os r : List Int}, signedTags ts os = .ok r →
    r = List.zipWith (· * ·) ts os ∧ os.length ≤ ts.length
  | [], [], r, h => by cases h; simp
  | t :: ts, [], r, h => by cases h; simp
  | [], _ :: _, r, h => by cases h
  | t :: ts, o :: os, r, h => by
    rw [signedTags] at h
    obtain ⟨r', h1, h2⟩ := Res.bind_eq_ok.1 h
    cases h2
    obtain ⟨e1, e2⟩ := signedTags_zip h1
    exact ⟨by rw [e1]; rfl, by simpa using e2⟩

end Verif.Mesher
