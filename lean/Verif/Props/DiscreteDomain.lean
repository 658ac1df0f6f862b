/-
C84: the transfer of a domain to gmsh by `DiscreteDomain`.
-/
import Verif.Lemmas.DiscreteDomain
import Verif.Props.Mesher
import Verif.Props.Shape

namespace Verif.DiscreteDomain
open Topology Topology.Shape Mesher
variable {P : Type}

theorem strides_of {close : P → P → Bool} {shapes : List (List (Shape P))}
    (h : Whole (variant close) shapes) : ∃ σ, computeStrides shapes = .ok σ :=
  let ⟨σ, hσ, _⟩ := computeStrides_ok h.small
  ⟨σ, hσ⟩

theorem first_of {v : Variant P} {shapes : List (List (Shape P))} (h : Whole v shapes) :
    ∃ l, shapes[0]? = some l := ⟨_, List.getElem?_eq_getElem h.pos⟩

/-- C84, partial: the transfer of a whole domain of dimension at most two succeeds, makes the
entities of its shapes with positive tags that are distinct in each dimension, and every call refers
to entities made before it. -/
theorem C84_transfer_partial {close : P → P → Bool} {refined : Int → Bool} {d : Domain P}
    (h : Whole (variant close) (seenShapes d)) (h3 : d.shapes.length ≤ 3) :
    ∃ calls, convert close refined d = .ok calls ∧ WellFormed [] calls ∧ (created calls).Nodup ∧
      (∀ e ∈ created calls, 0 < e.tag) ∧ EntitiesAre (variant close) (seenShapes d) (created calls) := by
  obtain ⟨σ, hσ⟩ := strides_of h
  obtain ⟨l0, h0⟩ := first_of h
  obtain ⟨points, lines, surfaces, e0, e1, e2, hw, hc⟩ := entities_ok h hσ h0
  have hscan : scanDimension (seenShapes d) ≤ 2 := by
    have := scan_lt h.pos
    have : (seenShapes d).length ≤ 3 := by simpa using h3
    omega
  have hconv := convert_of (refined := refined) hσ h0 e0 e1 e2
  rw [if_neg (Nat.not_lt.2 hscan)] at hconv
  have K0 : ∀ {t}, Known (variant close) (seenShapes d) 0 t →
      .dim 0 (σ.tag 0 t) ∈ madeBy σ (seenShapes d) :=
    fun hk => known_made (k := 0) (Nat.zero_le _) (by decide) hk
  have K1 : ∀ {t}, scanDimension (seenShapes d) > 0 → Known (variant close) (seenShapes d) 1 t →
      .dim 1 (σ.tag 1 t) ∈ madeBy σ (seenShapes d) :=
    fun hs hk => known_made (k := 1) hs (by decide) hk
  have K2 : ∀ {t}, scanDimension (seenShapes d) > 1 → Known (variant close) (seenShapes d) 2 t →
      .dim 2 (σ.tag 2 t) ∈ madeBy σ (seenShapes d) :=
    fun hs hk => known_made (k := 2) hs (by decide) hk
  -- the groups
  have g0 : OnlyRefs (madeBy σ (seenShapes d)) (vertexGroups σ l0) := by
    intro c hc
    obtain ⟨p, hp, rfl⟩ := mem_vertexGroups.1 hc
    refine (group_refs (P := P) fun t ht => ?_) _ (List.mem_singleton.2 rfl)
    obtain ⟨s, hs, rfl⟩ := List.mem_map.1 ht
    exact K0 ⟨l0, h0, s, (mem_withTag.1 hs).1, by simp [Transferred], rfl⟩
  have curveKnown : ∀ {p t}, t ∈ curveTags σ (seen (seenShapes d) 0) p →
      .dim 1 t ∈ madeBy σ (seenShapes d) := by
    intro p t ht
    obtain ⟨s, hs, rfl⟩ := List.mem_map.1 ht
    obtain ⟨hs, hsk⟩ := List.mem_filter.1 hs
    obtain ⟨hk, l, hl, hs⟩ := mem_seen (mem_withTag.1 hs).1
    exact K1 hk ⟨l, hl, s, hs, by simpa [Transferred, variant] using hsk, rfl⟩
  have g1 : OnlyRefs (madeBy σ (seenShapes d)) (curveGroups refined σ (seen (seenShapes d) 0)) := by
    intro c hc
    obtain ⟨p, hp, rfl | ⟨-, t, ht, rfl⟩⟩ := mem_curveGroups.1 hc
    · exact (group_refs (P := P) fun t ht => curveKnown ht) _ (List.mem_singleton.2 rfl)
    · exact (transfinite_refs (P := P) (ts := [t]) (by simpa using curveKnown ht)) _ (by simp)
  have g2 : OnlyRefs (madeBy σ (seenShapes d)) (surfaceGroups σ (seen (seenShapes d) 1)) := by
    intro c hc
    obtain ⟨p, hp, rfl⟩ := mem_surfaceGroups.1 hc
    refine (group_refs (P := P) fun t ht => ?_) _ (List.mem_singleton.2 rfl)
    obtain ⟨s, hs, rfl⟩ := List.mem_map.1 ht
    obtain ⟨hs, hsp⟩ := mem_withTag.1 hs
    obtain ⟨hk, l, hl, hs⟩ := mem_seen hs
    exact K2 hk ⟨l, hl, s, hs,
      by simpa [Transferred] using h.tagged l hl s hs (by simp [hsp]), rfl⟩
  have m1 : OnlyRefs (madeBy σ (seenShapes d)) ((seen (seenShapes d) 0).flatMap (embedInCurve σ)) :=
    .flatMap fun s hs => by
      obtain ⟨hk, l, hl, hs⟩ := mem_seen hs
      unfold embedInCurve
      split
      · intro c hc; cases hc
      · rename_i hsk
        refine embed_refs (fun t ht => ?_) (K1 hk ⟨l, hl, s, hs,
          by simpa [Transferred, variant] using hsk, rfl⟩)
        obtain ⟨w, hw, rfl⟩ := List.mem_map.1 (mem_npUnique.1 ht)
        exact K0 (h.inCurve l hl s hs (by simpa [variant] using hsk) w hw)
  have m2 : OnlyRefs (madeBy σ (seenShapes d)) ((seen (seenShapes d) 1).flatMap (embedInSurface σ)) :=
    .flatMap fun s hs => by
      obtain ⟨hk, l, hl, hs⟩ := mem_seen hs
      unfold embedInSurface
      split
      · intro c hc; cases hc
      · rename_i hsk
        have hsk : s.composite = false := by simpa using hsk
        have hself : .dim 2 (σ.tag 2 s.tag) ∈ madeBy σ (seenShapes d) :=
          K2 hk ⟨l, hl, s, hs, by simpa [Transferred] using hsk, rfl⟩
        refine OnlyRefs.append (cs := [_]) (cs' := [_]) (embed_refs (fun t ht => ?_) hself)
          (embed_refs (fun t ht => ?_) hself)
        · obtain ⟨c, hc, ht⟩ := List.mem_flatMap.1 (mem_npUnique.1 ht)
          obtain ⟨w, hw, rfl⟩ := List.mem_map.1 ht
          exact K0 ((h.inSurface l hl s hs hsk c hc).1 w hw)
        · obtain ⟨c, hc, ht⟩ := List.mem_flatMap.1 (mem_npUnique.1 ht)
          split at ht
          · obtain ⟨w, hw, rfl⟩ := List.mem_map.1 ht
            exact K1 (by omega) ((h.inSurface l hl s hs hsk c hc).2.1 w hw)
          · rename_i hi
            rw [List.mem_singleton] at ht
            subst ht
            exact K1 (by omega) ((h.inSurface l hl s hs hsk c hc).2.2 (by simpa using hi))
  have grest := (((g0.append g1).append g2).append m1).append m2
  obtain ⟨w, c⟩ := grest.spec
  refine ⟨_, hconv, ?_⟩
  simp only [List.append_assoc] at w c hw hc ⊢
  have hsplit : ∀ r : List (Call P), points ++ (lines ++ (surfaces ++ r)) =
      (points ++ (lines ++ surfaces)) ++ r := by intro r; simp
  rw [hsplit, created_append, c, hc, List.append_nil]
  refine ⟨(wf_append _ _ _).2 ⟨hw, wf_mono _ ?_ w⟩, nodup_made h σ, ?_, ?_⟩
  · intro e he; rw [hc]; simpa using he
  · intro e he
    obtain ⟨k, -, hk, l, hl, s, hs, -, et⟩ := mem_made (close := close) he
    rw [et, computeStrides_small hσ h.small hk]
    have := h.nonneg _ l hl s hs
    have := stride_nonneg (seenShapes d) (k.val + 1)
    unfold occTag; omega
  · intro k t hk hf
    have hks := le_scan hk hf
    have hk2 : k ≤ 2 := by omega
    constructor
    · intro he
      obtain ⟨j, hj, -, l, hl, s, hs, ht, et⟩ := mem_made (close := close) he
      have hj : k = j.val := hj
      subst hj
      exact ⟨l, hl, s, hs, ht, by rw [← computeStrides_small hσ h.small hks]; exact et⟩
    · rintro ⟨l, hl, s, hs, ht, rfl⟩
      have := known_made (σ := σ) (k := ⟨k, by omega⟩) hks hk2 (close := close)
        ⟨l, hl, s, hs, ht, rfl⟩
      rwa [computeStrides_small hσ h.small (k := ⟨k, by omega⟩) hks] at this

/-- C84 (calls).  A point for every vertex without immersed shapes, a line from the first to the
second boundary shape of every curve that is kept, and a loop of the curves of the wire of every
surface that is not composite, with the signs of the orientation computed from these curves. -/
theorem C84_calls {close : P → P → Bool} {refined : Int → Bool} {d : Domain P} {calls : List (Call P)}
    (h : convert close refined d = .ok calls) (h4 : d.shapes.length ≤ 4) :
    (∀ x t, .addPoint x t ∈ calls ↔ ∃ l, (seenShapes d)[0]? = some l ∧ ∃ s ∈ l, s.immersed = [] ∧
      pointOf s = .ok x ∧ t = occTag (seenShapes d) 0 s.tag) ∧
    (∀ a b t, .addLine a b t ∈ calls ↔ ∃ s ∈ seen (seenShapes d) 0, skipCurve s = false ∧
      ∃ p q, s.boundary[0]? = some p ∧ s.boundary[1]? = some q ∧
        a = occTag (seenShapes d) 0 p.tag ∧ b = occTag (seenShapes d) 0 q.tag ∧
        t = occTag (seenShapes d) 1 s.tag) ∧
    (∀ cs t, .addCurveLoop cs t ∈ calls ↔ ∃ s ∈ seen (seenShapes d) 1, s.composite = false ∧
      ∃ wt wp wb edges o, s.boundary[0]? = some (.composed .wire wt wp wb edges) ∧
        orientEdges close edges = .ok o ∧ o.length ≤ edges.length ∧
        cs = List.zipWith (fun e x => occTag (seenShapes d) 1 e.tag * x) edges o ∧
        t = occTag (seenShapes d) 2 s.tag) ∧
    (∀ cs t, .addPlaneSurface cs t ∈ calls ↔ cs = [t] ∧ ∃ cs, .addCurveLoop cs t ∈ calls) := by
  obtain ⟨σ, l0, points, lines, surfaces, hσ, h0, e0, e1, e2, hs, rfl⟩ := convert_steps h
  have h4' : (seenShapes d).length ≤ 4 := by simpa using h4
  have t0 : ∀ t, σ.tag 0 t = occTag (seenShapes d) 0 t :=
    fun t => computeStrides_small hσ h4' (k := 0) (Nat.zero_le _) t
  have t1 : scanDimension (seenShapes d) > 0 → ∀ t, σ.tag 1 t = occTag (seenShapes d) 1 t :=
    fun hk t => computeStrides_small hσ h4' (k := 1) hk t
  have t2 : scanDimension (seenShapes d) > 1 → ∀ t, σ.tag 2 t = occTag (seenShapes d) 2 t :=
    fun hk t => computeStrides_small hσ h4' (k := 2) hk t
  have seenDim : ∀ {k s}, s ∈ seen (seenShapes d) k → scanDimension (seenShapes d) > k :=
    fun hs => (mem_seen hs).1
  have emb1 : ∀ c : Call P, c ∈ (seen (seenShapes d) 0).flatMap (embedInCurve σ) →
      ∃ a b e f, c = .embed a b e f := by
    intro c hc
    obtain ⟨s, -, hc⟩ := List.mem_flatMap.1 hc
    unfold embedInCurve at hc
    split at hc
    · cases hc
    · exact ⟨_, _, _, _, List.mem_singleton.1 hc⟩
  have emb2 : ∀ c : Call P, c ∈ (seen (seenShapes d) 1).flatMap (embedInSurface σ) →
      ∃ a b e f, c = .embed a b e f := by
    intro c hc
    obtain ⟨s, -, hc⟩ := List.mem_flatMap.1 hc
    unfold embedInSurface at hc
    split at hc
    · cases hc
    · simp only [List.mem_cons, List.not_mem_nil, or_false] at hc
      rcases hc with hc | hc
      · exact ⟨_, _, _, _, hc⟩
      · exact ⟨_, _, _, _, hc⟩
  have core : ∀ c : Call P, (∀ a b e, c ≠ .addPhysicalGroup a b e) → (∀ a, c ≠ .setTransfiniteCurve a) →
      (∀ a b e f, c ≠ .embed a b e f) →
      (c ∈ points ++ lines ++ surfaces ++ vertexGroups σ l0 ++
        curveGroups refined σ (seen (d.shapes.map (List.map view)) 0) ++
        surfaceGroups σ (seen (d.shapes.map (List.map view)) 1) ++
        (seen (d.shapes.map (List.map view)) 0).flatMap (embedInCurve σ) ++
        (seen (d.shapes.map (List.map view)) 1).flatMap (embedInSurface σ) ↔
      c ∈ points ∨ c ∈ lines ∨ c ∈ surfaces) := by
    intro c n1 n2 n3
    simp only [List.mem_append]
    constructor
    · rintro (((((((h | h) | h) | h) | h) | h) | h) | h)
      · exact .inl h
      · exact .inr (.inl h)
      · exact .inr (.inr h)
      · obtain ⟨p, -, rfl⟩ := mem_vertexGroups.1 h
        exact absurd rfl (n1 _ _ _)
      · obtain ⟨p, -, rfl | ⟨-, t, -, rfl⟩⟩ := mem_curveGroups.1 h
        · exact absurd rfl (n1 _ _ _)
        · exact absurd rfl (n2 _)
      · obtain ⟨p, -, rfl⟩ := mem_surfaceGroups.1 h
        exact absurd rfl (n1 _ _ _)
      · obtain ⟨a, b, e, f, rfl⟩ := emb1 c h
        exact absurd rfl (n3 _ _ _ _)
      · obtain ⟨a, b, e, f, rfl⟩ := emb2 c h
        exact absurd rfl (n3 _ _ _ _)
    · rintro (h | h | h) <;> simp [h]
  have wires : ∀ w o, wireOrientation close w = .ok o ↔
      ∃ wt wp wb edges, w = .composed .wire wt wp wb edges ∧ orientEdges close edges = .ok o := by
    intro w o
    unfold wireOrientation
    constructor
    · intro h
      split at h
      · exact ⟨_, _, _, _, rfl, h⟩
      · cases h
    · rintro ⟨wt, wp, wb, edges, rfl, h⟩
      exact h
  refine ⟨?_, ?_, ?_, ?_⟩
  · intro x t
    rw [core _ (by simp) (by simp) (by simp), mem_points e0, mem_lines e1, mem_surfaces e2]
    constructor
    · rintro (⟨s, hs, hi, x', hx, e⟩ | ⟨s, hs, hk, p, q, hp, hq, e⟩ |
        ⟨s, hs, hk, w, o, hw, ho, hl, e | e⟩) <;> cases e
      exact ⟨l0, h0, s, hs, hi, hx, t0 _⟩
    · rintro ⟨l, hl, s, hs, hi, hx, rfl⟩
      rw [h0] at hl; cases hl
      exact .inl ⟨s, hs, hi, x, hx, by rw [t0]⟩
  · intro a b t
    rw [core _ (by simp) (by simp) (by simp), mem_points e0, mem_lines e1, mem_surfaces e2]
    constructor
    · rintro (⟨s, hs, hi, x', hx, e⟩ | ⟨s, hs, hk, p, q, hp, hq, e⟩ |
        ⟨s, hs, hk, w, o, hw, ho, hl, e | e⟩) <;> cases e
      exact ⟨s, hs, hk, p, q, hp, hq, t0 _, t0 _, t1 (seenDim hs) _⟩
    · rintro ⟨s, hs, hk, p, q, hp, hq, rfl, rfl, rfl⟩
      exact .inr (.inl ⟨s, hs, hk, p, q, hp, hq, by rw [t0, t0, t1 (seenDim hs)]⟩)
  · intro cs t
    rw [core _ (by simp) (by simp) (by simp), mem_points e0, mem_lines e1, mem_surfaces e2]
    constructor
    · rintro (⟨s, hs, hi, x', hx, e⟩ | ⟨s, hs, hk, p, q, hp, hq, e⟩ |
        ⟨s, hs, hk, w, o, hw, ho, hl, e | e⟩) <;> cases e
      obtain ⟨wt, wp, wb, edges, rfl, ho⟩ := (wires _ _).1 ho
      have hd := seenDim hs
      refine ⟨s, hs, hk, wt, wp, wb, edges, o, hw, ho, hl, ?_, t2 hd _⟩
      simp only [t1 (Nat.lt_of_succ_lt hd)]
      rfl
    · rintro ⟨s, hs, hk, wt, wp, wb, edges, o, hw, ho, hl, rfl, rfl⟩
      have hd := seenDim hs
      refine .inr (.inr ⟨s, hs, hk, _, o, hw, (wires _ _).2 ⟨_, _, _, _, rfl, ho⟩, hl, .inl ?_⟩)
      simp only [t1 (Nat.lt_of_succ_lt hd), t2 hd]
      rfl
  · intro cs t
    simp only [core (.addPlaneSurface cs t) (by simp) (by simp) (by simp),
      core (.addCurveLoop _ t) (by simp) (by simp) (by simp), mem_points e0, mem_lines e1,
      mem_surfaces e2]
    constructor
    · rintro (⟨s, hs, hi, x', hx, e⟩ | ⟨s, hs, hk, p, q, hp, hq, e⟩ |
        ⟨s, hs, hk, w, o, hw, ho, hl, e | e⟩) <;> cases e
      exact ⟨rfl, _, .inr (.inr ⟨s, hs, hk, w, o, hw, ho, hl, .inl rfl⟩)⟩
    · rintro ⟨rfl, cs, ⟨s, hs, hi, x', hx, e⟩ | ⟨s, hs, hk, p, q, hp, hq, e⟩ |
        ⟨s, hs, hk, w, o, hw, ho, hl, e | e⟩⟩ <;> cases e
      exact .inr (.inr ⟨s, hs, hk, w, o, hw, ho, hl, .inr rfl⟩)

theorem seen_eq (shapes : List (List (Shape P))) (k : Nat) : seen shapes k = shapesAt shapes (k + 1) :=
  rfl

/-- C84 (groups).  In each dimension up to two every physical tag of a shape gets one group: all the
shapes with this tag, without the curves that are left out. -/
theorem C84_groups {close : P → P → Bool} {refined : Int → Bool} {d : Domain P} {calls : List (Call P)}
    (h : convert close refined d = .ok calls) (h4 : d.shapes.length ≤ 4) :
    (∀ k ts p, .addPhysicalGroup k ts p ∈ calls ↔ k ≤ 2 ∧
      (∃ s ∈ shapesAt (seenShapes d) k, s.physicalTag = some p) ∧
      ts = ((shapesAt (seenShapes d) k).filter fun s =>
        s.physicalTag = some p ∧ (k = 1 → skipCurve s = false)).map
          fun s => occTag (seenShapes d) k s.tag) ∧
    (groupKeys calls).Nodup := by
  obtain ⟨σ, l0, points, lines, surfaces, hσ, h0, e0, e1, e2, hs, rfl⟩ := convert_steps h
  have h4' : (seenShapes d).length ≤ 4 := by simpa using h4
  have tagEq : ∀ {k : Fin 4} {s : Shape P}, s ∈ shapesAt (seenShapes d) k →
      σ.tag k s.tag = occTag (seenShapes d) k s.tag := by
    intro k s hs
    unfold shapesAt at hs
    split at hs
    · rename_i hk
      exact computeStrides_small hσ h4' hk _
    · cases hs
  have a0 : shapesAt (seenShapes d) 0 = l0 := by
    unfold shapesAt; rw [if_pos (Nat.zero_le _)]
    change ((d.shapes.map (List.map view))[0]?.getD []) = l0
    rw [h0]; rfl
  have w0 : ∀ p, (withTag l0 p).map (fun s => σ.tag 0 s.tag) =
      ((shapesAt (seenShapes d) 0).filter fun s => s.physicalTag = some p ∧
        (0 = 1 → skipCurve s = false)).map fun s => occTag (seenShapes d) 0 s.tag := by
    intro p
    unfold withTag
    rw [a0]
    simp only [zero_ne_one, false_implies, and_true]
    refine List.map_congr_left fun s hs => tagEq (k := 0) ?_
    exact (show shapesAt (seenShapes d) (0 : Fin 4).val = l0 from a0) ▸ (List.mem_filter.1 hs).1
  have w1 : ∀ p, curveTags σ (seen (seenShapes d) 0) p =
      ((shapesAt (seenShapes d) 1).filter fun s => s.physicalTag = some p ∧
        (1 = 1 → skipCurve s = false)).map fun s => occTag (seenShapes d) 1 s.tag := by
    intro p
    unfold curveTags withTag
    rw [List.filter_filter, seen_eq]
    have : (fun a : Shape P => (!skipCurve a) && decide (a.physicalTag = some p)) =
        fun s => decide (s.physicalTag = some p ∧ (1 = 1 → skipCurve s = false)) := by
      funext s
      by_cases h1 : s.physicalTag = some p <;> cases h2 : skipCurve s <;> simp [h1]
    rw [this]
    exact List.map_congr_left fun s hs => tagEq (k := 1) (List.mem_filter.1 hs).1
  have w2 : ∀ p, (withTag (seen (seenShapes d) 1) p).map (fun s => σ.tag 2 s.tag) =
      ((shapesAt (seenShapes d) 2).filter fun s => s.physicalTag = some p ∧
        (2 = 1 → skipCurve s = false)).map fun s => occTag (seenShapes d) 2 s.tag := by
    intro p
    unfold withTag
    rw [seen_eq]
    simp only [show ¬ (2 = 1) by decide, false_implies, and_true]
    exact List.map_congr_left fun s hs => tagEq (k := 2) (List.mem_filter.1 hs).1
  have noP : ∀ c ∈ points, ∀ a b e, c ≠ .addPhysicalGroup a b e := by
    intro c hc a b e; obtain ⟨s, -, -, x, -, rfl⟩ := (mem_points e0).1 hc; simp
  have noL : ∀ c ∈ lines, ∀ a b e, c ≠ .addPhysicalGroup a b e := by
    intro c hc a b e; obtain ⟨s, -, -, p, q, -, -, rfl⟩ := (mem_lines e1).1 hc; simp
  have noS : ∀ c ∈ surfaces, ∀ a b e, c ≠ .addPhysicalGroup a b e := by
    intro c hc a b e
    obtain ⟨s, -, -, w, o, -, -, -, rfl | rfl⟩ := (mem_surfaces e2).1 hc <;> simp
  have noE1 : ∀ c ∈ (seen (seenShapes d) 0).flatMap (embedInCurve σ), ∀ a b e,
      c ≠ .addPhysicalGroup a b e := by
    intro c hc a b e
    obtain ⟨s, -, hc⟩ := List.mem_flatMap.1 hc
    unfold embedInCurve at hc
    split at hc
    · cases hc
    · rw [List.mem_singleton.1 hc]; simp
  have noE2 : ∀ c ∈ (seen (seenShapes d) 1).flatMap (embedInSurface σ), ∀ a b e,
      c ≠ .addPhysicalGroup a b e := by
    intro c hc a b e
    obtain ⟨s, -, hc⟩ := List.mem_flatMap.1 hc
    unfold embedInSurface at hc
    split at hc
    · cases hc
    · simp only [List.mem_cons, List.not_mem_nil, or_false] at hc
      rcases hc with rfl | rfl <;> simp
  constructor
  · intro k ts p
    simp only [List.mem_append]
    constructor
    · rintro (((((((h | h) | h) | h) | h) | h) | h) | h)
      · exact absurd rfl (noP _ h _ _ _)
      · exact absurd rfl (noL _ h _ _ _)
      · exact absurd rfl (noS _ h _ _ _)
      · obtain ⟨q, hq, e⟩ := mem_vertexGroups.1 h
        cases e
        exact ⟨by omega, by rw [a0]; exact mem_physicalTags.1 hq, w0 p⟩
      · obtain ⟨q, hq, e | ⟨-, t, -, e⟩⟩ := mem_curveGroups.1 h <;> cases e
        exact ⟨by omega, mem_physicalTags.1 hq, w1 p⟩
      · obtain ⟨q, hq, e⟩ := mem_surfaceGroups.1 h
        cases e
        exact ⟨by omega, mem_physicalTags.1 hq, w2 p⟩
      · exact absurd rfl (noE1 _ h _ _ _)
      · exact absurd rfl (noE2 _ h _ _ _)
    · rintro ⟨hk, hp, rfl⟩
      match k, hk, hp with
      | 0, _, hp =>
        rw [a0] at hp
        refine .inl (.inl (.inl (.inl (.inr (mem_vertexGroups.2 ⟨p, mem_physicalTags.2 hp, ?_⟩)))))
        rw [w0]
      | 1, _, hp =>
        refine .inl (.inl (.inl (.inr (mem_curveGroups.2 ⟨p, mem_physicalTags.2 hp, .inl ?_⟩))))
        exact congrArg (Call.addPhysicalGroup 1 · p) (w1 p).symm
      | 2, _, hp =>
        refine .inl (.inl (.inr (mem_surfaceGroups.2 ⟨p, mem_physicalTags.2 hp, ?_⟩)))
        exact congrArg (Call.addPhysicalGroup 2 · p) (w2 p).symm
  · have none_of : ∀ cs : List (Call P), (∀ c ∈ cs, ∀ a b e, c ≠ .addPhysicalGroup a b e) →
        groupKeys cs = [] := by
      intro cs hcs
      unfold groupKeys
      rw [List.filterMap_eq_nil_iff]
      intro c hc
      have := hcs c hc
      cases c <;> first | rfl | exact absurd rfl (this _ _ _)
    have app : ∀ a b : List (Call P), groupKeys (a ++ b) = groupKeys a ++ groupKeys b := by
      intro a b; simp [groupKeys]
    have k0 : groupKeys (vertexGroups σ l0) = (physicalTags l0).map fun p => (0, p) := by
      unfold vertexGroups
      generalize hl : physicalTags l0 = ps
      have : ∀ p ∈ ps, (withTag l0 p).length > 0 := fun p hp => withTag_ne (hl ▸ hp)
      clear hl
      induction ps with
      | nil => rfl
      | cons p ps ih =>
        rw [List.flatMap_cons, app, ih fun q hq => this q (List.mem_cons_of_mem _ hq),
          if_pos (this p (by simp))]
        rfl
    have k1 : ∀ l : List (Shape P), groupKeys (curveGroups refined σ l) =
        (physicalTags l).map fun p => (1, p) := by
      intro l
      unfold curveGroups
      induction physicalTags l with
      | nil => rfl
      | cons p ps ih =>
        rw [List.flatMap_cons, app, ih]
        have : groupKeys (if refined p then (curveTags σ l p).map
            (.setTransfiniteCurve : Int → Call P) else []) = [] := by
          refine none_of _ fun c hc a b e => ?_
          split at hc
          · obtain ⟨t, -, rfl⟩ := List.mem_map.1 hc; simp
          · cases hc
        have hcons : ∀ (t : List Int) (cs : List (Call P)),
            groupKeys (.addPhysicalGroup 1 t p :: cs) = (1, p) :: groupKeys cs := fun _ _ => rfl
        rw [hcons, this]; rfl
    have k2 : ∀ l : List (Shape P), groupKeys (surfaceGroups σ l) =
        (physicalTags l).map fun p => (2, p) := by
      intro l
      unfold surfaceGroups
      induction physicalTags l with
      | nil => rfl
      | cons p ps ih => rw [List.map_cons, List.map_cons, ← ih]; rfl
    rw [app, app, app, app, app, app, app, none_of _ noP, none_of _ noL, none_of _ noS,
      none_of _ noE1, none_of _ noE2, k0, k1, k2]
    have inj : ∀ (k : Nat) (l : List (Shape P)), ((physicalTags l).map fun p => (k, p)).Nodup :=
      fun k l => (physicalTags_nodup l).map fun a b e => (Prod.mk.inj e).2
    simp only [List.nil_append, List.append_nil]
    refine List.nodup_append.2 ⟨List.nodup_append.2 ⟨inj _ _, inj _ _, ?_⟩, inj _ _, ?_⟩
    · intro a ha b hb e
      obtain ⟨p, -, rfl⟩ := List.mem_map.1 ha
      obtain ⟨q, -, rfl⟩ := List.mem_map.1 hb
      simp at e
    · intro a ha b hb e
      obtain ⟨q, -, rfl⟩ := List.mem_map.1 hb
      rcases List.mem_append.1 ha with ha | ha <;> obtain ⟨p, -, rfl⟩ := List.mem_map.1 ha <;>
        simp at e

/-- C84 (refinement).  The curves of the groups chosen for refinement are the transfinite ones. -/
theorem C84_refined {close : P → P → Bool} {refined : Int → Bool} {d : Domain P}
    {calls : List (Call P)} (h : convert close refined d = .ok calls) (t : Int) :
    .setTransfiniteCurve t ∈ calls ↔
      ∃ p ts, refined p = true ∧ .addPhysicalGroup 1 ts p ∈ calls ∧ t ∈ ts := by
  obtain ⟨σ, l0, points, lines, surfaces, hσ, h0, e0, e1, e2, hs, rfl⟩ := convert_steps h
  have e1' : ∀ c ∈ (seen (seenShapes d) 0).flatMap (embedInCurve σ),
      ∃ a b e f, c = .embed a b e f := by
    intro c hc
    obtain ⟨s, -, hc⟩ := List.mem_flatMap.1 hc
    unfold embedInCurve at hc
    split at hc
    · cases hc
    · exact ⟨_, _, _, _, List.mem_singleton.1 hc⟩
  have e2' : ∀ c ∈ (seen (seenShapes d) 1).flatMap (embedInSurface σ),
      ∃ a b e f, c = .embed a b e f := by
    intro c hc
    obtain ⟨s, -, hc⟩ := List.mem_flatMap.1 hc
    unfold embedInSurface at hc
    split at hc
    · cases hc
    · simp only [List.mem_cons, List.not_mem_nil, or_false] at hc
      rcases hc with hc | hc
      · exact ⟨_, _, _, _, hc⟩
      · exact ⟨_, _, _, _, hc⟩
  have only : ∀ c : Call P, (∀ x t, c ≠ .addPoint x t) → (∀ a b t, c ≠ .addLine a b t) →
      (∀ a b, c ≠ .addCurveLoop a b) → (∀ a b, c ≠ .addPlaneSurface a b) →
      (∀ a b e f, c ≠ .embed a b e f) → (∀ ts p, c ≠ .addPhysicalGroup 0 ts p) →
      (∀ ts p, c ≠ .addPhysicalGroup 2 ts p) →
      (c ∈ points ++ lines ++ surfaces ++ vertexGroups σ l0 ++
        curveGroups refined σ (seen (d.shapes.map (List.map view)) 0) ++
        surfaceGroups σ (seen (d.shapes.map (List.map view)) 1) ++
        (seen (d.shapes.map (List.map view)) 0).flatMap (embedInCurve σ) ++
        (seen (d.shapes.map (List.map view)) 1).flatMap (embedInSurface σ) ↔
      c ∈ curveGroups refined σ (seen (d.shapes.map (List.map view)) 0)) := by
    intro c n1 n2 n3 n4 n5 n6 n7
    simp only [List.mem_append]
    constructor
    · rintro (((((((h | h) | h) | h) | h) | h) | h) | h)
      · obtain ⟨s, -, -, x, -, rfl⟩ := (mem_points e0).1 h
        exact absurd rfl (n1 _ _)
      · obtain ⟨s, -, -, p, q, -, -, rfl⟩ := (mem_lines e1).1 h
        exact absurd rfl (n2 _ _ _)
      · obtain ⟨s, -, -, w, o, -, -, -, rfl | rfl⟩ := (mem_surfaces e2).1 h
        · exact absurd rfl (n3 _ _)
        · exact absurd rfl (n4 _ _)
      · obtain ⟨p, -, rfl⟩ := mem_vertexGroups.1 h
        exact absurd rfl (n6 _ _)
      · exact h
      · obtain ⟨p, -, rfl⟩ := mem_surfaceGroups.1 h
        exact absurd rfl (n7 _ _)
      · obtain ⟨a, b, e, f, rfl⟩ := e1' c h
        exact absurd rfl (n5 _ _ _ _)
      · obtain ⟨a, b, e, f, rfl⟩ := e2' c h
        exact absurd rfl (n5 _ _ _ _)
    · intro h; simp [h]
  rw [only _ (by simp) (by simp) (by simp) (by simp) (by simp) (by simp) (by simp), mem_curveGroups]
  constructor
  · rintro ⟨p, hp, e | ⟨hr, t', ht, e⟩⟩ <;> cases e
    refine ⟨p, curveTags σ (seen (d.shapes.map (List.map view)) 0) p, hr, ?_, ht⟩
    rw [only _ (by simp) (by simp) (by simp) (by simp) (by simp) (by simp) (by simp)]
    exact mem_curveGroups.2 ⟨p, hp, .inl rfl⟩
  · rintro ⟨p, ts, hr, hts, ht⟩
    rw [only _ (by simp) (by simp) (by simp) (by simp) (by simp) (by simp) (by simp)] at hts
    obtain ⟨q, hq, e | ⟨-, _, -, e⟩⟩ := mem_curveGroups.1 hts <;> cases e
    exact ⟨p, hq, .inr ⟨hr, t, ht, rfl⟩⟩

/-- C84 (embedding).  Every curve that is kept gets the shapes immersed in it, every surface that is
not composite the curves immersed in it (or the shapes immersed in those) with their end points. -/
theorem C84_embed {close : P → P → Bool} {refined : Int → Bool} {d : Domain P} {calls : List (Call P)}
    (h : convert close refined d = .ok calls) (h4 : d.shapes.length ≤ 4) (k k' : Nat) (ts : List Int)
    (t : Int) : .embed k ts k' t ∈ calls ↔
      (k = 0 ∧ k' = 1 ∧ ∃ s ∈ seen (seenShapes d) 0, skipCurve s = false ∧
        t = occTag (seenShapes d) 1 s.tag ∧ ts.Pairwise (· < ·) ∧
        ∀ x, x ∈ ts ↔ ∃ w ∈ s.immersed, x = occTag (seenShapes d) 0 w.tag) ∨
      (k = 0 ∧ k' = 2 ∧ ∃ s ∈ seen (seenShapes d) 1, s.composite = false ∧
        t = occTag (seenShapes d) 2 s.tag ∧ ts.Pairwise (· < ·) ∧
        ∀ x, x ∈ ts ↔ ∃ c ∈ s.immersed, ∃ w ∈ c.boundary, x = occTag (seenShapes d) 0 w.tag) ∨
      (k = 1 ∧ k' = 2 ∧ ∃ s ∈ seen (seenShapes d) 1, s.composite = false ∧
        t = occTag (seenShapes d) 2 s.tag ∧ ts.Pairwise (· < ·) ∧
        ∀ x, x ∈ ts ↔ ∃ c ∈ s.immersed, (c.immersed = [] ∧ x = occTag (seenShapes d) 1 c.tag) ∨
          ∃ w ∈ c.immersed, x = occTag (seenShapes d) 1 w.tag) := by
  obtain ⟨σ, l0, points, lines, surfaces, hσ, h0, e0, e1, e2, hs, rfl⟩ := convert_steps h
  have h4' : (seenShapes d).length ≤ 4 := by simpa using h4
  have t0 : ∀ t, σ.tag 0 t = occTag (seenShapes d) 0 t :=
    fun t => computeStrides_small hσ h4' (k := 0) (Nat.zero_le _) t
  have t1 : scanDimension (seenShapes d) > 0 → ∀ t, σ.tag 1 t = occTag (seenShapes d) 1 t :=
    fun hk t => computeStrides_small hσ h4' (k := 1) hk t
  have t2 : scanDimension (seenShapes d) > 1 → ∀ t, σ.tag 2 t = occTag (seenShapes d) 2 t :=
    fun hk t => computeStrides_small hσ h4' (k := 2) hk t
  have uniq : ∀ (ts l : List Int) (p : Int → Prop), (∀ x, x ∈ l ↔ p x) →
      (ts = npUnique l ↔ ts.Pairwise (· < ·) ∧ ∀ x, x ∈ ts ↔ p x) := by
    intro ts l p hp
    constructor
    · rintro rfl
      exact ⟨npUnique_pairwise _, fun x => by rw [mem_npUnique, hp]⟩
    · rintro ⟨h1, h2⟩
      exact eq_of_sorted_mem h1 (npUnique_pairwise _) fun x => by
        rw [h2, mem_npUnique, hp]
  simp only [List.mem_append]
  have noP : .embed k ts k' t ∉ points := fun hc => by
    obtain ⟨s, -, -, x, -, e⟩ := (mem_points e0).1 hc; cases e
  have noL : .embed k ts k' t ∉ lines := fun hc => by
    obtain ⟨s, -, -, p, q, -, -, e⟩ := (mem_lines e1).1 hc; cases e
  have noS : .embed k ts k' t ∉ surfaces := fun hc => by
    obtain ⟨s, -, -, w, o, -, -, -, e | e⟩ := (mem_surfaces e2).1 hc <;> cases e
  have noG0 : .embed k ts k' t ∉ vertexGroups σ l0 := fun hc => by
    obtain ⟨p, -, e⟩ := mem_vertexGroups.1 hc; cases e
  have noG1 : .embed k ts k' t ∉ curveGroups refined σ (seen (d.shapes.map (List.map view)) 0) :=
    fun hc => by obtain ⟨p, -, e | ⟨-, _, -, e⟩⟩ := mem_curveGroups.1 hc <;> cases e
  have noG2 : .embed k ts k' t ∉ surfaceGroups σ (seen (d.shapes.map (List.map view)) 1) :=
    fun hc => by obtain ⟨p, -, e⟩ := mem_surfaceGroups.1 hc; cases e
  simp only [noP, noL, noS, noG0, noG1, noG2, false_or]
  refine or_congr ?_ ?_
  · rw [List.mem_flatMap]
    constructor
    · rintro ⟨s, hs, hc⟩
      unfold embedInCurve at hc
      split at hc
      · cases hc
      · rename_i hk
        cases List.mem_singleton.1 hc
        exact ⟨rfl, rfl, s, hs, by simpa using hk, t1 (mem_seen hs).1 _,
          (uniq _ _ _ fun x => by simp only [List.mem_map, t0, eq_comm]).1 rfl⟩
    · rintro ⟨rfl, rfl, s, hs, hk, rfl, hts⟩
      refine ⟨s, hs, ?_⟩
      unfold embedInCurve
      rw [if_neg (by simp [hk]), List.mem_singleton]
      rw [(uniq ts (s.immersed.map fun v => σ.tag 0 v.tag) _
        fun x => by simp only [List.mem_map, t0, eq_comm]).2 hts]
      rw [t1 (mem_seen hs).1]
  · have A : ∀ s : Shape P, ∀ x, x ∈ (s.immersed.flatMap fun c => c.boundary.map fun v => σ.tag 0 v.tag) ↔
        ∃ c ∈ s.immersed, ∃ w ∈ c.boundary, x = occTag (seenShapes d) 0 w.tag := by
      intro s x
      simp only [List.mem_flatMap, List.mem_map, t0, eq_comm]
    have B : ∀ s : Shape P, scanDimension (seenShapes d) > 1 → ∀ x,
        x ∈ (s.immersed.flatMap fun c => if c.immersed.length > 0 then
          c.immersed.map fun i => σ.tag 1 i.tag else [σ.tag 1 c.tag]) ↔
        ∃ c ∈ s.immersed, (c.immersed = [] ∧ x = occTag (seenShapes d) 1 c.tag) ∨
          ∃ w ∈ c.immersed, x = occTag (seenShapes d) 1 w.tag := by
      intro s hd x
      have t1' := t1 (Nat.lt_of_succ_lt hd)
      simp only [List.mem_flatMap]
      refine exists_congr fun c => and_congr_right fun _ => ?_
      cases hi : c.immersed with
      | nil => simp [t1']
      | cons a r => simp [t1', eq_comm]
    rw [List.mem_flatMap]
    constructor
    · rintro ⟨s, hs, hc⟩
      unfold embedInSurface at hc
      split at hc
      · cases hc
      · rename_i hk
        simp only [List.mem_cons, List.not_mem_nil, or_false] at hc
        have hd := (mem_seen hs).1
        rcases hc with hc | hc <;> cases hc
        · exact .inl ⟨rfl, rfl, s, hs, by simpa using hk, t2 hd _, (uniq _ _ _ (A s)).1 rfl⟩
        · exact .inr ⟨rfl, rfl, s, hs, by simpa using hk, t2 hd _, (uniq _ _ _ (B s hd)).1 rfl⟩
    · rintro (⟨rfl, rfl, s, hs, hk, rfl, hts⟩ | ⟨rfl, rfl, s, hs, hk, rfl, hts⟩)
      · refine ⟨s, hs, ?_⟩
        unfold embedInSurface
        rw [if_neg (by simp [hk])]
        refine List.mem_cons.2 (.inl ?_)
        rw [(uniq ts _ _ (A s)).2 hts, t2 (mem_seen hs).1]
      · refine ⟨s, hs, ?_⟩
        unfold embedInSurface
        rw [if_neg (by simp [hk])]
        refine List.mem_cons_of_mem _ (List.mem_singleton.2 ?_)
        have hd := (mem_seen hs).1
        rw [(uniq ts _ _ (B s hd)).2 hts, t2 hd]

/-- C84 (loops), partial: if the curves of the wire of a surface form a chain whose first edge goes
from the smaller to the larger tag, then the loop of the surface goes along this chain: its entries
are the tags of the curves with the signs that follow the chain head to tail. -/
theorem C84_loop_partial {close : P → P → Bool} (hc : ∀ x, close x x = true) {refined : Int → Bool}
    {d : Domain P} {calls : List (Call P)} (h : convert close refined d = .ok calls)
    (h4 : d.shapes.length ≤ 4) {s : Shape P} (hs : s ∈ seen (seenShapes d) 1)
    (hk : s.composite = false) {wt : Int} {wp : Option Int} {wb edges vs : List (Shape P)}
    (hw : s.boundary[0]? = some (.composed .wire wt wp wb edges)) (hne : edges ≠ [])
    (hchain : IsChain edges vs) (hd : StepsDiffer vs)
    (hfirst : ∀ v w, vs[0]? = some v → vs[1]? = some w → v.tag < w.tag) :
    ∃ signs, FollowsChain edges vs signs ∧
      .addCurveLoop (List.zipWith (fun e x => occTag (seenShapes d) 1 e.tag * x) edges signs)
        (occTag (seenShapes d) 2 s.tag) ∈ calls := by
  obtain ⟨signs, h1, h2, -⟩ := C40_wire_partial hc hne hchain hd hfirst
  refine ⟨signs, h2, ((C84_calls h h4).2.2.1 _ _).2
    ⟨s, hs, hk, wt, wp, wb, edges, signs, hw, h1, h2.1.le, rfl, rfl⟩⟩

/-- C84 does not hold in three dimensions: the transfer of a whole domain with shapes of the
dimensions zero to two and room for volumes raises `NameError`. -/
theorem C84_three_violated {close : P → P → Bool} {refined : Int → Bool} {d : Domain P}
    (h : Whole (variant close) (seenShapes d)) (h4 : d.shapes.length = 4)
    (hne : ∀ j < 3, noShapes (seenShapes d) j = false) :
    convert close refined d = .error .nameError := by
  obtain ⟨σ, hσ⟩ := strides_of h
  obtain ⟨l0, h0⟩ := first_of h
  obtain ⟨points, lines, surfaces, e0, e1, e2, -, -⟩ := entities_ok h hσ h0
  rw [convert_of hσ h0 e0 e1 e2]
  exact if_pos (le_scan (k := 3) (by simp [h4]) hne)

/-- C84 (errors).  Nothing is transferred in three dimensions, whatever the domain. -/
theorem C84_three {close : P → P → Bool} {refined : Int → Bool} {d : Domain P}
    (h4 : 4 ≤ d.shapes.length) (hne : ∀ j < 3, noShapes (seenShapes d) j = false)
    (calls : List (Call P)) : convert close refined d ≠ .ok calls := by
  intro h
  obtain ⟨σ, l0, points, lines, surfaces, hσ, h0, e0, e1, e2, hs, rfl⟩ := convert_steps h
  have := le_scan (shapes := seenShapes d) (k := 3) (by simp; omega) hne
  have hs : scanDimension (seenShapes d) ≤ 2 := hs
  omega

/-- C84 (errors).  A surface whose first boundary shape is not a wire raises `AttributeError`, and
one without boundary shapes `IndexError`. -/
theorem C84_no_wire {close : P → P → Bool} {σ : Strides} {s : Shape P} (hk : s.composite = false) :
    (s.boundary = [] → transferSurface close σ s = .error .indexError) ∧
    (∀ w rest, s.boundary = w :: rest → (∀ t p b i, w ≠ .composed .wire t p b i) →
      transferSurface close σ s = .error .attributeError) := by
  unfold transferSurface
  rw [if_neg (by simp [hk])]
  constructor
  · intro hb
    rw [hb]; rfl
  · intro w rest hb hw
    rw [hb, getIdx_of (show (w :: rest)[0]? = some w from rfl), Res.bind_ok]
    have : wireOrientation close w = .error .attributeError := by
      unfold wireOrientation
      split
      · exact absurd rfl (hw _ _ _ _)
      · rfl
    rw [this]; rfl

/-- C84 (ranges), partial: when the tags are below the number of shapes and no dimension has more
shapes than the next one, entities of different dimensions have different tags. -/
theorem C84_ranges_partial {shapes : List (List (Shape P))} {j k : Nat} (hjk : j < k)
    {l l1 l' : List (Shape P)} (hl : shapes[j]? = some l) (hl1 : shapes[j + 1]? = some l1)
    (hle : l.length ≤ l1.length) {s s' : Shape P} (hs : s ∈ l) (hs' : s' ∈ l')
    (hlt : ∀ x ∈ l, x.tag < l.length) (hnn : ∀ x ∈ l', 0 ≤ x.tag) :
    occTag shapes j s.tag < occTag shapes k s'.tag := by
  have h1 := stride_mono (j := j + 1) (k := k + 1) (by omega) hl1
  have h2 := hlt s hs
  have h3 := hnn s' hs'
  unfold occTag
  omega

/-- C84 (curves).  The curves left out are the wires and those with an immersed curve. -/
theorem C84_left_out (s : Shape P) :
    skipCurve s = true ↔ s.composite = true ∨ ∃ i ∈ s.immersed, i.dimension = s.dimension := by
  unfold skipCurve sameDimension
  rw [Bool.or_eq_true, decide_eq_true_iff, gt_iff_lt, List.length_pos_iff_exists_mem]
  simp only [List.mem_filter, decide_eq_true_eq]

/-- C84 (errors).  A domain with shapes of four dimensions and a place for a fifth is refused; once a
dimension has no shapes, the later ones do not matter. -/
theorem C84_places (shapes : List (List (Shape P))) :
    (4 < shapes.length → (∀ l ∈ shapes.take 4, l ≠ []) →
      computeStrides shapes = .error .indexError) ∧
    ((∃ l ∈ shapes.take 4, l = []) → ∃ σ, computeStrides shapes = .ok σ) := by
  have h1 : ∀ n (l : List (List (Shape P))), n < l.length → (∀ x ∈ l.take n, x ≠ []) →
      counts n l = .error .indexError := by
    intro n
    induction n with
    | zero =>
      intro l hl _
      cases l with
      | nil => cases hl
      | cons x l => rfl
    | succ n ih =>
      intro l hl hne
      cases l with
      | nil => cases hl
      | cons x l =>
        unfold counts
        have : x ≠ [] := hne x (by simp)
        rw [if_neg (by rw [List.length_eq_zero_iff]; exact this),
          ih l (by simpa using hl) (fun y hy => hne y (by simp [hy]))]
        rfl
  have h2 : ∀ n (l : List (List (Shape P))), (∃ x ∈ l.take n, x = []) →
      ∃ r, counts n l = .ok r ∧ r.length = n := by
    intro n
    induction n with
    | zero => intro l hl; simp at hl
    | succ n ih =>
      intro l hl
      cases l with
      | nil => simp at hl
      | cons x l =>
        unfold counts
        by_cases hx : x.length = 0
        · rw [if_pos hx]
          exact ⟨_, rfl, by simp⟩
        · rw [if_neg hx]
          obtain ⟨r, hr, hlen⟩ := ih l (by
            obtain ⟨y, hy, rfl⟩ := hl
            have hy : x = [] ∨ [] ∈ l.take n := by simpa using hy
            rcases hy with h | h
            · exact absurd (by rw [h]; rfl) hx
            · exact ⟨[], h, rfl⟩)
          rw [hr]
          exact ⟨_, rfl, by simp [hlen]⟩
  constructor
  · intro hl hne
    unfold computeStrides
    rw [h1 4 shapes hl hne]
    rfl
  · intro h
    obtain ⟨r, hr, hlen⟩ := h2 4 shapes h
    unfold computeStrides
    rw [hr, Res.bind_ok]
    match r, hlen with
    | [a, b, c, d], _ => exact ⟨_, rfl⟩

/-! ### Concrete domains -/

def vertexAt (t : Int) (p : Option Int) (x : ℕ × ℕ) : Shape (ℕ × ℕ) := .vertex t p x

/-- A line of two vertices. -/
def lineDomain : Domain (ℕ × ℕ) :=
  ⟨1, [[vertexAt 0 (some 2) (0, 0), vertexAt 1 (some 3) (1, 0)],
    [.composed .edge 0 (some 1) [vertexAt 0 (some 2) (0, 0), vertexAt 1 (some 3) (1, 0)] []]]⟩

/-- The tags of different dimensions overlap: the second vertex of a line and the line both get the
tag `4`, although the tags are below the numbers of shapes (compare `C48_ranges`). -/
theorem C84_ranges_violated :
    (convert (· == ·) (fun _ => false) lineDomain).toOption = some
      [.addPoint (0, 0) 3, .addPoint (1, 0) 4, .addLine 3 4 4, .addPhysicalGroup 0 [3] 2,
        .addPhysicalGroup 0 [4] 3, .addPhysicalGroup 1 [4] 1, .embed 0 [] 1 4] := by
  decide +kernel

/-- The corners of the square and a point inside. -/
def corner : ℕ → Shape (ℕ × ℕ)
  | 0 => vertexAt 0 none (0, 0)
  | 1 => vertexAt 1 none (4, 0)
  | 2 => vertexAt 2 none (4, 4)
  | 3 => vertexAt 3 none (0, 4)
  | 4 => vertexAt 4 none (1, 2)
  | 5 => vertexAt 5 none (3, 2)
  | _ => vertexAt 6 none (2, 2)

def edgeAt (t : Int) (p : Option Int) (i j : ℕ) (immersed : List (Shape (ℕ × ℕ))) : Shape (ℕ × ℕ) :=
  .composed .edge t p [corner i, corner j] immersed

def sides : List (Shape (ℕ × ℕ)) :=
  [edgeAt 0 (some 2) 0 1 [], edgeAt 1 (some 2) 1 2 [], edgeAt 2 (some 3) 2 3 [],
    edgeAt 3 (some 3) 0 3 []]

def wireOf : Shape (ℕ × ℕ) := .composed .wire 5 none [corner 0, corner 0] sides

/-- A square with a line inside it; `immersed` are the shapes immersed in the line. -/
def square (kind : Kind) (points : ℕ) (immersed : List (Shape (ℕ × ℕ))) : Domain (ℕ × ℕ) :=
  ⟨2, [(List.range points).map corner, sides ++ [edgeAt 4 (some 4) 4 5 immersed, wireOf],
    [.composed kind 0 (some 1) [wireOf] [edgeAt 4 (some 4) 4 5 immersed]]]⟩

/-- The calls for a square with a line inside it. -/
example : (convert (· == ·) (· == 4) (square .face 6 [])).toOption = some
    [.addPoint (0, 0) 7, .addPoint (4, 0) 8, .addPoint (4, 4) 9, .addPoint (0, 4) 10,
      .addPoint (1, 2) 11, .addPoint (3, 2) 12, .addLine 7 8 13, .addLine 8 9 14, .addLine 9 10 15,
      .addLine 7 10 16, .addLine 11 12 17, .addCurveLoop [13, 14, 15, -16] 14,
      .addPlaneSurface [14] 14, .addPhysicalGroup 1 [13, 14] 2, .addPhysicalGroup 1 [15, 16] 3,
      .addPhysicalGroup 1 [17] 4, .setTransfiniteCurve 17, .addPhysicalGroup 2 [14] 1,
      .embed 0 [] 1 13, .embed 0 [] 1 14, .embed 0 [] 1 15, .embed 0 [] 1 16, .embed 0 [] 1 17,
      .embed 0 [11, 12] 2 14, .embed 1 [17] 2 14] := by
  decide +kernel

/-- C84 does not hold for a curve with an immersed vertex inside a surface: the vertex is taken for a
curve, and the surface gets an embedded curve that does not exist. -/
theorem C84_immersed_vertex_violated :
    ∃ calls, convert (· == ·) (fun _ => false) (square .face 7 [corner 6]) = .ok calls ∧
      .embed 1 [20] 2 15 ∈ calls ∧ .dim 1 20 ∉ created calls := by
  have h : ((convert (· == ·) (fun _ => false) (square .face 7 [corner 6])).toOption.map fun calls =>
      decide (.embed 1 [20] 2 15 ∈ calls ∧ .dim 1 20 ∉ created calls)) = some true := by
    decide +kernel
  cases hc : convert (· == ·) (fun _ => false) (square .face 7 [corner 6]) with
  | error e => rw [hc] at h; cases h
  | ok calls =>
    rw [hc] at h
    exact ⟨calls, rfl, of_decide_eq_true (Option.some.inj h)⟩

/-- C84 does not hold for a shell with a physical tag: its group refers to a surface that does not
exist. -/
theorem C84_shell_violated :
    ∃ calls, convert (· == ·) (fun _ => false) (square .shell 6 []) = .ok calls ∧
      .addPhysicalGroup 2 [14] 1 ∈ calls ∧ .dim 2 14 ∉ created calls := by
  have h : ((convert (· == ·) (fun _ => false) (square .shell 6 [])).toOption.map fun calls =>
      decide (.addPhysicalGroup 2 [14] 1 ∈ calls ∧ .dim 2 14 ∉ created calls)) = some true := by
    decide +kernel
  cases hc : convert (· == ·) (fun _ => false) (square .shell 6 []) with
  | error e => rw [hc] at h; cases h
  | ok calls =>
    rw [hc] at h
    exact ⟨calls, rfl, of_decide_eq_true (Option.some.inj h)⟩

/-! ### The hypotheses hold for the square -/

theorem square_shapes : seenShapes (square .face 6 []) =
    [[corner 0, corner 1, corner 2, corner 3, corner 4, corner 5],
      sides ++ [edgeAt 4 (some 4) 4 5 [], wireOf],
      [.composed .face 0 (some 1) [wireOf] [edgeAt 4 (some 4) 4 5 []]]] := rfl

theorem square_known0 (i : ℕ) (hi : i < 6) :
    Known (variant (· == ·)) (seenShapes (square .face 6 [])) 0 (corner i).tag := by
  refine ⟨_, by rw [square_shapes]; rfl, corner i, ?_, by simp [Transferred], rfl⟩
  match i, hi with
  | 0, _ | 1, _ | 2, _ | 3, _ | 4, _ | 5, _ => simp

/-- The square with a line inside it is whole. -/
theorem square_whole : Whole (variant (· == ·)) (seenShapes (square .face 6 [])) := by
  have K0 := square_known0
  have K1 : ∀ e ∈ sides ++ [edgeAt 4 (some 4) 4 5 []],
      Known (variant (· == ·)) (seenShapes (square .face 6 [])) 1 e.tag := by
    intro e he
    refine ⟨_, by rw [square_shapes]; rfl, e, ?_, ?_, rfl⟩
    · simp only [List.mem_append, List.mem_cons, List.not_mem_nil, or_false] at he ⊢
      rcases he with he | he
      · exact .inl he
      · exact .inr (.inl he)
    · simp only [sides, List.cons_append, List.nil_append, List.mem_cons, List.not_mem_nil,
        or_false] at he
      rcases he with rfl | rfl | rfl | rfl | rfl <;> rfl
  rw [square_shapes] at *
  constructor
  · simp
  · simp
  · intro k l hl s hs
    match k, hl with
    | 0, hl => cases hl; revert s; simp [corner, vertexAt, Shape.tag]
    | 1, hl => cases hl; revert s; simp [sides, edgeAt, wireOf, Shape.tag]
    | 2, hl => cases hl; revert s; simp [Shape.tag]
  · intro k l hl
    match k, hl with
    | 0, hl => cases hl; decide
    | 1, hl => cases hl; decide
    | 2, hl => cases hl; decide
  · intro l hl s hs
    cases hl
    simp only [List.mem_cons, List.not_mem_nil, or_false] at hs
    rcases hs with rfl | rfl | rfl | rfl | rfl | rfl <;> exact ⟨_, _, _, rfl⟩
  · intro l hl s hs hk
    cases hl
    simp only [sides, List.cons_append, List.nil_append, List.mem_cons, List.not_mem_nil,
      or_false] at hs
    rcases hs with rfl | rfl | rfl | rfl | rfl | rfl
    · exact ⟨corner 0, corner 1, [], rfl, K0 0 (by omega), K0 1 (by omega)⟩
    · exact ⟨corner 1, corner 2, [], rfl, K0 1 (by omega), K0 2 (by omega)⟩
    · exact ⟨corner 2, corner 3, [], rfl, K0 2 (by omega), K0 3 (by omega)⟩
    · exact ⟨corner 0, corner 3, [], rfl, K0 0 (by omega), K0 3 (by omega)⟩
    · exact ⟨corner 4, corner 5, [], rfl, K0 4 (by omega), K0 5 (by omega)⟩
    · cases hk
  · intro l hl s hs hk
    cases hl
    cases List.mem_singleton.1 hs
    refine ⟨wireOf, [], [1, 1, 1, -1], rfl, ?_, by decide, by decide, ?_⟩
    · rfl
    · intro c hc
      exact K1 c (List.mem_append_left _ hc)
  · intro l hl s hs hk w hw
    cases hl
    simp only [sides, List.cons_append, List.nil_append, List.mem_cons, List.not_mem_nil,
      or_false] at hs
    rcases hs with rfl | rfl | rfl | rfl | rfl | rfl <;> cases hw <;> cases hk
  · intro l hl s hs hk c hc
    cases hl
    cases List.mem_singleton.1 hs
    cases List.mem_singleton.1 hc
    refine ⟨?_, ?_, fun _ => K1 (edgeAt 4 (some 4) 4 5 []) (by simp)⟩
    rotate_left
    · intro w hw
      cases hw
    intro w hw
    simp only [edgeAt, Shape.boundary, List.mem_cons, List.not_mem_nil, or_false] at hw
    rcases hw with rfl | rfl
    · exact K0 4 (by omega)
    · exact K0 5 (by omega)
  · intro l hl s hs hp
    cases hl
    cases List.mem_singleton.1 hs
    rfl

example : ∃ calls, convert (· == ·) (· == 4) (square .face 6 []) = .ok calls ∧ WellFormed [] calls :=
  let ⟨calls, h1, h2, _⟩ := C84_transfer_partial square_whole (by decide)
  ⟨calls, h1, h2⟩


/-- Room for shapes of one more dimension. -/
theorem Whole.append {v : Variant P} {shapes : List (List (Shape P))} (h : Whole v shapes)
    (h3 : shapes.length ≤ 3) : Whole v (shapes ++ [[]]) := by
  have old : ∀ {k : Nat} {l s}, (shapes ++ [[]])[k]? = some l → s ∈ l → shapes[k]? = some l := by
    intro k l s hl hs
    rw [List.getElem?_append] at hl
    split at hl
    · exact hl
    · obtain ⟨_, rfl⟩ := List.getElem?_eq_some_iff.1 hl
      simp at hs
  have lift : ∀ {k : Nat} {t}, Known v shapes k t → Known v (shapes ++ [[]]) k t := by
    rintro k t ⟨l, hl, s, hs⟩
    exact ⟨l, by rw [List.getElem?_append_left (List.getElem?_eq_some_iff.1 hl).1]; exact hl, s, hs⟩
  constructor
  · simp
  · simp; omega
  · exact fun k l hl s hs => h.nonneg k l (old hl hs) s hs
  · intro k l hl
    cases l with
    | nil => simp
    | cons a l => exact h.unique k _ (old hl List.mem_cons_self)
  · exact fun l hl s hs => h.vertices l (old hl hs) s hs
  · intro l hl s hs hk
    obtain ⟨b, e, rest, h1, h2, h3⟩ := h.curves l (old hl hs) s hs hk
    exact ⟨b, e, rest, h1, lift h2, lift h3⟩
  · intro l hl s hs hk
    obtain ⟨wire, rest, o, h1, h2, h3, h4, h5⟩ := h.surfaces l (old hl hs) s hs hk
    exact ⟨wire, rest, o, h1, h2, h3, h4, fun c hc => lift (h5 c hc)⟩
  · exact fun l hl s hs hk w hw => lift (h.inCurve l (old hl hs) s hs hk w hw)
  · intro l hl s hs hk c hc
    obtain ⟨h1, h2, h3⟩ := h.inSurface l (old hl hs) s hs hk c hc
    exact ⟨fun w hw => lift (h1 w hw), fun w hw => lift (h2 w hw), fun hi => lift (h3 hi)⟩
  · exact fun l hl s hs => h.tagged l (old hl hs) s hs

/-- The hypotheses of `C84_three_violated` hold for the square with room for volumes. -/
example : convert (· == ·) (· == 4) ⟨3, (square .face 6 []).shapes ++ [[]]⟩ = .error .nameError :=
  C84_three_violated (d := ⟨3, (square .face 6 []).shapes ++ [[]]⟩)
    (by
      have := square_whole.append (by decide)
      simpa [seenShapes] using this)
    rfl (by intro j hj; match j, hj with | 0, _ | 1, _ | 2, _ => rfl)

/-- The hypotheses of `C84_loop_partial` hold for the square. -/
example : ∃ signs, FollowsChain sides [corner 0, corner 1, corner 2, corner 3, corner 0] signs ∧
    ∃ calls, convert (· == ·) (· == 4) (square .face 6 []) = .ok calls ∧
      .addCurveLoop (List.zipWith (fun e x => occTag (seenShapes (square .face 6 [])) 1 e.tag * x) sides
        signs) (occTag (seenShapes (square .face 6 [])) 2 0) ∈ calls := by
  obtain ⟨calls, h, -⟩ := C84_transfer_partial (refined := (· == 4)) square_whole (by decide)
  have hchain : IsChain sides [corner 0, corner 1, corner 2, corner 3, corner 0] := by
    refine ⟨rfl, ?_, ?_⟩
    · intro i e a b h1 h2 h3
      match i with
      | 0 | 1 | 2 =>
        simp only [sides, List.getElem?_cons_zero, List.getElem?_cons_succ, Option.some.injEq,
          Nat.zero_add] at h1 h2 h3
        subst h1 h2 h3; exact Or.inl rfl
      | 3 =>
        simp only [sides, List.getElem?_cons_zero, List.getElem?_cons_succ, Option.some.injEq]
          at h1 h2 h3
        subst h1 h2 h3; exact Or.inr rfl
      | i + 4 => simp [sides] at h1
    · intro a ha
      simp only [List.mem_cons, List.not_mem_nil, or_false] at ha
      rcases ha with rfl | rfl | rfl | rfl | rfl <;> rfl
  obtain ⟨signs, h1, h2⟩ := C84_loop_partial (by simp) h (by decide)
    (s := .composed .face 0 (some 1) [wireOf] [edgeAt 4 (some 4) 4 5 []])
    (List.mem_singleton.2 rfl) rfl (hw := rfl) (by simp [sides]) hchain
    (by
      intro i a b h1 h2
      match i with
      | 0 | 1 | 2 | 3 =>
        simp only [List.getElem?_cons_zero, List.getElem?_cons_succ, Option.some.injEq,
          Nat.zero_add] at h1 h2
        subst h1 h2; simp [corner, vertexAt, Shape.tag]
      | i + 4 => simp at h2)
    (by
      intro a b h1 h2
      simp only [List.getElem?_cons_zero, List.getElem?_cons_succ, Option.some.injEq]
        at h1 h2
      subst h1 h2; simp [corner, vertexAt, Shape.tag])
  exact ⟨signs, h1, calls, h, h2⟩

#print axioms C84_transfer_partial
#print axioms C84_calls
#print axioms C84_groups
#print axioms C84_refined
#print axioms C84_embed
#print axioms C84_loop_partial
#print axioms C84_three_violated
#print axioms C84_three
#print axioms C84_no_wire
#print axioms C84_ranges_partial
#print axioms C84_ranges_violated
#print axioms C84_immersed_vertex_violated
#print axioms C84_shell_violated

#print axioms C84_left_out
#print axioms C84_places

end Verif.DiscreteDomain
