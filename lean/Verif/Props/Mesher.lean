/-
C48: the transfer of a domain to gmsh.
-/
import Verif.Lemmas.Mesher

namespace Verif.Mesher
open Topology Topology.Shape MeshGraph
variable {P : Type}

/-- The shapes of a domain as their getters show them. -/
abbrev seenShapes (d : Domain P) : List (List (Shape P)) := d.shapes.map (List.map view)

theorem entitiesOf (v : Variant P) (shapes : List (List (Shape P))) :
    EntitiesOf v shapes (allEnts v shapes) := by
  intro k t h4 hk hf
  constructor
  · intro h
    exact mem_allEnts h
  · rintro ⟨l, hl, s, hs, ht, rfl⟩
    exact known_made ⟨l, hl, s, hs, ht, rfl⟩ (by have := le_scan hk hf; omega)

/-- C48 (geo).  The transfer of a complete domain makes entities with positive and distinct tags,
and every call refers to entities made before it. -/
theorem C48_geo {stored : Shape P → List Int} {d : Domain P}
    (h : Complete (geo stored) (seenShapes d)) (ht : TagsOnEntities (geo stored) (seenShapes d)) :
    ∃ calls, transferGeo stored d = .ok calls ∧ WellFormed [] calls ∧ (created calls).Nodup ∧
      (∀ e ∈ created calls, 0 < e.tag) ∧ EntitiesOf (geo stored) (seenShapes d) (created calls) ∧
      ∃ made rest, entities (geo stored) (seenShapes d) = .ok made ∧ calls = made ++ rest ∧
        created rest = [] := by
  obtain ⟨made, h1, h2, h3⟩ := entities_spec h
  obtain ⟨l0, h0⟩ : ∃ l, (seenShapes d)[0]? = some l :=
    ⟨_, List.getElem?_eq_getElem (by have := h.two; omega)⟩
  obtain ⟨l1, h1'⟩ : ∃ l, (seenShapes d)[1]? = some l :=
    ⟨_, List.getElem?_eq_getElem (by have := h.two; omega)⟩
  have r0 : OnlyRefs (allEnts (geo stored) (seenShapes d))
      (l0.flatMap (physicalGroup (seenShapes d) 0)) :=
    .flatMap fun s hs => physicalGroup_refs h0 hs (ht 0 l0 h0 s hs) (by omega)
  have r1 : OnlyRefs (allEnts (geo stored) (seenShapes d))
      (l1.flatMap (physicalGroup (seenShapes d) 1)) :=
    .flatMap fun s hs => physicalGroup_refs h1' hs (ht 1 l1 h1' s hs) (by omega)
  have r2 : OnlyRefs (allEnts (geo stored) (seenShapes d))
      ((seen (seenShapes d) 1).flatMap (physicalGroup (seenShapes d) 2)) :=
    .flatMap fun s hs => by
      obtain ⟨hk, l, hl, hs⟩ := mem_seen hs
      exact physicalGroup_refs hl hs (ht 2 l hl s hs) (by omega)
  have r3 : OnlyRefs (allEnts (geo stored) (seenShapes d))
      ((seen (seenShapes d) 2).flatMap (physicalGroup (seenShapes d) 3)) :=
    .flatMap fun s hs => by
      obtain ⟨hk, l, hl, hs⟩ := mem_seen hs
      exact physicalGroup_refs hl hs (ht 3 l hl s hs) (by omega)
  obtain ⟨w, c⟩ := (((r0.append r1).append r2).append r3).spec
  refine ⟨made ++ (l0.flatMap (physicalGroup (seenShapes d) 0) ++
    l1.flatMap (physicalGroup (seenShapes d) 1) ++
    (seen (seenShapes d) 1).flatMap (physicalGroup (seenShapes d) 2) ++
    (seen (seenShapes d) 2).flatMap (physicalGroup (seenShapes d) 3)), ?_, ?_, ?_⟩
  · unfold transferGeo
    dsimp only
    rw [h1, Res.bind_ok, getIdx_some h0, Res.bind_ok, getIdx_some h1', Res.bind_ok,
      ifDimension_pure, Res.bind_ok, ifDimension_pure, Res.bind_ok]
    simp only [List.append_assoc]; rfl
  · refine (wf_append _ _ _).2 ⟨h2, wf_mono _ ?_ w⟩
    intro e he
    rw [h3]; simpa using he
  · have hc : created (made ++ (l0.flatMap (physicalGroup (seenShapes d) 0) ++
        l1.flatMap (physicalGroup (seenShapes d) 1) ++
        (seen (seenShapes d) 1).flatMap (physicalGroup (seenShapes d) 2) ++
        (seen (seenShapes d) 2).flatMap (physicalGroup (seenShapes d) 3))) =
        allEnts (geo stored) (seenShapes d) := by
      have : ∀ l l' : List (Call P), created (l ++ l') = created l ++ created l' := by
        intro l l'; simp [created]
      rw [this, c, h3, List.append_nil]
    rw [hc]
    refine ⟨allEnts_nodup h, ?_, entitiesOf _ _, made, _, h1, rfl, c⟩
    intro e he
    obtain ⟨l, hl, s, hs, -, et⟩ := mem_allEnts he
    rw [et]
    have := h.nonneg _ l hl s hs
    have := stride_nonneg (seenShapes d) e.phase
    unfold gmshTag; omega

/-- C48 (calls).  The calls that make the entities: a point for every vertex, a line from the first
to the second boundary shape of a curve, a loop of the curves of the first boundary shape of a
surface with the signs of its orientation, and a loop of the surfaces of the first boundary shape of
a volume. -/
theorem C48_calls {v : Variant P} {shapes : List (List (Shape P))} {calls : List (Call P)}
    (h : entities v shapes = .ok calls) :
    (∀ x t, .addPoint x t ∈ calls ↔ ∃ l, shapes[0]? = some l ∧ ∃ s ∈ l, pointOf s = .ok x ∧
      t = s.tag + 1) ∧
    (∀ a b t, .addLine a b t ∈ calls ↔ ∃ l, shapes[1]? = some l ∧ ∃ s ∈ l, v.skipCurve s = false ∧
      ∃ p q, s.boundary[0]? = some p ∧ s.boundary[1]? = some q ∧ a = p.tag + 1 ∧ b = q.tag + 1 ∧
        t = gmshTag shapes 1 s) ∧
    (∀ cs t, .addCurveLoop cs t ∈ calls ↔ ∃ s ∈ seen shapes 1, s.composite = false ∧
      ∃ w o, s.boundary[0]? = some w ∧ v.orientation w = .ok o ∧ o.length ≤ w.immersed.length ∧
        cs = List.zipWith (fun e x => gmshTag shapes 1 e * x) w.immersed o ∧
        t = gmshTag shapes 2 s) ∧
    (∀ cs t, .addSurfaceLoop cs t ∈ calls ↔ ∃ s ∈ seen shapes 2, s.composite = false ∧
      ∃ w, s.boundary[0]? = some w ∧ cs = w.immersed.map (gmshTag shapes 2) ∧
        t = gmshTag shapes 3 s) ∧
    (∀ cs t, .addPlaneSurface cs t ∈ calls → cs = [t]) ∧
    (∀ cs t, .addVolume cs t ∈ calls → cs = [t]) := by
  unfold entities at h
  obtain ⟨l0, e0, h⟩ := Res.bind_eq_ok.1 h
  obtain ⟨c0, h0, h⟩ := Res.bind_eq_ok.1 h
  obtain ⟨l1, e1, h⟩ := Res.bind_eq_ok.1 h
  obtain ⟨c1, h1, h⟩ := Res.bind_eq_ok.1 h
  obtain ⟨c2, h2, h⟩ := Res.bind_eq_ok.1 h
  obtain ⟨c3, h3, h⟩ := Res.bind_eq_ok.1 h
  cases h
  have e0 := getIdx_eq_ok.1 e0
  have e1 := getIdx_eq_ok.1 e1
  have m0 : ∀ c, c ∈ c0 ↔ ∃ s ∈ l0, ∃ x, pointOf s = .ok x ∧ c = .addPoint x (s.tag + 1) := by
    intro c
    rw [callsOf_mem_iff h0]
    refine exists_congr fun s => and_congr_right fun _ => ?_
    unfold addVertex
    constructor
    · rintro ⟨cs, e, hc⟩
      obtain ⟨x, hx, e⟩ := Res.bind_eq_ok.1 e
      cases e
      exact ⟨x, hx, by simpa using hc⟩
    · rintro ⟨x, hx, rfl⟩
      exact ⟨_, by rw [hx, Res.bind_ok]; rfl, by simp⟩
  have m1 : ∀ c, c ∈ c1 ↔ ∃ s ∈ l1, v.skipCurve s = false ∧ ∃ p q, s.boundary[0]? = some p ∧
      s.boundary[1]? = some q ∧ c = .addLine (p.tag + 1) (q.tag + 1) (gmshTag shapes 1 s) := by
    intro c
    rw [callsOf_mem_iff h1]
    refine exists_congr fun s => and_congr_right fun _ => ?_
    unfold addCurve
    constructor
    · rintro ⟨cs, e, hc⟩
      split at e
      · cases e; cases hc
      · rename_i hk
        obtain ⟨p, hp, e⟩ := Res.bind_eq_ok.1 e
        obtain ⟨q, hq, e⟩ := Res.bind_eq_ok.1 e
        cases e
        exact ⟨by simpa using hk, p, q, getIdx_eq_ok.1 hp, getIdx_eq_ok.1 hq, by simpa using hc⟩
    · rintro ⟨hk, p, q, hp, hq, rfl⟩
      refine ⟨_, ?_, List.mem_singleton.2 rfl⟩
      rw [if_neg (by simpa using hk), getIdx_some hp, Res.bind_ok, getIdx_some hq, Res.bind_ok]
      rfl
  have m2 : ∀ c, c ∈ c2 ↔ ∃ s ∈ seen shapes 1, s.composite = false ∧
      ∃ w o, s.boundary[0]? = some w ∧ v.orientation w = .ok o ∧ o.length ≤ w.immersed.length ∧
        (c = .addCurveLoop (List.zipWith (fun e x => gmshTag shapes 1 e * x) w.immersed o)
          (gmshTag shapes 2 s) ∨
        c = .addPlaneSurface [gmshTag shapes 2 s] (gmshTag shapes 2 s)) := by
    intro c
    rw [ifDimension_mem_iff h2]
    refine exists_congr fun s => and_congr_right fun hs => ?_
    have hz : ∀ (w : Shape P) (o : List Int),
        List.zipWith (· * ·) (w.immersed.map (gmshTag shapes 1)) o =
        List.zipWith (fun e x => gmshTag shapes 1 e * x) w.immersed o := by
      intro w o
      rw [List.zipWith_map_left]
    constructor
    · rintro ⟨cs, e, hc⟩
      unfold addSurface at e
      split at e
      · cases e; cases hc
      · rename_i hk
        obtain ⟨w, hw, e⟩ := Res.bind_eq_ok.1 e
        obtain ⟨o, ho, e⟩ := Res.bind_eq_ok.1 e
        obtain ⟨z, hz', e⟩ := Res.bind_eq_ok.1 e
        cases e
        obtain ⟨rfl, hlen⟩ := signedTags_zip hz'
        refine ⟨by simpa using hk, w, o, getIdx_eq_ok.1 hw, ho, by simpa using hlen, ?_⟩
        rw [hz] at hc
        simpa using hc
    · rintro ⟨hk, w, o, hw, ho, hlen, hc⟩
      obtain ⟨s', hs', hl'⟩ : ∃ r, addSurface v shapes s = .ok r ∧ c ∈ r := by
        unfold addSurface
        rw [if_neg (by simpa using hk), getIdx_some hw, Res.bind_ok, ho, Res.bind_ok]
        obtain ⟨r, hr⟩ : ∃ r, signedTags (w.immersed.map (gmshTag shapes 1)) o = .ok r :=
          signedTags_ok (by simpa using hlen)
        obtain ⟨rfl, -⟩ := signedTags_zip hr
        rw [hr, Res.bind_ok]
        refine ⟨_, rfl, ?_⟩
        rw [hz]
        simpa using hc
      exact ⟨s', hs', hl'⟩
  have m3 : ∀ c, c ∈ c3 ↔ ∃ s ∈ seen shapes 2, s.composite = false ∧
      ∃ w, s.boundary[0]? = some w ∧
        (c = .addSurfaceLoop (w.immersed.map (gmshTag shapes 2)) (gmshTag shapes 3 s) ∨
        c = .addVolume [gmshTag shapes 3 s] (gmshTag shapes 3 s)) := by
    intro c
    rw [ifDimension_mem_iff h3]
    refine exists_congr fun s => and_congr_right fun hs => ?_
    unfold addVolume
    constructor
    · rintro ⟨cs, e, hc⟩
      split at e
      · cases e; cases hc
      · rename_i hk
        obtain ⟨w, hw, e⟩ := Res.bind_eq_ok.1 e
        cases e
        exact ⟨by simpa using hk, w, getIdx_eq_ok.1 hw, by simpa using hc⟩
    · rintro ⟨hk, w, hw, hc⟩
      rw [if_neg (by simpa using hk), getIdx_some hw, Res.bind_ok]
      exact ⟨_, rfl, by simpa using hc⟩
  refine ⟨?_, ?_, ?_, ?_, ?_, ?_⟩
  · intro x t
    simp only [List.mem_append, m0, m1, m2, m3]
    constructor
    · rintro (((⟨s, hs, x', h, e⟩ | ⟨s, hs, -, p, q, -, -, e⟩) |
        ⟨s, hs, -, w, o, -, -, -, e | e⟩) | ⟨s, hs, -, w, -, e | e⟩) <;> cases e
      exact ⟨l0, e0, s, hs, h, rfl⟩
    · rintro ⟨l, hl, s, hs, h, rfl⟩
      rw [e0] at hl; cases hl
      exact .inl (.inl (.inl ⟨s, hs, x, h, rfl⟩))
  · intro a b t
    simp only [List.mem_append, m0, m1, m2, m3]
    constructor
    · rintro (((⟨s, hs, x', h, e⟩ | ⟨s, hs, hk, p, q, hp, hq, e⟩) |
        ⟨s, hs, -, w, o, -, -, -, e | e⟩) | ⟨s, hs, -, w, -, e | e⟩) <;> cases e
      exact ⟨l1, e1, s, hs, hk, p, q, hp, hq, rfl, rfl, rfl⟩
    · rintro ⟨l, hl, s, hs, hk, p, q, hp, hq, rfl, rfl, rfl⟩
      rw [e1] at hl; cases hl
      exact .inl (.inl (.inr ⟨s, hs, hk, p, q, hp, hq, rfl⟩))
  · intro cs t
    simp only [List.mem_append, m0, m1, m2, m3]
    constructor
    · rintro (((⟨s, hs, x', h, e⟩ | ⟨s, hs, hk, p, q, hp, hq, e⟩) |
        ⟨s, hs, hk, w, o, hw, ho, hlen, e | e⟩) | ⟨s, hs, -, w, -, e | e⟩) <;> cases e
      exact ⟨s, hs, hk, w, o, hw, ho, hlen, rfl, rfl⟩
    · rintro ⟨s, hs, hk, w, o, hw, ho, hlen, rfl, rfl⟩
      exact .inl (.inr ⟨s, hs, hk, w, o, hw, ho, hlen, .inl rfl⟩)
  · intro cs t
    simp only [List.mem_append, m0, m1, m2, m3]
    constructor
    · rintro (((⟨s, hs, x', h, e⟩ | ⟨s, hs, hk, p, q, hp, hq, e⟩) |
        ⟨s, hs, hk, w, o, hw, ho, hlen, e | e⟩) | ⟨s, hs, hk, w, hw, e | e⟩) <;> cases e
      exact ⟨s, hs, hk, w, hw, rfl, rfl⟩
    · rintro ⟨s, hs, hk, w, hw, rfl, rfl⟩
      exact .inr ⟨s, hs, hk, w, hw, .inl rfl⟩
  · intro cs t
    simp only [List.mem_append, m0, m1, m2, m3]
    rintro (((⟨s, hs, x', h, e⟩ | ⟨s, hs, hk, p, q, hp, hq, e⟩) |
      ⟨s, hs, hk, w, o, hw, ho, hlen, e | e⟩) | ⟨s, hs, hk, w, hw, e | e⟩) <;> cases e
    rfl
  · intro cs t
    simp only [List.mem_append, m0, m1, m2, m3]
    rintro (((⟨s, hs, x', h, e⟩ | ⟨s, hs, hk, p, q, hp, hq, e⟩) |
      ⟨s, hs, hk, w, o, hw, ho, hlen, e | e⟩) | ⟨s, hs, hk, w, hw, e | e⟩) <;> cases e
    rfl

/-- C48 (lines).  The geo kernel gets a line for every curve that is not composite, the occ kernel
for those of them without immersed parts. -/
theorem C48_lines {stored : Shape P → List Int} {close : P → P → Bool}
    {shapes : List (List (Shape P))} {calls calls' : List (Call P)}
    (h : entities (geo stored) shapes = .ok calls) (h' : entities (occ close) shapes = .ok calls') :
    (∀ t, (∃ a b, .addLine a b t ∈ calls) ↔ ∃ l, shapes[1]? = some l ∧ ∃ s ∈ l,
      s.composite = false ∧ 2 ≤ s.boundary.length ∧ t = gmshTag shapes 1 s) ∧
    (∀ t, (∃ a b, .addLine a b t ∈ calls') ↔ ∃ l, shapes[1]? = some l ∧ ∃ s ∈ l,
      s.composite = false ∧ s.immersed = [] ∧ 2 ≤ s.boundary.length ∧ t = gmshTag shapes 1 s) := by
  have two : ∀ s : Shape P, (∃ p q, s.boundary[0]? = some p ∧ s.boundary[1]? = some q) ↔
      2 ≤ s.boundary.length := by
    intro s
    constructor
    · rintro ⟨p, q, -, hq⟩
      exact (List.getElem?_eq_some_iff.1 hq).1
    · intro hl
      exact ⟨_, _, List.getElem?_eq_getElem (by omega), List.getElem?_eq_getElem hl⟩
  constructor
  · intro t
    simp only [(C48_calls h).2.1]
    constructor
    · rintro ⟨a, b, l, hl, s, hs, hk, p, q, hp, hq, -, -, ht⟩
      exact ⟨l, hl, s, hs, hk, (two s).1 ⟨p, q, hp, hq⟩, ht⟩
    · rintro ⟨l, hl, s, hs, hk, h2, ht⟩
      obtain ⟨p, q, hp, hq⟩ := (two s).2 h2
      exact ⟨_, _, l, hl, s, hs, hk, p, q, hp, hq, rfl, rfl, ht⟩
  · intro t
    simp only [(C48_calls h').2.1]
    have hk' : ∀ s : Shape P, (occ close).skipCurve s = false ↔
        s.composite = false ∧ s.immersed = [] := by
      intro s
      simp [occ, List.length_pos_iff]
    simp only [hk']
    constructor
    · rintro ⟨a, b, l, hl, s, hs, ⟨k1, k2⟩, p, q, hp, hq, -, -, ht⟩
      exact ⟨l, hl, s, hs, k1, k2, (two s).1 ⟨p, q, hp, hq⟩, ht⟩
    · rintro ⟨l, hl, s, hs, k1, k2, h2, ht⟩
      obtain ⟨p, q, hp, hq⟩ := (two s).2 h2
      exact ⟨_, _, l, hl, s, hs, ⟨k1, k2⟩, p, q, hp, hq, rfl, rfl, ht⟩

/-- C48 (groups).  Every shape with a physical tag gets a physical group of its own entity, and
there are no other groups. -/
theorem C48_groups {stored : Shape P → List Int} {d : Domain P} {calls : List (Call P)}
    (h : transferGeo stored d = .ok calls) {k : Nat} {ts : List Int} {p : Int}
    (h4 : k < 4) (hk : k < d.shapes.length) (hf : ∀ j < k, noShapes (seenShapes d) j = false) :
    .addPhysicalGroup k ts p ∈ calls ↔ ∃ l, (seenShapes d)[k]? = some l ∧
      ∃ s ∈ l, s.physicalTag = some p ∧ ts = [gmshTag (seenShapes d) k s] := by
  have hlen : k < (seenShapes d).length := by simpa using hk
  have hscan := le_scan hlen hf
  unfold transferGeo at h
  dsimp only at h
  obtain ⟨made, h1, h⟩ := Res.bind_eq_ok.1 h
  obtain ⟨l0, h0, h⟩ := Res.bind_eq_ok.1 h
  obtain ⟨l1, h1', h⟩ := Res.bind_eq_ok.1 h
  rw [ifDimension_pure, Res.bind_ok, ifDimension_pure, Res.bind_ok] at h
  cases h
  have h0 := getIdx_eq_ok.1 h0
  have h1' := getIdx_eq_ok.1 h1'
  have group : ∀ (j : Nat) (s : Shape P), .addPhysicalGroup k ts p ∈ physicalGroup (seenShapes d) j s ↔
      j = k ∧ s.physicalTag = some p ∧ ts = [gmshTag (seenShapes d) k s] := by
    intro j s
    unfold physicalGroup
    cases hp : s.physicalTag with
    | none => simp
    | some q =>
      simp only [List.mem_singleton, Call.addPhysicalGroup.injEq, Option.some.injEq]
      constructor
      · rintro ⟨rfl, e, rfl⟩; exact ⟨rfl, rfl, e⟩
      · rintro ⟨rfl, rfl, e⟩; exact ⟨rfl, e, rfl⟩
  have nomade : .addPhysicalGroup k ts p ∉ made := entities_no_group h1
  simp only [List.mem_append, List.mem_flatMap, group, nomade, false_or]
  constructor
  · rintro (((⟨s, hs, rfl, h⟩ | ⟨s, hs, rfl, h⟩) | ⟨s, hs, rfl, h⟩) | ⟨s, hs, rfl, h⟩)
    · exact ⟨l0, h0, s, hs, h⟩
    · exact ⟨l1, h1', s, hs, h⟩
    · obtain ⟨-, l, hl, hs⟩ := mem_seen hs
      exact ⟨l, hl, s, hs, h⟩
    · obtain ⟨-, l, hl, hs⟩ := mem_seen hs
      exact ⟨l, hl, s, hs, h⟩
  · rintro ⟨l, hl, s, hs, h⟩
    match k, hl, hscan, h, h4 with
    | 0, hl, _, h, _ =>
      rw [h0] at hl; cases hl
      exact .inl (.inl (.inl ⟨s, hs, rfl, h⟩))
    | 1, hl, _, h, _ =>
      rw [h1'] at hl; cases hl
      exact .inl (.inl (.inr ⟨s, hs, rfl, h⟩))
    | 2, hl, hscan, h, _ => exact .inl (.inr ⟨s, seen_of (Nat.lt_of_succ_le hscan) hl hs, rfl, h⟩)
    | 3, hl, hscan, h, _ => exact .inr ⟨s, seen_of (Nat.lt_of_succ_le hscan) hl hs, rfl, h⟩

/-- C48 (ranges).  When the tags are below the number of shapes, entities of different dimensions
have different tags. -/
theorem C48_ranges {shapes : List (List (Shape P))} {j k : Nat} (hjk : j < k)
    {l l' : List (Shape P)} (hl : shapes[j]? = some l)
    {s s' : Shape P} (hs : s ∈ l) (hs' : s' ∈ l') (hlt : ∀ x ∈ l, x.tag < l.length)
    (hnn : ∀ x ∈ l', 0 ≤ x.tag) : gmshTag shapes j s < gmshTag shapes k s' := by
  have h1 := stride_mono hjk hl
  have h2 := hlt s hs
  have h3 := hnn s' hs'
  unfold gmshTag
  omega

/-- C48 (occ).  The transfer through the occ kernel does the same, with the shapes embedded in
surfaces and volumes. -/
theorem C48_occ {close : P → P → Bool} {graph : DiGraph (Int × Int)} {d : Domain P}
    (h : Complete (occ close) (seenShapes d)) (ho : CompleteOcc (occ close) (seenShapes d))
    (hg : d.dimension = 1 → ∀ l, (seenShapes d)[1]? = some l → ∀ s ∈ l, s.physicalTag ≠ none →
      s.immersed = [] → (0, s.tag) ∈ graph.nodes) :
    ∃ calls, transferOcc close graph d = .ok calls ∧ WellFormed [] calls ∧ (created calls).Nodup ∧
      (∀ e ∈ created calls, 0 < e.tag) ∧ EntitiesOf (occ close) (seenShapes d) (created calls) ∧
      ∃ made rest, entities (occ close) (seenShapes d) = .ok made ∧ calls = made ++ rest ∧
        created rest = [] := by
  obtain ⟨made, h1, h2, h3⟩ := entities_spec h
  obtain ⟨l0, h0⟩ : ∃ l, (seenShapes d)[0]? = some l :=
    ⟨_, List.getElem?_eq_getElem (by have := h.two; omega)⟩
  obtain ⟨l1, h1'⟩ : ∃ l, (seenShapes d)[1]? = some l :=
    ⟨_, List.getElem?_eq_getElem (by have := h.two; omega)⟩
  obtain ⟨groups, c1, c2⟩ := occCurveGroups_refs ho h1' fun hd => hg hd l1 h1'
  have r0 : OnlyRefs (allEnts (occ close) (seenShapes d))
      (l0.flatMap (physicalGroup (seenShapes d) 0)) :=
    .flatMap fun s hs => physicalGroup_refs h0 hs (fun _ => by simp [Transferred]) (by omega)
  have r2 : OnlyRefs (allEnts (occ close) (seenShapes d))
      ((seen (seenShapes d) 1).flatMap (physicalGroup (seenShapes d) 2)) :=
    .flatMap fun s hs => by
      obtain ⟨hk, l, hl, hs⟩ := mem_seen hs
      exact physicalGroup_refs hl hs
        (fun hp => by simpa [Transferred] using ho.higher 2 l (by omega) hl s hs hp) (by omega)
  have r3 : OnlyRefs (allEnts (occ close) (seenShapes d))
      ((seen (seenShapes d) 2).flatMap (physicalGroup (seenShapes d) 3)) :=
    .flatMap fun s hs => by
      obtain ⟨hk, l, hl, hs⟩ := mem_seen hs
      exact physicalGroup_refs hl hs
        (fun hp => by simpa [Transferred] using ho.higher 3 l (by omega) hl s hs hp) (by omega)
  have r4 : OnlyRefs (allEnts (occ close) (seenShapes d))
      ((seen (seenShapes d) 1).flatMap (embedSurface (seenShapes d))) :=
    .flatMap fun s hs => by
      obtain ⟨hk, l, hl, hs⟩ := mem_seen hs
      exact embedSurface_refs ho hk hl hs
  have r5 : OnlyRefs (allEnts (occ close) (seenShapes d))
      ((seen (seenShapes d) 2).flatMap (embedVolume (seenShapes d))) :=
    .flatMap fun s hs => by
      obtain ⟨hk, l, hl, hs⟩ := mem_seen hs
      exact embedVolume_refs ho hk hl hs
  obtain ⟨w, c⟩ := (((((r0.append c2).append r2).append r3).append r4).append r5).spec
  refine ⟨made ++ (l0.flatMap (physicalGroup (seenShapes d) 0) ++ groups ++
    (seen (seenShapes d) 1).flatMap (physicalGroup (seenShapes d) 2) ++
    (seen (seenShapes d) 2).flatMap (physicalGroup (seenShapes d) 3) ++
    (seen (seenShapes d) 1).flatMap (embedSurface (seenShapes d)) ++
    (seen (seenShapes d) 2).flatMap (embedVolume (seenShapes d))), ?_, ?_, ?_⟩
  · unfold transferOcc
    dsimp only
    rw [h1, Res.bind_ok, getIdx_some h0, Res.bind_ok, getIdx_some h1', Res.bind_ok, c1, Res.bind_ok,
      ifDimension_pure, Res.bind_ok, ifDimension_pure, Res.bind_ok, ifDimension_pure, Res.bind_ok,
      ifDimension_pure, Res.bind_ok]
    simp only [List.append_assoc]; rfl
  · refine (wf_append _ _ _).2 ⟨h2, wf_mono _ ?_ w⟩
    intro e he
    rw [h3]; simpa using he
  · have hc : ∀ l l' : List (Call P), created (l ++ l') = created l ++ created l' := by
      intro l l'; simp [created]
    rw [hc, c, h3, List.append_nil]
    refine ⟨allEnts_nodup h, ?_, entitiesOf _ _, made, _, h1, rfl, c⟩
    intro e he
    obtain ⟨l, hl, s, hs, -, et⟩ := mem_allEnts he
    rw [et]
    have := h.nonneg _ l hl s hs
    have := stride_nonneg (seenShapes d) e.phase
    unfold gmshTag; omega

/-- C48 (embedding).  In every surface that is not composite the curves immersed in it (or their
parts) are embedded together with their end points; in every volume the surfaces immersed in it,
or the parts of those having parts, together with the curves of their boundaries.  The lists of tags
are strictly increasing. -/
theorem C48_embed {close : P → P → Bool} {graph : DiGraph (Int × Int)} {d : Domain P}
    {calls : List (Call P)} (h : transferOcc close graph d = .ok calls) :
    (∀ s ∈ seen (seenShapes d) 1, s.composite = false → ∃ ts0 ts1,
      .embed 0 ts0 2 (gmshTag (seenShapes d) 2 s) ∈ calls ∧
      .embed 1 ts1 2 (gmshTag (seenShapes d) 2 s) ∈ calls ∧
      (∀ t ∈ ts1, .setTransfiniteCurve t ∈ calls) ∧
      ts0.Pairwise (· < ·) ∧ ts1.Pairwise (· < ·) ∧
      (∀ t, t ∈ ts0 ↔ ∃ c ∈ s.immersed, ∃ w ∈ c.boundary, t = w.tag + 1) ∧
      (∀ t, t ∈ ts1 ↔ ∃ c ∈ s.immersed, (c.immersed = [] ∧ t = gmshTag (seenShapes d) 1 c) ∨
        ∃ w ∈ c.immersed, t = gmshTag (seenShapes d) 1 w)) ∧
    (∀ s ∈ seen (seenShapes d) 2, s.composite = false → ∃ ts1 ts2,
      .embed 1 ts1 3 (gmshTag (seenShapes d) 3 s) ∈ calls ∧
      .embed 2 ts2 3 (gmshTag (seenShapes d) 3 s) ∈ calls ∧
      (∀ t ∈ ts1, .setTransfiniteCurve t ∈ calls) ∧
      ts1.Pairwise (· < ·) ∧ ts2.Pairwise (· < ·) ∧
      (∀ t, t ∈ ts1 ↔ ∃ c ∈ s.immersed, (∃ w ∈ c.immersed, t = gmshTag (seenShapes d) 1 w) ∨
        ∃ w ∈ c.boundary, ∃ x ∈ w.immersed, t = gmshTag (seenShapes d) 1 x) ∧
      (∀ t, t ∈ ts2 ↔ ∃ c ∈ s.immersed, c.immersed = [] ∧ t = gmshTag (seenShapes d) 2 c)) := by
  unfold transferOcc at h
  dsimp only at h
  obtain ⟨made, -, h⟩ := Res.bind_eq_ok.1 h
  obtain ⟨l0, -, h⟩ := Res.bind_eq_ok.1 h
  obtain ⟨l1, -, h⟩ := Res.bind_eq_ok.1 h
  obtain ⟨groups, -, h⟩ := Res.bind_eq_ok.1 h
  rw [ifDimension_pure, Res.bind_ok, ifDimension_pure, Res.bind_ok, ifDimension_pure, Res.bind_ok,
    ifDimension_pure, Res.bind_ok] at h
  cases h
  refine ⟨fun s hs hc => ?_, fun s hs hc => ?_⟩
  · have hin : ∀ c ∈ embedSurface (seenShapes d) s, c ∈ made ++
        l0.flatMap (physicalGroup (seenShapes d) 0) ++ groups ++
        (seen (seenShapes d) 1).flatMap (physicalGroup (seenShapes d) 2) ++
        (seen (seenShapes d) 2).flatMap (physicalGroup (seenShapes d) 3) ++
        (seen (seenShapes d) 1).flatMap (embedSurface (seenShapes d)) ++
        (seen (seenShapes d) 2).flatMap (embedVolume (seenShapes d)) := by
      intro c hc
      exact List.mem_append_left _ (List.mem_append_right _ (List.mem_flatMap.2 ⟨s, hs, hc⟩))
    have e : embedSurface (seenShapes d) s = _ := if_neg (by simp [hc])
    refine ⟨_, _, hin _ (by rw [e]; exact List.mem_append_left _ (List.mem_cons_self ..)),
      hin _ (by rw [e]; exact List.mem_append_left _ (List.mem_cons_of_mem _ (List.mem_cons_self ..))),
      fun t ht => hin _ (by rw [e]; exact List.mem_append_right _ (List.mem_map.2 ⟨t, ht, rfl⟩)),
      sortedUnique_pairwise _, sortedUnique_pairwise _, ?_, ?_⟩
    · intro t
      rw [mem_sortedUnique]
      simp only [List.mem_flatMap, List.mem_map, eq_comm]
    · intro t
      rw [mem_sortedUnique]
      simp only [List.mem_flatMap]
      refine exists_congr fun c => and_congr_right fun _ => ?_
      cases hi : c.immersed with
      | nil => simp
      | cons a r => simp [eq_comm]
  · have hin : ∀ c ∈ embedVolume (seenShapes d) s, c ∈ made ++
        l0.flatMap (physicalGroup (seenShapes d) 0) ++ groups ++
        (seen (seenShapes d) 1).flatMap (physicalGroup (seenShapes d) 2) ++
        (seen (seenShapes d) 2).flatMap (physicalGroup (seenShapes d) 3) ++
        (seen (seenShapes d) 1).flatMap (embedSurface (seenShapes d)) ++
        (seen (seenShapes d) 2).flatMap (embedVolume (seenShapes d)) := by
      intro c hc
      exact List.mem_append_right _ (List.mem_flatMap.2 ⟨s, hs, hc⟩)
    have e : embedVolume (seenShapes d) s = _ := if_neg (by simp [hc])
    refine ⟨_, _, hin _ (by rw [e]; exact List.mem_append_left _ (List.mem_cons_self ..)),
      hin _ (by rw [e]; exact List.mem_append_left _ (List.mem_cons_of_mem _ (List.mem_cons_self ..))),
      fun t ht => hin _ (by rw [e]; exact List.mem_append_right _ (List.mem_map.2 ⟨t, ht, rfl⟩)),
      sortedUnique_pairwise _, sortedUnique_pairwise _, ?_, ?_⟩
    · intro t
      rw [mem_sortedUnique]
      simp only [List.mem_flatMap]
      refine exists_congr fun c => and_congr_right fun _ => ?_
      cases hi : c.immersed with
      | nil => simp [eq_comm]
      | cons a r =>
        rw [if_pos (by simp), List.mem_append]
        simp only [List.mem_map, List.mem_flatMap, eq_comm]
    · intro t
      rw [mem_sortedUnique]
      simp only [List.mem_flatMap]
      refine exists_congr fun c => and_congr_right fun _ => ?_
      cases hi : c.immersed with
      | nil => simp
      | cons a r => simp

/-- C48 (curve groups).  The groups of a curve in the occ variant: with immersed curves, these, and
in two or three dimensions its untagged end points; otherwise the curve itself, in one dimension only
if the graph has no predecessor of `(0, tag)`, in two dimensions together with its untagged end
points, and nothing in three dimensions. -/
theorem C48_curve_groups {graph : DiGraph (Int × Int)} {shapes : List (List (Shape P))} {dim : Nat}
    {s : Shape P} {cs : List (Call P)} (h : occCurveGroup dim graph shapes s = .ok cs)
    {k : Nat} {ts : List Int} {p : Int} :
    .addPhysicalGroup k ts p ∈ cs ↔ s.physicalTag = some p ∧
      ((k = 1 ∧ s.immersed ≠ [] ∧ ts.Pairwise (· < ·) ∧
          ∀ t, t ∈ ts ↔ ∃ c ∈ s.immersed, t = gmshTag shapes 1 c) ∨
        (k = 0 ∧ ts = untagged s ∧ (dim = 2 ∨ 2 < dim ∧ s.immersed ≠ [])) ∨
        (k = 1 ∧ s.immersed = [] ∧ ts = [gmshTag shapes 1 s] ∧
          (dim = 2 ∨ dim = 1 ∧ ∀ e ∈ graph.edges, e.2 ≠ (0, s.tag)))) := by
  unfold occCurveGroup at h
  cases hp : s.physicalTag with
  | none => rw [hp] at h; cases h; simp
  | some q =>
    rw [hp] at h
    dsimp only at h
    cases hi : s.immersed with
    | cons a r =>
      rw [hi] at h
      rw [if_pos (by simp)] at h
      cases h
      have huniq : ∀ ts : List Int, (ts.Pairwise (· < ·) ∧
          ∀ t, t ∈ ts ↔ ∃ c ∈ a :: r, t = gmshTag shapes 1 c) ↔
          ts = sortedUnique ((a :: r).map (gmshTag shapes 1)) := by
        intro ts
        constructor
        · rintro ⟨h1, h2⟩
          refine eq_of_sorted_mem h1 (sortedUnique_pairwise _) fun t => ?_
          rw [h2, mem_sortedUnique]
          simp [eq_comm]
        · rintro rfl
          refine ⟨sortedUnique_pairwise _, fun t => ?_⟩
          rw [mem_sortedUnique]
          simp [eq_comm]
      simp only [huniq]
      simp only [ne_eq, reduceCtorEq, not_false_eq_true, true_and, and_true, false_and, and_false,
        or_false, Option.some.injEq, List.mem_cons, Call.addPhysicalGroup.injEq]
      by_cases hd : dim > 1
      · rw [if_pos hd]
        have hd' : dim = 2 ∨ 2 < dim := by omega
        simp only [hd', List.mem_singleton, Call.addPhysicalGroup.injEq, and_true]
        constructor
        · rintro (⟨rfl, rfl, rfl⟩ | ⟨rfl, rfl, rfl⟩)
          · exact ⟨rfl, .inl ⟨rfl, rfl⟩⟩
          · exact ⟨rfl, .inr ⟨rfl, rfl⟩⟩
        · rintro ⟨rfl, ⟨rfl, rfl⟩ | ⟨rfl, rfl⟩⟩
          · exact .inl ⟨rfl, rfl, rfl⟩
          · exact .inr ⟨rfl, rfl, rfl⟩
      · rw [if_neg hd]
        have hd' : ¬ (dim = 2 ∨ 2 < dim) := by omega
        simp only [hd', List.not_mem_nil, or_false, and_false]
        constructor
        · rintro ⟨rfl, rfl, rfl⟩; exact ⟨rfl, rfl, rfl⟩
        · rintro ⟨rfl, rfl, rfl⟩; exact ⟨rfl, rfl, rfl⟩
    | nil =>
      rw [hi] at h
      rw [if_neg (by simp)] at h
      simp only [ne_eq, not_true_eq_false, false_and, and_false, false_or, or_false, true_and,
        Option.some.injEq]
      by_cases h1 : dim = 1
      · subst h1
        rw [if_pos rfl] at h
        obtain ⟨ps, hps, h⟩ := Res.bind_eq_ok.1 h
        cases h
        have hnil : ps.length = 0 ↔ ∀ e ∈ graph.edges, e.2 ≠ (0, s.tag) := by
          unfold DiGraph.predecessors at hps
          split at hps
          · cases hps
            rw [List.length_map, List.length_eq_zero_iff, List.filter_eq_nil_iff]
            simp
          · cases hps
        by_cases hz : ps.length = 0
        · rw [if_pos hz]
          have := hnil.1 hz
          simp only [List.mem_singleton, Call.addPhysicalGroup.injEq]
          constructor
          · rintro ⟨rfl, rfl, rfl⟩
            exact ⟨rfl, .inr ⟨rfl, rfl, .inr ⟨trivial, this⟩⟩⟩
          · rintro ⟨rfl, ⟨_, _, h⟩ | ⟨rfl, rfl, _⟩⟩
            · cases h
            · exact ⟨rfl, rfl, rfl⟩
        · rw [if_neg hz]
          simp only [List.not_mem_nil, false_iff]
          rintro ⟨rfl, ⟨_, _, h⟩ | ⟨rfl, rfl, h | ⟨_, h⟩⟩⟩
          · cases h
          · cases h
          · exact hz (hnil.2 h)
      · rw [if_neg h1] at h
        by_cases h2 : dim = 2
        · subst h2
          rw [if_pos rfl] at h
          cases h
          simp only [List.mem_cons, List.not_mem_nil, or_false, Call.addPhysicalGroup.injEq]
          constructor
          · rintro (⟨rfl, rfl, rfl⟩ | ⟨rfl, rfl, rfl⟩)
            · exact ⟨rfl, .inl ⟨rfl, rfl, trivial⟩⟩
            · exact ⟨rfl, .inr ⟨rfl, rfl, .inl trivial⟩⟩
          · rintro ⟨rfl, ⟨rfl, rfl, _⟩ | ⟨rfl, rfl, _⟩⟩
            · exact .inl ⟨rfl, rfl, rfl⟩
            · exact .inr ⟨rfl, rfl, rfl⟩
        · rw [if_neg h2] at h
          cases h
          simp only [List.not_mem_nil, false_iff]
          rintro ⟨rfl, ⟨_, _, h⟩ | ⟨rfl, rfl, h | ⟨h, _⟩⟩⟩
          · exact h2 h
          · exact h2 h
          · exact h1 h

/-! ### Errors -/

/-- C48.  A domain without curves (of dimension zero) is rejected: `shapes[1]` does not exist. -/
theorem C48_no_curves {stored : Shape P → List Int} {d : Domain P} (h : d.shapes.length = 1)
    (hv : ∀ l, (seenShapes d)[0]? = some l → ∀ s ∈ l, ∃ t p x, s = .vertex t p x) :
    transferGeo stored d = .error .indexError := by
  obtain ⟨l0, h0⟩ : ∃ l, (seenShapes d)[0]? = some l :=
    ⟨_, List.getElem?_eq_getElem (by simp [h])⟩
  obtain ⟨c0, a1, -, -⟩ := callsOf_wf (f := addVertex) (g := pointEnt (seenShapes d)) (made := [])
    l0 (by
    intro s hs
    obtain ⟨t, p, x, rfl⟩ := hv l0 h0 s hs
    exact ⟨_, rfl, ⟨by simp [Call.refs], trivial⟩,
      by simp [created, Call.creates, pointEnt, gmshTag, stride_zero, Shape.tag]⟩)
  unfold transferGeo
  dsimp only
  have : entities (geo stored) (seenShapes d) = .error .indexError := by
    unfold entities
    rw [getIdx_some h0, Res.bind_ok, a1, Res.bind_ok]
    have : getIdx (seenShapes d) 1 = .error .indexError := by
      unfold getIdx
      rw [List.getElem?_eq_none (by simp [h])]
    rw [this, Res.bind_error]
  rw [this, Res.bind_error]

/-! ### A triangle with an immersed edge -/

def vtx (t : Int) : Shape (Int × Int) := .vertex t none (0, t)

def edg (t : Int) (p : Option Int) (a b : Int) : Shape (Int × Int) :=
  .composed .edge t p [vtx a, vtx b] []

/-- The wire of the triangle; one of its edges has a physical tag. -/
def wire (p : Option Int) : Shape (Int × Int) :=
  .composed .wire 4 p [] [edg 0 (some 7) 0 1, edg 1 none 1 2, edg 2 none 0 2]

def face (p : Option Int) : Shape (Int × Int) :=
  .composed .face 0 (some 1) [wire p] [edg 3 (some 8) 3 4]

def triangle (p : Option Int) : Domain (Int × Int) :=
  ⟨2, [[vtx 0, vtx 1, vtx 2, vtx 3, vtx 4],
    [edg 0 (some 7) 0 1, edg 1 none 1 2, edg 2 none 0 2, edg 3 (some 8) 3 4, wire p], [face p]]⟩

def signs : Shape (Int × Int) → List Int := fun _ => [1, 1, -1]

theorem seen_triangle (p : Option Int) : seenShapes (triangle p) = (triangle p).shapes := by
  simp [seenShapes, triangle, view, viewAll, vtx, edg, wire, face, expand, Shape.immersed]

theorem orient_wire (p : Option Int) :
    orientEdges (fun a b => decide (a = b)) (wire p).immersed = .ok [1, 1, -1] := by
  rfl

theorem known_vtx (v : Variant (Int × Int)) (p : Option Int) {t : Int} (h0 : 0 ≤ t) (h : t ≤ 4) :
    Known v (triangle p).shapes 0 t := by
  refine ⟨_, rfl, vtx t, ?_, by simp [Transferred], rfl⟩
  obtain rfl | rfl | rfl | rfl | rfl : t = 0 ∨ t = 1 ∨ t = 2 ∨ t = 3 ∨ t = 4 := by omega
  all_goals simp [triangle]

theorem known_edg (v : Variant (Int × Int)) (hv : ∀ t p a b, v.skipCurve (edg t p a b) = false)
    (p : Option Int) {t : Int} (h0 : 0 ≤ t) (h : t ≤ 3) : Known v (triangle p).shapes 1 t := by
  obtain rfl | rfl | rfl | rfl : t = 0 ∨ t = 1 ∨ t = 2 ∨ t = 3 := by omega
  · exact ⟨_, rfl, edg 0 (some 7) 0 1, by simp [triangle], hv .., rfl⟩
  · exact ⟨_, rfl, edg 1 none 1 2, by simp [triangle], hv .., rfl⟩
  · exact ⟨_, rfl, edg 2 none 0 2, by simp [triangle], hv .., rfl⟩
  · exact ⟨_, rfl, edg 3 (some 8) 3 4, by simp [triangle], hv .., rfl⟩

theorem triangle_complete (v : Variant (Int × Int)) (p : Option Int)
    (hv : ∀ t p a b, v.skipCurve (edg t p a b) = false) (hw : v.skipCurve (wire p) = true)
    (ho : v.orientation (wire p) = .ok [1, 1, -1]) : Complete v (seenShapes (triangle p)) := by
  rw [seen_triangle]
  have hcases : ∀ (k : Nat) l, (triangle p).shapes[k]? = some l →
      (k = 0 ∧ l = [vtx 0, vtx 1, vtx 2, vtx 3, vtx 4]) ∨
      (k = 1 ∧ l = [edg 0 (some 7) 0 1, edg 1 none 1 2, edg 2 none 0 2, edg 3 (some 8) 3 4, wire p]) ∨
      (k = 2 ∧ l = [face p]) := by
    intro k l h
    match k, h with
    | 0, h => cases h; simp
    | 1, h => cases h; simp
    | 2, h => cases h; simp
  refine ⟨by simp [triangle], ?_, ?_, ?_, ?_, ?_, ?_⟩
  · intro k l h s hs
    rcases hcases k l h with ⟨-, rfl⟩ | ⟨-, rfl⟩ | ⟨-, rfl⟩ <;>
      simp only [List.mem_cons, List.not_mem_nil, or_false] at hs
    · rcases hs with rfl | rfl | rfl | rfl | rfl <;> decide
    · rcases hs with rfl | rfl | rfl | rfl | rfl <;> simp [edg, wire, Shape.tag]
    · subst hs; simp [face, Shape.tag]
  · intro k l h
    rcases hcases k l h with ⟨-, rfl⟩ | ⟨-, rfl⟩ | ⟨-, rfl⟩ <;>
      simp [vtx, edg, wire, face, Shape.tag]
  · intro l h s hs
    rcases hcases 0 l h with ⟨-, rfl⟩ | ⟨h, -⟩ | ⟨h, -⟩
    · simp only [List.mem_cons, List.not_mem_nil, or_false] at hs
      rcases hs with rfl | rfl | rfl | rfl | rfl <;> exact ⟨_, _, _, rfl⟩
    · cases h
    · cases h
  · intro l h s hs hk
    rcases hcases 1 l h with ⟨h, -⟩ | ⟨-, rfl⟩ | ⟨h, -⟩
    · cases h
    · simp only [List.mem_cons, List.not_mem_nil, or_false] at hs
      rcases hs with rfl | rfl | rfl | rfl | rfl
      · exact ⟨_, _, _, rfl, known_vtx v p (by decide) (by decide), known_vtx v p (by decide) (by decide)⟩
      · exact ⟨_, _, _, rfl, known_vtx v p (by decide) (by decide), known_vtx v p (by decide) (by decide)⟩
      · exact ⟨_, _, _, rfl, known_vtx v p (by decide) (by decide), known_vtx v p (by decide) (by decide)⟩
      · exact ⟨_, _, _, rfl, known_vtx v p (by decide) (by decide), known_vtx v p (by decide) (by decide)⟩
      · rw [hw] at hk; cases hk
    · cases h
  · intro l h s hs _
    rcases hcases 2 l h with ⟨h, -⟩ | ⟨h, -⟩ | ⟨-, rfl⟩
    · cases h
    · cases h
    · rw [List.mem_singleton] at hs
      subst hs
      refine ⟨wire p, [], [1, 1, -1], rfl, ho, by simp [wire, Shape.immersed], by simp, ?_⟩
      intro c hc
      simp only [wire, Shape.immersed, List.mem_cons, List.not_mem_nil, or_false] at hc
      rcases hc with rfl | rfl | rfl
      · exact known_edg v hv p (by decide) (by decide)
      · exact known_edg v hv p (by decide) (by decide)
      · exact known_edg v hv p (by decide) (by decide)
  · intro l h
    rcases hcases 3 l h with ⟨h, -⟩ | ⟨h, -⟩ | ⟨h, -⟩ <;> cases h

/-- The hypotheses of `C48_geo` hold for the triangle. -/
example : Complete (geo signs) (seenShapes (triangle none)) ∧
    TagsOnEntities (geo signs) (seenShapes (triangle none)) := by
  refine ⟨triangle_complete _ _ (fun _ _ _ _ => rfl) rfl rfl, ?_⟩
  rw [seen_triangle]
  intro k l h s hs hp
  match k, h with
  | 0, h => simp [Transferred]
  | 1, h =>
    cases h
    simp only [List.mem_cons, List.not_mem_nil, or_false] at hs
    rcases hs with rfl | rfl | rfl | rfl | rfl
    · rfl
    · rfl
    · rfl
    · rfl
    · exact absurd rfl hp
  | 2, h =>
    cases h
    rw [List.mem_singleton] at hs
    subst hs
    exact .inr rfl

/-- The hypotheses of `C48_occ` hold for the triangle. -/
example : Complete (occ fun a b => decide (a = b)) (seenShapes (triangle none)) ∧
    CompleteOcc (occ fun a b => decide (a = b)) (seenShapes (triangle none)) := by
  refine ⟨triangle_complete _ _ (fun _ _ _ _ => rfl) rfl rfl, ?_⟩
  rw [seen_triangle]
  refine ⟨?_, ?_, ?_, ?_, ?_⟩
  · intro l h s hs _ w hw
    cases h
    simp only [List.mem_cons, List.not_mem_nil, or_false] at hs
    rcases hs with rfl | rfl | rfl | rfl | rfl <;>
      simp only [edg, wire, Shape.boundary, List.mem_cons, List.not_mem_nil, or_false] at hw
    all_goals
      rcases hw with rfl | rfl <;> exact known_vtx _ _ (by decide) (by decide)
  · intro l h s hs hp
    cases h
    simp only [List.mem_cons, List.not_mem_nil, or_false] at hs
    rcases hs with rfl | rfl | rfl | rfl | rfl
    · exact ⟨by simp [edg, Shape.immersed], fun _ => rfl⟩
    · exact ⟨by simp [edg, Shape.immersed], fun _ => rfl⟩
    · exact ⟨by simp [edg, Shape.immersed], fun _ => rfl⟩
    · exact ⟨by simp [edg, Shape.immersed], fun _ => rfl⟩
    · exact absurd rfl hp
  · intro k l hk h s hs _
    match k, hk, h with
    | 2, _, h =>
      cases h
      rw [List.mem_singleton] at hs
      subst hs; rfl
  · intro l h s hs _ c hc
    cases h
    rw [List.mem_singleton] at hs
    subst hs
    simp only [face, Shape.immersed, List.mem_singleton] at hc
    subst hc
    refine ⟨?_, by simp [edg, Shape.immersed], fun _ => known_edg _ (fun _ _ _ _ => rfl) _ (by decide) (by decide)⟩
    intro w hw
    simp only [edg, Shape.boundary, List.mem_cons, List.not_mem_nil, or_false] at hw
    rcases hw with rfl | rfl <;> exact known_vtx _ _ (by decide) (by decide)
  · intro l h
    cases h

/-- C48, disagreement: a physical tag on a wire makes a group of a curve that gmsh has never seen. -/
theorem C48_composite_group : ∃ calls, transferGeo signs (triangle (some 9)) = .ok calls ∧
    .addPhysicalGroup 1 [10] 9 ∈ calls ∧ .dim 1 10 ∉ created calls := by
  have hs := seen_triangle (some 9)
  unfold transferGeo
  dsimp only
  unfold seenShapes at hs
  rw [hs]
  refine ⟨_, rfl, ?_, ?_⟩
  · decide
  · decide

#print axioms C48_geo
#print axioms C48_calls
#print axioms C48_groups
#print axioms C48_ranges
#print axioms C48_occ
#print axioms C48_embed
#print axioms C48_curve_groups
#print axioms C48_no_curves
#print axioms C48_composite_group

#print axioms C48_lines

end Verif.Mesher
