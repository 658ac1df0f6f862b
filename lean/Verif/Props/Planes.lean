/-
C118: separate planes in a domain.
-/
import Verif.Lemmas.Planes

namespace Verif.Topology
open Shape MeshGraph
variable {P : Type} {argsort : List Int → List Nat} {close : P → P → Bool}

/-- The file is accepted if and only if every row has three numbers for each of the `n` points, and the points are
those of the rows. -/
theorem C118_read {α : Type} (n : Nat) (rows : List (List α)) (planes : List (List (α × α × α))) :
    readFractures n rows = .ok planes ↔
      planes.map coordinates = rows ∧ ∀ q ∈ planes, q.length = n := by
  unfold readFractures
  induction rows generalizing planes with
  | nil =>
    rw [mapRes]
    constructor
    · intro h
      cases h
      simp
    · rintro ⟨h, -⟩
      rw [List.map_eq_nil_iff] at h
      subst h
      rfl
  | cons row rows ih =>
    rw [mapRes]
    simp only [Res.bind_eq_ok, readRow_iff, ih]
    constructor
    · rintro ⟨q, ⟨hq, hl⟩, qs, ⟨hqs, hls⟩, h⟩
      cases h
      exact ⟨by simp [hq, hqs], by simpa [hl] using hls⟩
    · rintro ⟨h, hl⟩
      match planes with
      | [] => simp at h
      | q :: qs =>
        simp only [List.map_cons, List.cons.injEq] at h
        exact ⟨q, ⟨h.1, hl q (by simp)⟩, qs, ⟨h.2, fun r hr => hl r (by simp [hr])⟩, rfl⟩

/-- A blank line at the end of the file is refused. -/
theorem C118_blank_violated {α : Type} (n : Nat) (hn : 0 < n) (rows : List (List α)) (h : [] ∈ rows) :
    ∃ e, readFractures n rows = .error e := by
  cases hr : readFractures n rows with
  | error e => exact ⟨e, rfl⟩
  | ok planes =>
    exfalso
    obtain ⟨h1, h2⟩ := (C118_read n rows planes).1 hr
    rw [← h1] at h
    obtain ⟨q, hq, hq'⟩ := List.mem_map.1 h
    have hl := h2 q hq
    match q with
    | [] => simp at hl; omega
    | _ :: _ => simp [coordinates] at hq'

/-- The domain of planes with four points: each plane has its own four corners, four sides, loop and surface, in the
order of the planes, and all tags of one dimension differ. -/
theorem C118_planes (hc : ∀ x, close x x = true) (ha : IsArgsort argsort) (planes : List (List P))
    (h4 : ∀ q ∈ planes, q.length = 4) (t : Tags) (p : Int) :
    ∃ vs es fs, buildPlanes close argsort planes t p = .ok ⟨3, [vs, es, fs, []]⟩ ∧
      (vs.length = 4 * planes.length ∧ es.length = 5 * planes.length ∧ fs.length = planes.length) ∧
      (TagsDiffer vs ∧ TagsDiffer es ∧ TagsDiffer fs) ∧
      ∀ (k : Nat) (a b c d : P), planes[k]? = some [a, b, c, d] → ∃ wire face,
        es[5 * k + 4]? = some wire ∧ fs[k]? = some face ∧
        Quad close (t.v + 4 * k) (t.e + 5 * k) (t.f + k) (some (p + k)) a b c d ((vs.drop (4 * k)).take 4)
          ((es.drop (5 * k)).take 4) wire face := by
  obtain ⟨qs, rfl⟩ := exists_quads planes h4
  refine ⟨_, _, _, buildPlanes_ok hc ha qs t p, ⟨?_, ?_, ?_⟩, ⟨?_, ?_, ?_⟩, ?_⟩
  · have := congrArg List.length (allCorners_tags qs t.v)
    simpa using this
  · have := congrArg List.length (allSides_tags qs t.v t.e)
    simpa using this
  · have := congrArg List.length (allFaces_tags qs t p)
    simpa using this
  · unfold TagsDiffer; rw [allCorners_tags]; exact shifted_nodup _ _
  · unfold TagsDiffer; rw [allSides_tags]; exact shifted_nodup _ _
  · unfold TagsDiffer; rw [allFaces_tags]; exact shifted_nodup _ _
  · intro k a b c d hk
    rw [List.getElem?_map] at hk
    obtain ⟨q, hq, hq'⟩ := Option.map_eq_some_iff.1 hk
    obtain ⟨a', b', c', d'⟩ := q
    simp only [asList, List.cons.injEq, and_true] at hq'
    obtain ⟨rfl, rfl, rfl, rfl⟩ := hq'
    have h5 := allSides_at qs t.v t.e k _ hq
    refine ⟨wireOf (t.v + 4 * k) (t.e + 5 * k) a' b' c' d', _, ?_, allFaces_at qs t p k _ hq, ?_⟩
    · have h := congrArg (fun l => l[4]?) h5
      simpa [List.getElem?_take, List.getElem?_drop, sidesOf] using h
    · rw [allCorners_at qs t.v k _ hq, show ((allSides t.v t.e qs).drop (5 * k)).take 4 =
        (((allSides t.v t.e qs).drop (5 * k)).take 5).take 4 by rw [List.take_take]; rfl, h5]
      exact quad_of hc _ _ _ _ _ _ _ _

/-- A plane with fewer points is an exception. -/
theorem C118_planes_rejects (planes : List (List P)) (t : Tags) (p : Int) (q : List P) (hq : q.length < 4) :
    buildPlanes close argsort (q :: planes) t p = .error .indexError := by
  unfold buildPlanes
  rw [List.zipIdx_cons, List.map_cons, addPlanes, addPlane_short hq]
  rfl

/-- The box with the planes before their intersection: the shapes of the box and of the planes by dimension, with
the planes immersed in the solid.  `p` is the greatest physical tag of the box. -/
theorem C118_box (hc : ∀ x, close x x = true) (ha : IsArgsort argsort) {points : List P}
    (h8 : 8 ≤ points.length) (planes : List (List P)) (h4 : ∀ q ∈ planes, q.length = 4)
    (physicalTags : Option (Dict String Int)) (box : Domain P) (p : Int)
    (hbox : buildBox3D close argsort points physicalTags = .ok box) (hp : box.maxPhysicalTag = .ok p) :
    ∃ vs es fs shell solidTag qv qe qf,
      box = ⟨3, [vs, es, fs, [.composed .solid 25 solidTag [shell] []]]⟩ ∧
      buildPlanes close argsort planes ⟨points.length, 18, 7⟩ (p + 1) = .ok ⟨3, [qv, qe, qf, []]⟩ ∧
      boxAndPlanes close argsort points planes physicalTags =
        .ok ⟨3, [vs ++ qv, es ++ qe, fs ++ qf, [.composed .solid 25 solidTag [shell] qf]]⟩ := by
  obtain ⟨vs, es, ws, fs, shell, solid, hb, hv, ⟨he, -⟩, -, ⟨hw, -⟩, -, ⟨hf, -⟩, -, hs⟩ :=
    C70_box hc ha h8 physicalTags
  obtain ⟨qs, rfl⟩ := exists_quads planes h4
  rw [hbox, Except.ok.injEq] at hb
  have hq := buildPlanes_ok hc ha qs ⟨points.length, 18, 7⟩ (p + 1)
  refine ⟨vs, es ++ ws, fs ++ [shell], shell, _, _, _, _, by rw [hb, hs], hq, ?_⟩
  unfold boxAndPlanes
  rw [hbox, Res.bind_ok]
  subst hb
  simp only [show getIdx [vs, es ++ ws, fs ++ [shell], [solid]] 0 = .ok vs from rfl,
    show getIdx [vs, es ++ ws, fs ++ [shell], [solid]] 1 = .ok (es ++ ws) from rfl,
    show getIdx [vs, es ++ ws, fs ++ [shell], [solid]] 2 = .ok (fs ++ [shell]) from rfl,
    show getIdx [vs, es ++ ws, fs ++ [shell], [solid]] 3 = .ok [solid] from rfl,
    show getIdx [solid] 0 = .ok solid from rfl, Res.bind_ok, hp]
  rw [hv.1, show ((es ++ ws).length : Int) = 18 by simp [he, hw], show ((fs ++ [shell]).length : Int) = 7 by simp [hf],
    hq, Res.bind_ok]
  simp only [show ∀ a b c e : List (Shape P), getIdx [a, b, c, e] 0 = .ok a from fun _ _ _ _ => rfl,
    show ∀ a b c e : List (Shape P), getIdx [a, b, c, e] 1 = .ok b from fun _ _ _ _ => rfl,
    show ∀ a b c e : List (Shape P), getIdx [a, b, c, e] 2 = .ok c from fun _ _ _ _ => rfl, Res.bind_ok]
  subst hs
  have hi : setImmersed .solid ((Shape.composed .solid 25 ((physicalTags.getD defaultTags3).get? "solid") [shell]
      []).immersed ++ allFaces ⟨points.length, 18, 7⟩ (p + 1) qs) =
      .ok (allFaces ⟨points.length, 18, 7⟩ (p + 1) qs) := by
    unfold setImmersed
    rw [if_pos]
    · rfl
    · rw [List.all_eq_true]
      intro s hs
      rw [allFaces_dimension qs _ _ s (by simpa [Shape.immersed] using hs)]
      rfl
  rw [hi, Res.bind_ok]
  dsimp only
  rw [append_dim (k := 0) (allCorners_dimension qs _) rfl, Res.bind_ok,
    append_dim (k := 1) (allSides_dimension qs _ _) rfl, Res.bind_ok,
    append_dim (k := 2) (allFaces_dimension qs _ _) rfl]
  rfl

/-- The numbers of the surfaces start at seven, the number of surfaces of the box, but those of the box are eighteen
to twenty-four: with twelve or more planes one of them has the number of a side of the box. -/
theorem C118_tags_violated (hc : ∀ x, close x x = true) (ha : IsArgsort argsort) {points : List P}
    (h8 : 8 ≤ points.length) (planes : List (List P)) (h4 : ∀ q ∈ planes, q.length = 4) (h12 : 12 ≤ planes.length)
    (physicalTags : Option (Dict String Int)) (box : Domain P) (p : Int)
    (hbox : buildBox3D close argsort points physicalTags = .ok box) (hp : box.maxPhysicalTag = .ok p) :
    ∃ vs es fs ss, boxAndPlanes close argsort points planes physicalTags = .ok ⟨3, [vs, es, fs, ss]⟩ ∧
      ¬ TagsDiffer fs := by
  obtain ⟨vs, es, fs, shell, st, qv, qe, qf, hb, hq, h⟩ := C118_box hc ha h8 planes h4 physicalTags box p hbox hp
  refine ⟨_, _, _, _, h, ?_⟩
  obtain ⟨vs', es', ws', fs', shell', solid', hb', -, -, -, -, -, ⟨hf, hf'⟩, -, -⟩ := C70_box hc ha h8 physicalTags
  rw [hbox, hb, Except.ok.injEq, Domain.mk.injEq] at hb'
  have hfs : fs = fs' ++ [shell'] := by
    have := hb'.2
    simp only [List.cons.injEq] at this
    exact this.2.2.1
  obtain ⟨qs, rfl⟩ := exists_quads planes h4
  rw [buildPlanes_ok hc ha, Except.ok.injEq, Domain.mk.injEq] at hq
  have hqf : allFaces ⟨points.length, 18, 7⟩ (p + 1) qs = qf := by
    have := hq.2
    simp only [List.cons.injEq] at this
    exact this.2.2.1
  unfold TagsDiffer
  rw [List.map_append, ← hqf, allFaces_tags]
  intro hn
  have hd := List.nodup_append.1 hn
  obtain ⟨w, -, hf0⟩ := hf' 0 fs'[0] (List.getElem?_eq_getElem (by omega))
  have m1 : (18 : Int) ∈ fs.map tag := by
    rw [hfs, List.map_append, List.mem_append, List.mem_map]
    exact .inl ⟨_, List.getElem_mem (l := fs') (n := 0) (by omega), by rw [hf0]; rfl⟩
  have m2 : (18 : Int) ∈ (List.range qs.length).map fun i : Nat => (7 : Int) + (i : Int) := by
    rw [List.mem_map]
    exact ⟨11, List.mem_range.2 (by rw [List.length_map] at h12; omega), rfl⟩
  exact hd.2.2 _ m1 _ m2 rfl

/-- The whole function never gives a domain. -/
theorem C118_intersect_violated (points : List P) (planes : List (List P))
    (physicalTags : Option (Dict String Int)) :
    ∃ e, buildBox3DWithPlanes close argsort points planes physicalTags = .error e := by
  unfold buildBox3DWithPlanes
  cases boxAndPlanes close argsort points planes physicalTags with
  | error e => exact ⟨e, rfl⟩
  | ok d =>
    rw [Res.bind_ok]
    cases d.maxPhysicalTag with
    | error e => exact ⟨e, rfl⟩
    | ok p => exact ⟨_, rfl⟩

/-- Two planes of the file. -/
example : readFractures 4 [[0, 0, 0, 1, 0, 0, 1, 1, 0, 0, 1, (0 : ℚ)]] =
    .ok [[(0, 0, 0), (1, 0, 0), (1, 1, 0), (0, 1, 0)]] ∧
    readFractures 4 [[0, 0, 0, 1, 0, 0, 1, 1, 0, 0, (1 : ℚ)]] = .error .valueError := by
  constructor <;> rfl

/-- The greatest physical tag of the box with the default tags is seven, so `C118_box` applies with `p = 7`. -/
example : ((buildBox3D closePoints stableArgsort unitCube none).toOption.map fun d => d.maxPhysicalTag.toOption) =
    some (some 7) := by decide +kernel

/-- One plane in the cube: its surface has the number seven and the physical tag eight. -/
example : ((boxAndPlanes closePoints stableArgsort unitCube [unitCube.take 4] none).toOption.map fun d =>
      (d.shapes.getD 2 []).map fun s => (s.tag, s.physicalTag)) =
    some [(18, some 2), (19, some 3), (20, some 4), (21, some 5), (22, some 6), (23, some 7), (24, none),
      (7, some 8)] := by decide +kernel

/-- A file with a row of another length is refused with a `ValueError`. -/
theorem C118_read_rejects {α : Type} (n : Nat) (rows : List (List α)) (h : ∃ row ∈ rows, row.length ≠ 3 * n) :
    readFractures n rows = .error .valueError := by
  have ht : ∀ row : List α, triples row = .error .valueError ∨ ∃ t, triples row = .ok t ∧ row.length = 3 * t.length := by
    intro row
    induction row using triples.induct with
    | case1 => exact Or.inr ⟨[], rfl, rfl⟩
    | case2 x y z rest ih =>
      rw [triples]
      rcases ih with ih | ⟨t, ih, hl⟩
      · rw [ih]
        exact Or.inl rfl
      · rw [ih]
        exact Or.inr ⟨(x, y, z) :: t, rfl, by simp only [List.length_cons, hl]; omega⟩
    | case3 row h1 h2 =>
      refine Or.inl ?_
      match row, h1, h2 with
      | [], h1, _ => exact absurd rfl h1
      | [_], _, _ => rfl
      | [_, _], _, _ => rfl
      | x :: y :: z :: rest, _, h2 => exact absurd rfl (h2 x y z rest)
  have hr : ∀ row : List α, readRow n row = .error .valueError ∨ row.length = 3 * n ∧ ∃ t, readRow n row = .ok t := by
    intro row
    unfold readRow
    rcases ht row with h | ⟨t, h, hl⟩
    · rw [h]
      exact Or.inl rfl
    · rw [h]
      simp only [Res.bind_ok]
      by_cases hn : t.length = n
      · rw [if_pos hn, ← hn]
        exact Or.inr ⟨hl, t, rfl⟩
      · rw [if_neg hn]
        exact Or.inl rfl
  unfold readFractures
  induction rows with
  | nil => obtain ⟨_, h, _⟩ := h; exact absurd h (by simp)
  | cons row rows ih =>
    rw [mapRes]
    rcases hr row with h' | ⟨hl, t, h'⟩
    · rw [h']
      rfl
    · obtain ⟨r, hr', hn⟩ := h
      have : ∃ row ∈ rows, row.length ≠ 3 * n := by
        rcases List.mem_cons.1 hr' with rfl | h
        · exact absurd hl hn
        · exact ⟨r, h, hn⟩
      rw [h', ih this]
      rfl

#print axioms C118_read
#print axioms C118_blank_violated
#print axioms C118_planes
#print axioms C118_planes_rejects
#print axioms C118_box
#print axioms C118_tags_violated
#print axioms C118_intersect_violated

#print axioms C118_read_rejects

end Verif.Topology
