/- DoF numbering: helper lemmas. -/
import Verif.Spec.DofMap
import Verif.Lemmas.Topology
import Mathlib.Algebra.BigOperators.Intervals
import Mathlib.Algebra.Order.BigOperators.Group.Finset

namespace Verif
namespace Dict
variable {κ ν : Type} [DecidableEq κ]

theorem foldl_set_nodup (l : List (κ × ν)) : ∀ (d : Dict κ ν),
    (Dict.keys d ++ l.map Prod.fst).Nodup → l.foldl (fun d p => d.set p.1 p.2) d = d ++ l := by
  induction l with
  | nil => intro d _; simp
  | cons p l ih =>
    intro d h
    rw [List.foldl_cons]
    have hnot : p.1 ∉ Dict.keys d := by
      intro hp
      rw [List.nodup_append] at h
      exact h.2.2 _ hp _ (by simp) rfl
    rw [Dict.set_of_not_mem _ hnot, ih]
    · simp
    · simpa [Dict.keys] using h

theorem ofList_nodup {l : List (κ × ν)} (h : (l.map Prod.fst).Nodup) : Dict.ofList l = l := by
  unfold Dict.ofList
  rw [foldl_set_nodup l [] (by simpa [Dict.keys] using h)]
  simp

/-- lookup in `zip(keys, range(...))`-like dictionaries -/
theorem get?_zip_range' {f : Nat → ν} (ids : List κ) : ∀ (k : Nat) (j : κ),
    Dict.get? (ids.zip ((List.range' k ids.length).map f)) j =
      if j ∈ ids then some (f (k + ids.idxOf j)) else none := by
  induction ids with
  | nil => intro k j; simp
  | cons a t ih =>
    intro k j
    simp only [List.length_cons, List.range'_succ, List.map_cons, List.zip_cons_cons, Dict.get?]
    by_cases h : a = j
    · subst h; simp
    · rw [if_neg h, ih]
      have h' : ¬ j = a := fun e => h e.symm
      simp only [List.mem_cons, h', false_or]
      split
      · rw [List.idxOf_cons_ne _ (by simpa using h)]
        congr 2; omega
      · rfl

theorem map_fst_zip_range' {f : Nat → ν} (ids : List κ) (k : Nat) :
    (ids.zip ((List.range' k ids.length).map f)).map Prod.fst = ids :=
  List.map_fst_zip (by simp)

end Dict

theorem mapRes_error_of {α β : Type} {f : α → Res β} {e : Err} : ∀ (l : List α) (a : α), a ∈ l →
    (∀ b ∈ l, f b = .error e ∨ ∃ x, f b = .ok x) → f a = .error e →
    MeshGraph.mapRes f l = .error e
  | [], a, h, _, _ => by simp at h
  | b :: l, a, h, hall, ha => by
    rcases hall b (by simp) with hb | ⟨x, hb⟩
    · simp [MeshGraph.mapRes, hb]
    · rcases List.mem_cons.1 h with rfl | h'
      · rw [ha] at hb; cases hb
      · have := mapRes_error_of l a h' (fun c hc => hall c (by simp [hc])) ha
        simp [MeshGraph.mapRes, hb, this]

namespace Dof
open MeshBuild MeshGraph

theorem intMean_ok {l : List Nat} (h : l ≠ []) : intMean l = .ok (l.sum / l.length) := by
  simp [intMean, h]

theorem scaleSupport_ok (nc : Nat) : ∀ (ned : List (List Nat)) (d : Nat) (sup : List Nat),
    (∀ l ∈ ned, l ≠ []) → d + ned.length ≤ sup.length →
    ∃ out, scaleSupport nc d ned sup = .ok out ∧ out.length = sup.length ∧
      ∀ i, out[i]? = if d ≤ i ∧ i < d + ned.length then
        (sup[i]?).map (· * perEntity ned nc (i - d)) else sup[i]? := by
  intro ned
  induction ned with
  | nil =>
    intro d sup _ _
    refine ⟨sup, rfl, rfl, fun i => ?_⟩
    rw [if_neg (by simp)]
  | cons n ns ih =>
    intro d sup hne hlen
    simp only [List.length_cons] at hlen
    have hd : d < sup.length := by omega
    obtain ⟨out, h1, h2, h3⟩ := ih (d + 1) (sup.set d (sup[d] * (n.sum / n.length * nc)))
      (fun l hl => hne l (by simp [hl])) (by simp; omega)
    refine ⟨out, ?_, by simpa using h2, fun i => ?_⟩
    · simp only [scaleSupport, intMean_ok (hne n (by simp)), Res.bind_ok,
        getIdx_of (List.getElem?_eq_getElem hd), h1]
    · rw [h3, List.getElem?_set]
      by_cases hid : d = i
      · subst hid
        rw [if_neg (by omega), if_pos rfl, if_pos hd, if_pos (by simp)]
        simp [perEntity, hd]
      · rw [if_neg hid]
        by_cases h4 : d + 1 ≤ i ∧ i < d + 1 + ns.length
        · rw [if_pos h4, if_pos (by simp only [List.length_cons]; omega)]
          have : i - d = (i - (d + 1)) + 1 := by omega
          rw [this]; simp [perEntity]
        · rw [if_neg h4, if_neg (by simp only [List.length_cons]; omega)]

theorem drop_take_range' (b s : Nat) : ∀ (i n : Nat), i * s + s ≤ n →
    ((List.range' b n).drop (i * s)).take s = List.range' (b + i * s) s := by
  intro i n h
  rw [List.drop_range', List.take_range'_of_length_ge (by omega), Nat.mul_one]

theorem entityMap_ok (ids : List Nat) (hn : ids.Nodup) (b s : Nat) :
    ∃ mp, entityMap [] ids b (b + ids.length * s) = .ok mp ∧
      (∀ j, mp.get? j = if j ∈ ids then some (List.range' (b + ids.idxOf j * s) s) else none) := by
  unfold entityMap
  by_cases h0 : ids.length = 0
  · have : ids = [] := List.length_eq_zero_iff.1 h0
    subst this
    exact ⟨[], by simp, by simp⟩
  · rw [if_pos h0]
    have hsub : b + ids.length * s - b = ids.length * s := by omega
    have hmod : (List.range' b (ids.length * s)).length % ids.length = 0 := by simp
    have hdiv : (List.range' b (ids.length * s)).length / ids.length = s := by
      rw [List.length_range']; exact Nat.mul_div_cancel_left _ (by omega)
    rw [hsub, npSplit, if_neg (by simp), hdiv]
    have hparts : (List.range ids.length).map
        (fun i => ((List.range' b (ids.length * s)).drop (i * s)).take s) =
        (List.range' 0 ids.length).map (fun i => List.range' (b + i * s) s) := by
      rw [List.range_eq_range']
      apply List.map_congr_left
      intro i hi
      have hi' : i < ids.length := by simpa using hi
      apply drop_take_range'
      calc i * s + s = (i + 1) * s := by rw [Nat.add_mul, Nat.one_mul]
        _ ≤ ids.length * s := Nat.mul_le_mul_right _ hi'
    rw [hparts]
    refine ⟨_, rfl, fun j => ?_⟩
    rw [Dict.ofList_nodup (by rw [Dict.map_fst_zip_range']; exact hn),
      Dict.get?_zip_range' ids 0 j, Nat.zero_add]

/-- What `build_entity_maps` establishes. -/
structure DofOK (t : Topology) (ned : List (List Nat)) (nc shift : Nat) (m : DoFMap) : Prop where
  topology : m.topology = t
  ned_eq : m.numEntityDofs = ned
  dimension : m.dimension = t.dimension
  nDof : m.nDof = ∑ d ∈ Finset.range (t.dimension + 1), (idsOf t d).length * perEntity ned nc d
  maps : ∀ d ≤ t.dimension, ∃ mp, m.entityMaps[d]? = some mp ∧ ∀ j, mp.get? j =
    if j ∈ idsOf t d then some (block (idsOf t) (perEntity ned nc) shift d j) else none

theorem entityIdLists_ok {cells : Cells} {sel : List Cell} {t : Topology}
    (h : TopoOK cells sel t) (hdim : t.dimension ≤ 3) :
    entityIdLists t t.dimension = .ok (
      (idsOf t 0),
      (if 1 ≤ t.dimension then idsOf t 1 else []),
      (if 2 ≤ t.dimension then idsOf t 2 else []),
      (if 3 ≤ t.dimension then idsOf t 3 else [])) := by
  have e : ∀ d ≤ t.dimension, t.entitiesByDimension d = .ok (idsOf t d) :=
    fun d hd => (h.entities hd).1
  generalize hD : t.dimension = D at *
  match D, hdim with
  | 0, _ => simp [entityIdLists, e 0]
  | 1, _ => simp [entityIdLists, e 0, e 1]
  | 2, _ => simp [entityIdLists, e 0, e 1, e 2]
  | 3, _ => simp [entityIdLists, e 0, e 1, e 2, e 3]

theorem buildEntityMaps_ok {cells : Cells} {sel : List Cell} {t : Topology}
    (h : TopoOK cells sel t) (hdim : t.dimension ≤ 3) (ned : List (List Nat))
    (href : IsRef ned t.dimension) (nc shift : Nat) (m : DoFMap)
    (hm : m = { DoFMap.new t ned with dimension := t.dimension }) :
    ∃ m', m.buildEntityMaps nc shift = .ok m' ∧ DofOK t ned nc shift m' := by
  subst hm
  obtain ⟨hlen, hne⟩ := href
  have hids := entityIdLists_ok h hdim
  have nd : ∀ d ≤ t.dimension, (idsOf t d).Nodup := fun d hd => (h.entities hd).2.1
  obtain ⟨sup, h1, h2, h3⟩ := scaleSupport_ok nc ned 0 [(idsOf t 0).length,
      (if 1 ≤ t.dimension then idsOf t 1 else []).length,
      (if 2 ≤ t.dimension then idsOf t 2 else []).length,
      (if 3 ≤ t.dimension then idsOf t 3 else []).length] hne (by simp; omega)
  have g : ∀ d x, [(idsOf t 0).length,
      (if 1 ≤ t.dimension then idsOf t 1 else []).length,
      (if 2 ≤ t.dimension then idsOf t 2 else []).length,
      (if 3 ≤ t.dimension then idsOf t 3 else []).length][d]? = some x →
      (t.dimension < d → x = 0) → sup[d]? = some (x * perEntity ned nc d) := by
    intro d x hx h0
    rw [h3, hx]
    by_cases hd : d < ned.length
    · rw [if_pos (by omega)]; simp
    · rw [if_neg (by omega), h0 (by omega), Nat.zero_mul]
  have s0 := g 0 _ rfl (by omega)
  have s1 := g 1 _ rfl (by intro hh; rw [if_neg (by omega)]; rfl)
  have s2 := g 2 _ rfl (by intro hh; rw [if_neg (by omega)]; rfl)
  have s3 := g 3 _ rfl (by intro hh; rw [if_neg (by omega)]; rfl)
  obtain ⟨m0, e0, f0⟩ := entityMap_ok (idsOf t 0) (nd 0 (by omega)) shift (perEntity ned nc 0)
  obtain ⟨m1, e1, f1⟩ := entityMap_ok (if 1 ≤ t.dimension then idsOf t 1 else [])
    (by split; exacts [nd 1 (by omega), List.nodup_nil])
    (shift + (idsOf t 0).length * perEntity ned nc 0) (perEntity ned nc 1)
  obtain ⟨m2, e2, f2⟩ := entityMap_ok (if 2 ≤ t.dimension then idsOf t 2 else [])
    (by split; exacts [nd 2 (by omega), List.nodup_nil])
    (shift + (idsOf t 0).length * perEntity ned nc 0 +
      (if 1 ≤ t.dimension then idsOf t 1 else []).length * perEntity ned nc 1)
    (perEntity ned nc 2)
  obtain ⟨m3, e3, f3⟩ := entityMap_ok (if 3 ≤ t.dimension then idsOf t 3 else [])
    (by split; exacts [nd 3 (by omega), List.nodup_nil])
    (shift + (idsOf t 0).length * perEntity ned nc 0 +
      (if 1 ≤ t.dimension then idsOf t 1 else []).length * perEntity ned nc 1 +
      (if 2 ≤ t.dimension then idsOf t 2 else []).length * perEntity ned nc 2)
    (perEntity ned nc 3)
  refine ⟨⟨t, ned, m0, m1, m2, m3, (idsOf t 0).length * perEntity ned nc 0 +
      (if 1 ≤ t.dimension then idsOf t 1 else []).length * perEntity ned nc 1 +
      (if 2 ≤ t.dimension then idsOf t 2 else []).length * perEntity ned nc 2 +
      (if 3 ≤ t.dimension then idsOf t 3 else []).length * perEntity ned nc 3, t.dimension⟩, ?_, ?_⟩
  · simp only [DoFMap.buildEntityMaps, DoFMap.new, hids, Res.bind_ok, h1, getIdx_of s0,
      getIdx_of s1, getIdx_of s2, getIdx_of s3, e0, e1, e2, e3, Res.pure_eq]
  · refine ⟨rfl, rfl, rfl, ?_, ?_⟩
    · simp only
      generalize hD : t.dimension = D at *
      match D, hdim with
      | 0, _ => simp
      | 1, _ => simp [Finset.sum_range_succ]
      | 2, _ => simp [Finset.sum_range_succ]
      | 3, _ => simp [Finset.sum_range_succ]
    · intro d hd
      have hd3 : d ≤ 3 := by omega
      match d, hd3 with
      | 0, _ => exact ⟨m0, rfl, fun j => by rw [f0]; simp [block, base]⟩
      | 1, _ =>
        refine ⟨m1, rfl, fun j => ?_⟩
        rw [f1, if_pos hd]; simp [block, base]
      | 2, _ =>
        refine ⟨m2, rfl, fun j => ?_⟩
        rw [f2, if_pos hd, if_pos (show 1 ≤ t.dimension by omega)]
        simp [block, base, Finset.sum_range_succ, Nat.add_assoc]
      | 3, _ =>
        refine ⟨m3, rfl, fun j => ?_⟩
        rw [f3, if_pos hd, if_pos (show 1 ≤ t.dimension by omega),
          if_pos (show 2 ≤ t.dimension by omega)]
        simp [block, base, Finset.sum_range_succ, Nat.add_assoc]

/-! ### Blocks -/

theorem flatMap_range'_blocks (b s : Nat) : ∀ (n k : Nat),
    (List.range' k n).flatMap (fun i => List.range' (b + i * s) s)
      = List.range' (b + k * s) (n * s) := by
  intro n
  induction n with
  | zero => intro k; simp
  | succ n ih =>
    intro k
    have h1 : b + (k + 1) * s = (b + k * s) + s := by rw [Nat.succ_mul]; omega
    have h2 : (n + 1) * s = s + n * s := by rw [Nat.succ_mul]; omega
    rw [List.range'_succ, List.flatMap_cons, ih, h1, h2, List.range'_append_1]

theorem map_idxOf_nodup {ids : List Nat} (hn : ids.Nodup) :
    ids.map (fun j => ids.idxOf j) = List.range' 0 ids.length := by
  rw [← List.range_eq_range']
  apply List.ext_getElem
  · simp
  · intro i h1 h2
    simp only [List.getElem_map, List.getElem_range]
    exact hn.idxOf_getElem i (by simpa using h1)

/-- The blocks of one dimension, in entity order, are one interval. -/
theorem flatMap_block {ids : Nat → List Nat} {s : Nat → Nat} {shift d : Nat}
    (hn : (ids d).Nodup) :
    (ids d).flatMap (block ids s shift d) =
      List.range' (base ids s shift d) ((ids d).length * s d) := by
  have h : (ids d).flatMap (block ids s shift d) =
      ((ids d).map (fun j => (ids d).idxOf j)).flatMap
        (fun i => List.range' (base ids s shift d + i * s d) (s d)) := by
    rw [List.flatMap_map]; rfl
  rw [h, map_idxOf_nodup hn, flatMap_range'_blocks]
  simp

/-- All blocks, in order, are one interval. -/
theorem flatMap_all_blocks {ids : Nat → List Nat} {s : Nat → Nat} {shift : Nat} :
    ∀ (n : Nat), (∀ d < n, (ids d).Nodup) →
    (List.range n).flatMap (fun d => (ids d).flatMap (block ids s shift d)) =
      List.range' shift (∑ d ∈ Finset.range n, (ids d).length * s d)
  | 0, _ => by simp
  | n + 1, h => by
    rw [List.range_succ, List.flatMap_append, flatMap_all_blocks n (fun d hd => h d (by omega)),
      Finset.sum_range_succ]
    simp only [List.flatMap_cons, List.flatMap_nil, List.append_nil]
    rw [flatMap_block (h n (by omega)), base, List.range'_append_1]

theorem block_length {ids : Nat → List Nat} {s : Nat → Nat} {shift d j : Nat} :
    (block ids s shift d j).length = s d := by simp [block]

theorem mem_block {ids : Nat → List Nat} {s : Nat → Nat} {shift d j x : Nat} :
    x ∈ block ids s shift d j ↔
      base ids s shift d + (ids d).idxOf j * s d ≤ x ∧
      x < base ids s shift d + (ids d).idxOf j * s d + s d := by
  simp [block, List.mem_range'_1]

theorem base_mono {ids : Nat → List Nat} {s : Nat → Nat} {shift d e : Nat} (h : d < e) :
    base ids s shift d + (ids d).length * s d ≤ base ids s shift e := by
  unfold base
  have : ∑ x ∈ Finset.range (d + 1), (ids x).length * s x ≤
      ∑ x ∈ Finset.range e, (ids x).length * s x :=
    Finset.sum_le_sum_of_subset (fun x hx => by
      simp only [Finset.mem_range] at hx ⊢; omega)
  rw [Finset.sum_range_succ] at this
  omega

theorem block_bounds {ids : Nat → List Nat} {s : Nat → Nat} {shift d j x : Nat}
    (hj : j ∈ ids d) (hx : x ∈ block ids s shift d j) :
    base ids s shift d ≤ x ∧ x < base ids s shift d + (ids d).length * s d := by
  rw [mem_block] at hx
  have hi : (ids d).idxOf j < (ids d).length := List.idxOf_lt_length_iff.2 hj
  have : (ids d).idxOf j * s d + s d ≤ (ids d).length * s d := by
    calc _ = ((ids d).idxOf j + 1) * s d := by rw [Nat.succ_mul]
      _ ≤ _ := Nat.mul_le_mul_right _ hi
  omega

/-- A number belongs to the block of one entity only. -/
theorem block_unique {ids : Nat → List Nat} {s : Nat → Nat} {shift d e j k x : Nat}
    (hj : j ∈ ids d) (hk : k ∈ ids e) (hx : x ∈ block ids s shift d j)
    (hy : x ∈ block ids s shift e k) : d = e ∧ j = k := by
  have b1 := block_bounds hj hx
  have b2 := block_bounds hk hy
  have hde : d = e := by
    rcases Nat.lt_trichotomy d e with h | h | h
    · have := base_mono (ids := ids) (s := s) (shift := shift) h; omega
    · exact h
    · have := base_mono (ids := ids) (s := s) (shift := shift) h; omega
  subst hde
  refine ⟨rfl, ?_⟩
  rw [mem_block] at hx hy
  have key : ∀ a b : Nat, a < b → a * s d + s d ≤ b * s d := fun a b hab => by
    calc _ = (a + 1) * s d := by rw [Nat.succ_mul]
      _ ≤ _ := Nat.mul_le_mul_right _ hab
  have : (ids d).idxOf j = (ids d).idxOf k := by
    rcases Nat.lt_trichotomy ((ids d).idxOf j) ((ids d).idxOf k) with h | h | h
    · have := key _ _ h; omega
    · exact h
    · have := key _ _ h; omega
  exact (List.idxOf_inj hj).1 this

/-! ### Destinations -/

theorem gatherDofs_ok {maps : List (Dict Nat (List Nat))} {d : Nat} {mp : Dict Nat (List Nat)}
    (hmp : maps[d]? = some mp) {blk : Nat → List Nat} {s : Nat} {ids : List Nat}
    (h : ∀ i ∈ ids, mp.get? i = some (blk i) ∧ (blk i).length = s) :
    gatherDofs maps d ids = .ok (ids.flatMap blk) := by
  have h1 : mapRes (fun i => do
      let mp ← getIdx maps d
      pure (mp.get? i)) ids = .ok (ids.map fun i => some (blk i)) := by
    apply mapRes_ok
    intro i hi
    simp [getIdx_of hmp, (h i hi).1]
  unfold gatherDofs
  rw [h1, Res.bind_ok]
  match ids with
  | [] => rfl
  | a :: rest =>
    simp only [List.map_cons]
    rw [if_pos]
    · simp [List.flatMap, Function.comp_def]
    · simp only [List.all_map, List.all_eq_true, Function.comp, Option.any_some, beq_iff_eq]
      intro b hb
      rw [(h b (by simp [hb])).2, (h a (by simp)).2]

/-- The destination list of a selected cell. -/
def dest (ids : Nat → List Nat) (s : Nat → Nat) (shift dim : Nat) (c : Cell) : List Nat :=
  (List.range (dim + 1)).flatMap fun d => (subD c d).flatMap (block ids s shift d)

theorem subD_ne_nil {cells : Cells} (h : WellFormed cells) {i : Nat} {c : Cell}
    (hc : Stored cells i c) {t : Nat} (ht : t ≤ c.dimension) : subD c t ≠ [] :=
  h.subNe i c hc _ (List.mem_of_getElem? (subD_eq h hc ht))

theorem successors_ids {cells : Cells} {sel : List Cell} {t : Topology}
    (h : TopoOK cells sel t) (hnd : SubNodup cells) {c : Cell} (hc : c ∈ sel) {d : Nat}
    (hd : d ≤ t.dimension) :
    ∃ g, t.entityMapByDimension d = .ok g ∧
      g.successors (c.dimension, c.id) = .ok ((subD c d).map fun j => (d, j)) := by
  obtain ⟨g, hg, hinc⟩ := h.incidence hd
  have hm := h.mem c hc
  have hne := subD_ne_nil h.wf hm.1 (t := d) (by omega)
  have hs := hinc.successors hc hne
  rw [hm.2]
  refine ⟨g, hg, ?_⟩
  rw [hs, uniq_of_nodup]
  exact hnd _ c hm.1 _ (List.mem_of_getElem? (subD_eq h.wf hm.1 (t := d) (by omega)))

theorem destination_ok {cells : Cells} {sel : List Cell} {t : Topology}
    (h : TopoOK cells sel t) (hnd : SubNodup cells) {ned : List (List Nat)} {nc shift : Nat}
    {m : DoFMap} (hm : DofOK t ned nc shift m) {c : Cell} (hc : c ∈ sel) :
    m.destinationIndices c.id = .ok (dest (idsOf t) (perEntity ned nc) shift t.dimension c) := by
  have hcell : cellAt m.topology.mesh.cells c.id = .ok c := by
    rw [hm.topology, h.cells_eq]; exact cellAt_of_stored (h.mem c hc).1
  have hparts : mapRes (fun d => do
      let g ← m.topology.entityMapByDimension d
      let sup ← g.successors (c.dimension, c.id)
      gatherDofs m.entityMaps d (sup.map Prod.snd)) (List.range (m.dimension + 1)) =
      .ok ((List.range (m.dimension + 1)).map fun d =>
        (subD c d).flatMap (block (idsOf t) (perEntity ned nc) shift d)) := by
    apply mapRes_ok
    intro d hd
    have hd' : d ≤ t.dimension := by
      have := List.mem_range.1 hd; rw [hm.dimension] at this; omega
    obtain ⟨g, hg, hs⟩ := successors_ids h hnd hc hd'
    obtain ⟨mp, hmp, hget⟩ := hm.maps d hd'
    rw [hm.topology, hg, Res.bind_ok, hs, Res.bind_ok]
    rw [List.map_map]
    have : (subD c d).map (Prod.snd ∘ fun j => (d, j)) = subD c d := by
      simp [Function.comp_def]
    rw [this]
    refine gatherDofs_ok hmp (s := perEntity ned nc d) (fun i hi => ⟨?_, block_length⟩)
    rw [hget, if_pos (((h.entities hd').2.2 i).2 ⟨c, hc, hi⟩)]
  simp only [DoFMap.destinationIndices, hcell, Res.bind_ok, hparts, Res.pure_eq]
  rw [hm.dimension]; rfl

theorem mem_dest {ids : Nat → List Nat} {s : Nat → Nat} {shift dim x : Nat} {c : Cell} :
    x ∈ dest ids s shift dim c ↔
      ∃ d ≤ dim, ∃ j ∈ subD c d, x ∈ block ids s shift d j := by
  simp only [dest, List.mem_flatMap, List.mem_range]
  constructor
  · rintro ⟨d, hd, h⟩; exact ⟨d, by omega, h⟩
  · rintro ⟨d, hd, h⟩; exact ⟨d, by omega, h⟩

/-- Blocks of distinct entities, listed one after the other, do not repeat a number. -/
theorem flatMap_blocks_nodup {ids : Nat → List Nat} {s : Nat → Nat} {shift n : Nat}
    {l : Nat → List Nat} (hl : ∀ d < n, (l d).Nodup ∧ ∀ j ∈ l d, j ∈ ids d) :
    ((List.range n).flatMap fun d => (l d).flatMap (block ids s shift d)).Nodup := by
  rw [List.nodup_flatMap]
  constructor
  · intro d hd
    have hd := List.mem_range.1 hd
    rw [List.nodup_flatMap]
    refine ⟨fun j _ => List.nodup_range', ?_⟩
    refine List.Pairwise.imp_of_mem ?_ (hl d hd).1
    intro j k hj hk hjk
    intro x hx hy
    exact hjk (block_unique ((hl d hd).2 j hj) ((hl d hd).2 k hk) hx hy).2
  · refine List.Pairwise.imp_of_mem ?_ (List.nodup_range (n := n))
    intro d e hd he hde x hx hy
    have hd := List.mem_range.1 hd
    have he := List.mem_range.1 he
    obtain ⟨j, hj, hxj⟩ := List.mem_flatMap.1 hx
    obtain ⟨k, hk, hxk⟩ := List.mem_flatMap.1 hy
    exact hde (block_unique ((hl d hd).2 j hj) ((hl e he).2 k hk) hxj hxk).1

/-- Boundary destinations. -/
theorem bcDestination_ok {cells : Cells} {sel : List Cell} {t : Topology}
    (h : TopoOK cells sel t) (hnd : SubNodup cells) (hcl : SubClosed cells)
    {ned : List (List Nat)} {nc shift : Nat} (href : IsRef ned t.dimension)
    {m : DoFMap} (hm : DofOK t ned nc shift m) {c : Cell} (hc : c ∈ sel) {f : Cell}
    (hf : Stored cells f.id f) (hfd : f.dimension + 1 = t.dimension)
    (hfc : f.id ∈ subD c f.dimension) :
    m.bcDestinationIndices c.id f.id = .ok ((List.range t.dimension).flatMap fun d =>
      (subD f d).flatMap (block (idsOf t) (perEntity ned nc) shift d)) := by
  have hcs := h.mem c hc
  have hcell : cellAt m.topology.mesh.cells c.id = .ok c := by
    rw [hm.topology, h.cells_eq]; exact cellAt_of_stored hcs.1
  have hfcell : cellAt m.topology.mesh.cells f.id = .ok f := by
    rw [hm.topology, h.cells_eq]; exact cellAt_of_stored hf
  have hparts : mapRes (fun d => do
      let g ← m.topology.entityMapByDimension d
      let sup ← g.successors (c.dimension, c.id)
      let bcIds ← Cell.subIds f d
      let filtered := bcIds.filter fun i => (d, i) ∈ sup
      let ned ← getIdx m.numEntityDofs d
      let e ← intMean ned
      gatherDofs m.entityMaps d (if e = 0 then [] else filtered)) (List.range m.dimension) =
      .ok ((List.range m.dimension).map fun d =>
        (subD f d).flatMap (block (idsOf t) (perEntity ned nc) shift d)) := by
    apply mapRes_ok
    intro d hd
    have hd' : d < t.dimension := by
      have := List.mem_range.1 hd; rw [hm.dimension] at this; omega
    obtain ⟨g, hg, hs⟩ := successors_ids h hnd hc (d := d) (by omega)
    obtain ⟨mp, hmp, hget⟩ := hm.maps d (by omega)
    have hfsub := subD_eq h.wf hf (t := d) (by omega)
    have hfids : Cell.subIds f d = .ok (subD f d) := getIdx_of hfsub
    have hall : ∀ i ∈ subD f d, i ∈ subD c d := by
      obtain ⟨ids, hids, hin⟩ := hcl c.id c f.id f hcs.1 hf
        ⟨_, List.mem_of_getElem? (subD_eq h.wf hcs.1 (t := f.dimension) (by omega)), hfc⟩ d _ hfsub
      intro i hi
      have := hin i hi
      rwa [subD, hids]
    have hfilter : (subD f d).filter (fun i => (d, i) ∈ (subD c d).map fun j => ((d, j) : Node))
        = subD f d := by
      rw [List.filter_eq_self]
      intro i hi
      simpa using hall i hi
    have hdl : d < ned.length := by rw [href.1]; omega
    have hned : getIdx m.numEntityDofs d = .ok ned[d] := by
      rw [hm.ned_eq]; exact getIdx_of (List.getElem?_eq_getElem hdl)
    have hmean : intMean ned[d] = .ok (ned[d].sum / ned[d].length) :=
      intMean_ok (href.2 _ (List.getElem_mem hdl))
    simp only [hm.topology, hg, Res.bind_ok, hs, hfids, hfilter, hned, hmean]
    by_cases h0 : ned[d].sum / ned[d].length = 0
    · rw [if_pos h0]
      have hs0 : perEntity ned nc d = 0 := by
        simp [perEntity, hdl, h0]
      have : (subD f d).flatMap (block (idsOf t) (perEntity ned nc) shift d) = [] := by
        rw [List.flatMap_eq_nil_iff]
        intro j _
        simp [block, hs0]
      rw [this]; rfl
    · rw [if_neg h0]
      refine gatherDofs_ok hmp (s := perEntity ned nc d) (fun i hi => ⟨?_, block_length⟩)
      rw [hget, if_pos (((h.entities (d := d) (by omega)).2.2 i).2 ⟨c, hc, hall i hi⟩)]
  simp only [DoFMap.bcDestinationIndices, hcell, hfcell, Res.bind_ok, hparts]
  rw [hm.dimension]
  have : ¬ ((List.range t.dimension).map fun d =>
        (subD f d).flatMap (block (idsOf t) (perEntity ned nc) shift d)).length = 0 := by
    simp; omega
  simp only [this, if_false]
  rfl

end Dof
end Verif
