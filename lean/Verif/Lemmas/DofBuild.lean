/- DoF maps built on well-formed meshes: helper lemmas. -/
import Verif.Lemmas.DofMap
import Mathlib.Algebra.BigOperators.Ring.Finset

namespace Verif.Dof
open MeshBuild MeshGraph

theorem list_sum_range (n : Nat) (f : Nat → Nat) :
    ((List.range n).map f).sum = ∑ d ∈ Finset.range n, f d := by
  induction n with
  | zero => rfl
  | succ n ih => rw [List.range_succ, List.map_append, List.sum_append, ih, Finset.sum_range_succ]; simp

theorem flatMap_block_length {ids : Nat → List Nat} {s : Nat → Nat} {shift d : Nat}
    (l : List Nat) : (l.flatMap (block ids s shift d)).length = l.length * s d := by
  induction l with
  | nil => simp
  | cons a l ih =>
    rw [List.flatMap_cons, List.length_append, ih, block_length, List.length_cons, Nat.succ_mul]
    omega

/-- All that the lemmas give about a DoF map built on a well-formed mesh. -/
theorem build_facts (m : Mesh) (h : WellFormed m.cells) (dim : Nat) (hm : dim ≤ m.dimension)
    (h3 : dim ≤ 3) (tags : List (Option Int)) (ned : List (List Nat)) (href : IsRef ned dim)
    (nc shift : Nat) :
    ∃ D t sel, buildSpaceDofs m dim tags ned nc shift = .ok D ∧ t.dimension = dim ∧
      TopoOK m.cells sel t ∧ DofOK t ned nc shift D ∧
      (∀ c, c ∈ sel ↔ Stored m.cells c.id c ∧ c.dimension = dim ∧ c.material ∈ tags) ∧
      IsEntities m.cells tags dim (idsOf t) := by
  obtain ⟨sel, t, hb, hm', hd, hok, hsel⟩ := buildDataOnTags_ok h ⟨m, dim, [], []⟩ rfl tags
  obtain ⟨D, hD, hDok⟩ := buildEntityMaps_ok hok (by rw [hd]; exact h3) ned (by rw [hd]; exact href) nc shift
    _ rfl
  refine ⟨D, t, sel, ?_, hd, hok, hDok, hsel, ?_⟩
  · have h1 : Topology.new m dim = .ok ⟨m, dim, [], []⟩ := by
      rw [Topology.new, if_neg (by omega)]
    have h2 : (DoFMap.new t ned).setTopologicalDimension dim =
        .ok { DoFMap.new t ned with dimension := t.dimension } := by
      unfold DoFMap.setTopologicalDimension
      rw [if_neg (by simp only [DoFMap.new, hm']; omega), hd]
    simp only [buildSpaceDofs, h1, hb, h2, Res.bind_ok]
    exact hD
  · intro d hdd
    obtain ⟨-, h2, h3⟩ := hok.entities (d := d) (by rw [hd]; exact hdd)
    refine ⟨h2, fun j => ?_⟩
    rw [h3]
    constructor
    · rintro ⟨c, hc, hj⟩
      have hs := (hsel c).1 hc
      exact ⟨c.id, ⟨c, hs.1, hs.2.1, hs.2.2⟩, (subEntity_iff hs.1).2 hj⟩
    · rintro ⟨i, ⟨c, hc, hcd, hmat⟩, hs⟩
      have hi := h.ids i c hc
      subst hi
      exact ⟨c, (hsel c).2 ⟨hc, hcd, hmat⟩, (subEntity_iff hc).1 hs⟩

theorem numbers?_eq {t : Topology} {ned : List (List Nat)} {nc shift : Nat} {D : DoFMap}
    (h : DofOK t ned nc shift D) {d : Nat} (hd : d ≤ t.dimension) (j : Nat) :
    D.numbers? d j = if j ∈ idsOf t d
      then some (block (idsOf t) (perEntity ned nc) shift d j) else none := by
  obtain ⟨mp, hmp, hget⟩ := h.maps d hd
  simp [DoFMap.numbers?, hmp, hget]

theorem numbers_eq {t : Topology} {ned : List (List Nat)} {nc shift : Nat} {D : DoFMap}
    (h : DofOK t ned nc shift D) {d : Nat} (hd : d ≤ t.dimension) {j : Nat}
    (hj : j ∈ idsOf t d) :
    D.numbers d j = block (idsOf t) (perEntity ned nc) shift d j := by
  rw [DoFMap.numbers, numbers?_eq h hd, if_pos hj]; rfl

theorem subIdsOf_eq {cells : Cells} {i d : Nat} {c : Cell} (h : Stored cells i c) :
    subIdsOf cells i d = subD c d := by
  unfold Stored at h
  simp [subIdsOf, h, subD]

end Verif.Dof
