/-
A decidable check of `WellFormed`, `SubNodup` and `NodesOK`, for concrete meshes in examples.
-/
import Verif.Spec.MeshOps
import Verif.Lemmas.MeshGraph

namespace Verif.MeshOps
open MeshBuild MeshGraph

def CheckCell (cs : List Cell) (i : Nat) (c : Cell) : Prop :=
  c.id = i ∧ c.dimension ≤ 3 ∧ c.sub.length = c.dimension + 1 ∧
  (∀ q ∈ c.sub.zipIdx, q.1 ≠ [] ∧ q.1.Nodup ∧
    ∀ x ∈ q.1, (cs[x]?).map (·.dimension) = some q.2) ∧
  c.sub[c.dimension]? = some [i] ∧
  (c.sub[0]?).map (fun vs => vs.map fun v => (cs[v]?).map (·.nodeTags)) =
    some (c.nodeTags.map fun t => some [t])

instance (cs : List Cell) (i : Nat) (c : Cell) : Decidable (CheckCell cs i c) := by
  unfold CheckCell; infer_instance

def CheckMesh (cs : List Cell) : Prop :=
  (∀ p ∈ cs.zipIdx, CheckCell cs p.2 p.1) ∧
  ((cs.filter fun c => c.dimension = 0).map (·.nodeTags)).Nodup

instance (cs : List Cell) : Decidable (CheckMesh cs) := by unfold CheckMesh; infer_instance

theorem CheckMesh.sound {cs : List Cell} (h : CheckMesh cs) :
    WellFormed (cs.map some) ∧ SubNodup (cs.map some) ∧ NodesOK (cs.map some) := by
  have hst : ∀ {i c}, Stored (cs.map some) i c ↔ cs[i]? = some c := by
    intro i c
    unfold Stored
    rw [List.getElem?_map]
    cases cs[i]? <;> simp
  have hc : ∀ {i c}, Stored (cs.map some) i c → CheckCell cs i c := by
    intro i c hc
    rw [hst] at hc
    exact h.1 (c, i) (List.mem_zipIdx_iff_getElem?.2 hc)
  have hsub : ∀ {i c}, Stored (cs.map some) i c → ∀ {e : Nat} {ids}, c.sub[e]? = some ids →
      ids ≠ [] ∧ ids.Nodup ∧ ∀ x ∈ ids, (cs[x]?).map (·.dimension) = some e := by
    intro i c h1 e ids h2
    exact (hc h1).2.2.2.1 (ids, e) (List.mem_zipIdx_iff_getElem?.2 h2)
  refine ⟨⟨?_, ?_, ?_, ?_, ?_, ?_, ?_⟩, ?_, ⟨?_, ?_⟩⟩
  · intro i hi
    rw [List.length_map] at hi
    exact ⟨cs[i], hst.2 (List.getElem?_eq_getElem hi)⟩
  · exact fun i c h => (hc h).1
  · exact fun i c h => (hc h).2.1
  · exact fun i c h => (hc h).2.2.1
  · intro i c h1 e ids h2 x hx
    have := (hsub h1 h2).2.2 x hx
    rw [Option.map_eq_some_iff] at this
    obtain ⟨s, h3, h4⟩ := this
    exact ⟨s, hst.2 h3, h4⟩
  · intro i c h1 ids h2
    obtain ⟨e, he⟩ := List.mem_iff_getElem?.1 h2
    exact (hsub h1 he).1
  · exact fun i c h => (hc h).2.2.2.2.1
  · intro i c h1 ids h2
    obtain ⟨e, he⟩ := List.mem_iff_getElem?.1 h2
    exact (hsub h1 he).2.1
  · intro i c h1 vs h2
    have h3 := (hc h1).2.2.2.2.2
    rw [h2] at h3
    simp only [Option.map_some, Option.some.injEq] at h3
    have h4 := (hsub h1 h2).2.2
    clear h2
    generalize c.nodeTags = ts at h3
    induction vs generalizing ts with
    | nil =>
      cases ts with
      | nil => exact .nil
      | cons t ts => simp at h3
    | cons v vs ih =>
      cases ts with
      | nil => simp at h3
      | cons t ts =>
        simp only [List.map_cons, List.cons.injEq] at h3
        refine .cons ?_ (ih (fun x hx => h4 x (by simp [hx])) _ h3.2)
        have h5 := h4 v (by simp)
        rw [Option.map_eq_some_iff] at h5
        obtain ⟨s, h6, h7⟩ := h5
        have h8 := h3.1
        rw [h6] at h8
        exact ⟨s, hst.2 h6, h7, by simpa using h8⟩
  · rintro v w t ⟨c, h1, h2, h3⟩ ⟨d, h4, h5, h6⟩
    have hv := (hc h1).1
    have hw := (hc h4).1
    have hmem : ∀ {i c}, Stored (cs.map some) i c → c ∈ cs := fun h =>
      List.mem_of_getElem? (hst.1 h)
    have : c = d := List.inj_on_of_nodup_map h.2
      (List.mem_filter.2 ⟨hmem h1, by simpa using h2⟩)
      (List.mem_filter.2 ⟨hmem h4, by simpa using h5⟩) (by rw [h3, h6])
    rw [← hv, ← hw, this]

end Verif.MeshOps
