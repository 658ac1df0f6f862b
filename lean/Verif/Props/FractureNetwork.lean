/-
C49 integer pairing, C54 vertices of a fracture network, C64 splitting of fractures.
-/
import Verif.Lemmas.FractureTotal
import Verif.Props.LineGeometry
import Mathlib.Data.Nat.Pairing

namespace Verif.Fracture
open MeshBuild MeshGraph Trace MeshMetrics Geometry
open scoped Classical

/-! ### C49 -/

/-- C49.  Different pairs have different codes. -/
theorem C49_injective {x y x' y' : Nat} (h : pairIntegers x y = pairIntegers x' y') :
    x = x' ∧ y = y' := by
  have key : ∀ a b, pairIntegers a b = Nat.pair a b := by
    intro a b
    unfold pairIntegers Nat.pair
    simp only [pow_two]
  rw [key, key, Nat.pair_eq_pair] at h
  exact h

example : pairIntegers 2 3 = 11 ∧ pairIntegers 3 2 = 14 := by decide

/-- C49, partial, and its failure: `unpair_intergers` takes the square root without rounding it down,
so it recovers a pair exactly when the first number is zero. -/
theorem C49_unpair_partial (x y : Nat) :
    unpairIntegers (pairIntegers x y : ℝ) = ((x : ℝ), (y : ℝ)) ↔ x = 0 := by
  have key : ∀ z : ℝ, 0 ≤ z → unpairIntegers z = (0, Real.sqrt z) := by
    intro z hz
    unfold unpairIntegers
    rw [Real.sq_sqrt hz, sub_self]
    split
    · rfl
    · rename_i h
      have h0 : Real.sqrt z = 0 := le_antisymm (not_lt.1 h) (Real.sqrt_nonneg _)
      rw [h0]; norm_num
  rw [key _ (Nat.cast_nonneg _)]
  constructor
  · intro h
    have := congrArg Prod.fst h
    simpa using this.symm
  · rintro rfl
    have : pairIntegers 0 y = y ^ 2 := by
      unfold pairIntegers
      split
      · rfl
      · have : y = 0 := by omega
        subst this; rfl
    rw [this]
    push_cast
    rw [Real.sqrt_sq (Nat.cast_nonneg _)]

/-- The code of (1, 2) is decoded as (0, √5). -/
theorem C49_unpair_fails : pairIntegers 1 2 = 5 ∧ unpairIntegers 5 = (0, Real.sqrt 5) := by
  refine ⟨by decide, ?_⟩
  unfold unpairIntegers
  rw [Real.sq_sqrt (by norm_num), sub_self, if_pos (Real.sqrt_pos.2 (by norm_num))]

/-! ### C54 -/

/-- C54, one insertion: the point is identified with a vertex closer than the tolerance, a new one
only if there is none; stored points stay apart. -/
theorem C54_insert {eps : ℝ} (he : 0 < eps) {net : Net} (hok : NetOK net) (point : Pt ℝ)
    (physical : Nat) :
    ∃ net' v x, insertVertex eps net point physical = (net', some v) ∧ NetOK net' ∧
      HasVertex net' v x ∧ norm3 (x - point) < eps ∧ (Apart eps net.points → Apart eps net'.points) ∧
      ((∃ y ∈ net.points, norm3 (y - point) < eps) → net' = net) ∧
      ((∀ y ∈ net.points, eps ≤ norm3 (y - point)) →
        net'.points = net.points ++ [point] ∧
        net'.cells = net.cells ++ [vertexCell v net.points.length physical]) := by
  obtain ⟨net', v, x, e, ok, hv, hlt, hcase⟩ := insertVertex_spec he hok point physical
  refine ⟨net', v, x, e, ok, hv, hlt, ?_, ?_, ?_⟩
  · intro h
    rcases hcase with ⟨rfl, -⟩ | ⟨-, h0, h1, -⟩
    · exact h
    · rw [h1]
      refine List.pairwise_append.2 ⟨h, List.pairwise_singleton _ _, ?_⟩
      intro a ha b hb
      rw [List.mem_singleton] at hb; subst hb
      exact h0 a ha
  · rintro ⟨y, hy, hlt'⟩
    rcases hcase with ⟨rfl, -⟩ | ⟨-, h0, -⟩
    · rfl
    · exact absurd (h0 y hy) (not_le.2 hlt')
  · intro hfar
    rcases hcase with ⟨rfl, hx⟩ | ⟨rfl, -, h1, h2⟩
    · exact absurd (hfar x hx) (not_le.2 hlt)
    · refine ⟨h1, ?_⟩
      obtain ⟨c, k, g1, -, g2, g3⟩ := hv
      have : v = net.cells.length := by
        unfold insertVertex at e
        split at e
        · simp only [Prod.mk.injEq, Option.some.injEq] at e
          exact e.2.symm
        · rename_i hc
          obtain ⟨y, hy, hy'⟩ := mem_nearPoints.1
            (show _ ∈ nearPoints eps net.points x by rw [hc]; exact List.mem_cons_self)
          exact absurd (hfar y (List.mem_of_getElem? hy)) (not_le.2 hy')
      rw [this]; exact h2

example : NetOK (disjointNet 0 [(![0, 0, 0], ![1, 0, 0])]) := disjoint_ok _ _

/-- C54, all insertions, partial: the stored points begin with the end points of the fractures, and
they are apart exactly when the end points are.  The construction never fails, and vertices and
points correspond. -/
theorem C54_network_partial {eps : ℝ} (he : 0 < eps) {argsort : List ℝ → List Nat}
    (hs : IsArgsort argsort) (pos : Fin 3 × Fin 3) (shift : Nat) {lines : List (Pt ℝ × Pt ℝ)}
    (hne : lines ≠ []) :
    ∃ net, intersectFractures eps argsort pos shift (lines.map fun l => [l.1, l.2]) = .ok net ∧
      NetOK net ∧ ends lines <+: net.points ∧ (Apart eps net.points ↔ Apart eps (ends lines)) := by
  obtain ⟨net1, e1, h1⟩ := wf_pairs he pos (pairsOf (List.range lines.length)) _
    (by rintro ⟨i, j⟩ hp; exact mem_pairs_range.1 hp) (wf_disjoint eps shift lines)
  obtain ⟨net2, e2, ok2, pts2⟩ := wf_splits hs (List.range lines.length) net1 List.nodup_range
    ⟨h1.ok, rfl, fun i hi => h1.frac i (List.mem_range.1 hi)⟩
  refine ⟨net2, ?_, ok2, pts2 ▸ h1.prefix0, fun h => ?_, fun h => pts2 ▸ h1.apart h⟩
  · unfold intersectFractures
    rw [mapRes_lines, Res.bind_ok, if_neg hne]
    dsimp only
    rw [pairsOf_map, e1, Res.bind_ok, e2]
  · rw [pts2] at h
    exact h.sublist h1.prefix0.sublist

/-- No fractures, or fractures that do not have two points, are rejected. -/
theorem C54_rejected (eps : ℝ) (argsort : List ℝ → List Nat) (pos : Fin 3 × Fin 3) (shift : Nat) :
    intersectFractures eps argsort pos shift [] = .error .valueError ∧
    ∀ f : List (Pt ℝ), f.length ≠ 2 → ∀ fs,
      intersectFractures eps argsort pos shift (f :: fs) = .error .valueError := by
  refine ⟨rfl, fun f hf fs => ?_⟩
  unfold intersectFractures mapRes
  match f, hf with
  | [], _ => rfl
  | [_], _ => rfl
  | [_, _], h => exact absurd rfl h
  | _ :: _ :: _ :: _, _ => rfl

/-- C54 fails for fractures with a common end point: it is stored twice. -/
theorem C54_shared_end_twice {eps : ℝ} (he : 0 < eps) {argsort : List ℝ → List Nat}
    (hs : IsArgsort argsort) (pos : Fin 3 × Fin 3) (shift : Nat) (a b c : Pt ℝ) :
    ∃ net, intersectFractures eps argsort pos shift [[a, b], [a, c]] = .ok net ∧
      net.points[0]? = some a ∧ net.points[2]? = some a ∧ ¬ Apart eps net.points := by
  obtain ⟨net, e, -, h, h'⟩ := C54_network_partial he hs pos shift (lines := [(a, b), (a, c)])
    (by simp)
  refine ⟨net, e, prefix_getElem? h rfl, prefix_getElem? h rfl, fun hap => ?_⟩
  have := (h'.1 hap).inj he (i := 0) (j := 2) (x := a) rfl rfl
  omega

/-- An `argsort` exists. -/
theorem exists_argsort : ∃ argsort, IsArgsort argsort := by
  refine ⟨fun l => (List.range l.length).mergeSort fun i j => decide ((l[i]?).getD 0 ≤ (l[j]?).getD 0),
    fun l => ⟨List.mergeSort_perm _ _, ?_⟩⟩
  have := List.pairwise_mergeSort (le := fun i j => decide ((l[i]?).getD 0 ≤ (l[j]?).getD 0))
    (fun a b c h1 h2 => by simp at *; exact h1.trans h2)
    (fun a b => by simpa using le_total _ _) (List.range l.length)
  refine this.imp ?_
  intro i j h x y hx hy
  simpa [hx, hy] using h

/-! ### C64 -/

theorem isChain_of_ids {net0 net : Net} {v w : Nat} {a b : Pt ℝ} {imm ids : List Nat}
    (h : IsIds net0 v w a b imm ids) (hv : HasVertex net0 v a) (hw : HasVertex net0 w b)
    (hmono : ∀ u x, HasVertex net0 u x → HasVertex net u x) :
    IsChain net v w a b (ids.map fun u => (u, ptOf net0 u)) := by
  refine ⟨?_, ?_, ?_, ?_, ?_⟩
  · rw [List.head?_map, h.head, Option.map_some, ptOf_eq hv]
  · rw [List.getLast?_map, h.last, Option.map_some, ptOf_eq hw]
  · intro p hp
    obtain ⟨u, hu, rfl⟩ := List.mem_map.1 hp
    obtain ⟨x, hx, -⟩ := h.vertex u hu
    dsimp only
    rw [ptOf_eq hx]
    exact hmono u x hx
  · intro p hp
    obtain ⟨u, hu, rfl⟩ := List.mem_map.1 hp
    obtain ⟨x, hx, hx'⟩ := h.vertex u hu
    dsimp only
    rwa [ptOf_eq hx]
  · rw [List.pairwise_map]
    exact h.ordered

theorem subEdges_forall₂ {net : Net} {tag start : Nat} (f : Nat → Pt ℝ) {ids : List Nat}
    (h : ∀ k c, (subEdges start tag ids)[k]? = some c → net.cells[start + k]? = some c) :
    List.Forall₂ (fun id (e : (Nat × Pt ℝ) × (Nat × Pt ℝ)) =>
      net.cells[id]? = some (edgeCell id tag [e.1.1, e.2.1]))
      ((subEdges start tag ids).map FCell.id)
      ((ids.map fun u => (u, f u)).zip (ids.map fun u => (u, f u)).tail) := by
  have hlen : ((subEdges start tag ids).map FCell.id).length =
      ((ids.map fun u => (u, f u)).zip (ids.map fun u => (u, f u)).tail).length := by
    simp [subEdges]
  rw [List.forall₂_iff_get]
  refine ⟨hlen, fun k h1 h2 => ?_⟩
  simp only [List.get_eq_getElem]
  have hk : k < (subEdges start tag ids).length := by simpa using h1
  have hk' : k < (ids.zip ids.tail).length := by simpa [subEdges] using hk
  have e := subEdges_get (start := start) (tag := tag) (ids := ids) (k := k)
  rw [List.getElem?_eq_getElem hk'] at e
  have := h k _ e
  rw [List.getElem_map]
  have e' : (subEdges start tag ids)[k] = _ :=
    Option.some.inj ((List.getElem?_eq_getElem hk).symm.trans e)
  rw [e']
  simpa [edgeCell] using this

/-- C64.  The fractures are split at their common points: a fracture without common points is left
alone, any other one gets the sub-edges between consecutive points of the chain that consists of its
ends and its common points in the order from the first end.  The points of the network are the end
points and the common points, each stored once. -/
theorem C64_split {eps : ℝ} (he : 0 < eps) {argsort : List ℝ → List Nat} (hs : IsArgsort argsort)
    {pos : Fin 3 × Fin 3} (shift : Nat) {lines : List (Pt ℝ × Pt ℝ)} (hne : lines ≠ [])
    (hf : FracOK eps pos lines) :
    ∃ net, intersectFractures eps argsort pos shift (lines.map fun l => [l.1, l.2]) = .ok net ∧
      (∀ x, x ∈ net.points ↔ Special lines x) ∧ net.points.Nodup ∧ Apart eps net.points ∧
      ∀ i l, lines[i]? = some l →
        ((∀ x, ¬ Common lines i x) ∧ net.cells[3 * i + 2]? =
          some ⟨1, 3 * i + 2, i + shift, none, [3 * i, 3 * i + 1], []⟩) ∨
        (∃ x, Common lines i x) ∧
        ∃ chain, IsChain net (3 * i) (3 * i + 1) l.1 l.2 chain ∧ IsSplit net i (i + shift) chain ∧
          ∀ x, (∃ v, (v, x) ∈ chain) ↔ x = l.1 ∨ x = l.2 ∨ Common lines i x := by
  obtain ⟨net0, e0, ok0, ap0, sp0, fr0⟩ := all_pairs he shift hf
  have hinj : ∀ v w x, HasVertex net0 v x → HasVertex net0 w x → v = w :=
    fun v w x h1 h2 => h1.inj ok0 he ap0 h2
  have hdiff : ∀ l ∈ lines, l.1 ≠ l.2 := by
    intro l hl heq
    obtain ⟨i, hi, rfl⟩ := List.getElem_of_mem hl
    obtain ⟨h1, h2⟩ := ends_getElem? lines i
    rw [List.getElem?_eq_getElem hi] at h1 h2
    have := (apart_ends hf).inj he (h1.trans (by rw [Option.map_some, heq])) h2
    omega
  have hready : Ready lines shift net0 := by
    refine ⟨hinj, hdiff, fun i l hl => ?_⟩
    obtain ⟨h1, h2, imm, h3, h4, -⟩ := fr0 i l hl
    refine ⟨h1, h2, imm, h3, fun v hv => ?_⟩
    obtain ⟨x, hx, l', hl', hx', -⟩ := h4 v hv
    rw [hl] at hl'; cases hl'
    exact ⟨x, hx, hx'⟩
  have h0 : SplitInv lines shift net0 [] net0 :=
    ⟨rfl, le_refl _, fun k c h _ => h, by simp⟩
  obtain ⟨net, e1, hinv⟩ := split_stage he hs hready (List.range lines.length) [] net0
    (by simpa using List.nodup_range) (by simp) h0 (fun k c h _ => h)
  rw [List.nil_append] at hinv
  have hmono : ∀ u x, HasVertex net0 u x → HasVertex net u x := fun u x h =>
    hinv.hasVertex hready (fun i hi => List.mem_range.1 hi) h
  refine ⟨net, ?_, hinv.points ▸ sp0, ?_, hinv.points ▸ ap0, ?_⟩
  · unfold intersectFractures
    rw [mapRes_lines, Res.bind_ok, if_neg hne]
    dsimp only
    rw [e0, Res.bind_ok, e1]
  · rw [hinv.points]
    refine ap0.imp ?_
    rintro x y h rfl
    rw [sub_self, norm3_zero] at h
    linarith
  · intro i l hl
    obtain ⟨h1, h2, imm, h3, h4, h5⟩ := fr0 i l hl
    have hi : i < lines.length := (List.getElem?_eq_some_iff.1 hl).1
    rcases hinv.result i (List.mem_range.2 hi) imm h3 with ⟨rfl, h6⟩ | ⟨ids, start, hne', -, h6, h7, h8⟩
    · left
      refine ⟨fun x hx => ?_, h6⟩
      obtain ⟨v, hv, -⟩ := h5 x hx
      simp at hv
    · right
      have hids := h6 l hl
      obtain ⟨v, hv⟩ := List.exists_mem_of_ne_nil _ hne'
      obtain ⟨x, -, hx⟩ := h4 v hv
      refine ⟨⟨x, hx⟩, _, isChain_of_ids hids h1 h2 hmono, ⟨_, h7, subEdges_forall₂ _ h8⟩, ?_⟩
      intro x
      simp only [List.mem_map, Prod.mk.injEq]
      constructor
      · rintro ⟨v, u, hu, rfl, rfl⟩
        rcases (hids.mem u).1 hu with rfl | rfl | hu
        · exact Or.inl (ptOf_eq h1)
        · exact Or.inr (Or.inl (ptOf_eq h2))
        · obtain ⟨x, hx, hx'⟩ := h4 u hu
          rw [ptOf_eq hx]
          exact Or.inr (Or.inr hx')
      · rintro (rfl | rfl | hx)
        · exact ⟨_, _, (hids.mem _).2 (Or.inl rfl), rfl, ptOf_eq h1⟩
        · exact ⟨_, _, (hids.mem _).2 (Or.inr (Or.inl rfl)), rfl, ptOf_eq h2⟩
        · obtain ⟨v, hv, hv'⟩ := h5 x hx
          exact ⟨_, _, (hids.mem _).2 (Or.inr (Or.inr hv)), rfl, ptOf_eq hv'⟩

/-- The diagonals of a square are fractures in general position. -/
theorem diagonals_ok : FracOK (1 / 10 ^ 6) (0, 1) [(![0, 0, 0], ![2, 2, 0]), (![0, 2, 0], ![2, 0, 0])] := by
  have hint : ∀ x, Special [(![0, 0, 0], ![2, 2, 0]), (![0, 2, 0], ![2, 0, 0])] x →
      ∃ m n : ℤ, x = ![(m : ℝ), (n : ℝ), 0] := by
    have hmid : ∀ x, x ∈ segment ℝ (![0, 0, 0] : Pt ℝ) ![2, 2, 0] →
        x ∈ segment ℝ (![0, 2, 0] : Pt ℝ) ![2, 0, 0] → ∃ m n : ℤ, x = ![(m : ℝ), (n : ℝ), 0] := by
      intro x h1 h2
      obtain ⟨t, -, -, rfl⟩ := mem_segment_iff.1 h1
      obtain ⟨s, -, -, h⟩ := mem_segment_iff.1 h2
      have e0 := congrFun h 0
      have e1 := congrFun h 1
      simp at e0 e1
      refine ⟨1, 1, pt_ext ?_ ?_ ?_⟩ <;> simp <;> linarith
    rintro x (hx | ⟨i, l, hl, h1, j, m, hne, hm, h2⟩)
    · simp only [ends, List.flatMap_cons, List.flatMap_nil, List.mem_append, List.mem_cons,
        List.not_mem_nil, or_false] at hx
      rcases hx with (rfl | rfl) | rfl | rfl
      · exact ⟨0, 0, by simp⟩
      · exact ⟨2, 2, by simp⟩
      · exact ⟨0, 2, by simp⟩
      · exact ⟨2, 0, by simp⟩
    · have hi := (List.getElem?_eq_some_iff.1 hl).1
      have hj := (List.getElem?_eq_some_iff.1 hm).1
      simp only [List.length_cons, List.length_nil] at hi hj
      have : (i = 0 ∧ j = 1) ∨ (i = 1 ∧ j = 0) := by omega
      rcases this with ⟨rfl, rfl⟩ | ⟨rfl, rfl⟩
      · simp at hl hm; subst hl; subst hm
        exact hmid x h1 h2
      · simp at hl hm; subst hl; subst hm
        exact hmid x h2 h1
  refine ⟨⟨![0, 0, 1], 0, keeps_xy, ?_⟩, ?_, ?_, ?_⟩
  · intro l hl
    simp only [List.mem_cons, List.not_mem_nil, or_false] at hl
    rcases hl with rfl | rfl <;> simp [dot]
  · intro i j l m hij hl hm
    have hj := (List.getElem?_eq_some_iff.1 hm).1
    simp only [List.length_cons, List.length_nil] at hj
    have : i = 0 ∧ j = 1 := by omega
    obtain ⟨rfl, rfl⟩ := this
    simp at hl hm; subst hl; subst hm
    left
    simp [det2, proj]; norm_num
  · intro x y hx hy hlt
    obtain ⟨m, n, rfl⟩ := hint x hx
    obtain ⟨m', n', rfl⟩ := hint y hy
    have h0 := (abs_le_norm3 (![(m : ℝ), (n : ℝ), 0] - ![(m' : ℝ), (n' : ℝ), 0]) 0).trans_lt hlt
    have h1 := (abs_le_norm3 (![(m : ℝ), (n : ℝ), 0] - ![(m' : ℝ), (n' : ℝ), 0]) 1).trans_lt hlt
    have key : ∀ a b : ℤ, |(a : ℝ) - b| < 1 / 10 ^ 6 → a = b := by
      intro a b h
      have : |(a : ℝ) - b| < 1 := h.trans (by norm_num)
      have : |a - b| < 1 := by exact_mod_cast this
      rw [Int.abs_lt_one_iff] at this
      omega
    rw [key m m' (by simpa using h0), key n n' (by simpa using h1)]
  · have ne : ∀ {a b c d : ℝ}, a ≠ c ∨ b ≠ d → (![a, b, 0] : Pt ℝ) ≠ ![c, d, 0] := by
      intro a b c d h heq
      have e0 := congrFun heq 0
      have e1 := congrFun heq 1
      simp at e0 e1
      rcases h with h | h
      · exact h e0
      · exact h e1
    simp only [ends, List.flatMap_cons, List.flatMap_nil, List.append_nil, List.cons_append,
      List.nil_append, List.nodup_cons, List.mem_cons, List.not_mem_nil, or_false, not_or]
    refine ⟨⟨ne ?_, ne ?_, ne ?_⟩, ⟨ne ?_, ne ?_⟩, ne ?_, not_false, List.nodup_nil⟩ <;> norm_num

#print axioms C49_injective
#print axioms C49_unpair_partial
#print axioms C49_unpair_fails
#print axioms C54_insert
#print axioms C54_network_partial
#print axioms C54_rejected
#print axioms C54_shared_end_twice
#print axioms C64_split

end Verif.Fracture
