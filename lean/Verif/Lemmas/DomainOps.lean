/-
Helper lemmas for C68.
-/
import Verif.Spec.DomainOps
import Verif.Lemmas.VertexOps
import Verif.Lemmas.Vec
import Mathlib.Tactic.Linarith
import Mathlib.Tactic.LinearCombination
import Mathlib.Analysis.Convex.Basic

namespace Verif.DomainOps
open MeshBuild MeshGraph Trace MeshMetrics Geometry VertexOps
open scoped Classical

section Store
variable {α κ : Type} [DecidableEq κ]

/-- Storing the members of a list under their keys. -/
def store (k : α → κ) (d : Dict κ α) (l : List α) : Dict κ α := l.foldl (fun d a => d.set (k a) a) d

/-- Every entry is stored under its key. -/
def Keyed (k : α → κ) (d : Dict κ α) : Prop := d.keys.Nodup ∧ ∀ p ∈ d, p.1 = k p.2

theorem mem_values {d : Dict κ α} {a : α} : a ∈ Dict.values d ↔ ∃ x, (x, a) ∈ d := by
  simp [Dict.values]

theorem keyed_get {k : α → κ} {d : Dict κ α} (h : Keyed k d) {x : κ} {a : α} :
    d.get? x = some a ↔ a ∈ Dict.values d ∧ k a = x := by
  constructor
  · intro hg
    have := Dict.mem_of_get? hg
    exact ⟨mem_values.2 ⟨x, this⟩, (h.2 _ this).symm⟩
  · rintro ⟨hm, rfl⟩
    obtain ⟨x, hx⟩ := mem_values.1 hm
    have := h.2 _ hx
    simp only at this
    subst this
    exact Dict.get?_of_mem h.1 hx

theorem keyed_set {k : α → κ} {d : Dict κ α} (h : Keyed k d) (a : α) : Keyed k (d.set (k a) a) := by
  have hn := Dict.keys_set_nodup (k a) a h.1
  refine ⟨hn, fun p hp => ?_⟩
  obtain ⟨x, b⟩ := p
  have := Dict.get?_of_mem hn hp
  rw [Dict.get?_set] at this
  split at this
  · rename_i hx
    cases this
    exact hx
  · exact (keyed_get h |>.1 this).2.symm

theorem keyed_store {k : α → κ} {d : Dict κ α} (h : Keyed k d) (l : List α) :
    Keyed k (store k d l) := by
  induction l generalizing d with
  | nil => exact h
  | cons a l ih => exact ih (keyed_set h a)

theorem keyed_nil (k : α → κ) : Keyed k ([] : Dict κ α) := ⟨by simp [Dict.keys], by simp⟩

theorem keyed_values_nodup {k : α → κ} {d : Dict κ α} (h : Keyed k d) :
    ((Dict.values d).map k).Nodup := by
  have : (Dict.values d).map k = d.keys := by
    simp only [Dict.values, Dict.keys, List.map_map]
    exact List.map_congr_left fun p hp => (h.2 p hp).symm
  rw [this]
  exact h.1

/-- When a key belongs to one member only, all members are kept. -/
theorem mem_store {k : α → κ} {d : Dict κ α} (h : Keyed k d) (l : List α)
    (hk : ∀ a b, (a ∈ Dict.values d ∨ a ∈ l) → (b ∈ Dict.values d ∨ b ∈ l) → k a = k b → a = b)
    (a : α) : a ∈ Dict.values (store k d l) ↔ a ∈ Dict.values d ∨ a ∈ l := by
  induction l generalizing d with
  | nil => simp [store]
  | cons b l ih =>
    have hv : ∀ c, c ∈ Dict.values (d.set (k b) b) ↔ c ∈ Dict.values d ∨ c = b := by
      intro c
      have h1 := keyed_get (keyed_set h b) (x := k c) (a := c)
      have h2 := keyed_get h (x := k c) (a := c)
      simp only [and_true] at h1 h2
      rw [← h1, Dict.get?_set]
      split
      · rename_i hx
        constructor
        · intro e; exact Or.inr (Option.some.inj e).symm
        · intro hc
          have : c = b := by
            rcases hc with hc | hc
            · exact hk c b (Or.inl hc) (Or.inr (by simp)) hx
            · exact hc
          rw [this]
      · rename_i hx
        rw [h2]
        exact ⟨Or.inl, fun hc => hc.resolve_right (fun e => hx (by rw [e]))⟩
    have := ih (keyed_set h b) (by
      intro x y hx hy
      refine hk x y ?_ ?_
      · rw [hv] at hx
        rcases hx with (hx | rfl) | hx
        · exact Or.inl hx
        · exact Or.inr (by simp)
        · exact Or.inr (by simp [hx])
      · rw [hv] at hy
        rcases hy with (hy | rfl) | hy
        · exact Or.inl hy
        · exact Or.inr (by simp)
        · exact Or.inr (by simp [hy]))
    rw [show store k d (b :: l) = store k (d.set (k b) b) l from rfl, this, hv, List.mem_cons]
    tauto

/-- Different keys: the list itself is stored. -/
theorem values_store {k : α → κ} {d : Dict κ α} (h : Keyed k d) (l : List α)
    (hk : ((Dict.values d ++ l).map k).Nodup) :
    Dict.values (store k d l) = Dict.values d ++ l := by
  induction l generalizing d with
  | nil => simp [store]
  | cons a l ih =>
    have hn : k a ∉ d.keys := by
      intro hm
      obtain ⟨b, hb⟩ := Dict.get?_isSome.2 hm
      obtain ⟨h1, h2⟩ := (keyed_get h).1 hb
      rw [List.map_append, List.nodup_append] at hk
      exact hk.2.2 (k b) (List.mem_map_of_mem h1) (k a) (by simp) h2
    have e : Dict.values (d.set (k a) a) = Dict.values d ++ [a] := by
      rw [Dict.set_of_not_mem a hn]
      simp [Dict.values]
    have := ih (keyed_set h a) (by rw [e]; simpa using hk)
    rw [show store k d (a :: l) = store k (d.set (k a) a) l from rfl, this, e]
    simp

theorem store_append (k : α → κ) (d : Dict κ α) (l l' : List α) :
    store k d (l ++ l') = store k (store k d l) l' := by
  simp [store, List.foldl_append]

end Store

/-! ### Difference -/

/-- The vertices stored for one edge. -/
def stored (r : Edg × List Edg × List Vtx) : List Vtx :=
  if r.2.1.length = 0 ∧ r.2.2.length = 0 then [r.1.first, r.1.second] else r.2.2

theorem diffStep_eq (st : Dict Int Edg × Dict Int Vtx) (r : Edg × List Edg × List Vtx) :
    diffStep st r = (store Edg.tag st.1 (parts r), store Vtx.tag st.2 (stored r)) := by
  unfold diffStep parts stored
  by_cases h : r.2.1.length = 0 ∧ r.2.2.length = 0
  · have h1 : r.2.1 = [] := List.eq_nil_of_length_eq_zero h.1
    have h2 : r.2.2 = [] := List.eq_nil_of_length_eq_zero h.2
    simp [h1, h2, store, putEdge, putVertex]
  · simp only [h, if_false]
    rfl

theorem foldl_diffStep (out : List (Edg × List Edg × List Vtx)) (st : Dict Int Edg × Dict Int Vtx) :
    out.foldl diffStep st =
      (store Edg.tag st.1 (out.flatMap parts), store Vtx.tag st.2 (out.flatMap stored)) := by
  induction out generalizing st with
  | nil => rfl
  | cons r out ih =>
    rw [List.foldl_cons, ih, diffStep_eq, List.flatMap_cons, List.flatMap_cons, store_append,
      store_append]

/-- The edges of one splitting are not empty. -/
theorem splitting_pos {tools : List Vtx} {edge : Edg} {tag : Int} {chain : List (Pt ℝ)}
    {edges : List Edg} {vertices : List Vtx} (hc : IsChain tools edge chain)
    (h : IsSplitting tools edge tag chain edges vertices)
    (hne : edge.first.point ≠ edge.second.point) : 0 < edges.length := by
  by_contra h0
  have hcount := h.count
  rw [Nat.eq_zero_of_not_pos h0] at hcount
  obtain ⟨x, hx⟩ := List.length_eq_one_iff.1 hcount.symm
  have hf := hc.first
  have hl := hc.last
  rw [hx] at hf hl
  simp only [List.head?_cons, List.getLast?_singleton, Option.some.injEq] at hf hl
  exact hne (hf.symm.trans hl)

/-- The vertices of a splitting: the ends and the created ones. -/
theorem mem_vertices {vertices : List Vtx} {v a b : Vtx} (hl : 2 ≤ vertices.length)
    (ha : vertices.head? = some a) (hb : vertices.getLast? = some b) :
    v ∈ vertices ↔ v = a ∨ v ∈ created vertices ∨ v = b := by
  obtain ⟨x, rest, rfl⟩ : ∃ x rest, vertices = x :: rest := by
    cases vertices with
    | nil => simp at hl
    | cons x rest => exact ⟨x, rest, rfl⟩
  rcases List.eq_nil_or_concat rest with rfl | ⟨init, y, rfl⟩
  · simp at hl
  · simp only [List.head?_cons, Option.some.injEq] at ha
    subst ha
    rw [List.concat_eq_append, ← List.cons_append, List.getLast?_append] at hb
    simp only [List.getLast?_singleton, Option.some_or, Option.some.injEq] at hb
    subst hb
    simp [created, List.dropLast_concat]

/-- The vertices of a splitting are the ends of its edges. -/
theorem splitting_ends {tools : List Vtx} {edge : Edg} {tag : Int} {chain : List (Pt ℝ)}
    {edges : List Edg} {vertices : List Vtx}
    (h : IsSplitting tools edge tag chain edges vertices) (v : Vtx) :
    v ∈ vertices ↔ ∃ e ∈ edges, Edg.Ends e v := by
  constructor
  · intro hv
    obtain ⟨j, hj⟩ := List.mem_iff_getElem?.1 hv
    have hlt : j < vertices.length := (List.getElem?_eq_some_iff.1 hj).1
    rw [h.size] at hlt
    have hi : j / 2 < edges.length := by omega
    have he := List.getElem?_eq_getElem hi
    refine ⟨edges[j / 2], List.getElem_mem hi, ?_⟩
    obtain ⟨-, a, b, h1, h2, -, -, h3⟩ := h.joined _ _ he
    rcases Nat.mod_two_eq_zero_or_one j with hm | hm
    · have : 2 * (j / 2) = j := by omega
      rw [this, hj] at h1
      cases h1
      rcases h3 with ⟨h3, -⟩ | ⟨-, h3⟩
      · exact Or.inl h3.symm
      · exact Or.inr h3.symm
    · have : 2 * (j / 2) + 1 = j := by omega
      rw [this, hj] at h2
      cases h2
      rcases h3 with ⟨-, h3⟩ | ⟨h3, -⟩
      · exact Or.inr h3.symm
      · exact Or.inl h3.symm
  · rintro ⟨e, he, hv⟩
    obtain ⟨i, hi⟩ := List.mem_iff_getElem?.1 he
    obtain ⟨-, a, b, h1, h2, -, -, h3⟩ := h.joined _ _ hi
    have ma := List.mem_of_getElem? h1
    have mb := List.mem_of_getElem? h2
    rcases h3 with ⟨e1, e2⟩ | ⟨e1, e2⟩ <;> rcases hv with rfl | rfl
    · rw [e1]; exact ma
    · rw [e2]; exact mb
    · rw [e1]; exact mb
    · rw [e2]; exact ma

/-! ### The points of the parts -/

/-- Distances from the first end of a segment. -/
theorem dist_on {a b x : Pt ℝ} {t : ℝ} (h0 : 0 ≤ t) (hx : x = a + t • (b - a)) :
    norm3 (x - a) = t * norm3 (b - a) := by
  rw [hx, add_sub_cancel_left, norm3_smul, abs_of_nonneg h0]

/-- Somewhere in a list the values pass `s`. -/
theorem passes {s : ℝ} : ∀ (l : List ℝ), 2 ≤ l.length → (∀ x, l.head? = some x → x ≤ s) →
    (∀ x, l.getLast? = some x → s ≤ x) →
    ∃ i x y, l[i]? = some x ∧ l[i + 1]? = some y ∧ x ≤ s ∧ s ≤ y
  | [], h, _, _ => by simp at h
  | [_], h, _, _ => by simp at h
  | [x, y], _, h1, h2 => ⟨0, x, y, rfl, rfl, h1 x rfl, h2 y rfl⟩
  | x :: y :: z :: l, _, h1, h2 => by
    by_cases hy : s ≤ y
    · exact ⟨0, x, y, rfl, rfl, h1 x rfl, hy⟩
    · obtain ⟨i, u, v, a1, a2, a3, a4⟩ := passes (s := s) (y :: z :: l) (by simp)
        (by intro w hw; simp only [List.head?_cons, Option.some.injEq] at hw; subst hw; linarith)
        (by
          intro w hw
          refine h2 w ?_
          rw [List.getLast?_cons_cons]
          exact hw)
      exact ⟨i + 1, u, v, a1, a2, a3, a4⟩

/-- The parameter of a point of the edge. -/
noncomputable def param (edge : Edg) (x : Pt ℝ) : ℝ :=
  norm3 (x - edge.first.point) / norm3 (edge.second.point - edge.first.point)

theorem param_spec {edge : Edg} (hne : edge.first.point ≠ edge.second.point) {x : Pt ℝ}
    (hx : x ∈ points edge) : 0 ≤ param edge x ∧ param edge x ≤ 1 ∧
      x = edge.first.point + param edge x • (edge.second.point - edge.first.point) := by
  obtain ⟨t, h0, h1, ht⟩ := mem_segment_iff.1 hx
  have hd : norm3 (edge.second.point - edge.first.point) ≠ 0 := by
    rw [Ne, norm3_eq_zero, sub_eq_zero]
    exact fun h => hne h.symm
  have : param edge x = t := by
    unfold param
    rw [dist_on h0 ht, mul_div_cancel_right₀ _ hd]
  rw [this]
  exact ⟨h0, h1, ht⟩

theorem mem_chain_points {tools : List Vtx} {edge : Edg} {chain : List (Pt ℝ)}
    (hc : IsChain tools edge chain) {x : Pt ℝ} (hx : x ∈ chain) : x ∈ points edge := by
  rcases (hc.mem x).1 hx with rfl | rfl | ⟨v, hv, rfl⟩
  · exact left_mem_segment _ _ _
  · exact right_mem_segment _ _ _
  · exact hv.2

theorem param_lt {tools : List Vtx} {edge : Edg} {chain : List (Pt ℝ)}
    (hne : edge.first.point ≠ edge.second.point) (hc : IsChain tools edge chain) {i j : Nat}
    {x y : Pt ℝ} (hx : chain[i]? = some x) (hy : chain[j]? = some y) (hij : i < j) :
    param edge x < param edge y := by
  obtain ⟨hi, rfl⟩ := List.getElem?_eq_some_iff.1 hx
  obtain ⟨hj, rfl⟩ := List.getElem?_eq_some_iff.1 hy
  have := List.pairwise_iff_getElem.1 hc.ordered i j hi hj hij
  have hd : 0 < norm3 (edge.second.point - edge.first.point) := by
    refine lt_of_le_of_ne (norm3_nonneg _) fun h => ?_
    exact hne (sub_eq_zero.1 (norm3_eq_zero.1 h.symm)).symm
  exact div_lt_div_of_pos_right this hd

/-- Points between two points of the edge. -/
theorem between {edge : Edg} (hne : edge.first.point ≠ edge.second.point) {x y z : Pt ℝ}
    (hx : x ∈ points edge) (hy : y ∈ points edge) (hxy : param edge x < param edge y) :
    z ∈ segment ℝ x y ↔ z ∈ points edge ∧ param edge x ≤ param edge z ∧
      param edge z ≤ param edge y := by
  obtain ⟨x0, x1, ex⟩ := param_spec hne hx
  obtain ⟨y0, y1, ey⟩ := param_spec hne hy
  constructor
  · intro hz
    have hzp : z ∈ points edge := (convex_segment _ _).segment_subset hx hy hz
    obtain ⟨z0, z1, ez⟩ := param_spec hne hzp
    obtain ⟨t, t0, t1, et⟩ := mem_segment_iff.1 hz
    have hval : param edge z = param edge x + t * (param edge y - param edge x) := by
      have hd : edge.second.point - edge.first.point ≠ 0 := by
        rw [Ne, sub_eq_zero]; exact fun h => hne h.symm
      have : (param edge z - (param edge x + t * (param edge y - param edge x))) •
          (edge.second.point - edge.first.point) = 0 := by
        have e : edge.first.point + param edge z • (edge.second.point - edge.first.point) =
            (edge.first.point + param edge x • (edge.second.point - edge.first.point)) +
            t • ((edge.first.point + param edge y • (edge.second.point - edge.first.point)) -
              (edge.first.point + param edge x • (edge.second.point - edge.first.point))) := by
          rw [← ez, ← ex, ← ey, ← et]
        have := congrFun e
        funext k
        have hk := this k
        simp only [Pi.add_apply, Pi.smul_apply, Pi.sub_apply, smul_eq_mul, Pi.zero_apply] at hk ⊢
        linear_combination hk
      rcases smul_eq_zero.1 this with h | h
      · linarith
      · exact absurd h hd
    refine ⟨hzp, ?_, ?_⟩
    · rw [hval]; nlinarith
    · rw [hval]; nlinarith
  · rintro ⟨hzp, h1, h2⟩
    obtain ⟨z0, z1, ez⟩ := param_spec hne hzp
    have hpos : 0 < param edge y - param edge x := by linarith
    refine mem_segment_iff.2 ⟨(param edge z - param edge x) / (param edge y - param edge x),
      div_nonneg (by linarith) hpos.le, (div_le_one hpos).2 (by linarith), ?_⟩
    have hq : (param edge z - param edge x) / (param edge y - param edge x) *
        (param edge y - param edge x) = param edge z - param edge x :=
      div_mul_cancel₀ _ hpos.ne'
    generalize (param edge z - param edge x) / (param edge y - param edge x) = q at *
    generalize param edge z = tz at *
    generalize param edge x = tx at *
    generalize param edge y = ty at *
    subst ez ex ey
    funext k
    simp only [Pi.add_apply, Pi.smul_apply, Pi.sub_apply, smul_eq_mul]
    linear_combination (edge.first.point k - edge.second.point k) * hq

/-- The parts of a chain: consecutive points. -/
theorem chain_cover {tools : List Vtx} {edge : Edg} {chain : List (Pt ℝ)}
    (hne : edge.first.point ≠ edge.second.point) (hc : IsChain tools edge chain) (z : Pt ℝ) :
    z ∈ points edge ↔ ∃ i x y, chain[i]? = some x ∧ chain[i + 1]? = some y ∧ z ∈ segment ℝ x y := by
  have hlen : 2 ≤ chain.length := by
    by_contra h
    have hf := hc.first
    have hl := hc.last
    match chain, h with
    | [], _ => simp at hf
    | [w], _ =>
      simp only [List.head?_cons, List.getLast?_singleton, Option.some.injEq] at hf hl
      exact hne (hf.symm.trans hl)
    | _ :: _ :: _, h => simp at h
  constructor
  · intro hz
    obtain ⟨z0, z1, -⟩ := param_spec hne hz
    have ha := param_spec hne (left_mem_segment ℝ edge.first.point edge.second.point)
    have hb := param_spec hne (right_mem_segment ℝ edge.first.point edge.second.point)
    have pa : param edge edge.first.point = 0 := by
      simp [param, norm3_zero]
    have pb : param edge edge.second.point = 1 := by
      refine div_self ?_
      rw [Ne, norm3_eq_zero, sub_eq_zero]
      exact fun h => hne h.symm
    obtain ⟨i, u, v, h1, h2, h3, h4⟩ := passes (s := param edge z) (chain.map (param edge))
      (by simpa using hlen)
      (by
        intro w hw
        rw [List.head?_map, hc.first] at hw
        simp only [Option.map_some, Option.some.injEq] at hw
        rw [← hw, pa]; exact z0)
      (by
        intro w hw
        rw [List.getLast?_map, hc.last] at hw
        simp only [Option.map_some, Option.some.injEq] at hw
        rw [← hw, pb]; exact z1)
    rw [List.getElem?_map, Option.map_eq_some_iff] at h1 h2
    obtain ⟨x, hx, rfl⟩ := h1
    obtain ⟨y, hy, rfl⟩ := h2
    refine ⟨i, x, y, hx, hy, ?_⟩
    have hxy := param_lt hne hc hx hy (Nat.lt_succ_self i)
    exact (between hne (mem_chain_points hc (List.mem_of_getElem? hx))
      (mem_chain_points hc (List.mem_of_getElem? hy)) hxy).2 ⟨hz, h3, h4⟩
  · rintro ⟨i, x, y, hx, hy, hz⟩
    exact (convex_segment _ _).segment_subset (mem_chain_points hc (List.mem_of_getElem? hx))
      (mem_chain_points hc (List.mem_of_getElem? hy)) hz

/-- The points of a chain between two consecutive ones are these two. -/
theorem chain_between {tools : List Vtx} {edge : Edg} {chain : List (Pt ℝ)}
    (hne : edge.first.point ≠ edge.second.point) (hc : IsChain tools edge chain) {i : Nat}
    {x y z : Pt ℝ} (hx : chain[i]? = some x) (hy : chain[i + 1]? = some y) (hz : z ∈ chain)
    (hs : z ∈ segment ℝ x y) : z = x ∨ z = y := by
  obtain ⟨j, hj⟩ := List.mem_iff_getElem?.1 hz
  have hxy := param_lt hne hc hx hy (Nat.lt_succ_self i)
  obtain ⟨-, h1, h2⟩ := (between hne (mem_chain_points hc (List.mem_of_getElem? hx))
      (mem_chain_points hc (List.mem_of_getElem? hy)) hxy).1 hs
  rcases Nat.lt_trichotomy j i with h | h | h
  · have := param_lt hne hc hj hx h
    linarith
  · subst h
    rw [hj] at hx
    exact Or.inl (Option.some.inj hx)
  · rcases Nat.lt_or_eq_of_le (Nat.succ_le_of_lt h) with h | h
    · have := param_lt hne hc hy hj h
      linarith
    · have : j = i + 1 := h.symm
      subst this
      rw [hj] at hy
      exact Or.inr (Option.some.inj hy)

end Verif.DomainOps
