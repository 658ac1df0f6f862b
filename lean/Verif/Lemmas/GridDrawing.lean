/-
Drawings of edges on grid lines, for concrete cases.
-/
import Verif.Props.IntersectEdges

namespace Verif.VertexOps
open MeshBuild MeshGraph Trace MeshMetrics Geometry

/-- An edge in the direction of the first or the second axis, between points with integer coordinates -/
structure Grid where
  flat : Bool
  at' : Int
  start : Int
  stop : Int

/-- The point of a grid line -/
noncomputable def Grid.pt (g : Grid) (x : ℝ) : Pt ℝ := if g.flat then ![x, g.at', 0] else ![g.at', x, 0]

/-- Small coordinates -/
def Grid.Ok (g : Grid) : Prop := g.start ≠ g.stop ∧ (-9 ≤ g.at' ∧ g.at' ≤ 9) ∧ (-9 ≤ g.start ∧ g.start ≤ 9) ∧
  (-9 ≤ g.stop ∧ g.stop ≤ 9) ∧ -9 ≤ g.stop - g.start ∧ g.stop - g.start ≤ 9

instance (g : Grid) : Decidable g.Ok := by unfold Grid.Ok; infer_instance

/-- `t` is between the ends. -/
def Grid.Between (g : Grid) (t : Int) : Prop := min g.start g.stop ≤ t ∧ t ≤ max g.start g.stop

instance (g : Grid) (t : Int) : Decidable (g.Between t) := by unfold Grid.Between; infer_instance

/-- The edge is on the grid. -/
def Reads (e : LEdge) (g : Grid) : Prop :=
  e.first.point = g.pt g.start ∧ e.second.point = g.pt g.stop ∧ e.parts = []

theorem reads_mem {e : LEdge} {g : Grid} (h : Reads e g) {z : Pt ℝ} :
    z ∈ e.span ↔ ∃ x : ℝ, ((min g.start g.stop : Int) : ℝ) ≤ x ∧ x ≤ ((max g.start g.stop : Int) : ℝ) ∧ z = g.pt x := by
  unfold LEdge.span
  rw [h.1, h.2.1, mem_segment_iff]
  have hline : ∀ t : ℝ, g.pt g.start + t • (g.pt g.stop - g.pt g.start) = g.pt (g.start + t * (g.stop - g.start)) := by
    intro t
    unfold Grid.pt
    cases g.flat <;> refine pt_ext ?_ ?_ ?_ <;> simp
  rw [Int.cast_min, Int.cast_max]
  constructor
  · rintro ⟨t, t0, t1, rfl⟩
    refine ⟨_, ?_, ?_, hline t⟩
    · rcases le_total (g.start : ℝ) g.stop with hle | hle
      · rw [min_eq_left hle]; nlinarith
      · rw [min_eq_right hle]; nlinarith
    · rcases le_total (g.start : ℝ) g.stop with hle | hle
      · rw [max_eq_right hle]; nlinarith
      · rw [max_eq_left hle]; nlinarith
  · rintro ⟨x, h1, h2, rfl⟩
    by_cases hne : (g.start : ℝ) = g.stop
    · refine ⟨0, le_refl _, zero_le_one, ?_⟩
      rw [hline]
      rw [hne, min_self] at h1
      rw [hne, max_self] at h2
      congr 1
      linarith
    · have hd : (g.stop : ℝ) - g.start ≠ 0 := fun h => hne (by linarith)
      refine ⟨(x - g.start) / (g.stop - g.start), ?_, ?_, ?_⟩
      · rcases lt_or_gt_of_ne hne with hlt | hlt
        · rw [min_eq_left hlt.le] at h1
          exact div_nonneg (by linarith) (by linarith)
        · rw [max_eq_left hlt.le] at h2
          exact div_nonneg_of_nonpos (by linarith) (by linarith)
      · rcases lt_or_gt_of_ne hne with hlt | hlt
        · rw [max_eq_right hlt.le] at h2
          rw [div_le_one (by linarith)]
          linarith
        · rw [min_eq_right hlt.le] at h1
          rw [div_le_one_of_neg (by linarith)]
          linarith
      · rw [hline, div_mul_cancel₀ _ hd]
        congr 1
        ring

/-- Where two edges on the grid meet -/
theorem grid_meet {e f : LEdge} {g k : Grid} (he : Reads e g) (hf : Reads f k)
    (hp : g.flat = k.flat → g.at' ≠ k.at') {z : Pt ℝ} :
    z ∈ e.span ∧ z ∈ f.span ↔ g.flat ≠ k.flat ∧ g.Between k.at' ∧ k.Between g.at' ∧ z = g.pt k.at' := by
  rw [reads_mem he, reads_mem hf]
  unfold Grid.Between
  constructor
  · rintro ⟨⟨x, h1, h2, rfl⟩, y, h3, h4, h5⟩
    have hne : g.flat ≠ k.flat := by
      intro hfl
      have hne := hp hfl
      unfold Grid.pt at h5
      rw [← hfl] at h5
      cases hb : g.flat <;> rw [hb] at h5
      · have := congrFun h5 0
        simp at this
        exact hne this
      · have := congrFun h5 1
        simp at this
        exact hne this
    refine ⟨hne, ?_⟩
    have hxy : x = (k.at' : ℝ) ∧ y = (g.at' : ℝ) := by
      unfold Grid.pt at h5
      cases hb : g.flat <;> cases hb' : k.flat <;> rw [hb, hb'] at hne <;> first | exact absurd rfl hne | skip
      · rw [hb, hb'] at h5
        have h0 := congrFun h5 0
        have h1 := congrFun h5 1
        simp at h0 h1
        exact ⟨h1, h0.symm⟩
      · rw [hb, hb'] at h5
        have h0 := congrFun h5 0
        have h1 := congrFun h5 1
        simp at h0 h1
        exact ⟨h0, h1.symm⟩
    obtain ⟨rfl, rfl⟩ := hxy
    exact ⟨⟨by exact_mod_cast h1, by exact_mod_cast h2⟩, ⟨by exact_mod_cast h3, by exact_mod_cast h4⟩, rfl⟩
  · rintro ⟨hne, ⟨h1, h2⟩, ⟨h3, h4⟩, rfl⟩
    refine ⟨⟨_, by exact_mod_cast h1, by exact_mod_cast h2, rfl⟩, g.at', by exact_mod_cast h3, by exact_mod_cast h4, ?_⟩
    unfold Grid.pt
    cases hb : g.flat <;> cases hb' : k.flat <;> rw [hb, hb'] at hne <;> first | exact absurd rfl hne | rfl

/-- Edges on the grid, no two on one line -/
structure OnGrid (grid : Nat → Grid) (items : List Item) : Prop where
  reads : ∀ (i : Nat) (e : LEdge), items[i]? = some (some e) → Reads e (grid i)
  ok : ∀ (i : Nat) (e : LEdge), items[i]? = some (some e) → (grid i).Ok
  lines : ∀ (i j : Nat) (e f : LEdge), i ≠ j → items[i]? = some (some e) → items[j]? = some (some f) →
    (grid i).flat = (grid j).flat → (grid i).at' ≠ (grid j).at'

section
variable {grid : Nat → Grid} {items : List Item}

theorem OnGrid.meets (h : OnGrid grid items) {i : Nat} {z : Pt ℝ} (hm : Meets items i z) :
    ∃ (e : LEdge) (j : Nat) (f : LEdge), items[i]? = some (some e) ∧ items[j]? = some (some f) ∧ j ≠ i ∧
      (grid i).flat ≠ (grid j).flat ∧ (grid i).Between (grid j).at' ∧ (grid j).Between (grid i).at' ∧
      z = (grid i).pt (grid j).at' := by
  obtain ⟨e, j, f, h1, h2, h3, h4, h5⟩ := hm
  exact ⟨e, j, f, h1, h2, h3, (grid_meet (h.reads i e h1) (h.reads j f h2) (h.lines i j e f h3.symm h1 h2)).1 ⟨h4, h5⟩⟩

/-- Where an edge on the grid is cut -/
theorem OnGrid.cutAt (h : OnGrid grid items) {i : Nat} {z : Pt ℝ} : CutAt items i z ↔
    ∃ (e : LEdge) (j : Nat) (f : LEdge), items[i]? = some (some e) ∧ items[j]? = some (some f) ∧ j ≠ i ∧
      (grid i).flat ≠ (grid j).flat ∧ (grid i).Between (grid j).at' ∧ (grid j).Between (grid i).at' ∧
      z = (grid i).pt (grid j).at' ∧ ¬ Linked e f z := by
  constructor
  · rintro ⟨e, j, f, h1, h2, h3, h4, h5, h6⟩
    obtain ⟨a, b, c, d⟩ := (grid_meet (h.reads i e h1) (h.reads j f h2) (h.lines i j e f h3.symm h1 h2)).1 ⟨h4, h5⟩
    exact ⟨e, j, f, h1, h2, h3, a, b, c, d, h6⟩
  · rintro ⟨e, j, f, h1, h2, h3, a, b, c, d, h6⟩
    obtain ⟨h4, h5⟩ := (grid_meet (h.reads i e h1) (h.reads j f h2) (h.lines i j e f h3.symm h1 h2)).2 ⟨a, b, c, d⟩
    exact ⟨e, j, f, h1, h2, h3, h4, h5, h6⟩

theorem close_int {a b : Int} (hb : -9 ≤ b ∧ b ≤ 9) (h : IsClose (1 / 10 ^ 5) (1 / 10 ^ 8) (a : ℝ) b) : a = b := by
  unfold IsClose at h
  have hb' : |(b : ℝ)| ≤ 9 := by
    rw [abs_le]
    exact ⟨by exact_mod_cast hb.1, by exact_mod_cast hb.2⟩
  have h1 : |((a - b : Int) : ℝ)| < 1 := by
    push_cast
    linarith
  have h2 : |a - b| < 1 := by exact_mod_cast h1
  rw [abs_lt] at h2
  omega

theorem near_or {a b : Int} : (a : ℝ) = b ∨ 1 ≤ |(a : ℝ) - b| := by
  by_cases h : a = b
  · exact Or.inl (by rw [h])
  · right
    have h1 : 1 ≤ |a - b| := Int.one_le_abs (sub_ne_zero.2 h)
    have : (1 : ℝ) ≤ ((|a - b| : Int) : ℝ) := by exact_mod_cast h1
    simpa using this

theorem abs_near {a b c d : Int} : |(a : ℝ) - b| = |(c : ℝ) - d| ∨ 1 ≤ abs (|(a : ℝ) - b| - |(c : ℝ) - d|) := by
  have := near_or (a := |a - b|) (b := |c - d|)
  simpa using this

theorem abs_nine {a : Int} (h : -9 ≤ a ∧ a ≤ 9) : |(a : ℝ)| ≤ 9 := by
  rw [abs_le]
  exact ⟨by exact_mod_cast h.1, by exact_mod_cast h.2⟩

theorem OnGrid.drawing (h : OnGrid grid items) : Drawing (axesOf 2) items where
  plane := by
    refine ⟨![0, 0, 1], 0, ⟨by decide, fun k h1 h2 => ?_⟩, fun e he => ?_⟩
    · have : k = 2 := by
        match k with
        | 0 => exact absurd rfl h1
        | 1 => exact absurd rfl h2
        | 2 => rfl
      rw [this]
      simp
    · obtain ⟨i, hi⟩ := List.mem_iff_getElem?.1 he
      obtain ⟨a, b, -⟩ := h.reads i e hi
      rw [a, b]
      unfold Grid.pt
      cases (grid i).flat <;> simp [dot]
  tested i j e f hij he hf := by
    obtain ⟨a, b, -⟩ := h.reads i e he
    obtain ⟨c, d, -⟩ := h.reads j f hf
    have h1 := (h.ok i e he).1
    have h2 := (h.ok j f hf).1
    have h3 := h.lines i j e f (by omega) he hf
    have key : ∀ {x y : Int}, x ≠ 0 → y ≠ 0 → (1 : ℝ) / 10 ^ 12 ≤ |(x : ℝ) * y| := by
      intro x y hx hy
      have : 1 ≤ |x * y| := Int.one_le_abs (mul_ne_zero hx hy)
      have h' : (1 : ℝ) ≤ ((|x * y| : Int) : ℝ) := by exact_mod_cast this
      push_cast at h'
      refine le_trans ?_ h'
      norm_num
    have col : ∀ {x y s t q : Int}, x ≠ y → s ≠ t →
        ((10 : ℝ) ^ 12)⁻¹ ≤ |((x : ℝ) - y) * (s - q) - (x - y) * (t - q)| * 2⁻¹ := by
      intro x y s t q hx hs
      have : 1 ≤ |(x - y) * (s - t)| := Int.one_le_abs (mul_ne_zero (sub_ne_zero.2 hx) (sub_ne_zero.2 hs))
      have h' : (1 : ℝ) ≤ ((|(x - y) * (s - t)| : Int) : ℝ) := by exact_mod_cast this
      push_cast at h'
      rw [show ((x : ℝ) - y) * (s - q) - (x - y) * (t - q) = (x - y) * (s - t) by ring]
      have : ((10 : ℝ) ^ 12)⁻¹ ≤ 2⁻¹ := by norm_num
      linarith
    unfold Tested
    rw [a, b, c, d]
    unfold Grid.pt
    cases hb : (grid i).flat <;> cases hb' : (grid j).flat <;> rw [hb, hb'] at h3
    · right
      have h3 := h3 rfl
      refine ⟨by simp [det2, proj, axesOf], ?_, ?_⟩
      · have := col (q := (grid j).start) h3 h1.symm
        simpa [colinearTest, proj, axesOf, det2, mul_comm] using this
      · have := col (q := (grid j).stop) h3 h1.symm
        simpa [colinearTest, proj, axesOf, det2, mul_comm] using this
    · left
      have k1 := key (sub_ne_zero.2 h1) (sub_ne_zero.2 h2)
      push_cast at k1
      simpa [det2, proj, axesOf, abs_mul, mul_comm] using k1
    · left
      have k1 := key (sub_ne_zero.2 h1) (sub_ne_zero.2 h2)
      push_cast at k1
      simpa [det2, proj, axesOf, abs_mul, mul_comm] using k1
    · right
      have h3 := h3 rfl
      refine ⟨by simp [det2, proj, axesOf], ?_, ?_⟩
      · have := col (q := (grid j).start) h3 h1
        simpa [colinearTest, proj, axesOf, det2, mul_comm] using this
      · have := col (q := (grid j).stop) h3 h1
        simpa [colinearTest, proj, axesOf, det2, mul_comm] using this
  apart i j z z' hz hz' hc := by
    have pt : ∀ {i : Nat} {z : Pt ℝ}, CutAt items i z → ∃ x y : Int, (-9 ≤ x ∧ x ≤ 9) ∧ (-9 ≤ y ∧ y ≤ 9) ∧
        z = ![(x : ℝ), (y : ℝ), 0] := by
      intro i z hz
      obtain ⟨e, j, f, h1, h2, -, -, -, -, rfl, -⟩ := h.cutAt.1 hz
      have k1 := (h.ok i e h1).2.1
      have k2 := (h.ok j f h2).2.1
      unfold Grid.pt
      cases (grid i).flat
      · exact ⟨_, _, k1, k2, rfl⟩
      · exact ⟨_, _, k2, k1, rfl⟩
    obtain ⟨x, y, hx, hy, rfl⟩ := pt hz
    obtain ⟨x', y', hx', hy', rfl⟩ := pt hz'
    have c0 := close_int (a := x) hx' (by simpa using hc 0)
    have c1 := close_int (a := y) hy' (by simpa using hc 1)
    rw [c0, c1]
  clear i e z he hm := by
    obtain ⟨e', j, f, h1, h2, -, -, -, -, rfl⟩ := h.meets hm
    obtain ⟨a, b, -⟩ := h.reads i e he
    obtain ⟨k1, k2, k3, k4, k5⟩ := h.ok i e he
    rw [a, b]
    have hne : ((grid i).start : ℝ) ≠ (grid i).stop := by exact_mod_cast k1
    have hd : |((grid i).stop : ℝ) - (grid i).start| ≤ 9 := by
      have := abs_nine (a := (grid i).stop - (grid i).start) k5
      simpa using this
    unfold Grid.pt
    cases (grid i).flat
    · exact separated_y near_or near_or hne ⟨abs_nine k3, abs_nine k4⟩ abs_near hd
    · exact separated_x near_or near_or hne ⟨abs_nine k3, abs_nine k4⟩ abs_near hd
  fresh e he := by
    obtain ⟨i, hi⟩ := List.mem_iff_getElem?.1 he
    obtain ⟨a, b, c⟩ := h.reads i e hi
    refine ⟨c, fun hp => (h.ok i e hi).1 ?_⟩
    rw [a, b] at hp
    unfold Grid.pt at hp
    cases hb : (grid i).flat <;> rw [hb] at hp
    · simpa using congrFun hp 1
    · simpa using congrFun hp 0

end
end Verif.VertexOps
