/-
C161: the fracture networks of the tests of meshing.
-/
import Verif.Model.MeshingTests
import Verif.Props.FractureNetwork

namespace Verif.MeshingTests
open MeshBuild MeshGraph Trace MeshMetrics Geometry Fracture

/-- The points of a grid of width 1/20 -/
noncomputable def pt (c : Int × Int) : Pt ℝ := ![(c.1 : ℝ) / 20, (c.2 : ℝ) / 20, 0]

/-- The ends of the fractures on the grid -/
def grid : List ((Int × Int) × (Int × Int)) :=
  [((10, 5), (10, 15)), ((5, 10), (15, 10)), ((4, 7), (17, 7)), ((3, 3), (17, 17)), ((3, 17), (17, 3))]

noncomputable def lines : List (Pt ℝ × Pt ℝ) := grid.map fun g => (pt g.1, pt g.2)

/-- The common points of two fractures of the tests -/
def meet : Nat → Nat → List (Int × Int)
  | 0, 1 => [(10, 10)]
  | 0, 2 => [(10, 7)]
  | 0, 3 => [(10, 10)]
  | 0, 4 => [(10, 10)]
  | 1, 3 => [(10, 10)]
  | 1, 4 => [(10, 10)]
  | 2, 3 => [(7, 7)]
  | 2, 4 => [(13, 7)]
  | 3, 4 => [(10, 10)]
  | _, _ => []

/-- The points of the fracture `i` on another of the first `k` -/
def commonOf (k i : Nat) : List (Int × Int) :=
  (((List.range k).filter (· ≠ i)).flatMap fun j => meet (min i j) (max i j)).dedup

/-- The points of two of the first `k` -/
def commons (k : Nat) : List (Int × Int) := ((List.range k).flatMap (commonOf k)).dedup

theorem pt_inj {c d : Int × Int} (h : pt c = pt d) : c = d := by
  have e0 := congrFun h 0
  have e1 := congrFun h 1
  simp [pt] at e0 e1
  exact Prod.ext e0 e1

theorem pt_near {c d : Int × Int} (h : norm3 (pt c - pt d) < eps) : c = d := by
  have h0 := (abs_le_norm3 (pt c - pt d) 0).trans_lt h
  have h1 := (abs_le_norm3 (pt c - pt d) 1).trans_lt h
  have key : ∀ a b : ℤ, |(a : ℝ) / 20 - b / 20| < eps → a = b := by
    intro a b h
    rw [← sub_div, abs_div, abs_of_pos (by norm_num : (0 : ℝ) < 20), div_lt_iff₀ (by norm_num)] at h
    have : |(a : ℝ) - b| < 1 := h.trans (by unfold eps; norm_num)
    have : |a - b| < 1 := by exact_mod_cast this
    rw [Int.abs_lt_one_iff] at this
    omega
  exact Prod.ext (key _ _ (by simpa [pt] using h0)) (key _ _ (by simpa [pt] using h1))

theorem on_pair {a b c d e : Int × Int} (t s : ℝ) (ht : 0 ≤ t ∧ t ≤ 1) (hs : 0 ≤ s ∧ s ≤ 1)
    (h1 : pt e = pt a + t • (pt b - pt a)) (h2 : pt e = pt c + s • (pt d - pt c))
    (hd : (b.1 - a.1) * (d.2 - c.2) - (b.2 - a.2) * (d.1 - c.1) ≠ 0) (x : Pt ℝ) :
    (x ∈ segment ℝ (pt a) (pt b) ∧ x ∈ segment ℝ (pt c) (pt d)) ↔ x = pt e := by
  constructor
  · rintro ⟨m1, m2⟩
    obtain ⟨u, -, -, rfl⟩ := mem_segment_iff.1 m1
    obtain ⟨v, -, -, hv⟩ := mem_segment_iff.1 m2
    rw [h1]
    have e0 := congrFun h1 0
    have e1 := congrFun h1 1
    have f0 := congrFun h2 0
    have f1 := congrFun h2 1
    have g0 := congrFun hv 0
    have g1 := congrFun hv 1
    simp [pt] at e0 e1 f0 f1 g0 g1
    have hd' : ((b.1 : ℝ) - a.1) * (d.2 - c.2) - (b.2 - a.2) * (d.1 - c.1) ≠ 0 := by exact_mod_cast hd
    have : (u - t) * (((b.1 : ℝ) - a.1) * (d.2 - c.2) - (b.2 - a.2) * (d.1 - c.1)) = 0 := by
      linear_combination 20 * (d.2 - c.2) * (g0 + e0 - f0) - 20 * (d.1 - c.1) * (g1 + e1 - f1)
    have : u = t := by
      rcases mul_eq_zero.1 this with h | h
      · linarith
      · exact absurd h hd'
    rw [this]
  · rintro rfl
    exact ⟨mem_segment_iff.2 ⟨t, ht.1, ht.2, h1⟩, mem_segment_iff.2 ⟨s, hs.1, hs.2, h2⟩⟩

theorem on_both {i j : Nat} (hij : i < j) (hj : j < 5) {l m : (Int × Int) × (Int × Int)} (hl : grid[i]? = some l)
    (hm : grid[j]? = some m) (x : Pt ℝ) :
    (x ∈ segment ℝ (pt l.1) (pt l.2) ∧ x ∈ segment ℝ (pt m.1) (pt m.2)) ↔ ∃ c ∈ meet i j, x = pt c := by
  have : (i = 0 ∧ j = 1) ∨ (i = 0 ∧ j = 2) ∨ (i = 0 ∧ j = 3) ∨ (i = 0 ∧ j = 4) ∨ (i = 1 ∧ j = 2) ∨ (i = 1 ∧ j = 3) ∨
    (i = 1 ∧ j = 4) ∨ (i = 2 ∧ j = 3) ∨ (i = 2 ∧ j = 4) ∨ (i = 3 ∧ j = 4) := by omega
  rcases this with ⟨rfl, rfl⟩ | ⟨rfl, rfl⟩ | ⟨rfl, rfl⟩ | ⟨rfl, rfl⟩ | ⟨rfl, rfl⟩ | ⟨rfl, rfl⟩ | ⟨rfl, rfl⟩ |
    ⟨rfl, rfl⟩ | ⟨rfl, rfl⟩ | ⟨rfl, rfl⟩ <;>
    (simp only [grid, List.getElem?_cons_zero, List.getElem?_cons_succ, Option.some.injEq] at hl hm
     subst hl; subst hm; dsimp only)
  · rw [on_pair (e := (10, 10)) (1/2) (1/2) (by norm_num) (by norm_num)
      (by apply pt_ext <;> simp [pt] <;> norm_num) (by apply pt_ext <;> simp [pt] <;> norm_num) (by decide)]
    simp [meet]
  · rw [on_pair (e := (10, 7)) (1/5) (6/13) (by norm_num) (by norm_num)
      (by apply pt_ext <;> simp [pt] <;> norm_num) (by apply pt_ext <;> simp [pt] <;> norm_num) (by decide)]
    simp [meet]
  · rw [on_pair (e := (10, 10)) (1/2) (1/2) (by norm_num) (by norm_num)
      (by apply pt_ext <;> simp [pt] <;> norm_num) (by apply pt_ext <;> simp [pt] <;> norm_num) (by decide)]
    simp [meet]
  · rw [on_pair (e := (10, 10)) (1/2) (1/2) (by norm_num) (by norm_num)
      (by apply pt_ext <;> simp [pt] <;> norm_num) (by apply pt_ext <;> simp [pt] <;> norm_num) (by decide)]
    simp [meet]
  · constructor
    · rintro ⟨m1, m2⟩
      obtain ⟨t, -, -, rfl⟩ := mem_segment_iff.1 m1
      obtain ⟨u, -, -, h⟩ := mem_segment_iff.1 m2
      have := congrFun h 1
      simp [pt] at this
    · rintro ⟨c, hc, -⟩
      simp [meet] at hc
  · rw [on_pair (e := (10, 10)) (1/2) (1/2) (by norm_num) (by norm_num)
      (by apply pt_ext <;> simp [pt] <;> norm_num) (by apply pt_ext <;> simp [pt] <;> norm_num) (by decide)]
    simp [meet]
  · rw [on_pair (e := (10, 10)) (1/2) (1/2) (by norm_num) (by norm_num)
      (by apply pt_ext <;> simp [pt] <;> norm_num) (by apply pt_ext <;> simp [pt] <;> norm_num) (by decide)]
    simp [meet]
  · rw [on_pair (e := (7, 7)) (3/13) (2/7) (by norm_num) (by norm_num)
      (by apply pt_ext <;> simp [pt] <;> norm_num) (by apply pt_ext <;> simp [pt] <;> norm_num) (by decide)]
    simp [meet]
  · rw [on_pair (e := (13, 7)) (9/13) (5/7) (by norm_num) (by norm_num)
      (by apply pt_ext <;> simp [pt] <;> norm_num) (by apply pt_ext <;> simp [pt] <;> norm_num) (by decide)]
    simp [meet]
  · rw [on_pair (e := (10, 10)) (1/2) (1/2) (by norm_num) (by norm_num)
      (by apply pt_ext <;> simp [pt] <;> norm_num) (by apply pt_ext <;> simp [pt] <;> norm_num) (by decide)]
    simp [meet]

theorem lines_get {k i : Nat} {l : Pt ℝ × Pt ℝ} (h : (lines.take k)[i]? = some l) :
    i < k ∧ i < 5 ∧ ∃ g, grid[i]? = some g ∧ l = (pt g.1, pt g.2) := by
  obtain ⟨hi, h'⟩ := List.getElem?_eq_some_iff.1 h
  rw [List.length_take] at hi
  have h5 : lines.length = 5 := rfl
  rw [List.getElem?_take_of_lt (by omega)] at h
  unfold lines at h
  rw [List.getElem?_map] at h
  obtain ⟨g, hg, hl⟩ := Option.map_eq_some_iff.1 h
  exact ⟨by omega, by omega, g, hg, hl.symm⟩

theorem get_lines {k i : Nat} (hk : i < k) {g : (Int × Int) × (Int × Int)} (h : grid[i]? = some g) :
    (lines.take k)[i]? = some (pt g.1, pt g.2) := by
  rw [List.getElem?_take_of_lt hk]
  unfold lines
  rw [List.getElem?_map, h]
  rfl

theorem common_iff {k i : Nat} (hk : k ≤ 5) (hi : i < k) (x : Pt ℝ) :
    Common (lines.take k) i x ↔ ∃ c ∈ commonOf k i, x = pt c := by
  unfold commonOf
  constructor
  · rintro ⟨l, hl, hx, j, m, hne, hm, hy⟩
    obtain ⟨-, -, g, hg, rfl⟩ := lines_get hl
    obtain ⟨hj, -, g', hg', rfl⟩ := lines_get hm
    obtain ⟨c, hc, rfl⟩ : ∃ c ∈ meet (min i j) (max i j), x = pt c := by
      rcases Nat.lt_or_gt_of_ne hne with h | h
      · rw [Nat.min_eq_right h.le, Nat.max_eq_left h.le]
        exact (on_both h (by omega) hg' hg x).1 ⟨hy, hx⟩
      · rw [Nat.min_eq_left h.le, Nat.max_eq_right h.le]
        exact (on_both h (by omega) hg hg' x).1 ⟨hx, hy⟩
    refine ⟨c, List.mem_dedup.2 (List.mem_flatMap.2 ⟨j, List.mem_filter.2 ⟨List.mem_range.2 hj, by simpa using hne⟩, hc⟩), rfl⟩
  · rintro ⟨c, hc, rfl⟩
    obtain ⟨j, hj, hc⟩ := List.mem_flatMap.1 (List.mem_dedup.1 hc)
    obtain ⟨hj, hne⟩ := List.mem_filter.1 hj
    have hj := List.mem_range.1 hj
    have hne : j ≠ i := by simpa using hne
    have li : i < grid.length := show i < 5 by omega
    have lj : j < grid.length := show j < 5 by omega
    have hg : grid[i]? = some grid[i] := List.getElem?_eq_getElem li
    have hg' : grid[j]? = some grid[j] := List.getElem?_eq_getElem lj
    have : pt c ∈ segment ℝ (pt grid[i].1) (pt grid[i].2) ∧ pt c ∈ segment ℝ (pt grid[j].1) (pt grid[j].2) := by
      rcases Nat.lt_or_gt_of_ne hne with h | h
      · rw [Nat.min_eq_right h.le, Nat.max_eq_left h.le] at hc
        exact ((on_both h (by omega) hg' hg _).2 ⟨c, hc, rfl⟩).symm
      · rw [Nat.min_eq_left h.le, Nat.max_eq_right h.le] at hc
        exact (on_both h (by omega) hg hg' _).2 ⟨c, hc, rfl⟩
    exact ⟨_, get_lines hi hg, this.1, j, _, hne, get_lines hj hg', this.2⟩

/-- The ends of the first `k` fractures -/
def gridEnds (k : Nat) : List (Int × Int) := (grid.take k).flatMap fun g => [g.1, g.2]

theorem ends_eq (k : Nat) : ends (lines.take k) = (gridEnds k).map pt := by
  unfold ends gridEnds lines
  rw [← List.map_take]
  simp only [List.flatMap_map, List.map_flatMap]
  rfl

theorem special_iff {k : Nat} (hk : k ≤ 5) (x : Pt ℝ) :
    Special (lines.take k) x ↔ x ∈ (gridEnds k ++ commons k).map pt := by
  unfold Special
  rw [ends_eq, List.map_append, List.mem_append]
  refine or_congr Iff.rfl ?_
  unfold commons
  simp only [List.mem_map, List.mem_dedup, List.mem_flatMap, List.mem_range]
  constructor
  · rintro ⟨i, h⟩
    have hi : i < k := by
      obtain ⟨l, hl, -⟩ := h
      exact (lines_get hl).1
    obtain ⟨c, hc, rfl⟩ := (common_iff hk hi x).1 h
    exact ⟨c, ⟨i, hi, hc⟩, rfl⟩
  · rintro ⟨c, ⟨i, hi, hc⟩, rfl⟩
    exact ⟨i, (common_iff hk hi _).2 ⟨c, hc, rfl⟩⟩

theorem grid_cross : ∀ j < 5, ∀ i < j, ∀ l ∈ grid[i]?.toList, ∀ m ∈ grid[j]?.toList,
    (l.1.1 - l.2.1) * (m.1.2 - m.2.2) - (m.1.1 - m.2.1) * (l.1.2 - l.2.2) ≠ 0 ∨
      (l.1.1 - l.2.1) * (m.1.2 - m.2.2) - (m.1.1 - m.2.1) * (l.1.2 - l.2.2) = 0 ∧
      (l.1.1 - m.1.1) * (l.2.2 - m.1.2) - (l.2.1 - m.1.1) * (l.1.2 - m.1.2) ≠ 0 := by decide +kernel

theorem det_pt (a b c d : Int × Int) : det2 (proj pos (pt a) - proj pos (pt b)) (proj pos (pt c) - proj pos (pt d)) =
    (((a.1 - b.1) * (c.2 - d.2) - (c.1 - d.1) * (a.2 - b.2) : ℤ) : ℝ) / 400 := by
  simp [det2, proj, pt, pos]
  ring

theorem one_le_abs {z : ℤ} (h : z ≠ 0) : (1 : ℝ) / 400 ≤ |(z : ℝ) / 400| := by
  rw [abs_div, abs_of_pos (by norm_num : (0 : ℝ) < 400)]
  have : (1 : ℝ) ≤ |(z : ℝ)| := by exact_mod_cast Int.one_le_abs h
  linarith

/-- The fractures of the tests are in general position, though two are parallel and four meet in one point. -/
theorem lines_ok {k : Nat} (hk : k ≤ 5) : FracOK eps pos (lines.take k) := by
  refine ⟨⟨![0, 0, 1], 0, keeps_xy, ?_⟩, ?_, ?_, ?_⟩
  · intro l hl
    obtain ⟨i, hi⟩ := List.getElem?_of_mem hl
    obtain ⟨-, -, g, -, rfl⟩ := lines_get hi
    simp [dot, pt]
  · intro i j l m hij hl hm
    obtain ⟨-, hi, g, hg, rfl⟩ := lines_get hl
    obtain ⟨-, hj, g', hg', rfl⟩ := lines_get hm
    have := grid_cross j hj i hij g (by simp [hg]) g' (by simp [hg'])
    dsimp only at this ⊢
    rcases this with h | ⟨h, h'⟩
    · left
      rw [det_pt]
      exact le_trans (by norm_num) (one_le_abs h)
    · right
      unfold ApartParallel
      dsimp only
      rw [det_pt, det_pt, h]
      exact ⟨by simp, le_trans (by norm_num) (one_le_abs h')⟩
  · intro x y hx hy hlt
    obtain ⟨c, -, rfl⟩ := List.mem_map.1 ((special_iff hk x).1 hx)
    obtain ⟨d, -, rfl⟩ := List.mem_map.1 ((special_iff hk y).1 hy)
    rw [pt_near hlt]
  · rw [ends_eq]
    refine List.Nodup.map (fun _ _ => pt_inj) ?_
    interval_cases k <;> decide

theorem network_eq {argsort : List ℝ → List Nat} {k : Nat} (hk : k ≤ 5) :
    network argsort (List.range k) = intersectFractures eps argsort pos tagShift ((lines.take k).map fun l => [l.1, l.2]) := by
  have hF : fractureSet = lines.map fun l => [l.1, l.2] := by
    simp only [fractureSet, lines, grid, List.map_cons, List.map_nil, pt]
    norm_num
  have : mapRes (getIdx fractureSet) (List.range k) = .ok ((lines.take k).map fun l => [l.1, l.2]) := by
    rw [hF]
    interval_cases k <;> rfl
  unfold network
  rw [this, Res.bind_ok]

/-- The tests choose the first fractures of the set. -/
theorem C161_sets : sets = (List.range 5).map fun k => List.range (k + 1) := by decide

/-- C161.  The network of the first `k` fractures has the end points and the common points, each once, and every fracture
is divided at its common points. -/
theorem C161_network {argsort : List ℝ → List Nat} (hs : IsArgsort argsort) {k : Nat} (h1 : 1 ≤ k) (hk : k ≤ 5) :
    ∃ net, network argsort (List.range k) = .ok net ∧ net.points.Perm ((gridEnds k ++ commons k).map pt) ∧
      ∀ i < k, ∀ g, grid[i]? = some g →
        (commonOf k i = [] ∧ net.cells[3 * i + 2]? = some ⟨1, 3 * i + 2, i + 10, none, [3 * i, 3 * i + 1], []⟩) ∨
        commonOf k i ≠ [] ∧ ∃ chain, IsChain net (3 * i) (3 * i + 1) (pt g.1) (pt g.2) chain ∧ IsSplit net i (i + 10) chain ∧
          (chain.map (·.2)).Perm ((g.1 :: g.2 :: commonOf k i).map pt) := by
  obtain ⟨net, e, hp, hn, -, hf⟩ := C64_split (eps := eps) (by unfold eps; norm_num) hs tagShift (lines := lines.take k)
    (by intro h; have := congrArg List.length h; rw [List.length_take] at this; simp [lines, grid] at this; omega) (lines_ok hk)
  refine ⟨net, (network_eq hk).trans e, ?_, ?_⟩
  · rw [List.perm_ext_iff_of_nodup hn]
    · exact fun x => (hp x).trans (special_iff hk x)
    · refine List.Nodup.map (fun _ _ => pt_inj) ?_
      interval_cases k <;> decide +kernel
  · intro i hi g hg
    rcases hf i _ (get_lines hi hg) with ⟨hc, h⟩ | ⟨⟨x, hx⟩, chain, hc, hsp, hm⟩
    · left
      refine ⟨?_, h⟩
      rw [List.eq_nil_iff_forall_not_mem]
      intro c hcm
      exact hc _ ((common_iff hk hi _).2 ⟨c, hcm, rfl⟩)
    · right
      obtain ⟨c, hcm, -⟩ := (common_iff hk hi x).1 hx
      refine ⟨List.ne_nil_of_mem hcm, chain, hc, hsp, ?_⟩
      rw [List.perm_ext_iff_of_nodup]
      · intro y
        rw [List.map_cons, List.map_cons, List.mem_cons, List.mem_cons, List.mem_map, List.mem_map]
        have := hm y
        rw [common_iff hk hi] at this
        constructor
        · rintro ⟨⟨v, z⟩, hv, rfl⟩
          rcases this.1 ⟨v, hv⟩ with h | h | ⟨c, h, h'⟩
          · exact Or.inl h
          · exact Or.inr (Or.inl h)
          · exact Or.inr (Or.inr ⟨c, h, h'.symm⟩)
        · intro h
          obtain ⟨v, hv⟩ := this.2 (by
            rcases h with h | h | ⟨c, h, h'⟩
            · exact Or.inl h
            · exact Or.inr (Or.inl h)
            · exact Or.inr (Or.inr ⟨c, h, h'.symm⟩))
          exact ⟨(v, y), hv, rfl⟩
      · refine List.pairwise_map.2 (hc.ordered.imp ?_)
        intro a b h h'
        rw [h'] at h
        exact lt_irrefl _ h
      · refine List.Nodup.map (fun _ _ => pt_inj) ?_
        have key : ∀ k ≤ 5, ∀ i < k, ∀ g ∈ grid[i]?.toList, (g.1 :: g.2 :: commonOf k i).Nodup := by decide +kernel
        exact key k hk i hi g (by simp [hg])

example : ∃ (argsort : List ℝ → List Nat) (net : Net), network argsort (List.range 5) = .ok net ∧ net.points.length = 14 := by
  obtain ⟨argsort, hs⟩ := exists_argsort
  obtain ⟨net, h, hp, -⟩ := C161_network hs (k := 5) (by norm_num) le_rfl
  refine ⟨argsort, net, h, ?_⟩
  rw [hp.length_eq, List.length_map]
  decide +kernel

/-- C161.  How many points and pieces there are. -/
theorem C161_counts : (List.range 5).map (fun k => (gridEnds (k + 1) ++ commons (k + 1)).length) = [2, 5, 8, 11, 14] ∧
    (List.range 5).map (fun i => (commonOf 5 i).length + 1) = [3, 2, 4, 3, 3] := by decide +kernel

/-- C161.  No crossing has the tag of a fracture. -/
theorem C161_codes : ∀ i < 5, ∀ j < 5, ∀ m < 5, pairIntegers (i + tagShift) (j + tagShift) ≠ m + tagShift := by decide +kernel

/-- C161, disagreement.  The crossing of the first two fractures has the tag that the cut gives to one side of the fourth. -/
theorem C161_side_violated : pairIntegers (0 + tagShift) (1 + tagShift) ∈ sideTags (3 + tagShift) := by decide

/-- C161.  It is the only such crossing. -/
theorem C161_side_only {i j m : Nat} (hij : i < j) (hj : j < 5) (hm : m < 5) :
    pairIntegers (i + tagShift) (j + tagShift) ∈ sideTags (m + tagShift) ↔ i = 0 ∧ j = 1 ∧ m = 3 := by
  interval_cases j <;> interval_cases i <;> interval_cases m <;> decide

#print axioms C161_sets

#print axioms C161_network
#print axioms C161_counts
#print axioms C161_codes
#print axioms C161_side_violated
#print axioms C161_side_only

end Verif.MeshingTests
