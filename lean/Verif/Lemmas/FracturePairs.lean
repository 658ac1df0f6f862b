/-
Lemmas on fracture networks: the disjoint fractures and the intersection of pairs.
-/
import Verif.Lemmas.FractureNetwork

namespace Verif.Fracture
open MeshBuild MeshGraph Trace MeshMetrics Geometry
open scoped Classical

/-! ### The disjoint fractures -/

theorem flatMap_two {α β : Type} (f g : α → β) : ∀ (l : List α) (i : Nat),
    (l.flatMap fun a => [f a, g a])[2 * i]? = l[i]?.map f ∧
    (l.flatMap fun a => [f a, g a])[2 * i + 1]? = l[i]?.map g
  | [], i => by simp
  | a :: l, 0 => by simp
  | a :: l, i + 1 => by
    have := flatMap_two f g l i
    rw [List.flatMap_cons]
    simpa [Nat.mul_add] using this

theorem flatMap_three {α β : Type} (f g h : α → β) : ∀ (l : List α) (i : Nat),
    (l.flatMap fun a => [f a, g a, h a])[3 * i]? = l[i]?.map f ∧
    (l.flatMap fun a => [f a, g a, h a])[3 * i + 1]? = l[i]?.map g ∧
    (l.flatMap fun a => [f a, g a, h a])[3 * i + 2]? = l[i]?.map h
  | [], i => by simp
  | a :: l, 0 => by simp
  | a :: l, i + 1 => by
    have := flatMap_three f g h l i
    rw [List.flatMap_cons]
    simpa [Nat.mul_add] using this

theorem disjoint_cell {shift : Nat} {lines : List (Pt ℝ × Pt ℝ)} {k : Nat} {c : FCell} :
    (disjointNet shift lines).cells[k]? = some c ↔ ∃ i, i < lines.length ∧
      ((k = 3 * i ∧ c = vertexCell (3 * i) (2 * i) (i + shift)) ∨
       (k = 3 * i + 1 ∧ c = vertexCell (3 * i + 1) (2 * i + 1) (i + shift)) ∨
       (k = 3 * i + 2 ∧ c = edgeCell (3 * i + 2) (i + shift) [3 * i, 3 * i + 1])) := by
  have key := flatMap_three (fun i => vertexCell (3 * i) (2 * i) (i + shift))
    (fun i => vertexCell (3 * i + 1) (2 * i + 1) (i + shift))
    (fun i => edgeCell (3 * i + 2) (i + shift) [3 * i, 3 * i + 1]) (List.range lines.length)
  unfold disjointNet
  dsimp only
  constructor
  · intro h
    have hk : k = 3 * (k / 3) + k % 3 := (Nat.div_add_mod k 3).symm
    have hr : k % 3 < 3 := Nat.mod_lt _ (by norm_num)
    obtain ⟨h0, h1, h2⟩ := key (k / 3)
    have hcase : k = 3 * (k / 3) ∨ k = 3 * (k / 3) + 1 ∨ k = 3 * (k / 3) + 2 := by omega
    have hlen : ∀ {f : Nat → FCell}, (List.range lines.length)[k / 3]?.map f = some c →
        k / 3 < lines.length ∧ f (k / 3) = c := by
      intro f hf
      rw [Option.map_eq_some_iff] at hf
      obtain ⟨a, ha, hb⟩ := hf
      obtain ⟨g1, g2⟩ := List.getElem?_eq_some_iff.1 ha
      simp at g1 g2
      subst g2
      exact ⟨g1, hb⟩
    rcases hcase with e | e | e
    · rw [e, h0] at h
      obtain ⟨g1, g2⟩ := hlen h
      exact ⟨_, g1, Or.inl ⟨e, g2.symm⟩⟩
    · rw [e, h1] at h
      obtain ⟨g1, g2⟩ := hlen h
      exact ⟨_, g1, Or.inr (Or.inl ⟨e, g2.symm⟩)⟩
    · rw [e, h2] at h
      obtain ⟨g1, g2⟩ := hlen h
      exact ⟨_, g1, Or.inr (Or.inr ⟨e, g2.symm⟩)⟩
  · rintro ⟨i, hi, h⟩
    obtain ⟨h0, h1, h2⟩ := key i
    rw [List.getElem?_range hi] at h0 h1 h2
    rcases h with ⟨rfl, rfl⟩ | ⟨rfl, rfl⟩ | ⟨rfl, rfl⟩
    · simpa using h0
    · simpa using h1
    · simpa using h2

theorem disjoint_points (shift : Nat) (lines : List (Pt ℝ × Pt ℝ)) :
    (disjointNet shift lines).points = ends lines := rfl

theorem ends_getElem? (lines : List (Pt ℝ × Pt ℝ)) (i : Nat) :
    (ends lines)[2 * i]? = lines[i]?.map Prod.fst ∧
    (ends lines)[2 * i + 1]? = lines[i]?.map Prod.snd := flatMap_two _ _ lines i

theorem ends_length (lines : List (Pt ℝ × Pt ℝ)) : (ends lines).length = 2 * lines.length := by
  induction lines with
  | nil => rfl
  | cons a l ih =>
    simp only [ends, List.flatMap_cons, List.length_append, List.length_cons, List.length_nil] at *
    omega

theorem disjoint_ok (shift : Nat) (lines : List (Pt ℝ × Pt ℝ)) :
    NetOK (disjointNet shift lines) := by
  have hl : (disjointNet shift lines).points.length = 2 * lines.length := ends_length lines
  constructor
  · intro k c h
    obtain ⟨i, -, ⟨rfl, rfl⟩ | ⟨rfl, rfl⟩ | ⟨rfl, rfl⟩⟩ := disjoint_cell.1 h <;> rfl
  · intro k c h h0
    rw [hl]
    obtain ⟨i, hi, ⟨rfl, rfl⟩ | ⟨rfl, rfl⟩ | ⟨rfl, rfl⟩⟩ := disjoint_cell.1 h
    · exact ⟨2 * i, rfl, by omega⟩
    · exact ⟨2 * i + 1, rfl, by omega⟩
    · simp [edgeCell] at h0
  · intro k hk
    rw [hl] at hk
    rcases Nat.even_or_odd' k with ⟨i, rfl | rfl⟩
    · exact ⟨_, _, disjoint_cell.2 ⟨i, by omega, Or.inl ⟨rfl, rfl⟩⟩, rfl, rfl⟩
    · exact ⟨_, _, disjoint_cell.2 ⟨i, by omega, Or.inr (Or.inl ⟨rfl, rfl⟩)⟩, rfl, rfl⟩
  · intro k l c d hk hl hc hd h
    obtain ⟨i, hi, ⟨rfl, rfl⟩ | ⟨rfl, rfl⟩ | ⟨rfl, rfl⟩⟩ := disjoint_cell.1 hk <;>
    obtain ⟨j, hj, ⟨rfl, rfl⟩ | ⟨rfl, rfl⟩ | ⟨rfl, rfl⟩⟩ := disjoint_cell.1 hl <;>
    simp [edgeCell, vertexCell] at hc hd h <;> omega

theorem disjoint_frac (shift : Nat) {lines : List (Pt ℝ × Pt ℝ)} {i : Nat} {l : Pt ℝ × Pt ℝ}
    (h : lines[i]? = some l) :
    (disjointNet shift lines).cells[3 * i + 2]? =
      some ⟨1, 3 * i + 2, i + shift, none, [3 * i, 3 * i + 1], []⟩ ∧
    HasVertex (disjointNet shift lines) (3 * i) l.1 ∧
    HasVertex (disjointNet shift lines) (3 * i + 1) l.2 := by
  have hi : i < lines.length := (List.getElem?_eq_some_iff.1 h).1
  have he := ends_getElem? lines i
  rw [h] at he
  exact ⟨disjoint_cell.2 ⟨i, hi, Or.inr (Or.inr ⟨rfl, rfl⟩)⟩,
    ⟨_, _, disjoint_cell.2 ⟨i, hi, Or.inl ⟨rfl, rfl⟩⟩, rfl, rfl, he.1⟩,
    ⟨_, _, disjoint_cell.2 ⟨i, hi, Or.inr (Or.inl ⟨rfl, rfl⟩)⟩, rfl, rfl, he.2⟩⟩

/-! ### Pairs -/

theorem pairsOf_map (f : Nat → Nat) : ∀ l : List Nat,
    pairsOf (l.map f) = (pairsOf l).map fun p => (f p.1, f p.2)
  | [] => rfl
  | a :: l => by
    simp only [List.map_cons, pairsOf, List.map_append, pairsOf_map f l, List.map_map]
    rfl

theorem mem_pairsOf_iff : ∀ {l : List Nat}, l.Pairwise (· < ·) → ∀ {i j : Nat},
    (i, j) ∈ pairsOf l ↔ i ∈ l ∧ j ∈ l ∧ i < j
  | [], _, i, j => by simp [pairsOf]
  | a :: l, h, i, j => by
    obtain ⟨h1, h2⟩ := List.pairwise_cons.1 h
    simp only [pairsOf, List.mem_append, List.mem_map, mem_pairsOf_iff h2, Prod.mk.injEq,
      List.mem_cons]
    constructor
    · rintro (⟨k, hk, rfl, rfl⟩ | ⟨hi, hj, hij⟩)
      · exact ⟨Or.inl rfl, Or.inr hk, h1 _ hk⟩
      · exact ⟨Or.inr hi, Or.inr hj, hij⟩
    · rintro ⟨rfl | hi, rfl | hj, hij⟩
      · omega
      · exact Or.inl ⟨j, hj, rfl, rfl⟩
      · exact absurd (h1 _ hi) (by omega)
      · exact Or.inr ⟨hi, hj, hij⟩

theorem mem_pairs_range {n i j : Nat} : (i, j) ∈ pairsOf (List.range n) ↔ i < j ∧ j < n := by
  rw [mem_pairsOf_iff List.pairwise_lt_range]
  simp only [List.mem_range]
  omega

/-- `x` is a common point of fractures `p.1` and `p.2`. -/
def CommonOf (lines : List (Pt ℝ × Pt ℝ)) (p : Nat × Nat) (x : Pt ℝ) : Prop :=
  ∃ l m, lines[p.1]? = some l ∧ lines[p.2]? = some m ∧ x ∈ segment ℝ l.1 l.2 ∧
    x ∈ segment ℝ m.1 m.2

theorem CommonOf.special {lines : List (Pt ℝ × Pt ℝ)} {p : Nat × Nat} {x : Pt ℝ} (hne : p.1 ≠ p.2)
    (h : CommonOf lines p x) : Special lines x := by
  obtain ⟨l, m, hl, hm, h1, h2⟩ := h
  exact Or.inr ⟨p.1, l, hl, h1, p.2, m, hne.symm, hm, h2⟩

/-- What holds of the network once the pairs `done` have been intersected. -/
structure PairInv (eps : ℝ) (shift : Nat) (lines : List (Pt ℝ × Pt ℝ)) (done : List (Nat × Nat))
    (net : Net) : Prop where
  ok : NetOK net
  apart : Apart eps net.points
  special : ∀ x ∈ net.points, Special lines x
  ends : ends lines <+: net.points
  common : ∀ p ∈ done, ∀ x, CommonOf lines p x → x ∈ net.points
  frac : ∀ i l, lines[i]? = some l → HasVertex net (3 * i) l.1 ∧ HasVertex net (3 * i + 1) l.2 ∧
    ∃ imm, net.cells[3 * i + 2]? =
        some ⟨1, 3 * i + 2, i + shift, none, [3 * i, 3 * i + 1], imm⟩ ∧
      (∀ v ∈ imm, ∃ x, HasVertex net v x ∧ ∃ p ∈ done, (i = p.1 ∨ i = p.2) ∧ CommonOf lines p x) ∧
      ∀ p ∈ done, i = p.1 ∨ i = p.2 → ∀ x, CommonOf lines p x → ∃ v ∈ imm, HasVertex net v x

theorem mem_points_of_hasVertex {net : Net} {v : Nat} {x : Pt ℝ} (h : HasVertex net v x) :
    x ∈ net.points := by
  obtain ⟨c, k, -, -, -, h3⟩ := h
  exact List.mem_of_getElem? h3

/-- Parallel segments that are apart have no common point, and the test finds none. -/
theorem test_parallel {pos : Fin 3 × Fin 3} {l m : Pt ℝ × Pt ℝ} (h : ApartParallel pos l m) :
    (∀ x, x ∈ segment ℝ l.1 l.2 → x ∈ segment ℝ m.1 m.2 →
      lineLineTest (1 / 10 ^ 12) pos l.1 l.2 m.1 m.2 = some (x, none)) ∧
    ((∀ x, ¬ (x ∈ segment ℝ l.1 l.2 ∧ x ∈ segment ℝ m.1 m.2)) →
      lineLineTest (1 / 10 ^ 12) pos l.1 l.2 m.1 m.2 = none) := by
  obtain ⟨h0, h1⟩ := h
  obtain ⟨a, b⟩ := l
  obtain ⟨p, q⟩ := m
  dsimp only at h0 h1 ⊢
  constructor
  · intro x hx hy
    exfalso
    obtain ⟨t, -, -, rfl⟩ := mem_segment_iff.1 hx
    obtain ⟨s, -, -, hs⟩ := mem_segment_iff.1 hy
    have e1 := congrFun hs pos.1
    have e2 := congrFun hs pos.2
    simp only [det2, proj, Pi.add_apply, Pi.smul_apply, Pi.sub_apply, smul_eq_mul, Prod.fst_sub, Prod.snd_sub] at e1 e2 h0 h1
    have : (a pos.1 - p pos.1) * (b pos.2 - p pos.2) - (b pos.1 - p pos.1) * (a pos.2 - p pos.2) = 0 := by
      linear_combination (b pos.2 - a pos.2) * e1 - (b pos.1 - a pos.1) * e2 - s * h0
    rw [this, abs_zero] at h1
    norm_num at h1
  · intro _
    have c1 : ¬ |colinearTest pos a b p| < 1 / 10 ^ 12 := by
      unfold colinearTest
      rw [abs_of_nonneg (by positivity), not_lt]
      have : det2 (proj pos (a - p)) (proj pos (b - p)) = det2 (proj pos a - proj pos p) (proj pos b - proj pos p) := rfl
      rw [this]
      linarith
    have c2 : ¬ |colinearTest pos a b q| < 1 / 10 ^ 12 := by
      unfold colinearTest
      rw [abs_of_nonneg (by positivity), not_lt]
      have : det2 (proj pos (a - q)) (proj pos (b - q)) = det2 (proj pos a - proj pos p) (proj pos b - proj pos p) := by
        simp only [det2, proj, Pi.sub_apply, Prod.fst_sub, Prod.snd_sub] at h0 ⊢
        linear_combination h0
      rw [this]
      linarith
    unfold lineLineTest
    simp only [h0, abs_zero]
    rw [if_pos (by norm_num), if_pos ⟨c1, c2⟩]

theorem step_pair {eps : ℝ} (he : 0 < eps) {pos : Fin 3 × Fin 3} {shift : Nat}
    {lines : List (Pt ℝ × Pt ℝ)} (hf : FracOK eps pos lines) {done : List (Nat × Nat)} {net : Net}
    (hinv : PairInv eps shift lines done net) {i j : Nat} (hij : i < j) (hj : j < lines.length) :
    ∃ net', intersectPair eps pos net (3 * i + 2, 3 * j + 2) = .ok net' ∧
      PairInv eps shift lines (done ++ [(i, j)]) net' := by
  have hi : i < lines.length := hij.trans hj
  have gi : lines[i]? = some lines[i] := List.getElem?_eq_getElem hi
  have gj : lines[j]? = some lines[j] := List.getElem?_eq_getElem hj
  obtain ⟨vi0, vi1, immi, ci, -, -⟩ := hinv.frac i _ gi
  obtain ⟨vj0, vj1, immj, cj, -, -⟩ := hinv.frac j _ gj
  obtain ⟨n, h, hn, hpl⟩ := hf.plane
  obtain ⟨pi1, pi2⟩ := hpl lines[i] (by simp)
  obtain ⟨pj1, pj2⟩ := hpl lines[j] (by simp)
  have test := (hf.cross i j _ _ hij gi gj).elim
    (C52_test_exact (eps := 1 / 10 ^ 12) (by norm_num) hn pi1 pi2 pj1 pj2) test_parallel
  have ei := endPoints_spec (c := ⟨1, 3 * i + 2, i + shift, none, [3 * i, 3 * i + 1], immi⟩) rfl
    vi0 vi1
  have ej := endPoints_spec (c := ⟨1, 3 * j + 2, j + shift, none, [3 * j, 3 * j + 1], immj⟩) rfl
    vj0 vj1
  unfold intersectPair
  simp only [getIdx_of ci, getIdx_of cj, ei, ej, Res.bind_ok]
  by_cases hx : ∃ x, x ∈ segment ℝ lines[i].1 lines[i].2 ∧ x ∈ segment ℝ lines[j].1 lines[j].2
  · obtain ⟨x, hx1, hx2⟩ := hx
    have hcx : CommonOf lines (i, j) x := ⟨_, _, gi, gj, hx1, hx2⟩
    have huniq : ∀ y, CommonOf lines (i, j) y → y = x := by
      rintro y ⟨l, m, hl, hm, hy1, hy2⟩
      dsimp only at hl hm
      rw [gi] at hl; cases hl
      rw [gj] at hm; cases hm
      have := (test.1 y hy1 hy2).symm.trans (test.1 x hx1 hx2)
      simpa using this
    have hsx : Special lines x := hcx.special (by simpa using hij.ne)
    rw [test.1 x hx1 hx2]
    dsimp only
    obtain ⟨net1, v, y, e1, ok1, hv, hlt, hcase⟩ := insertVertex_spec he hinv.ok x
      (pairIntegers (i + shift) (j + shift))
    have hyx : y = x := by
      rcases hcase with ⟨-, hy⟩ | ⟨hy, -⟩
      · exact hf.apart y x (hinv.special y hy) hsx hlt
      · exact hy
    subst hyx
    have hext : Extends net net1 := by
      rcases hcase with ⟨rfl, -⟩ | ⟨-, -, h1, h2⟩
      · exact Extends.refl _
      · exact extends_insert h1 h2
    have hsame : ∀ (k : Nat) (c : FCell), net.cells[k]? = some c → net1.cells[k]? = some c := by
      intro k c hk
      rcases hcase with ⟨rfl, -⟩ | ⟨-, -, h1, h2⟩
      · exact hk
      · rw [h2, getElem?_append_singleton]; exact Or.inl hk
    have happ : Apart eps net1.points := by
      rcases hcase with ⟨rfl, -⟩ | ⟨-, h0, h1, h2⟩
      · exact hinv.apart
      · rw [h1]
        refine List.pairwise_append.2 ⟨hinv.apart, List.pairwise_singleton _ _, ?_⟩
        intro a ha b hb
        rw [List.mem_singleton] at hb; subst hb
        exact h0 a ha
    have hspec : ∀ z ∈ net1.points, Special lines z := by
      intro z hz
      rcases hcase with ⟨rfl, -⟩ | ⟨-, h0, h1, h2⟩
      · exact hinv.special z hz
      · rw [h1] at hz
        rcases List.mem_append.1 hz with hz | hz
        · exact hinv.special z hz
        · rw [List.mem_singleton] at hz; subst hz; exact hsx
    rw [e1]
    dsimp only
    obtain ⟨net2, e2, ok2, ext2, pts2, -, ci2, oth2⟩ := addImmersed_spec ok1 (v := v) (hsame _ _ ci)
    have cj1 : net2.cells[3 * j + 2]? = _ := (oth2 _ (by omega)).trans (hsame _ _ cj)
    obtain ⟨net3, e3, ok3, ext3, pts3, -, cj3, oth3⟩ := addImmersed_spec ok2 (v := v) cj1
    rw [e2, Res.bind_ok, e3]
    have hE : Extends net net3 := hext.trans (ext2.trans ext3)
    have hpts : net3.points = net1.points := pts3.trans pts2
    have hv3 : HasVertex net3 v y := ext3.hasVertex (ext2.hasVertex hv)
    refine ⟨net3, rfl, ok3, hpts ▸ happ, hpts ▸ hspec, hinv.ends.trans hE.points, ?_, ?_⟩
    · intro p hp z hz
      rcases List.mem_append.1 hp with hp | hp
      · exact hE.points.subset (hinv.common p hp z hz)
      · rw [List.mem_singleton] at hp; subst hp
        rw [huniq z hz]
        exact mem_points_of_hasVertex hv3
    · intro k l hl
      obtain ⟨h0, h1, imm, hc, hA, hB⟩ := hinv.frac k l hl
      refine ⟨hE.hasVertex h0, hE.hasVertex h1, ?_⟩
      have hA' : ∀ w ∈ imm, ∃ z, HasVertex net3 w z ∧ ∃ p ∈ done ++ [(i, j)],
          (k = p.1 ∨ k = p.2) ∧ CommonOf lines p z := by
        intro w hw
        obtain ⟨z, hz, p, hp, hp'⟩ := hA w hw
        exact ⟨z, hE.hasVertex hz, p, List.mem_append_left _ hp, hp'⟩
      by_cases hk : k = i ∨ k = j
      · refine ⟨imm ++ [v], ?_, ?_, ?_⟩
        · rcases hk with rfl | rfl
          · rw [hc] at ci; cases ci
            rw [oth3 _ (by omega)]
            exact ci2
          · rw [hc] at cj; cases cj
            exact cj3
        · intro w hw
          rcases List.mem_append.1 hw with hw | hw
          · exact hA' w hw
          · rw [List.mem_singleton] at hw; subst hw
            exact ⟨y, hv3, (i, j), by simp, hk, hcx⟩
        · intro p hp hkp z hz
          rcases List.mem_append.1 hp with hp | hp
          · obtain ⟨w, hw, hwz⟩ := hB p hp hkp z hz
            exact ⟨w, List.mem_append_left _ hw, hE.hasVertex hwz⟩
          · rw [List.mem_singleton] at hp; subst hp
            rw [huniq z hz]
            exact ⟨v, by simp, hv3⟩
      · push Not at hk
        refine ⟨imm, ?_, hA', ?_⟩
        · rw [oth3 _ (by omega), oth2 _ (by omega)]
          exact hsame _ _ hc
        · intro p hp hkp z hz
          rcases List.mem_append.1 hp with hp | hp
          · obtain ⟨w, hw, hwz⟩ := hB p hp hkp z hz
            exact ⟨w, hw, hE.hasVertex hwz⟩
          · rw [List.mem_singleton] at hp; subst hp
            rcases hkp with h' | h'
            · exact absurd h' hk.1
            · exact absurd h' hk.2
  · push Not at hx
    have hno : ∀ x, ¬ CommonOf lines (i, j) x := by
      rintro y ⟨l, m, hl, hm, hy1, hy2⟩
      dsimp only at hl hm
      rw [gi] at hl; cases hl
      rw [gj] at hm; cases hm
      exact hx y hy1 hy2
    rw [test.2 (fun x h => hx x h.1 h.2)]
    refine ⟨net, rfl, hinv.ok, hinv.apart, hinv.special, hinv.ends, ?_, ?_⟩
    · intro p hp z hz
      rcases List.mem_append.1 hp with hp | hp
      · exact hinv.common p hp z hz
      · rw [List.mem_singleton] at hp; subst hp
        exact absurd hz (hno z)
    · intro k l hl
      obtain ⟨h0, h1, imm, hc, hA, hB⟩ := hinv.frac k l hl
      refine ⟨h0, h1, imm, hc, ?_, ?_⟩
      · intro w hw
        obtain ⟨z, hz, p, hp, hp'⟩ := hA w hw
        exact ⟨z, hz, p, List.mem_append_left _ hp, hp'⟩
      · intro p hp hkp z hz
        rcases List.mem_append.1 hp with hp | hp
        · exact hB p hp hkp z hz
        · rw [List.mem_singleton] at hp; subst hp
          exact absurd hz (hno z)

theorem pair_stage {eps : ℝ} (he : 0 < eps) {pos : Fin 3 × Fin 3} {shift : Nat}
    {lines : List (Pt ℝ × Pt ℝ)} (hf : FracOK eps pos lines) :
    ∀ (todo done : List (Nat × Nat)) (net : Net), (∀ p ∈ todo, p.1 < p.2 ∧ p.2 < lines.length) →
      PairInv eps shift lines done net →
      ∃ net', (todo.map fun p => (3 * p.1 + 2, 3 * p.2 + 2)).foldlM (intersectPair eps pos) net =
        .ok net' ∧ PairInv eps shift lines (done ++ todo) net'
  | [], done, net, _, h => ⟨net, rfl, by simpa using h⟩
  | (i, j) :: todo, done, net, ht, h => by
    obtain ⟨hij, hj⟩ := ht (i, j) (by simp)
    obtain ⟨net1, e1, h1⟩ := step_pair he hf h hij hj
    obtain ⟨net2, e2, h2⟩ := pair_stage he hf todo (done ++ [(i, j)]) net1
      (fun p hp => ht p (List.mem_cons_of_mem _ hp)) h1
    refine ⟨net2, ?_, by simpa using h2⟩
    rw [List.map_cons, List.foldlM_cons, e1, Res.bind_ok, e2]

theorem apart_ends {eps : ℝ} {pos : Fin 3 × Fin 3} {lines : List (Pt ℝ × Pt ℝ)}
    (hf : FracOK eps pos lines) : Apart eps (ends lines) := by
  refine List.Pairwise.imp_of_mem ?_ hf.ends
  intro x y hx hy hne
  by_contra h
  exact hne (hf.apart x y (Or.inl hx) (Or.inl hy) (not_le.1 h))

/-- After all pairs: the immersed vertices of a fracture are at exactly its common points. -/
theorem all_pairs {eps : ℝ} (he : 0 < eps) {pos : Fin 3 × Fin 3} (shift : Nat)
    {lines : List (Pt ℝ × Pt ℝ)} (hf : FracOK eps pos lines) :
    ∃ net, (pairsOf ((List.range lines.length).map fun i => 3 * i + 2)).foldlM
        (intersectPair eps pos) (disjointNet shift lines) = .ok net ∧
      NetOK net ∧ Apart eps net.points ∧ (∀ x, x ∈ net.points ↔ Special lines x) ∧
      ∀ i l, lines[i]? = some l → HasVertex net (3 * i) l.1 ∧ HasVertex net (3 * i + 1) l.2 ∧
        ∃ imm, net.cells[3 * i + 2]? =
            some ⟨1, 3 * i + 2, i + shift, none, [3 * i, 3 * i + 1], imm⟩ ∧
          (∀ v ∈ imm, ∃ x, HasVertex net v x ∧ Common lines i x) ∧
          ∀ x, Common lines i x → ∃ v ∈ imm, HasVertex net v x := by
  have h0 : PairInv eps shift lines [] (disjointNet shift lines) := by
    refine ⟨disjoint_ok _ _, apart_ends hf, fun x hx => Or.inl hx, List.prefix_refl _, by simp, ?_⟩
    intro i l hl
    obtain ⟨h1, h2, h3⟩ := disjoint_frac shift hl
    exact ⟨h2, h3, [], h1, by simp, by simp⟩
  obtain ⟨net, e, hinv⟩ := pair_stage he hf (pairsOf (List.range lines.length)) [] _
    (by rintro ⟨i, j⟩ hp; exact mem_pairs_range.1 hp) h0
  rw [List.nil_append] at hinv
  -- a point common to `i` and another fracture is common to one of the pairs
  have hpair : ∀ i x, Common lines i x → ∃ p ∈ pairsOf (List.range lines.length),
      (i = p.1 ∨ i = p.2) ∧ CommonOf lines p x := by
    rintro i x ⟨l, hl, h1, j, m, hne, hm, h2⟩
    have hi := (List.getElem?_eq_some_iff.1 hl).1
    have hj := (List.getElem?_eq_some_iff.1 hm).1
    rcases lt_or_gt_of_ne hne with h | h
    · exact ⟨(j, i), mem_pairs_range.2 ⟨h, hi⟩, Or.inr rfl, m, l, hm, hl, h2, h1⟩
    · exact ⟨(i, j), mem_pairs_range.2 ⟨h, hj⟩, Or.inl rfl, l, m, hl, hm, h1, h2⟩
  refine ⟨net, by rw [pairsOf_map]; exact e, hinv.ok, hinv.apart, ?_, ?_⟩
  · intro x
    refine ⟨hinv.special x, ?_⟩
    rintro (hx | ⟨i, hx⟩)
    · exact hinv.ends.subset hx
    · obtain ⟨p, hp, -, hc⟩ := hpair i x hx
      exact hinv.common p hp x hc
  · intro i l hl
    obtain ⟨h0, h1, imm, hc, hA, hB⟩ := hinv.frac i l hl
    refine ⟨h0, h1, imm, hc, ?_, ?_⟩
    · intro v hv
      obtain ⟨x, hx, ⟨a, b⟩, hp, hip, l', m, hl', hm, h1, h2⟩ := hA v hv
      obtain ⟨hab, -⟩ := mem_pairs_range.1 hp
      dsimp only at hip hl' hm
      refine ⟨x, hx, ?_⟩
      rcases hip with rfl | rfl
      · exact ⟨l', hl', h1, b, m, by omega, hm, h2⟩
      · exact ⟨m, hm, h2, a, l', by omega, hl', h1⟩
    · intro x hx
      obtain ⟨p, hp, hip, hcx⟩ := hpair i x hx
      exact hB p hp hip x hcx

end Verif.Fracture
