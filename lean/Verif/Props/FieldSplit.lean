/-
Property theorems C137: the field split preconditioner of the example drivers.
-/
import Verif.Spec.FieldSplit
import Verif.Lemmas.Prelude
import Verif.Lemmas.DriverAssembly
import Mathlib.Algebra.BigOperators.Intervals
import Mathlib.Algebra.BigOperators.Ring.Finset
import Mathlib.Algebra.Order.BigOperators.Ring.Finset
import Mathlib.Algebra.Order.Ring.Rat
import Mathlib.Tactic.Ring
import Mathlib.Tactic.NormNum
import Mathlib.Tactic.Linarith

namespace Verif.FieldSplit
open Space Assembly DriverAssembly

theorem splitAt_range {m n : Nat} (h : m ≤ n) : SplitAt (List.range m, List.range' m (n - m)) m n := by
  refine ⟨rfl, by simp, fun k hk => ?_⟩
  rw [List.getElem?_range' hk]
  simp

/-- Three fields: the first part has the degrees of freedom of the first field, the second those of the other two. -/
theorem C137_three (a b c : Nat) : ∃ s, splitThree [a, b, c] = .ok s ∧ SplitAt s a (a + b + c) := by
  refine ⟨(List.range' 0 (0 + a - 0), List.range' (0 + a) (0 + a + b + c - (0 + a))), rfl, ?_⟩
  have h := splitAt_range (m := a) (n := a + b + c) (by omega)
  rw [Nat.zero_add, Nat.sub_zero, ← List.range_eq_range']
  exact h

/-- Four fields: the first part has the degrees of freedom of the first two fields, the second those of the others. -/
theorem C137_four (a b c d : Nat) : ∃ s, splitFour [a, b, c, d] = .ok s ∧ SplitAt s (a + b) (a + b + c + d) := by
  refine ⟨(List.range' 0 (0 + a + b - 0), List.range' (0 + a + b) (0 + a + b + c + d - (0 + a + b))), rfl, ?_⟩
  have h := splitAt_range (m := a + b) (n := a + b + c + d) (by omega)
  rw [Nat.zero_add, Nat.sub_zero, ← List.range_eq_range']
  exact h

/-- Every degree of freedom is in one part, once. -/
theorem C137_partition {s : List Nat × List Nat} {m n : Nat} (h : SplitAt s m n) (hm : m ≤ n) :
    s.1 ++ s.2 = List.range n := by
  obtain ⟨h1, h2, h3⟩ := h
  refine List.ext_getElem? fun k => ?_
  rw [h1]
  by_cases hk : k < m
  · rw [List.getElem?_append_left (by simpa using hk), List.getElem?_range hk, List.getElem?_range (by omega)]
  · rw [List.getElem?_append_right (by simp; omega), List.length_range]
    by_cases hn : k < n
    · rw [h3 _ (by omega), List.getElem?_range hn]
      congr 1
      omega
    · rw [List.getElem?_eq_none (by omega), List.getElem?_eq_none (by simp; omega)]

/-- With fewer fields the index sets raise an `IndexError`; with more fields the later ones are in no part. -/
theorem C137_number (dofs : List Nat) :
    (dofs.length < 3 → splitThree dofs = .error .indexError) ∧
    (dofs.length < 4 → splitFour dofs = .error .indexError) ∧
    (∀ a b c rest, dofs = a :: b :: c :: rest → splitThree dofs = splitThree [a, b, c]) ∧
    ∀ a b c d rest, dofs = a :: b :: c :: d :: rest → splitFour dofs = splitFour [a, b, c, d] := by
  refine ⟨fun h => ?_, fun h => ?_, ?_, ?_⟩
  · match dofs, h with
    | [], _ => rfl
    | [_], _ => rfl
    | [_, _], _ => rfl
    | _ :: _ :: _ :: _, h => simp at h; omega
  · match dofs, h with
    | [], _ => rfl
    | [_], _ => rfl
    | [_, _], _ => rfl
    | [_, _, _], _ => rfl
    | _ :: _ :: _ :: _ :: _, h => simp at h; omega
  · rintro a b c rest rfl
    cases rest <;> simp only [splitThree, strides, List.scanl_cons, List.scanl_nil] <;> rfl
  · rintro a b c d rest rfl
    cases rest <;> simp only [splitFour, strides, List.scanl_cons, List.scanl_nil] <;> rfl

variable {K : Type} [CommRing K]

omit [CommRing K] in
theorem gather_first {s : List Nat × List Nat} {m n : Nat} (h : SplitAt s m n) (x : Nat → K) {k : Nat} (hk : k < m) :
    gatherAt s.1 x k = x k := by
  rw [gatherAt, h.1, List.getD_eq_getElem?_getD, List.getElem?_range hk, Option.getD_some]

omit [CommRing K] in
theorem gather_second {s : List Nat × List Nat} {m n : Nat} (h : SplitAt s m n) (x : Nat → K) {k : Nat}
    (hk : k < n - m) : gatherAt s.2 x k = x (m + k) := by
  rw [gatherAt, List.getD_eq_getElem?_getD, h.2.2 k hk, Option.getD_some]

/-- The two parts of the preconditioned vector -/
theorem precondition_val {s : List Nat × List Nat} {m n : Nat} (h : SplitAt s m n)
    (solveS solveU : (Nat → K) → Nat → K) (x : Nat → K) :
    (∀ k < m, precondition s solveS solveU x k = solveS (gatherAt s.1 x) k) ∧
    (∀ k < n - m, precondition s solveS solveU x (m + k) = solveU (gatherAt s.2 x) k) ∧
    ∀ i, m ≤ i → n ≤ i → precondition s solveS solveU x i = 0 := by
  have g1 : ∀ k < m, s.1.getD k 0 = k := fun k hk => by
    rw [h.1, List.getD_eq_getElem?_getD, List.getElem?_range hk, Option.getD_some]
  have g2 : ∀ k < n - m, s.2.getD k 0 = m + k := fun k hk => by
    rw [List.getD_eq_getElem?_getD, h.2.2 k hk, Option.getD_some]
  have l1 : s.1.length = m := by rw [h.1, List.length_range]
  have key : ∀ i, precondition s solveS solveU x i =
      (∑ k ∈ Finset.range m, if k = i then solveS (gatherAt s.1 x) k else 0) +
      ∑ k ∈ Finset.range (n - m), if m + k = i then solveU (gatherAt s.2 x) k else 0 := by
    intro i
    simp only [precondition, additive, List.foldl_cons, List.foldl_nil, scatterAt, zero_add]
    rw [l1, h.2.1]
    congr 1
    · exact Finset.sum_congr rfl fun k hk => by rw [g1 k (Finset.mem_range.1 hk)]
    · exact Finset.sum_congr rfl fun k hk => by rw [g2 k (Finset.mem_range.1 hk)]
  refine ⟨fun k hk => ?_, fun k hk => ?_, fun i h1 h2 => ?_⟩
  · rw [key, Finset.sum_eq_single k (fun j _ hj => if_neg hj) (fun hk' => absurd (Finset.mem_range.2 hk) hk'), if_pos rfl,
      Finset.sum_eq_zero fun j _ => if_neg (by omega), add_zero]
  · rw [key, Finset.sum_eq_zero (s := Finset.range m) fun j hj => if_neg (by have := Finset.mem_range.1 hj; omega),
      Finset.sum_eq_single k (fun j _ hj => if_neg (by omega)) (fun hk' => absurd (Finset.mem_range.2 hk) hk'), if_pos rfl,
      zero_add]
  · rw [key, Finset.sum_eq_zero fun j hj => if_neg (by have := Finset.mem_range.1 hj; omega),
      Finset.sum_eq_zero fun j hj => if_neg (by have := Finset.mem_range.1 hj; omega), add_zero]

theorem sum_split {m n : Nat} (hm : m ≤ n) (f : Nat → K) :
    ∑ i ∈ Finset.range n, f i = ∑ i ∈ Finset.range m, f i + ∑ i ∈ Finset.range (n - m), f (m + i) := by
  conv_lhs => rw [show n = m + (n - m) by omega]
  rw [Finset.sum_range_add]

/-- Without entries between the parts, and with solvers of both blocks, the preconditioner solves the system of `P`. -/
theorem C137_inverse {s : List Nat × List Nat} {m n : Nat} (h : SplitAt s m n) (hm : m ≤ n) {P : Nat → Nat → K}
    (hp : Uncoupled P m n) {solveS solveU : (Nat → K) → Nat → K} (hs : SolvesBlock P 0 m solveS)
    (hu : SolvesBlock P m (n - m) solveU) (x : Nat → K) :
    ∀ i < n, ∑ j ∈ Finset.range n, P i j * precondition s solveS solveU x j = x i := by
  obtain ⟨v1, v2, -⟩ := precondition_val h solveS solveU x
  intro i hi
  rw [sum_split hm]
  by_cases him : i < m
  · rw [Finset.sum_eq_zero (s := Finset.range (n - m)) fun j hj => by
      rw [(hp i (m + j) him (by omega) (by have := Finset.mem_range.1 hj; omega)).1, zero_mul], add_zero]
    have := hs (gatherAt s.1 x) i him
    rw [gather_first h x him] at this
    rw [← this]
    exact Finset.sum_congr rfl fun j hj => by rw [v1 j (Finset.mem_range.1 hj), Nat.zero_add, Nat.zero_add]
  · obtain ⟨k, rfl⟩ := Nat.exists_eq_add_of_le (not_lt.1 him)
    rw [Finset.sum_eq_zero (s := Finset.range m) fun j hj => by
      rw [(hp j (m + k) (Finset.mem_range.1 hj) (by omega) hi).2, zero_mul], zero_add]
    have := hu (gatherAt s.2 x) k (by omega)
    rw [gather_second h x (by omega)] at this
    rw [← this]
    exact Finset.sum_congr rfl fun j hj => by rw [v2 j (Finset.mem_range.1 hj)]

/-- The inner product with the preconditioned vector is the sum over the parts. -/
theorem inner_split {s : List Nat × List Nat} {m n : Nat} (h : SplitAt s m n) (hm : m ≤ n)
    (solveS solveU : (Nat → K) → Nat → K) (x y : Nat → K) :
    inner n x (precondition s solveS solveU y) = inner m (gatherAt s.1 x) (solveS (gatherAt s.1 y)) +
      inner (n - m) (gatherAt s.2 x) (solveU (gatherAt s.2 y)) := by
  obtain ⟨v1, v2, -⟩ := precondition_val h solveS solveU y
  unfold inner
  rw [sum_split hm]
  congr 1
  · exact Finset.sum_congr rfl fun j hj => by
      rw [v1 j (Finset.mem_range.1 hj), gather_first h x (Finset.mem_range.1 hj)]
  · exact Finset.sum_congr rfl fun j hj => by
      rw [v2 j (Finset.mem_range.1 hj), gather_second h x (Finset.mem_range.1 hj)]

theorem inner_comm (n : Nat) (x y : Nat → K) : inner n x y = inner n y x :=
  Finset.sum_congr rfl fun _ _ => mul_comm _ _

/-- With symmetric solvers of the parts the preconditioner is symmetric. -/
theorem C137_symmetric {s : List Nat × List Nat} {m n : Nat} (h : SplitAt s m n) (hm : m ≤ n)
    {solveS solveU : (Nat → K) → Nat → K} (hs : ∀ x y, inner m x (solveS y) = inner m (solveS x) y)
    (hu : ∀ x y, inner (n - m) x (solveU y) = inner (n - m) (solveU x) y) (x y : Nat → K) :
    inner n x (precondition s solveS solveU y) = inner n (precondition s solveS solveU x) y := by
  rw [inner_comm n (precondition s solveS solveU x) y, inner_split h hm, inner_split h hm, hs, hu,
    inner_comm m (solveS _), inner_comm (n - m) (solveU _)]

/-- With positive solvers of the parts the preconditioner is positive, as MINRES demands. -/
theorem C137_positive [LinearOrder K] [IsStrictOrderedRing K] {s : List Nat × List Nat} {m n : Nat} (h : SplitAt s m n)
    (hm : m ≤ n) {solveS solveU : (Nat → K) → Nat → K}
    (hs : ∀ x, (∃ k < m, x k ≠ 0) → 0 < inner m x (solveS x)) (hs0 : ∀ x, (∀ k < m, x k = 0) → 0 ≤ inner m x (solveS x))
    (hu : ∀ x, (∃ k < n - m, x k ≠ 0) → 0 < inner (n - m) x (solveU x))
    (hu0 : ∀ x, (∀ k < n - m, x k = 0) → 0 ≤ inner (n - m) x (solveU x))
    {x : Nat → K} (hx : ∃ i < n, x i ≠ 0) : 0 < inner n x (precondition s solveS solveU x) := by
  rw [inner_split h hm]
  have ns : ∀ y : Nat → K, 0 ≤ inner m y (solveS y) := fun y => by
    by_cases hy : ∃ k < m, y k ≠ 0
    · exact (hs y hy).le
    · exact hs0 y fun k hk => by
        by_contra h'
        exact hy ⟨k, hk, h'⟩
  have nu : ∀ y : Nat → K, 0 ≤ inner (n - m) y (solveU y) := fun y => by
    by_cases hy : ∃ k < n - m, y k ≠ 0
    · exact (hu y hy).le
    · exact hu0 y fun k hk => by
        by_contra h'
        exact hy ⟨k, hk, h'⟩
  obtain ⟨i, hi, hx⟩ := hx
  by_cases him : i < m
  · exact add_pos_of_pos_of_nonneg (hs _ ⟨i, him, by rw [gather_first h x him]; exact hx⟩) (nu _)
  · obtain ⟨k, rfl⟩ := Nat.exists_eq_add_of_le (not_lt.1 him)
    exact add_pos_of_nonneg_of_pos (ns _) (hu _ ⟨k, by omega, by rw [gather_second h x (by omega)]; exact hx⟩)

/-- With more than three fields the preconditioner drops the entries of the later fields. -/
theorem C137_dropped (a b c : Nat) (rest : List Nat) (solveS solveU : (Nat → K) → Nat → K) (x : Nat → K) :
    ∃ s, splitThree (a :: b :: c :: rest) = .ok s ∧
      ∀ i, a + b + c ≤ i → precondition s solveS solveU x i = 0 := by
  obtain ⟨s, h1, h2⟩ := C137_three a b c
  refine ⟨s, by rw [← h1]; exact (C137_number _).2.2.1 a b c rest rfl, fun i hi => ?_⟩
  exact (precondition_val h2 solveS solveU x).2.2 i (by omega) hi

/-! ### The assembled matrix has no entries between the parts -/

theorem clip_zero (sym : Bool) (r c : Nat) : clip sym r c 0 = 0 := by
  unfold clip
  split_ifs <;> rfl

theorem kept_zero (sym : Bool) (c : Contribution ℝ) (i j : Nat)
    (h : ∀ (a b : Nat) row v, c.dest[a]? = some i → c.dest[b]? = some j → c.jac[a]? = some row → row[b]? = some v → v = 0) :
    keptAt sym c i j = 0 := by
  unfold keptAt
  refine List.sum_eq_zero fun z hz => ?_
  obtain ⟨⟨d, row⟩, hr, rfl⟩ := List.mem_map.1 hz
  obtain ⟨a, ha⟩ := List.mem_iff_getElem?.1 hr
  rw [List.getElem?_zip_eq_some] at ha
  refine List.sum_eq_zero fun z hz => ?_
  obtain ⟨⟨e, v⟩, hv, rfl⟩ := List.mem_map.1 hz
  obtain ⟨b, hb⟩ := List.mem_iff_getElem?.1 hv
  rw [List.getElem?_zip_eq_some] at hb
  dsimp only at ha hb ⊢
  by_cases hij : d = i ∧ e = j
  · rw [if_pos hij]
    obtain ⟨rfl, rfl⟩ := hij
    rw [h a b row v ha.1 hb.1 ha.2 hb.2, clip_zero]
  · rw [if_neg hij]

/-- The matrix of the preconditioner: if the matrices of the elements have zeros between the fields of the first and of
the second part, so has the matrix assembled by the drivers. -/
theorem C137_uncoupled (sym : Bool) (m n : Nat) : ∀ (cs : List (Contribution ℝ)) (s : Sys ℝ), s.jac.n = n →
    (∀ c ∈ cs, c.Fits n) →
    (∀ c ∈ cs, ∀ (a b : Nat) i j row v, c.dest[a]? = some i → c.dest[b]? = some j → (i < m ↔ ¬ j < m) →
      c.jac[a]? = some row → row[b]? = some v → v = 0) → Uncoupled s.jac.val m n →
    ∃ s', assembleRiesz sym (cs.map outcome) s = (s', none) ∧ Uncoupled s'.jac.val m n
  | [], s, _, _, _, h0 => ⟨s, rfl, h0⟩
  | c :: cs, s, hn, hf, hc, h0 => by
    have h1 := scatterMatrix_ok sym c s (by rw [hn]; exact hf c (by simp))
    have hz : ∀ i j, (i < m ↔ ¬ j < m) → keptAt sym c i j = 0 := fun i j hij =>
      kept_zero sym c i j fun a b row v h2 h3 h4 h5 => hc c (by simp) a b i j row v h2 h3 hij h4 h5
    obtain ⟨s', h2, h3⟩ := C137_uncoupled sym m n cs
      { s with jac := ⟨s.jac.n, fun i j => s.jac.val i j + keptAt sym c i j⟩ } hn (fun c' hc' => hf c' (by simp [hc']))
      (fun c' hc' => hc c' (by simp [hc'])) (fun i j hi hj hjn => by
        obtain ⟨e1, e2⟩ := h0 i j hi hj hjn
        dsimp only
        rw [e1, e2, hz i j (by omega), hz j i (by omega), add_zero]
        exact ⟨rfl, rfl⟩)
    refine ⟨s', ?_, h3⟩
    rw [← h2]
    simp only [assembleRiesz, List.map_cons, forEach, scatterRiesz, outcome, withRes_ok, h1]

/-! ### An example -/

/-- A diagonal matrix with one, two and three degrees of freedom of the fields -/
def diagonal : Nat → Nat → ℚ := fun i j => if i = j then i + 1 else 0

/-- The solvers of its blocks -/
def solveDiagonal (b : Nat) (x : Nat → ℚ) : Nat → ℚ := fun k => x k / ((b + k : Nat) + 1)

theorem diagonal_solves (b l : Nat) : SolvesBlock diagonal b l (solveDiagonal b) := by
  intro x k hk
  rw [Finset.sum_eq_single k (fun j _ hj => by rw [diagonal, if_neg (by omega), zero_mul])
    (fun hk' => absurd (Finset.mem_range.2 hk) hk'), diagonal, if_pos rfl, solveDiagonal]
  have : ((b + k : Nat) : ℚ) + 1 ≠ 0 := by positivity
  rw [mul_div_cancel₀ _ this]

/-- The hypotheses of `C137_inverse` are satisfiable. -/
example : ∃ s, splitThree [1, 2, 3] = .ok s ∧ ∀ x : Nat → ℚ, ∀ i < 6,
    ∑ j ∈ Finset.range 6, diagonal i j * precondition s (solveDiagonal 0) (solveDiagonal 1) x j = x i := by
  obtain ⟨s, h1, h2⟩ := C137_three 1 2 3
  refine ⟨s, h1, fun x => C137_inverse h2 (by omega) ?_ (diagonal_solves 0 1) (diagonal_solves 1 5) x⟩
  intro i j hi hj _
  constructor <;> rw [diagonal, if_neg (by omega)]

example : splitThree [1, 2, 3] = .ok ([0], [1, 2, 3, 4, 5]) ∧ splitFour [1, 2, 3, 1] = .ok ([0, 1, 2], [3, 4, 5, 6]) ∧
    splitThree [1, 2] = .error .indexError := ⟨rfl, rfl, rfl⟩

#print axioms C137_three

#print axioms C137_four
#print axioms C137_partition
#print axioms C137_number
#print axioms C137_inverse
#print axioms C137_symmetric
#print axioms C137_positive
#print axioms C137_dropped
#print axioms C137_uncoupled

end Verif.FieldSplit
