/- C135: the convergence tables of the example drivers. -/
import Verif.Lemmas.Rates

namespace Verif.Rates
open MeshGraph Trace

/-- Helper: the tables of the two layouts with the mesh size in the column of `h_step`. -/
theorem slopes_of {hcol first n : Nat} {levels : List Level} {row : Level → List ℝ}
    (hr : Regular n levels) (hl : ∀ l : Level, (row l).length = first + l.errors.length)
    (hc : hcol < first) (hh : ∀ l, (row l)[hcol]? = some l.h)
    (he : ∀ (l : Level) (c : Nat), (row l)[first + c]? = l.errors[c]?) :
    ∃ r, rates hcol first (first + n) (levels.map row) = .ok r ∧ AreSlopes levels r := by
  obtain ⟨r, h1, h2, h3⟩ := rates_ok (hcol := hcol) (first := first) (nData := first + n)
    (T := levels.map row) (by
      intro x hx
      obtain ⟨l, hm, rfl⟩ := List.mem_map.1 hx
      rw [hl, (hr.1 l hm).2.1]) (by omega)
  refine ⟨r, h1, by simpa using h2, ?_⟩
  intro i l l' hi hi'
  obtain ⟨x, hx, hxl, hxc⟩ := h3 i (row l) (row l') (by simp [hi]) (by simp [hi'])
  obtain ⟨p1, p2, p3⟩ := hr.1 l (List.mem_of_getElem? hi)
  obtain ⟨q1, q2, q3⟩ := hr.1 l' (List.mem_of_getElem? hi')
  refine ⟨x, hx, by omega, ?_⟩
  intro c e e' hce hce'
  rw [hxc c l.h l'.h e e' (hh l) (hh l') ((he l c).trans hce) ((he l' c).trans hce'),
    rate_slope p1 q1 (hr.2 i l l' hi hi') (p3 e (List.mem_of_getElem? hce))
      (q3 e' (List.mem_of_getElem? hce'))]

/-- The table of the errors has one row for every level, in their order, as long as every level
has `n_data - 3` errors; otherwise the routine stops. -/
theorem C135_table (n : Nat) (levels : List Level) :
    ((∀ l ∈ levels, l.errors.length = n) →
      table (3 + n) (levels.map fun l => chunk l.nDof l.nIter l.h l.errors)
        = .ok (levels.map fun l => l.nDof :: l.nIter :: l.h :: l.errors)) ∧
    ((∃ l ∈ levels, l.errors.length ≠ n) →
      convergence (3 + n) levels = .error .valueError ∧
      ecmor (2 + n) levels = .error .valueError ∧
      plain (1 + n) levels = .error .valueError) := by
  refine ⟨fun h => table_ok ?_, fun ⟨l, hl, hn⟩ => ⟨?_, ?_, ?_⟩⟩
  · intro r hr
    obtain ⟨l, hm, rfl⟩ := List.mem_map.1 hr
    simp only [chunk, List.length_append, List.length_cons, List.length_nil]
    have := h l hm
    omega
  · have e : table (3 + n) (levels.map fun l => chunk l.nDof l.nIter l.h l.errors)
        = .error .valueError := table_error ⟨_, List.mem_map.2 ⟨l, hl, rfl⟩, by
      simp only [chunk, List.length_append, List.length_cons, List.length_nil]; omega⟩
    rw [convergence, e]; rfl
  · have e : table (2 + n) (levels.map fun l => chunkFv l.nDof l.h l.errors)
        = .error .valueError := table_error ⟨_, List.mem_map.2 ⟨l, hl, rfl⟩, by
      simp only [chunkFv, List.length_append, List.length_cons, List.length_nil]; omega⟩
    rw [ecmor, e]; rfl
  · have e : table (1 + n) (levels.map fun l => l.h :: l.errors)
        = .error .valueError := table_error ⟨_, List.mem_map.2 ⟨l, hl, rfl⟩, by
      simp only [List.length_cons]; omega⟩
    rw [plain, e]; rfl

/-- For positive errors and mesh sizes that change, the rates are the slopes between neighbouring
levels, and the norms are those of the last level. -/
theorem C135_rates {n : Nat} {levels : List Level} {last : Level} (hr : Regular n levels)
    (hl : levels.getLast? = some last) :
    ∃ r, convergence (3 + n) levels
        = .ok (levels.map fun l => l.nDof :: l.nIter :: l.h :: l.errors, r, last.norms) ∧
      AreSlopes levels r := by
  obtain ⟨r, h1, h2⟩ := slopes_of (hcol := 2) (first := 3)
    (row := fun l => chunk l.nDof l.nIter l.h l.errors) hr
    (by intro l; simp [chunk]; omega) (by omega) (by intro l; rfl)
    (by intro l c; simp [chunk, Nat.add_comm 3 c])
  have ht := (C135_table n levels).1 (fun l hm => (hr.1 l hm).2.1)
  refine ⟨r, ?_, h2⟩
  rw [convergence, ht]
  simp only [Res.bind_ok]
  have h1' : rates 2 3 (3 + n) (levels.map fun l => l.nDof :: l.nIter :: l.h :: l.errors)
      = .ok r := h1
  rw [h1']
  simp only [Res.bind_ok, hl]; rfl

/-- The same for the drivers with the mesh size in the first column -/
theorem C135_plain {n : Nat} {levels : List Level} (hr : Regular n levels) :
    ∃ r, plain (1 + n) levels = .ok (levels.map fun l => l.h :: l.errors, r) ∧
      AreSlopes levels r := by
  obtain ⟨r, h1, h2⟩ := slopes_of (hcol := 0) (first := 1)
    (row := fun l => l.h :: l.errors) hr
    (by intro l; simp; omega) (by omega) (by intro l; rfl)
    (by intro l c; simp [Nat.add_comm 1 c])
  have ht : table (1 + n) (levels.map fun l => l.h :: l.errors)
      = .ok (levels.map fun l => l.h :: l.errors) := table_ok (by
    intro x hx
    obtain ⟨l, hm, rfl⟩ := List.mem_map.1 hx
    have := (hr.1 l hm).2.1
    simp only [List.length_cons]; omega)
  refine ⟨r, ?_, h2⟩
  rw [plain, ht]
  simp only [Res.bind_ok]
  rw [h1]; rfl

/-- A slope between two errors `C h ^ p` is `p`. -/
theorem C135_exact {C p a b : ℝ} (hC : 0 < C) (ha : 0 < a) (hb : 0 < b) (h : a ≠ b) :
    rate a b (C * a ^ p) (C * b ^ p) = some p := by
  rw [rate_slope ha hb h (mul_pos hC (Real.rpow_pos_of_pos ha p))
    (mul_pos hC (Real.rpow_pos_of_pos hb p)), slope_power hC ha hb h]

/-- Errors between `c h ^ p` and `C h ^ p`: the rate differs from `p` by no more than
`log (C / c)` over the step. -/
theorem C135_order {c C p a b ea eb : ℝ} (hc : 0 < c) (ha : 0 < a) (hb : 0 < b) (h : a ≠ b)
    (h1 : c * a ^ p ≤ ea) (h2 : ea ≤ C * a ^ p) (h3 : c * b ^ p ≤ eb) (h4 : eb ≤ C * b ^ p) :
    ∃ q, rate a b ea eb = some q ∧
      |q - p| ≤ (Real.log C - Real.log c) / |Real.log b - Real.log a| :=
  ⟨_, rate_slope ha hb h (lt_of_lt_of_le (mul_pos hc (Real.rpow_pos_of_pos ha p)) h1)
    (lt_of_lt_of_le (mul_pos hc (Real.rpow_pos_of_pos hb p)) h3),
    slope_order hc ha hb h h1 h2 h3 h4⟩

/-- An error that is zero, or a mesh that is not refined, leaves no rate. -/
theorem C135_none (a b e : ℝ) :
    rate a b 0 e = none ∧ rate a b e 0 = none ∧ ∀ e', rate a a e e' = none := by
  refine ⟨?_, ?_, fun e' => ?_⟩
  · rw [rate, if_neg]; rintro ⟨-, -, h, -⟩; exact lt_irrefl _ h
  · rw [rate, if_neg]; rintro ⟨-, -, -, h, -⟩; exact lt_irrefl _ h
  · rw [rate, if_neg]; rintro ⟨-, -, -, -, h⟩; exact h (sub_self _)

/-- One level gives an empty table of rates. -/
theorem C135_single {n : Nat} {l : Level} (h : l.errors.length = n) :
    convergence (3 + n) [l] = .ok ([l.nDof :: l.nIter :: l.h :: l.errors], [], l.norms) := by
  have ht := (C135_table n [l]).1 (by simpa using h)
  rw [convergence, ht]; rfl

/-- Without levels the norms are not bound. -/
theorem C135_norms_violated (n : Nat) : convergence n [] = .error .nameError := rfl

/-- In the loop of the finite volume comparison every rate is the quotient of the logarithmic
steps of an error and of the first error: the mesh size does not enter. -/
theorem C135_ecmor {n : Nat} {levels : List Level} (hn : 0 < n)
    (hlen : ∀ l ∈ levels, l.errors.length = n) :
    ∃ r, ecmor (2 + n) levels
        = .ok (levels.map fun l => l.nDof :: l.h :: l.errors, r) ∧
      r.length = levels.length - 1 ∧
      ∀ (i : Nat) l l', levels[i]? = some l → levels[i + 1]? = some l' →
        ∃ row, r[i]? = some row ∧ row.length = n ∧
          ∀ (c : Nat) u u' e e', l.errors[0]? = some u → l'.errors[0]? = some u' →
            l.errors[c]? = some e → l'.errors[c]? = some e' →
            row[c]? = some (rate u u' e e') := by
  have hw : ∀ x ∈ levels.map (fun l => l.nDof :: l.h :: l.errors), x.length = 2 + n := by
    intro x hx
    obtain ⟨l, hm, rfl⟩ := List.mem_map.1 hx
    have := hlen l hm
    simp only [List.length_cons]; omega
  have ht : table (2 + n) (levels.map fun l => chunkFv l.nDof l.h l.errors)
      = .ok (levels.map fun l => l.nDof :: l.h :: l.errors) := table_ok hw
  obtain ⟨r, h1, h2, h3⟩ := rates_ok (hcol := 2) (first := 2) hw (by omega)
  refine ⟨r, ?_, by simpa using h2, ?_⟩
  · rw [ecmor, ht]
    simp only [Res.bind_ok]
    rw [h1]; rfl
  · intro i l l' hi hi'
    obtain ⟨x, hx, hxl, hxc⟩ := h3 i (l.nDof :: l.h :: l.errors) (l'.nDof :: l'.h :: l'.errors)
      (by simp [hi]) (by simp [hi'])
    refine ⟨x, hx, by omega, ?_⟩
    intro c u u' e e' hu hu' he he'
    exact hxc c u u' e e' (by simpa using hu) (by simpa using hu')
      (by simpa [Nat.add_comm 2 c] using he) (by simpa [Nat.add_comm 2 c] using he')

/-- With errors `U h ^ p` for the displacement and `C h ^ q` for another field the rate in the
table is `q / p`; it is `q` exactly for `p = 1` or `q = 0`. -/
theorem C135_ecmor_ratio {U C p q a b : ℝ} (hU : 0 < U) (hC : 0 < C) (ha : 0 < a) (hb : 0 < b)
    (h : a ≠ b) (hp : p ≠ 0) :
    rate (U * a ^ p) (U * b ^ p) (C * a ^ q) (C * b ^ q) = some (q / p) ∧
    (q / p = q ↔ p = 1 ∨ q = 0) := by
  have pa := mul_pos hU (Real.rpow_pos_of_pos ha p)
  have pb := mul_pos hU (Real.rpow_pos_of_pos hb p)
  have hs := log_step ha hb h
  have e : ∀ {K r x : ℝ}, 0 < K → 0 < x →
      Real.log (K * x ^ r) = Real.log K + r * Real.log x := by
    intro K r x hK hx
    rw [Real.log_mul hK.ne' (Real.rpow_pos_of_pos hx r).ne', Real.log_rpow hx]
  have e1 : Real.log (U * b ^ p) - Real.log (U * a ^ p) = p * (Real.log b - Real.log a) := by
    rw [e hU hb, e hU ha]; ring
  have e2 : Real.log (C * b ^ q) - Real.log (C * a ^ q) = q * (Real.log b - Real.log a) := by
    rw [e hC hb, e hC ha]; ring
  refine ⟨?_, ?_⟩
  · have hne : U * a ^ p ≠ U * b ^ p := by
      intro he
      have : p * (Real.log b - Real.log a) = 0 := by rw [← e1, he, sub_self]
      exact (mul_ne_zero hp hs) this
    rw [rate_slope pa pb hne (mul_pos hC (Real.rpow_pos_of_pos ha q))
      (mul_pos hC (Real.rpow_pos_of_pos hb q)), slope, e1, e2, mul_div_mul_right _ _ hs]
  · rw [div_eq_iff hp]
    constructor
    · intro h'
      by_cases hq : q = 0
      · exact Or.inr hq
      · exact Or.inl (mul_left_cancel₀ hq (by linarith))
    · rintro (h' | h')
      · rw [h', mul_one]
      · rw [h', zero_mul]

/-- Two levels on which the displacement error is `h ^ 2` and another error is `h` -/
noncomputable def exampleLevels : List Level :=
  [⟨10, 1, 1, [1, 1], [7]⟩, ⟨40, 1, 1 / 2, [1 / 4, 1 / 2], [8]⟩]

theorem exampleLevels_regular : Regular 2 exampleLevels := by
  refine ⟨?_, ?_⟩
  · intro l hl
    simp only [exampleLevels, List.mem_cons, List.not_mem_nil, or_false] at hl
    rcases hl with rfl | rfl
    · simp
    · refine ⟨by norm_num, rfl, ?_⟩
      intro e he
      simp only [List.mem_cons, List.not_mem_nil, or_false] at he
      rcases he with rfl | rfl <;> norm_num
  · intro i l l' h h'
    match i with
    | 0 =>
      obtain rfl := Option.some.inj h
      obtain rfl := Option.some.inj h'
      norm_num
    | i + 1 => exact absurd h' (by simp [exampleLevels])

/-- The hypotheses of the theorems on the slopes can be met. -/
example : ∃ r, convergence 5 exampleLevels
    = .ok (exampleLevels.map fun l => l.nDof :: l.nIter :: l.h :: l.errors, r, [8]) ∧
      AreSlopes exampleLevels r :=
  C135_rates exampleLevels_regular rfl

/-- The orders are two and one; the comparison reports one and a half, the other layout two and
one. -/
theorem C135_ecmor_violated :
    Regular 2 exampleLevels ∧
    (∃ t, ecmor 4 exampleLevels = .ok (t, [[some 1, some (1 / 2)]])) ∧
    (∃ t, plain 3 exampleLevels = .ok (t, [[some 2, some 1]])) ∧
    ¬ ∃ t r, ecmor 4 exampleLevels = .ok (t, r) ∧ AreSlopes exampleLevels r := by
  have l4 : Real.log (1 / 4) = 2 * Real.log (1 / 2) := by
    rw [show (1 / 4 : ℝ) = (1 / 2) ^ 2 by norm_num, Real.log_pow]; norm_num
  have l2 : Real.log (1 / 2) ≠ 0 := by
    have := Real.log_neg (x := 1 / 2) (by norm_num) (by norm_num)
    exact this.ne
  have s2 : slope 1 (1 / 2) 1 (1 / 4) = 2 := by
    rw [slope, l4, Real.log_one, sub_zero, sub_zero, mul_div_assoc, div_self l2, mul_one]
  have s1 : slope 1 (1 / 2) 1 (1 / 2) = 1 := by
    rw [slope, Real.log_one, sub_zero, div_self l2]
  have r1 : rate 1 (1 / 4) 1 (1 / 4) = some 1 := by
    rw [rate_slope (by norm_num) (by norm_num) (by norm_num) (by norm_num) (by norm_num), slope,
      l4, Real.log_one, sub_zero, div_self (mul_ne_zero two_ne_zero l2)]
  have r2 : rate 1 (1 / 4) 1 (1 / 2) = some (1 / 2) := by
    rw [rate_slope (by norm_num) (by norm_num) (by norm_num) (by norm_num) (by norm_num), slope,
      l4, Real.log_one, sub_zero, sub_zero]
    congr 1
    rw [div_eq_iff (mul_ne_zero two_ne_zero l2)]; ring
  have two : ∀ {x : List (Option ℝ)} {a b : Option ℝ}, x.length = 2 → x[0]? = some a →
      x[1]? = some b → x = [a, b] := by
    intro x a b hx h0 h1
    match x, hx with
    | [c, d], _ => simp_all
  have one : ∀ {r : List (List (Option ℝ))} {x : List (Option ℝ)}, r.length = 1 →
      r[0]? = some x → r = [x] := by
    intro r x hr h0
    match r, hr with
    | [y], _ => simp_all
  obtain ⟨r, h1, h2, h3⟩ := C135_ecmor (n := 2) (levels := exampleLevels) (by omega)
    (fun l hl => (exampleLevels_regular.1 l hl).2.1)
  obtain ⟨x, hx, hl, hc⟩ := h3 0 _ _ rfl rfl
  have hx' := two hl (hc 0 1 (1 / 4) 1 (1 / 4) rfl rfl rfl rfl)
    (hc 1 1 (1 / 4) 1 (1 / 2) rfl rfl rfl rfl)
  rw [r1, r2] at hx'
  have hr' : r = [[some 1, some (1 / 2)]] := by rw [one h2 hx, hx']
  rw [hr'] at h1
  obtain ⟨q, g1, g2, g3⟩ := C135_plain exampleLevels_regular
  obtain ⟨y, hy, gl, gc⟩ := g3 0 _ _ rfl rfl
  have hy' := two gl (gc 0 1 (1 / 4) rfl rfl) (gc 1 1 (1 / 2) rfl rfl)
  have hy'' : y = [some 2, some 1] := hy'.trans (by
    show [some (slope 1 (1 / 2) 1 (1 / 4)), some (slope 1 (1 / 2) 1 (1 / 2))] = _
    rw [s2, s1])
  have hq' : q = [[some 2, some 1]] := by rw [one g2 hy, hy'']
  rw [hq'] at g1
  refine ⟨exampleLevels_regular, ⟨exampleLevels.map fun l => l.nDof :: l.h :: l.errors, h1⟩,
    ⟨exampleLevels.map fun l => l.h :: l.errors, g1⟩, ?_⟩
  rintro ⟨t, r', e, -, hs⟩
  have e' := h1.symm.trans e
  have er : [[some 1, some (1 / 2)]] = r' := congrArg Prod.snd (Except.ok.inj e')
  obtain ⟨z, hz, -, zc⟩ := hs 0 _ _ rfl rfl
  have z0 := zc 0 1 (1 / 4) rfl rfl
  rw [← er] at hz
  obtain rfl := Option.some.inj hz
  have : some (1 : ℝ) = some (slope 1 (1 / 2) 1 (1 / 4)) := Option.some.inj z0
  rw [s2] at this
  exact absurd (Option.some.inj this) (by norm_num)

/-- Names and columns agree in the tables of errors and of rates. -/
def Report.Right (r : Report) : Prop :=
  r.errorNames = ["n_dof", "n_iter", "h"] ++ r.rateNames ∧ r.rateNames = r.errors ∧
  r.nData = 3 + r.errors.length

/-- The headers of the mixed methods name every column of the errors and rates. -/
theorem C135_headers : threeFields.Right ∧ fourFields.Right ∧
    taylorHood2.errorNames.length = taylorHood2.nData ∧
    taylorHood2.rateNames.length = taylorHood2.errors.length ∧
    taylorHood2.nData = 3 + taylorHood2.errors.length := by
  refine ⟨⟨rfl, rfl, rfl⟩, ⟨rfl, rfl, rfl⟩, rfl, rfl, rfl⟩

/-- The first Taylor-Hood example writes five and two columns under four and one names. -/
theorem C135_headers_violated :
    taylorHood1.nData = 3 + taylorHood1.errors.length ∧
    taylorHood1.errorNames.length = 4 ∧ taylorHood1.nData = 5 ∧
    taylorHood1.rateNames.length = 1 ∧ taylorHood1.errors.length = 2 := ⟨rfl, rfl, rfl, rfl, rfl⟩

/-- The norms of the solutions stand under two names too many: there are no projected fields. -/
theorem C135_norm_names_violated :
    threeFields.normNames = threeFields.norms ++ ["Pu", "Pr"] ∧
    fourFields.normNames = fourFields.norms ++ ["Pu", "Pr"] := ⟨rfl, rfl⟩

/-- The names of the Taylor-Hood examples are those of the fields, with the quantity behind; the first of them leaves
out the pressure. -/
theorem C135_names :
    taylorHood2.errorNames = ["n_dof", "n_iter", "h"] ++ taylorHood2.errors.map (· ++ "_L2_error") ∧
    taylorHood2.rateNames = taylorHood2.errors.map (· ++ "_convergence_rate") ∧
    taylorHood1.errorNames = ["n_dof", "n_iter", "h"] ++ (taylorHood1.errors.take 1).map (· ++ "_L2_error") ∧
    taylorHood1.rateNames = (taylorHood1.errors.take 1).map (· ++ "_convergence_rate") := by
  decide

#print axioms C135_table
#print axioms C135_rates
#print axioms C135_plain
#print axioms C135_exact
#print axioms C135_order
#print axioms C135_none
#print axioms C135_single
#print axioms C135_norms_violated
#print axioms C135_ecmor
#print axioms C135_ecmor_ratio
#print axioms C135_ecmor_violated
#print axioms C135_headers
#print axioms C135_headers_violated
#print axioms C135_norm_names_violated

#print axioms C135_names

end Verif.Rates
