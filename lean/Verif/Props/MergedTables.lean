/-
Property theorems C139: tables with errors and rates side by side.
-/
import Verif.Spec.MergedTables
import Verif.Lemmas.Rates
import Verif.Lemmas.Trace

namespace Verif.MergedTables
open MeshGraph Trace Rates

theorem assignEvery_ok {α : Type} {raw source : List α} {start : Nat}
    (h : source.length = (raw.length - start + 1) / 2) :
    ∃ r, assignEvery raw start source = .ok r ∧ r.length = raw.length ∧
      (∀ (j : Nat) x, source[j]? = some x → r[start + 2 * j]? = some x) ∧
      ∀ p : Nat, (p < start ∨ (p - start) % 2 = 1) → r[p]? = raw[p]? := by
  refine ⟨_, by rw [assignEvery, if_pos h], by simp, fun j x hx => ?_, fun p hp => ?_⟩
  · have hj := (List.getElem?_eq_some_iff.1 hx).1
    have hlt : start + 2 * j < raw.length := by omega
    have e1 : start + 2 * j - start = 2 * j := by omega
    rw [List.getElem?_mapIdx, List.getElem?_eq_getElem hlt, Option.map_some, e1,
      if_pos ⟨by omega, by omega⟩, show 2 * j / 2 = j by omega, List.getD_eq_getElem?_getD, hx]
    rfl
  · rw [List.getElem?_mapIdx]
    cases hr : raw[p]? with
    | none => rfl
    | some x => rw [Option.map_some, if_neg (by omega)]

/-- A row of the table: the mesh size, then each error with its rate behind it. -/
theorem C139_merge {h : Option ℝ} {es rs : List (Option ℝ)} (hl : es.length = rs.length) :
    ∃ r, mergeRow (h :: es) rs = .ok r ∧ r.length = 2 * es.length + 1 ∧ r[0]? = some h ∧
      ∀ c : Nat, r[2 * c + 1]? = es[c]? ∧ r[2 * c + 2]? = rs[c]? := by
  let raw0 := (List.replicate ((h :: es).length + rs.length) (some (0 : ℝ))).set 0 h
  have l0 : raw0.length = 2 * es.length + 1 := by
    show ((List.replicate _ _).set 0 h).length = _
    rw [List.length_set, List.length_replicate, List.length_cons]
    omega
  obtain ⟨r1, h1, l1, v1, k1⟩ := assignEvery_ok (raw := raw0) (source := es) (start := 1) (by omega)
  obtain ⟨r2, h2, l2, v2, k2⟩ := assignEvery_ok (raw := r1) (source := rs) (start := 2) (by omega)
  refine ⟨r2, ?_, by omega, ?_, fun c => ⟨?_, ?_⟩⟩
  · show (do
      let first ← getIdx (h :: es) 0
      let raw := (List.replicate ((h :: es).length + rs.length) (some (0 : ℝ))).set 0 first
      let raw ← assignEvery raw 1 es
      assignEvery raw 2 rs) = _
    rw [getIdx_of (l := h :: es) (i := 0) (a := h) rfl, Res.bind_ok]
    show (do
      let raw ← assignEvery raw0 1 es
      assignEvery raw 2 rs) = _
    rw [h1, Res.bind_ok, h2]
  · rw [k2 0 (Or.inl (by omega)), k1 0 (Or.inl (by omega))]
    show ((List.replicate _ _).set 0 h)[0]? = _
    rw [List.getElem?_set_self (by simp)]
  · by_cases hc : c < es.length
    · rw [k2 _ (by omega), show 2 * c + 1 = 1 + 2 * c by omega,
        v1 c _ (List.getElem?_eq_getElem hc), List.getElem?_eq_getElem hc]
    · rw [List.getElem?_eq_none (by omega), List.getElem?_eq_none (by omega)]
  · by_cases hc : c < rs.length
    · rw [show 2 * c + 2 = 2 + 2 * c by omega, v2 c _ (List.getElem?_eq_getElem hc),
        List.getElem?_eq_getElem hc]
    · rw [List.getElem?_eq_none (by omega), List.getElem?_eq_none (by omega)]

/-- Rates that are fewer or more than the errors do not fit, unless one of them is spread over the columns. -/
theorem C139_mismatch {h : Option ℝ} {es rs : List (Option ℝ)} (hl : es.length ≠ (es.length + rs.length + 1) / 2)
    (h1 : es.length ≠ 1) : mergeRow (h :: es) rs = .error .valueError := by
  show (do
      let first ← getIdx (h :: es) 0
      let raw := (List.replicate ((h :: es).length + rs.length) (some (0 : ℝ))).set 0 first
      let raw ← assignEvery raw 1 es
      assignEvery raw 2 rs) = _
  rw [getIdx_of (l := h :: es) (i := 0) (a := h) rfl, Res.bind_ok]
  simp only [assignEvery, List.length_set, List.length_replicate, List.length_cons]
  rw [if_neg (by omega), if_neg h1]
  rfl

/-- The whole table: at every level the mesh size, and each error with its rate from the level before. -/
theorem C139_table {n : Nat} {levels : List Level} (hn : ∀ l ∈ levels, l.errors.length = n) (h0 : levels ≠ []) :
    ∃ T, merged (1 + n) levels = .ok T ∧ T.length = levels.length ∧
      ∀ (i : Nat) l, levels[i]? = some l → ∃ row, T[i]? = some row ∧ row.length = 2 * n + 1 ∧
        row[0]? = some (some l.h) ∧ ∀ (c : Nat) e, l.errors[c]? = some e →
          row[2 * c + 1]? = some (some e) ∧
          (i = 0 → row[2 * c + 2]? = some none) ∧
          ∀ (k : Nat) b eb, i = k + 1 → levels[k]? = some b → b.errors[c]? = some eb →
            row[2 * c + 2]? = some (rate b.h l.h eb e) := by
  let T0 := levels.map fun l => l.h :: l.errors
  have hT0 : ∀ r ∈ T0, r.length = 1 + n := by
    intro r hr
    obtain ⟨l, hl, rfl⟩ := List.mem_map.1 hr
    rw [List.length_cons, hn l hl]; omega
  obtain ⟨R, hR, lR, gR⟩ := rates_ok (hcol := 0) (first := 1) (nData := 1 + n) hT0 (by omega)
  have hplain : plain (1 + n) levels = .ok (T0, R) := by
    rw [plain, table_ok hT0, Res.bind_ok, hR]; rfl
  have hpos : 0 < levels.length := List.length_pos_iff.2 h0
  have lT0 : T0.length = levels.length := List.length_map _
  let R' := List.replicate (1 + n - 1) (none : Option ℝ) :: R
  have lR' : T0.length = R'.length := by
    show T0.length = R.length + 1
    omega
  have rowR : ∀ (i : Nat), i < R'.length → ∃ r, R'[i]? = some r ∧ r.length = n := by
    intro i hi
    cases i with
    | zero => exact ⟨_, rfl, by rw [List.length_replicate]; omega⟩
    | succ k =>
      have hk : k + 1 < T0.length := by omega
      obtain ⟨row, h1, h2, -⟩ := gR k _ _ (List.getElem?_eq_getElem (by omega)) (List.getElem?_eq_getElem hk)
      exact ⟨row, h1, by omega⟩
  have total : ∀ p ∈ T0.zip R', ∃ r, mergeRow (p.1.map some) p.2 = .ok r := by
    intro p hp
    obtain ⟨i, hi, e⟩ := List.getElem_of_mem hp
    have hi' : i < T0.length ∧ i < R'.length := by
      rw [List.length_zip] at hi; omega
    obtain ⟨r, h1, h2⟩ := rowR i hi'.2
    have e2 : p = (T0[i], R'[i]) := by rw [← e, List.getElem_zip]
    obtain ⟨l, hl⟩ : ∃ l, levels[i]? = some l := ⟨_, List.getElem?_eq_getElem (by omega)⟩
    have e3 : T0[i]? = some (l.h :: l.errors) := by
      show (levels.map _)[i]? = _
      rw [List.getElem?_map, hl]; rfl
    have e4 := (List.getElem?_eq_getElem hi'.1).symm.trans e3
    have e5 := (List.getElem?_eq_getElem hi'.2).symm.trans h1
    obtain ⟨m, hm, -⟩ := C139_merge (h := some l.h) (es := l.errors.map some) (rs := r)
      (by rw [List.length_map, hn l (List.mem_of_getElem? hl), h2])
    refine ⟨m, ?_⟩
    rw [e2, Option.some.inj e4, Option.some.inj e5]
    exact hm
  obtain ⟨T, hT⟩ : ∃ T, mapRes (fun p => mergeRow (p.1.map some) p.2) (T0.zip R') = .ok T := by
    generalize T0.zip R' = L at total
    induction L with
    | nil => exact ⟨[], rfl⟩
    | cons x L ih =>
      obtain ⟨r, hr⟩ := total x List.mem_cons_self
      obtain ⟨t, ht⟩ := ih fun p hp => total p (List.mem_cons_of_mem _ hp)
      exact ⟨r :: t, mapRes_iff.2 (.cons hr (mapRes_iff.1 ht))⟩
  have hF := mapRes_iff.1 hT
  have lT : T.length = levels.length := by
    rw [← hF.length_eq, List.length_zip]; omega
  refine ⟨T, ?_, lT, ?_⟩
  · rw [merged, hplain, Res.bind_ok]
    show (if T0.length ≠ R'.length then throw Err.assertionError
      else mapRes (fun p => mergeRow (p.1.map some) p.2) (T0.zip R')) = _
    rw [if_neg (not_not.2 lR'), hT]
  · intro i l hl
    have hi := (List.getElem?_eq_some_iff.1 hl).1
    have hiT : i < T.length := by omega
    have e3 : T0[i]? = some (l.h :: l.errors) := by
      show (levels.map _)[i]? = _
      rw [List.getElem?_map, hl]; rfl
    obtain ⟨r, h1, h2⟩ := rowR i (by omega)
    have step := (List.forall₂_iff_get.1 hF).2 i (by rw [List.length_zip]; omega) hiT
    simp only [List.get_eq_getElem, List.getElem_zip] at step
    have e4 := (List.getElem?_eq_getElem (l := T0) (i := i) (by omega)).symm.trans e3
    have e5 := (List.getElem?_eq_getElem (l := R') (i := i) (by omega)).symm.trans h1
    rw [Option.some.inj e4, Option.some.inj e5] at step
    obtain ⟨m, hm, lm, m0, mc⟩ := C139_merge (h := some l.h) (es := l.errors.map some) (rs := r)
      (by rw [List.length_map, hn l (List.mem_of_getElem? hl), h2])
    have em : m = T[i] := Except.ok.inj (hm.symm.trans step)
    refine ⟨m, by rw [em]; exact List.getElem?_eq_getElem hiT, by rw [lm, List.length_map, hn l (List.mem_of_getElem? hl)],
      m0, fun c e he => ⟨by rw [(mc c).1, List.getElem?_map, he]; rfl, fun hz => ?_, fun k b eb hk hb heb => ?_⟩⟩
    · subst hz
      have : r = List.replicate (1 + n - 1) none := (Option.some.inj h1).symm
      have hc := (List.getElem?_eq_some_iff.1 he).1
      rw [hn l (List.mem_of_getElem? hl)] at hc
      rw [(mc c).2, this, List.getElem?_replicate, if_pos (by omega)]
    · subst hk
      have eb' : T0[k]? = some (b.h :: b.errors) := by
        show (levels.map _)[k]? = _
        rw [List.getElem?_map, hb]; rfl
      obtain ⟨row, g1, g2, g3⟩ := gR k _ _ eb' e3
      have : r = row := Option.some.inj (h1.symm.trans g1)
      rw [(mc c).2, this]
      exact g3 c b.h l.h eb e rfl rfl (by rw [Nat.add_comm 1 c]; exact heb) (by rw [Nat.add_comm 1 c]; exact he)

/-- Without levels there is one row of rates and no row of errors. -/
theorem C139_empty (nData : Nat) : merged nData [] = .error .assertionError := by
  rw [merged]
  rfl

/-! ### The tables of the drivers -/

/-- The rate of a number from the level before to level `i` -/
noncomputable def rateOf (levels : List Numbers) (i : Nat) (f : Numbers → ℝ) : Option ℝ :=
  match i with
  | 0 => none
  | k + 1 =>
    match levels[k]?, levels[k + 1]? with
    | some b, some e => rate b.h e.h (f b) (f e)
    | _, _ => none

theorem rateAt_eq (levels : List Numbers) (i : Nat) (name : String) :
    rateAt levels i name = rateOf levels i fun n => value n name := by
  cases i <;> rfl

theorem driver_rows {row : Numbers → Res (List ℝ)} {vals : List (Numbers → ℝ)}
    (hrow : ∀ n, row n = .ok (vals.map fun f => f n)) {levels : List Numbers} (h0 : levels ≠ []) :
    ∃ T, tableOf row (1 + vals.length) levels = .ok T ∧ T.length = levels.length ∧
      ∀ (i : Nat) n, levels[i]? = some n → ∃ r, T[i]? = some r ∧ r.length = 2 * vals.length + 1 ∧
        r[0]? = some (some n.h) ∧ ∀ (c : Nat) f, vals[c]? = some f →
          r[2 * c + 1]? = some (some (f n)) ∧ r[2 * c + 2]? = some (rateOf levels i f) := by
  have hm : mapRes row levels = .ok (levels.map fun n => vals.map fun f => f n) :=
    mapRes_iff.2 (List.forall₂_map_right_iff.2 (List.forall₂_same.2 fun n _ => hrow n))
  let L : List Level := (levels.zip (levels.map fun n => vals.map fun f => f n)).map
    fun p => ⟨0, 0, p.1.h, p.2, []⟩
  have hL : L = levels.map fun n => (⟨0, 0, n.h, vals.map fun f => f n, []⟩ : Level) := by
    show (levels.zip (levels.map _)).map _ = _
    rw [List.zip_map_right, List.map_map]
    have : levels.zip levels = levels.map fun n => (n, n) := by
      induction levels with
      | nil => rfl
      | cons a l ih =>
        cases l with
        | nil => rfl
        | cons b l =>
          rw [List.zip_cons_cons, List.map_cons,
            ih (by simp) (mapRes_iff.2 (List.forall₂_map_right_iff.2 (List.forall₂_same.2 fun n _ => hrow n)))]
    rw [this, List.map_map]
    rfl
  have getL : ∀ {i : Nat} {n : Numbers}, levels[i]? = some n →
      L[i]? = some (⟨0, 0, n.h, vals.map fun f => f n, []⟩ : Level) := by
    intro i n h
    rw [hL, List.getElem?_map, h]; rfl
  obtain ⟨T, h1, h2, h3⟩ := C139_table (n := vals.length) (levels := L)
    (by
      intro l hl
      rw [hL] at hl
      obtain ⟨n, -, rfl⟩ := List.mem_map.1 hl
      exact List.length_map _)
    (by rw [hL]; simpa using h0)
  refine ⟨T, by rw [tableOf, hm, Res.bind_ok]; exact h1, by rw [h2, hL, List.length_map], ?_⟩
  intro i n hn
  obtain ⟨r, e1, e2, e3, e4⟩ := h3 i _ (getL hn)
  refine ⟨r, e1, e2, e3, fun c f hf => ?_⟩
  have hc : (vals.map fun f => f n)[c]? = some (f n) := by rw [List.getElem?_map, hf]; rfl
  obtain ⟨g1, g2, g3⟩ := e4 c (f n) hc
  refine ⟨g1, ?_⟩
  cases i with
  | zero => exact g2 rfl
  | succ k =>
    have hk : k < levels.length := by
      have := (List.getElem?_eq_some_iff.1 hn).1
      omega
    have hb := List.getElem?_eq_getElem hk
    rw [g3 k _ (f levels[k]) rfl (getL hb) (by
      show (vals.map fun f => f levels[k])[c]? = _
      rw [List.getElem?_map, hf]; rfl)]
    simp only [rateOf, hb, hn]

theorem row_three {r : List (Option ℝ)} {h : ℝ} {a b c : ℝ} {x y z : Option ℝ} (hl : r.length = 2 * 3 + 1)
    (h0 : r[0]? = some (some h)) (h1 : r[2 * 0 + 1]? = some (some a) ∧ r[2 * 0 + 2]? = some x)
    (h2 : r[2 * 1 + 1]? = some (some b) ∧ r[2 * 1 + 2]? = some y)
    (h3 : r[2 * 2 + 1]? = some (some c) ∧ r[2 * 2 + 2]? = some z) :
    r = [some h, some a, x, some b, y, some c, z] := by
  refine List.ext_getElem? fun j => ?_
  match j with
  | 0 => exact h0
  | 1 => exact h1.1
  | 2 => exact h1.2
  | 3 => exact h2.1
  | 4 => exact h2.2
  | 5 => exact h3.1
  | 6 => exact h3.2
  | j + 7 => rw [List.getElem?_eq_none (by omega), List.getElem?_eq_none (by simp)]

theorem row_six {r : List (Option ℝ)} {h : ℝ} {a b c d e f : ℝ} {x y z u v w : Option ℝ} (hl : r.length = 2 * 6 + 1)
    (h0 : r[0]? = some (some h)) (h1 : r[2 * 0 + 1]? = some (some a) ∧ r[2 * 0 + 2]? = some x)
    (h2 : r[2 * 1 + 1]? = some (some b) ∧ r[2 * 1 + 2]? = some y)
    (h3 : r[2 * 2 + 1]? = some (some c) ∧ r[2 * 2 + 2]? = some z)
    (h4 : r[2 * 3 + 1]? = some (some d) ∧ r[2 * 3 + 2]? = some u)
    (h5 : r[2 * 4 + 1]? = some (some e) ∧ r[2 * 4 + 2]? = some v)
    (h6 : r[2 * 5 + 1]? = some (some f) ∧ r[2 * 5 + 2]? = some w) :
    r = [some h, some a, x, some b, y, some c, z, some d, u, some e, v, some f, w] := by
  refine List.ext_getElem? fun j => ?_
  match j with
  | 0 => exact h0
  | 1 => exact h1.1
  | 2 => exact h1.2
  | 3 => exact h2.1
  | 4 => exact h2.2
  | 5 => exact h3.1
  | 6 => exact h3.2
  | 7 => exact h4.1
  | 8 => exact h4.2
  | 9 => exact h5.1
  | 10 => exact h5.2
  | 11 => exact h6.1
  | 12 => exact h6.2
  | j + 13 => rw [List.getElem?_eq_none (by omega), List.getElem?_eq_none (by simp)]

/-- Mixed-dimensional degenerate example: both files contain what their headers say. -/
theorem C139_md {levels : List Numbers} (h0 : levels ≠ []) :
    ∃ T, tableOf mdRow 7 levels = .ok T ∧ T.length = levels.length ∧
      ∀ (i : Nat) n, levels[i]? = some n → ∃ r, T[i]? = some r ∧
        columns normalMd r = .ok (rowUnder levels i n normalHeaderMd) ∧
        columns enhancedMd r = .ok (rowUnder levels i n enhancedHeaderMd) := by
  obtain ⟨T, h1, h2, h3⟩ := driver_rows (row := mdRow) (vals := [fun n => n.error "v", fun n => n.error "q",
    fun n => n.proj .scaled .scaled "q", fun n => n.error "u", fun n => n.error "p",
    fun n => n.proj .physical .physical "p"]) (fun n => rfl) h0
  refine ⟨T, h1, h2, fun i n hn => ?_⟩
  obtain ⟨r, e1, e2, e3, e4⟩ := h3 i n hn
  have := row_six e2 e3 (e4 0 _ rfl) (e4 1 _ rfl) (e4 2 _ rfl) (e4 3 _ rfl) (e4 4 _ rfl) (e4 5 _ rfl)
  subst this
  refine ⟨_, e1, ?_, ?_⟩
  · cases i <;> rfl
  · cases i <;> rfl

/-- Mixed-dimensional elliptic example: both files contain what their headers say. -/
theorem C139_md_plain {levels : List Numbers} (h0 : levels ≠ []) :
    ∃ T, tableOf mdPlainRow 4 levels = .ok T ∧ T.length = levels.length ∧
      ∀ (i : Nat) n, levels[i]? = some n → ∃ r, T[i]? = some r ∧
        allBut 2 r = rowUnder levels i n normalHeaderPlain ∧
        lastAnd 2 r = .ok (rowUnder levels i n enhancedHeaderPlain) := by
  obtain ⟨T, h1, h2, h3⟩ := driver_rows (row := mdPlainRow) (vals := [fun n => n.error "u", fun n => n.error "p",
    fun n => n.proj .physical .physical "p"]) (fun n => rfl) h0
  refine ⟨T, h1, h2, fun i n hn => ?_⟩
  obtain ⟨r, e1, e2, e3, e4⟩ := h3 i n hn
  have := row_three e2 e3 (e4 0 _ rfl) (e4 1 _ rfl) (e4 2 _ rfl)
  subst this
  refine ⟨_, e1, ?_, ?_⟩
  · cases i <;> rfl
  · cases i <;> rfl

/-- First scenario: the file contains what its header says. -/
theorem C139_scenario_one {levels : List Numbers} (h0 : levels ≠ []) :
    ∃ T, tableOf scenarioOneRow 4 levels = .ok T ∧ T.length = levels.length ∧
      ∀ (i : Nat) n, levels[i]? = some n → T[i]? = some (rowUnder levels i n headerOne) := by
  obtain ⟨T, h1, h2, h3⟩ := driver_rows (row := scenarioOneRow) (vals := [fun n => n.error "p", fun n => n.error "u",
    fun n => n.proj .physical .physical "p"]) (fun n => rfl) h0
  refine ⟨T, h1, h2, fun i n hn => ?_⟩
  obtain ⟨r, e1, e2, e3, e4⟩ := h3 i n hn
  have := row_three e2 e3 (e4 0 _ rfl) (e4 1 _ rfl) (e4 2 _ rfl)
  subst this
  rw [e1]
  cases i <;> rfl

/-- Second scenario: both files contain what their headers say, the header of the second has an empty name too many. -/
theorem C139_scenario_two {levels : List Numbers} (h0 : levels ≠ []) :
    ∃ T, tableOf scenarioTwoRow 7 levels = .ok T ∧ T.length = levels.length ∧
      ∀ (i : Nat) n, levels[i]? = some n → ∃ r, T[i]? = some r ∧
        allBut 4 r = rowUnder levels i n normalHeaderFlow ∧
        lastAnd 4 r = .ok (rowUnder levels i n enhancedHeaderFlow.dropLast) := by
  obtain ⟨T, h1, h2, h3⟩ := driver_rows (row := scenarioTwoRow) (vals := [fun n => n.error "q", fun n => n.error "v",
    fun n => n.error "p", fun n => n.error "u", fun n => n.proj .scaled .scaled "q",
    fun n => n.proj .physical .physical "p"]) (fun n => rfl) h0
  refine ⟨T, h1, h2, fun i n hn => ?_⟩
  obtain ⟨r, e1, e2, e3, e4⟩ := h3 i n hn
  have := row_six e2 e3 (e4 0 _ rfl) (e4 1 _ rfl) (e4 2 _ rfl) (e4 3 _ rfl) (e4 4 _ rfl) (e4 5 _ rfl)
  subst this
  refine ⟨_, e1, ?_, ?_⟩
  · cases i <;> rfl
  · cases i <;> rfl

/-- Degenerate flow example: the first file contains what its header says; in the second the mesh size and the first
projection are right. -/
theorem C139_flow_partial {levels : List Numbers} (h0 : levels ≠ []) :
    ∃ T, tableOf flowRow 7 levels = .ok T ∧ T.length = levels.length ∧
      ∀ (i : Nat) n, levels[i]? = some n → ∃ r, T[i]? = some r ∧
        allBut 4 r = rowUnder levels i n normalHeaderFlow ∧
        lastAnd 4 r = .ok (rowUnder levels i n ["h", "proj q", "rate"] ++
          [some (n.proj .scaled .physical "v"), rateOf levels i fun n => n.proj .scaled .physical "v"]) := by
  obtain ⟨T, h1, h2, h3⟩ := driver_rows (row := flowRow) (vals := [fun n => n.error "q", fun n => n.error "v",
    fun n => n.error "p", fun n => n.error "u", fun n => n.proj .scaled .scaled "q",
    fun n => n.proj .scaled .physical "v"]) (fun n => rfl) h0
  refine ⟨T, h1, h2, fun i n hn => ?_⟩
  obtain ⟨r, e1, e2, e3, e4⟩ := h3 i n hn
  have := row_six e2 e3 (e4 0 _ rfl) (e4 1 _ rfl) (e4 2 _ rfl) (e4 3 _ rfl) (e4 4 _ rfl) (e4 5 _ rfl)
  subst this
  refine ⟨_, e1, ?_, ?_⟩
  · cases i <;> rfl
  · cases i <;> rfl

/-- Degenerate flow example: the column `proj p` has the error of the flux instead, because the scaled space has no
field `u` to skip; it is wrong whenever that error is not the one of the potential. -/
theorem C139_flow_violated {n : Numbers} (h : n.proj .scaled .physical "v" ≠ n.proj .physical .physical "p") :
    ∃ T r row, tableOf flowRow 7 [n] = .ok T ∧ T[0]? = some r ∧ lastAnd 4 r = .ok row ∧
      row ≠ rowUnder [n] 0 n enhancedHeaderFlow.dropLast := by
  obtain ⟨T, h1, -, h3⟩ := C139_flow_partial (levels := [n]) (by simp)
  obtain ⟨r, e1, -, e3⟩ := h3 0 n rfl
  refine ⟨T, r, _, h1, e1, e3, fun e => h ?_⟩
  have e' : some (n.proj .scaled .physical "v") = some (n.proj .physical .physical "p") :=
    congrArg (fun l : List (Option ℝ) => l.getD 3 none) e
  exact Option.some.inj e'

/-- The header of the second file of two drivers ends with a comma: one name more than columns. -/
theorem C139_comma_violated {levels : List Numbers} (h0 : levels ≠ []) :
    ∃ T, tableOf scenarioTwoRow 7 levels = .ok T ∧ ∀ r ∈ T, ∃ row, lastAnd 4 r = .ok row ∧
      row.length + 1 = enhancedHeaderFlow.length := by
  obtain ⟨T, h1, h2, h3⟩ := C139_scenario_two h0
  refine ⟨T, h1, fun r hr => ?_⟩
  obtain ⟨i, hi, e⟩ := List.getElem_of_mem hr
  obtain ⟨r', e1, -, e3⟩ := h3 i _ (List.getElem?_eq_getElem (by omega))
  have : r' = r := by
    rw [List.getElem?_eq_getElem hi, e] at e1
    exact (Option.some.inj e1).symm
  exact ⟨_, this ▸ e3, by cases i <;> rfl⟩

/-! ### A concrete table -/

/-- Two levels with mesh sizes 1 and 1/2: the errors are those of order one and two. -/
noncomputable def level (h : ℝ) : Numbers := ⟨h, fun _ => h, fun _ _ f => if f = "v" then 3 else h⟩

example : ∃ T, tableOf mdRow 7 [level 1, level (1 / 2)] = .ok T ∧ T.length = 2 ∧
    ∃ r, T[1]? = some r ∧ ∃ s, columns enhancedMd r = .ok s ∧ s[1]? = some (some (1 / 2)) ∧
      s[2]? = some (rate 1 (1 / 2) 1 (1 / 2)) := by
  obtain ⟨T, h1, h2, h3⟩ := C139_md (levels := [level 1, level (1 / 2)]) (by simp)
  obtain ⟨r, e1, -, e3⟩ := h3 1 _ rfl
  refine ⟨T, h1, h2, r, e1, _, e3, ?_, ?_⟩
  · show some (some (level (1 / 2) |>.proj .scaled .scaled "q")) = _
    simp [level]
  · show some (rate 1 (1 / 2) ((level 1).proj .scaled .scaled "q") ((level (1 / 2)).proj .scaled .scaled "q")) = _
    simp [level]

example : ∃ n : Numbers, n.proj .scaled .physical "v" ≠ n.proj .physical .physical "p" :=
  ⟨level 1, by simp [level]⟩

#print axioms C139_merge
#print axioms C139_mismatch
#print axioms C139_table
#print axioms C139_empty
#print axioms C139_md
#print axioms C139_md_plain
#print axioms C139_scenario_one
#print axioms C139_scenario_two
#print axioms C139_flow_partial
#print axioms C139_flow_violated
#print axioms C139_comma_violated

end Verif.MergedTables
