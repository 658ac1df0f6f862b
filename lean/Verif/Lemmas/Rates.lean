/- Lemmas on the tables and rates. -/
import Verif.Spec.Rates
import Verif.Lemmas.Trace

namespace Verif.Rates
open MeshGraph Trace

theorem foldl_ok {α : Type} {n : Nat} (rows : List (List α)) (h : ∀ r ∈ rows, r.length = n) :
    ∀ t : List (List α), rows.foldlM (appendRow n) t = .ok (t ++ rows) := by
  induction rows with
  | nil => intro t; simp [pure, Except.pure]
  | cons r l ih =>
    intro t
    rw [List.foldlM_cons, appendRow, if_pos (h r (by simp))]
    show List.foldlM (appendRow n) (t ++ [r]) l = _
    rw [ih (fun r hr => h r (by simp [hr]))]; simp

theorem foldl_error {α : Type} {n : Nat} (rows : List (List α)) (h : ∃ r ∈ rows, r.length ≠ n) :
    ∀ t : List (List α), rows.foldlM (appendRow n) t = .error .valueError := by
  induction rows with
  | nil => obtain ⟨r, hr, _⟩ := h; simp at hr
  | cons r l ih =>
    intro t
    rw [List.foldlM_cons]
    by_cases hr : r.length = n
    · rw [appendRow, if_pos hr]
      show List.foldlM (appendRow n) (t ++ [r]) l = _
      refine ih ?_ _
      obtain ⟨x, hx, hn⟩ := h
      rcases List.mem_cons.1 hx with e | e
      · exact absurd (e ▸ hr) hn
      · exact ⟨x, e, hn⟩
    · rw [appendRow, if_neg hr]; rfl

theorem table_ok {α : Type} {n : Nat} {rows : List (List α)} (h : ∀ r ∈ rows, r.length = n) :
    table n rows = .ok rows := by
  rw [table, foldl_ok rows h]; simp

theorem table_error {α : Type} {n : Nat} {rows : List (List α)} (h : ∃ r ∈ rows, r.length ≠ n) :
    table n rows = .error .valueError := foldl_error rows h []

theorem rateRow_ok {hcol first nData : Nat} {b e : List ℝ} {hb he : ℝ}
    (h1 : b[hcol]? = some hb) (h2 : e[hcol]? = some he) :
    rateRow hcol first nData b e =
      .ok ((((b.zip e).map fun p => rate hb he p.1 p.2).take nData).drop first) := by
  rw [rateRow, getIdx_of h1, getIdx_of h2]; rfl

theorem row_length {first nData : Nat} {b e : List ℝ} {hb he : ℝ}
    (lb : b.length = nData) (le : e.length = nData) :
    ((((b.zip e).map fun p => rate hb he p.1 p.2).take nData).drop first).length
      = nData - first := by
  simp [lb, le]

theorem row_get {first nData : Nat} {b e : List ℝ} {hb he x y : ℝ} {c : Nat}
    (lb : b.length = nData) (hx : b[first + c]? = some x) (hy : e[first + c]? = some y) :
    ((((b.zip e).map fun p => rate hb he p.1 p.2).take nData).drop first)[c]?
      = some (rate hb he x y) := by
  have hlt : first + c < nData := by
    have := (List.getElem?_eq_some_iff.1 hx).1
    omega
  rw [List.getElem?_drop, List.getElem?_take, if_pos hlt, List.getElem?_map,
    List.getElem?_zip_eq_some (z := (x, y)) |>.2 ⟨hx, hy⟩]
  rfl

theorem mapRes_range {α : Type} {f : Nat → Res α} {n : Nat} {r : List α}
    (h : mapRes f (List.range n) = .ok r) :
    r.length = n ∧ ∀ (i : Nat) a, r[i]? = some a → f i = .ok a := by
  have hf := mapRes_iff.1 h
  refine ⟨by simpa using hf.length_eq.symm, fun i a ha => ?_⟩
  obtain ⟨hi, e⟩ := List.getElem?_eq_some_iff.1 ha
  have := (List.forall₂_iff_get.1 hf).2 i (by simpa [hf.length_eq] using hi) hi
  simp only [List.get_eq_getElem, List.getElem_range] at this
  rw [this, e]

theorem rates_ok {hcol first nData : Nat} {T : List (List ℝ)}
    (hT : ∀ r ∈ T, r.length = nData) (hc : hcol < nData) :
    ∃ r, rates hcol first nData T = .ok r ∧ r.length = T.length - 1 ∧
      ∀ (i : Nat) b e, T[i]? = some b → T[i + 1]? = some e →
        ∃ row, r[i]? = some row ∧ row.length = nData - first ∧
          ∀ (c : Nat) hb he x y, b[hcol]? = some hb → e[hcol]? = some he →
            b[first + c]? = some x → e[first + c]? = some y →
            row[c]? = some (rate hb he x y) := by
  let f : Nat → Res (List (Option ℝ)) := fun i => do
    let b ← getIdx T i
    let e ← getIdx T (i + 1)
    rateRow hcol first nData b e
  have hlen : ∀ {i : Nat} {b : List ℝ}, T[i]? = some b → b.length = nData :=
    fun h => hT _ (List.mem_of_getElem? h)
  have key : ∀ (i : Nat) b e, T[i]? = some b → T[i + 1]? = some e →
      ∃ hb he, b[hcol]? = some hb ∧ e[hcol]? = some he ∧
      f i = .ok ((((b.zip e).map fun p => rate hb he p.1 p.2).take nData).drop first) := by
    intro i b e hb he
    have lb := hlen hb
    have le := hlen he
    refine ⟨b[hcol]'(by omega), e[hcol]'(by omega), List.getElem?_eq_getElem _,
      List.getElem?_eq_getElem _, ?_⟩
    show (do
      let b ← getIdx T i
      let e ← getIdx T (i + 1)
      rateRow hcol first nData b e) = _
    rw [getIdx_of hb, getIdx_of he]
    exact rateRow_ok (List.getElem?_eq_getElem _) (List.getElem?_eq_getElem _)
  have tot : ∀ l : List Nat, (∀ i ∈ l, i + 1 < T.length) → ∃ r, mapRes f l = .ok r := by
    intro l hl
    induction l with
    | nil => exact ⟨[], mapRes_iff.2 .nil⟩
    | cons i l ih =>
      obtain ⟨r, hr⟩ := ih (fun j hj => hl j (by simp [hj]))
      have hi := hl i (by simp)
      obtain ⟨_, _, _, _, hf⟩ := key i _ _ (List.getElem?_eq_getElem (by omega))
        (List.getElem?_eq_getElem hi)
      exact ⟨_ :: r, mapRes_iff.2 (.cons hf (mapRes_iff.1 hr))⟩
  obtain ⟨r, hr⟩ := tot (List.range (T.length - 1)) (by intro i hi; simp at hi; omega)
  obtain ⟨hl, hg⟩ := mapRes_range hr
  have rowlen : ∀ row ∈ r, row.length = nData - first := by
    intro row hrow
    obtain ⟨i, hi, e⟩ := List.getElem_of_mem hrow
    have h1 := hg i row (List.getElem?_eq_some_iff.2 ⟨hi, e⟩)
    have h2 := List.getElem?_eq_getElem (l := T) (i := i) (by omega)
    have h3 := List.getElem?_eq_getElem (l := T) (i := i + 1) (by omega)
    obtain ⟨_, _, _, _, hf⟩ := key i _ _ h2 h3
    rw [hf] at h1
    rw [← Except.ok.inj h1]
    exact row_length (hlen h2) (hlen h3)
  refine ⟨r, ?_, hl, ?_⟩
  · show (mapRes f (List.range (T.length - 1))).bind (table (nData - first)) = _
    rw [hr]
    exact table_ok rowlen
  · intro i b e hb he
    have hi : i < r.length := by
      have := (List.getElem?_eq_some_iff.1 he).1
      omega
    obtain ⟨hb', he', e1, e2, hf⟩ := key i b e hb he
    have h1 := hg i _ (List.getElem?_eq_getElem hi)
    rw [hf] at h1
    refine ⟨r[i], List.getElem?_eq_getElem hi, rowlen _ (List.getElem_mem hi), ?_⟩
    intro c hb'' he'' x y e3 e4 hx hy
    rw [e1] at e3; rw [e2] at e4
    obtain rfl := Option.some.inj e3
    obtain rfl := Option.some.inj e4
    rw [← Except.ok.inj h1]
    exact row_get (hlen hb) hx hy

theorem log_step {a b : ℝ} (ha : 0 < a) (hb : 0 < b) (h : a ≠ b) :
    Real.log b - Real.log a ≠ 0 := by
  intro e
  exact h (Real.log_injOn_pos (Set.mem_Ioi.2 ha) (Set.mem_Ioi.2 hb) (by linarith))

theorem rate_slope {hb he eb ee : ℝ} (h1 : 0 < hb) (h2 : 0 < he) (h : hb ≠ he) (h3 : 0 < eb)
    (h4 : 0 < ee) : rate hb he eb ee = some (slope hb he eb ee) := by
  rw [rate, if_pos ⟨h1, h2, h3, h4, log_step h1 h2 h⟩, slope]

theorem slope_power {C p a b : ℝ} (hC : 0 < C) (ha : 0 < a) (hb : 0 < b) (h : a ≠ b) :
    slope a b (C * a ^ p) (C * b ^ p) = p := by
  rw [slope, Real.log_mul hC.ne' (Real.rpow_pos_of_pos hb p).ne',
    Real.log_mul hC.ne' (Real.rpow_pos_of_pos ha p).ne', Real.log_rpow hb, Real.log_rpow ha,
    div_eq_iff (log_step ha hb h)]
  ring

theorem log_between {c C p a e : ℝ} (hc : 0 < c) (ha : 0 < a) (h1 : c * a ^ p ≤ e)
    (h2 : e ≤ C * a ^ p) :
    Real.log c + p * Real.log a ≤ Real.log e ∧ Real.log e ≤ Real.log C + p * Real.log a := by
  have hp := Real.rpow_pos_of_pos ha p
  have he : 0 < e := lt_of_lt_of_le (mul_pos hc hp) h1
  have hC : 0 < C := by
    by_contra hn
    have := mul_nonpos_of_nonpos_of_nonneg (not_lt.1 hn) hp.le
    linarith
  have l1 := Real.log_le_log (mul_pos hc hp) h1
  have l2 := Real.log_le_log he h2
  rw [Real.log_mul hc.ne' hp.ne', Real.log_rpow ha] at l1
  rw [Real.log_mul hC.ne' hp.ne', Real.log_rpow ha] at l2
  exact ⟨l1, l2⟩

theorem slope_order {c C p a b ea eb : ℝ} (hc : 0 < c) (ha : 0 < a) (hb : 0 < b) (h : a ≠ b)
    (h1 : c * a ^ p ≤ ea) (h2 : ea ≤ C * a ^ p) (h3 : c * b ^ p ≤ eb) (h4 : eb ≤ C * b ^ p) :
    |slope a b ea eb - p| ≤ (Real.log C - Real.log c) / |Real.log b - Real.log a| := by
  have hs := log_step ha hb h
  obtain ⟨l1, l2⟩ := log_between hc ha h1 h2
  obtain ⟨l3, l4⟩ := log_between hc hb h3 h4
  have e : slope a b ea eb - p
      = (Real.log eb - Real.log ea - p * (Real.log b - Real.log a)) /
        (Real.log b - Real.log a) := by
    rw [slope, eq_div_iff hs, sub_mul, div_mul_cancel₀ _ hs]
  rw [e, abs_div]
  refine div_le_div_of_nonneg_right ?_ (abs_nonneg _)
  rw [abs_le]
  constructor <;> nlinarith

end Verif.Rates
