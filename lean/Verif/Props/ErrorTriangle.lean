/-
C144: the triangle that shows the expected rate.
-/
import Mathlib.Tactic.Linarith
import Mathlib.Tactic.Ring
import Mathlib.Tactic.FieldSimp
import Verif.Lemmas.Prelude
import Verif.Spec.ErrorTriangle

namespace Verif.ErrorTriangle

/-- What the constructor refuses, in its order. -/
theorem C144_refused (data : Data) (rate hShift eShift mirror : Val) (far : ℝ) :
    new Data.other rate hShift eShift mirror far = .error .typeError ∧
    (∀ n, new (.flat n) rate hShift eShift mirror far = .error (if 1 < n then .indexError else .valueError)) ∧
    (∀ n w, n ≤ 1 ∨ w ≤ 1 → new (.table n w) rate hShift eShift mirror far = .error .valueError) ∧
    (∀ rows, rows.length ≤ 1 → new (.pairs rows) rate hShift eShift mirror far = .error .valueError) ∧
    (data.shapeOk = .ok true → (rate.isInt = false ∨ hShift.isFloat = false ∨ eShift.isFloat = false ∨
      mirror.isBool = false) → new data rate hShift eShift mirror far = .error .typeError) := by
  refine ⟨rfl, ?_, ?_, ?_, ?_⟩
  · intro n
    by_cases h : 1 < n
    · simp only [new, validate, Data.shapeOk, if_pos h]
      rfl
    · simp only [new, validate, Data.shapeOk, if_neg h]
      rfl
  · intro n w h
    have : (decide (1 < n) && decide (1 < w)) = false := by
      rcases h with h | h
      · rw [decide_eq_false (by omega), Bool.false_and]
      · rw [decide_eq_false (p := 1 < w) (by omega), Bool.and_false]
    simp only [new, validate, Data.shapeOk, this]
    rfl
  · intro rows h
    have : decide (1 < rows.length) = false := decide_eq_false (by omega)
    simp only [new, validate, Data.shapeOk, this]
    rfl
  · intro hs h
    have hv : validate data rate hShift eShift mirror = .error .typeError := by
      unfold validate
      rw [hs]
      rw [Res.bind_ok]
      cases h1 : rate.isInt with
      | false => rfl
      | true =>
        cases h2 : hShift.isFloat with
        | false => rfl
        | true =>
          cases h3 : eShift.isFloat with
          | false => rfl
          | true =>
            cases h4 : mirror.isBool with
            | false => rfl
            | true => rw [h1, h2, h3, h4] at h; simp at h
    rw [new.eq_def, hv]
    rfl

/-- A rate that is no whole number is refused, a table of pairs with more than two columns, too. -/
theorem C144_whole (rows : List (ℝ × ℝ)) (h : 1 < rows.length) (x : ℝ) (n w : Nat) (r : Int) (a b : ℝ) (m : Bool)
    (far : ℝ) : new (.pairs rows) (.float x) (.float a) (.float b) (.bool m) far = .error .typeError ∧
    (1 < n → 1 < w → new (.table n w) (.int r) (.float a) (.float b) (.bool m) far = .error .valueError) := by
  refine ⟨(C144_refused (.pairs rows) _ _ _ _ far).2.2.2.2 ?_ (.inl rfl), ?_⟩
  · simp only [Data.shapeOk, decide_eq_true h]
  · intro hn hw
    simp only [new, validate, Data.shapeOk, decide_eq_true hn, decide_eq_true hw]
    rfl

theorem new_eq (front : List (ℝ × ℝ)) (a b : ℝ × ℝ) (rate : Int) (hs es : ℝ) (m : Bool) (far : ℝ) :
    new (.pairs (front ++ [a, b])) (.int rate) (.float hs) (.float es) (.bool m) far =
      let c := corners (logPair a) (logPair b) rate hs es m
      let l := labels c.1 c.2.1 c.2.2 m far
      .ok ⟨expPair c.1, expPair c.2.1, expPair c.2.2, l.1, l.2⟩ := by
  have h1 : decide (1 < (front ++ [a, b]).length) = true := by
    rw [decide_eq_true_eq, List.length_append]
    simp only [List.length_cons, List.length_nil]
    omega
  have hlen : (front ++ [a, b]).length = front.length + 2 := by simp
  have ha : getIdx (front ++ [a, b]) ((front ++ [a, b]).length - 2) = .ok a := by
    apply getIdx_of
    rw [hlen, show front.length + 2 - 2 = front.length by omega, List.getElem?_append_right (le_refl _), Nat.sub_self]
    rfl
  have hb : getIdx (front ++ [a, b]) ((front ++ [a, b]).length - 1) = .ok b := by
    apply getIdx_of
    rw [hlen, show front.length + 2 - 1 = front.length + 1 by omega, List.getElem?_append_right (by omega),
      show front.length + 1 - front.length = 1 by omega]
    rfl
  simp only [new, validate, Data.shapeOk, h1]
  show build (front ++ [a, b]) _ _ _ _ _ = _
  rw [build, ha, Res.bind_ok, hb, Res.bind_ok]
  rfl

/-- The triangle has its right angle in place, its horizontal leg is as long as the last step of the sizes, and its
third side has the rate as slope. -/
theorem C144_slope (front : List (ℝ × ℝ)) {a b : ℝ × ℝ} (ha1 : 0 < a.1) (_ha2 : 0 < a.2) (hb1 : 0 < b.1)
    (hab : a.1 ≠ b.1) (rate : Int) (hs es : ℝ) (m : Bool) (far : ℝ) :
    ∃ t, new (.pairs (front ++ [a, b])) (.int rate) (.float hs) (.float es) (.bool m) far = .ok t ∧
      RightAngle m t ∧ slope t.p0 t.p2 = rate ∧
      Real.log t.p0.1 - Real.log t.p2.1 = Real.log a.1 - Real.log b.1 := by
  have hne : Real.log a.1 ≠ Real.log b.1 := fun h => hab (Real.log_injOn_pos ha1 hb1 h)
  refine ⟨_, new_eq front a b rate hs es m far, ?_, ?_, ?_⟩
  · cases m <;> simp [RightAngle, corners, expPair]
  · have hd : Real.log a.1 - Real.log b.1 ≠ 0 := sub_ne_zero.2 hne
    simp only [slope, corners, expPair, logPair, Real.log_exp]
    rw [div_eq_iff (by
      intro h
      exact hd (by linarith))]
    ring
  · simp only [corners, expPair, logPair, Real.log_exp]
    ring

/-- In the picture: the first corner is the last point but one moved by the factors of the shifts; the third is at the
last size, with the error that the rate predicts from it.  Data of exactly this rate have the last point there. -/
theorem C144_predicts (front : List (ℝ × ℝ)) {a b : ℝ × ℝ} (ha1 : 0 < a.1) (ha2 : 0 < a.2) (hb1 : 0 < b.1)
    (rate : Int) (hs es : ℝ) (m : Bool) (far : ℝ) :
    ∃ t, new (.pairs (front ++ [a, b])) (.int rate) (.float hs) (.float es) (.bool m) far = .ok t ∧
      t.p0 = (a.1 * Real.exp hs, a.2 * Real.exp es) ∧
      t.p2 = (b.1 * Real.exp hs, a.2 * (b.1 / a.1) ^ rate * Real.exp es) ∧
      (b.2 = a.2 * (b.1 / a.1) ^ rate → t.p2 = (b.1 * Real.exp hs, b.2 * Real.exp es)) := by
  have e2 : ∀ t2 : ℝ × ℝ, t2 = expPair (corners (logPair a) (logPair b) rate hs es m).2.2 →
      t2 = (b.1 * Real.exp hs, a.2 * (b.1 / a.1) ^ rate * Real.exp es) := by
    rintro t2 rfl
    simp only [corners, expPair, logPair]
    refine Prod.ext ?_ ?_
    · show Real.exp (Real.log a.1 - (Real.log a.1 - Real.log b.1) + hs) = b.1 * Real.exp hs
      rw [Real.exp_add, sub_sub_cancel, Real.exp_log hb1]
    · show Real.exp (Real.log a.2 - rate * (Real.log a.1 - Real.log b.1) + es) = _
      rw [Real.exp_add]
      congr 1
      rw [show Real.log a.2 - rate * (Real.log a.1 - Real.log b.1) =
          Real.log a.2 + rate * (Real.log b.1 - Real.log a.1) by ring, Real.exp_add, Real.exp_log ha2,
        ← Real.log_div hb1.ne' ha1.ne', ← Real.log_zpow, Real.exp_log (zpow_pos (div_pos hb1 ha1) _)]
  refine ⟨_, new_eq front a b rate hs es m far, ?_, e2 _ rfl, ?_⟩
  · simp only [corners, expPair, logPair]
    rw [Real.exp_add, Real.exp_add, Real.exp_log ha1, Real.exp_log ha2]
  · intro h
    rw [h]
    exact e2 _ rfl

/-- For sizes that decrease and a positive rate the labels are outside, beside the middle of their leg: the one of the
step a factor `e^0.35` off the horizontal leg, that of the rate a factor `e^far` off the vertical one. -/
theorem C144_labels (front : List (ℝ × ℝ)) {a b : ℝ × ℝ} (_ha2 : 0 < a.2) (hb1 : 0 < b.1) (hlt : b.1 < a.1) {rate : Int}
    (hr : 0 < rate) (hs es : ℝ) (m : Bool) (far : ℝ) :
    ∃ t, new (.pairs (front ++ [a, b])) (.int rate) (.float hs) (.float es) (.bool m) far = .ok t ∧
      ∃ s r, t.stepLabel = some s ∧ t.rateLabel = some r ∧
        Real.log s.1 = (Real.log t.p0.1 + Real.log t.p2.1) / 2 ∧
        Real.log s.2 = Real.log t.p1.2 + (if m then 35 / 100 else -(35 / 100)) ∧
        Real.log r.1 = Real.log t.p1.1 + (if m then -far else far) ∧
        Real.log r.2 = (Real.log t.p0.2 + Real.log t.p2.2) / 2 := by
  have hd : 0 < Real.log a.1 - Real.log b.1 := sub_pos.2 (Real.log_lt_log hb1 hlt)
  have hrp : (0 : ℝ) < rate := by exact_mod_cast hr
  have hrd : 0 < rate * (Real.log a.1 - Real.log b.1) := mul_pos hrp hd
  set d := Real.log a.1 - Real.log b.1 with hdd
  have up : ∀ x : ℝ, 0 < x → unit x = some 1 := by
    intro x hx
    unfold unit
    rw [if_neg hx.ne', abs_of_pos hx, div_self hx.ne']
  have un : ∀ x : ℝ, x < 0 → unit x = some (-1) := by
    intro x hx
    unfold unit
    rw [if_neg hx.ne, abs_of_neg hx, div_neg, div_self hx.ne]
  refine ⟨_, new_eq front a b rate hs es m far, ?_⟩
  cases m with
  | true =>
    simp only [corners, labels, logPair, mid, if_true]
    rw [← hdd]
    rw [un (_) (by linarith), up (_) (by linarith)]
    refine ⟨_, _, rfl, rfl, ?_⟩
    simp only [expPair, Real.log_exp]
    refine ⟨?_, ?_, ?_, ?_⟩ <;> first | trivial | ring
  | false =>
    simp only [corners, labels, logPair, mid, Bool.false_eq_true, if_false]
    rw [← hdd]
    rw [up (_) (by linarith), un (_) (by linarith)]
    refine ⟨_, _, rfl, rfl, ?_⟩
    simp only [expPair, Real.log_exp]
    refine ⟨?_, ?_, ?_, ?_⟩ <;> first | trivial | ring

/-- A rate of zero is accepted, but the label of the step has no position then. -/
theorem C144_rate_zero_violated (front : List (ℝ × ℝ)) {a b : ℝ × ℝ} (_ha1 : 0 < a.1) (_ha2 : 0 < a.2)
    (_hb1 : 0 < b.1) (hs es : ℝ) (m : Bool) (far : ℝ) :
    ∃ t, new (.pairs (front ++ [a, b])) (.int 0) (.float hs) (.float es) (.bool m) far = .ok t ∧
      t.stepLabel = none := by
  have uz : ∀ x : ℝ, x = 0 → unit x = none := fun x hx => by unfold unit; rw [if_pos hx]
  refine ⟨_, new_eq front a b 0 hs es m far, ?_⟩
  cases m with
  | true =>
    simp only [corners, labels, logPair, mid, if_true, Int.cast_zero]
    rw [uz _ (by ring)]
    rfl
  | false =>
    simp only [corners, labels, logPair, mid, Bool.false_eq_true, if_false, Int.cast_zero]
    rw [uz _ (by ring)]
    rfl

/-- A triangle for halved sizes and the rate 2: the third corner has a quarter of the error. -/
example : ∃ t, new (.pairs [(1, 8), (1 / 2, 2), (1 / 4, 3)]) (.int 2) (.float 0) (.float 0) (.bool false) (7 / 100) = .ok t ∧
    t.p2 = (1 / 4, 1 / 2) := by
  obtain ⟨t, h, -, h2, -⟩ := C144_predicts [(1, 8)] (a := (1 / 2, 2)) (b := (1 / 4, 3)) (by norm_num) (by norm_num)
    (by norm_num) 2 0 0 false (7 / 100)
  refine ⟨t, h, ?_⟩
  rw [h2, Real.exp_zero]
  refine Prod.ext ?_ ?_
  · norm_num
  · show (2 : ℝ) * (1 / 4 / (1 / 2)) ^ (2 : Int) * 1 = 1 / 2
    norm_num [zpow_ofNat]

/-- Its slope is 2. -/
example : ∃ t, new (.pairs [(1, 8), (1 / 2, 2), (1 / 4, 3)]) (.int 2) (.float 0) (.float 0) (.bool true) (7 / 100) = .ok t ∧
    slope t.p0 t.p2 = 2 := by
  obtain ⟨t, h, -, h2, -⟩ := C144_slope [(1, 8)] (a := (1 / 2, 2)) (b := (1 / 4, 3)) (by norm_num) (by norm_num)
    (by norm_num) (by norm_num) 2 0 0 true (7 / 100)
  exact ⟨t, h, by rw [h2]; norm_num⟩

/-- A whole shift is refused. -/
example (far : ℝ) : new (.pairs [(1, 8), (1 / 2, 2)]) (.int 2) (.int 0) (.float 0) (.bool false) far =
    .error .typeError :=
  (C144_refused (.pairs [(1, 8), (1 / 2, 2)]) _ _ _ _ far).2.2.2.2 rfl (.inr (.inl rfl))

/-- A triangle is made only of a whole rate (or a truth value), shifts that are floating point numbers and a truth value for
the side. -/
theorem C144_types {data : Data} {rate hShift eShift mirror : Val} (h : validate data rate hShift eShift mirror = .ok true) :
    ((∃ n, rate = .int n) ∨ ∃ b, rate = .bool b) ∧ (∃ x, hShift = .float x) ∧ (∃ x, eShift = .float x) ∧
      ∃ b, mirror = .bool b := by
  unfold validate at h
  cases hd : data.shapeOk with
  | error e => rw [hd] at h; cases h
  | ok d =>
    rw [hd] at h
    cases d with
    | false => cases h
    | true =>
      cases rate <;> first
        | (cases h; done)
        | (cases hShift <;> first
            | (cases h; done)
            | (cases eShift <;> first
                | (cases h; done)
                | (cases mirror <;> first
                    | (cases h; done)
                    | simp)))

/-- In arithmetic a truth value is one or zero. -/
theorem C144_truth_number : (Val.bool true).num = 1 ∧ (Val.bool false).num = 0 := by
  simp [Val.num]

#print axioms C144_slope

#print axioms C144_refused
#print axioms C144_whole
#print axioms C144_predicts
#print axioms C144_labels
#print axioms C144_rate_zero_violated

#print axioms C144_types
#print axioms C144_truth_number

end Verif.ErrorTriangle
