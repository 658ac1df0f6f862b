/-
Helper lemmas for C95: angles of directions.
-/
import Verif.Lemmas.Winding
import Verif.Spec.Polygon

namespace Verif.Polygon
open Real

theorem Direction.arg {p v : ℂ} {t : ℝ} (h : Direction p v t) : ∃ k : ℤ, (v - p).arg = t + k * (2 * π) := by
  have hn : 0 < ‖v - p‖ := norm_pos_iff.2 (sub_ne_zero.2 h.1)
  rw [h.2, Complex.arg_real_mul _ hn, Complex.arg_exp_mul_I]
  have := toIocMod_add_toIocDiv_zsmul Real.two_pi_pos (-π) t
  rw [zsmul_eq_mul] at this
  refine ⟨- toIocDiv Real.two_pi_pos (-π) t, ?_⟩
  push_cast
  linarith

theorem direction_arg {p v : ℂ} (h : v ≠ p) (k : ℤ) : Direction p v ((v - p).arg + k * (2 * π)) :=
  ⟨h, by rw [exp_add_turns, Complex.norm_mul_exp_arg_mul_I]⟩

theorem Direction.shift {p v : ℂ} {t : ℝ} (h : Direction p v t) (k : ℤ) : Direction p v (t + k * (2 * π)) :=
  ⟨h.1, by rw [exp_add_turns]; exact h.2⟩

theorem Direction.diff {p v : ℂ} {t s : ℝ} (h : Direction p v t) (g : Direction p v s) :
    ∃ k : ℤ, s = t + k * (2 * π) := by
  obtain ⟨k, hk⟩ := h.arg
  obtain ⟨n, hn⟩ := g.arg
  refine ⟨k - n, ?_⟩
  push_cast
  linarith

theorem Direction.wrap {p v w : ℂ} {t s : ℝ} (h : Direction p v t) (g : Direction p w s) (hs : |s - t| < π) :
    wrap ((w - p).arg - (v - p).arg) = s - t := by
  obtain ⟨k, hk⟩ := h.arg
  obtain ⟨n, hn⟩ := g.arg
  refine wrap_eq (k := k - n) ?_ hs
  rw [hk, hn]
  push_cast
  ring

/-- Angles that change by less than half a turn add up to what the program sums. -/
theorem sum_of_directions {p : ℂ} : ∀ {polygon : List ℂ} {t : ℝ} {θ : List ℝ},
    List.Forall₂ (Direction p) polygon (t :: θ) → (t :: θ).IsChain (fun a b => |b - a| < π) →
    (angleDiffs (polygon.map fun v => (v - p).arg)).sum = (t :: θ).getLast (List.cons_ne_nil _ _) - t
  | _, t, [], .cons (a := v) h .nil, _ => by simp [angleDiffs]
  | _, t, s :: θ, .cons (a := v) h (.cons (a := w) (l₁ := l) g r), hc => by
    have hc' := List.isChain_cons_cons.1 hc
    have ih := sum_of_directions (.cons g r) hc'.2
    simp only [List.map_cons, angleDiffs, List.sum_cons] at ih ⊢
    rw [ih, h.wrap g hc'.1, List.getLast_cons (List.cons_ne_nil s θ)]
    ring

/-- Angles that change by less than half a turn exist where the point is on no edge. -/
theorem directions_exist {p : ℂ} : ∀ {v : ℂ} {l : List ℂ} {t : ℝ}, Direction p v t →
    (v :: l).IsChain (fun a b => p ∉ segment ℝ a b) →
    ∃ θ, List.Forall₂ (Direction p) (v :: l) (t :: θ) ∧ (t :: θ).IsChain (fun a b => |b - a| < π)
  | v, [], t, h, _ => ⟨[], .cons h .nil, by simp⟩
  | v, w :: l, t, h, hc => by
    have hc' := List.isChain_cons_cons.1 hc
    have hw : w ≠ p := by
      rintro rfl
      exact hc'.1 (right_mem_segment ℝ v w)
    obtain ⟨k, hk⟩ := h.arg
    obtain ⟨n, hn⟩ := wrap_congr ((w - p).arg - (v - p).arg)
    have hlt : |wrap ((w - p).arg - (v - p).arg)| < π := by
      refine lt_of_le_of_ne (abs_wrap_le _) fun he => hc'.1 ?_
      have := zero_mem_segment he
      rw [← mem_segment_translate ℝ p]
      simpa using (mem_segment_translate ℝ p (x := (0:ℂ)) (b := v - p) (c := w - p)).2 this
    have hd := direction_arg hw (n - k)
    have hs : (w - p).arg + (n - k : ℤ) * (2 * π) = t + wrap ((w - p).arg - (v - p).arg) := by
      rw [hn, hk]
      push_cast
      ring
    rw [hs] at hd
    obtain ⟨θ, h1, h2⟩ := directions_exist hd hc'.2
    refine ⟨_, .cons h h1, List.isChain_cons_cons.2 ⟨?_, h2⟩⟩
    simpa using hlt

theorem forall₂_snoc {α β : Type} {R : α → β → Prop} {v : α} : ∀ {l : List α} {m : List β},
    List.Forall₂ R (l ++ [v]) m → ∃ m' s, m = m' ++ [s] ∧ List.Forall₂ R l m' ∧ R v s
  | [], _, .cons h .nil => ⟨[], _, rfl, .nil, h⟩
  | _ :: _, _, .cons h r => by
    obtain ⟨m', s, rfl, h1, h2⟩ := forall₂_snoc r
    exact ⟨_ :: m', s, rfl, .cons h h1, h2⟩

theorem forall₂_snoc' {α β : Type} {R : α → β → Prop} {v : α} {s : β} (h : R v s) :
    ∀ {l : List α} {m : List β}, List.Forall₂ R l m → List.Forall₂ R (l ++ [v]) (m ++ [s])
  | _, _, .nil => .cons h .nil
  | _, _, .cons g r => .cons g (forall₂_snoc' h r)

theorem closed_directions {p v : ℂ} {l : List ℂ} (h : OffEdges p (v :: l)) : ∃ W : ℤ, Winding p (v :: l) W := by
  have hv : v ≠ p := by
    rintro rfl
    cases l with
    | nil => exact (List.isChain_cons_cons.1 h).1 (left_mem_segment ℝ v v)
    | cons w l => exact (List.isChain_cons_cons.1 h).1 (left_mem_segment ℝ v w)
  have hd : Direction p v (v - p).arg := by simpa using direction_arg hv 0
  obtain ⟨θ, h1, h2⟩ := directions_exist hd h
  have h3 : List.Forall₂ (Direction p) ((v :: l) ++ [v]) ((v - p).arg :: θ) := h1
  obtain ⟨m, s, e, hm, hs⟩ := forall₂_snoc h3
  cases hm with
  | cons hv' hm =>
    rename_i t m
    rw [List.cons_append, List.cons.injEq] at e
    obtain ⟨rfl, rfl⟩ := e
    obtain ⟨W, rfl⟩ := hd.diff hs
    exact ⟨W, _, m, .cons hd hm, h2⟩

/-- Step by step, the angles of a closed polygon add up to the turns. -/
theorem Winding.sum {p v : ℂ} {l : List ℂ} {W : ℤ} (h : Winding p (v :: l) W) :
    (angleDiffs ((closed (v :: l)).map fun v => (v - p).arg)).sum = W * (2 * π) := by
  obtain ⟨t, θ, h1, h2⟩ := h
  have hd : Direction p v t := by cases h1; assumption
  rw [show closed (v :: l) = (v :: l) ++ [v] from rfl,
    sum_of_directions (θ := θ ++ [t + W * (2 * π)]) (forall₂_snoc' (hd.shift W) h1) h2]
  rw [List.getLast_cons (by simp), List.getLast_append_singleton]
  ring

theorem leftOf_iff {a b p : ℂ} : LeftOf a b p ↔ 0 < (starRingEnd ℂ (a - p) * (b - p)).im := by
  unfold LeftOf
  rw [Complex.mul_im, Complex.conj_re, Complex.conj_im]
  simp only [Complex.sub_re, Complex.sub_im]
  constructor <;> intro h <;> linarith

theorem LeftOf.off {a b p : ℂ} (h : LeftOf a b p) : p ∉ segment ℝ a b := by
  rintro ⟨x, y, -, -, hxy, rfl⟩
  have hx : x = 1 - y := by linarith
  subst hx
  unfold LeftOf at h
  simp only [Complex.sub_re, Complex.sub_im, Complex.add_re, Complex.add_im, Complex.real_smul,
    Complex.mul_re, Complex.mul_im, Complex.ofReal_re, Complex.ofReal_im] at h
  nlinarith

/-- Sums of angles between 0 and `π` -/
theorem sum_left {p : ℂ} : ∀ {v w : ℂ} {l : List ℂ}, (v :: w :: l).IsChain (fun a b => LeftOf a b p) →
    0 < (angleDiffs ((v :: w :: l).map fun v => (v - p).arg)).sum
    ∧ (angleDiffs ((v :: w :: l).map fun v => (v - p).arg)).sum < (l.length + 1) * π
  | v, w, [], h => by
    have := wrap_pos (leftOf_iff.1 (List.isChain_cons_cons.1 h).1)
    simpa [angleDiffs] using this
  | v, w, x :: l, h => by
    have h' := List.isChain_cons_cons.1 h
    have h1 := wrap_pos (leftOf_iff.1 h'.1)
    have h2 := sum_left h'.2
    simp only [List.map_cons, angleDiffs, List.sum_cons, List.length_cons] at h2 ⊢
    push_cast
    constructor <;> linarith

end Verif.Polygon
