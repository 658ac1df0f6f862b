/-
Helper lemmas for C67.
-/
import Verif.Spec.L2Error
import Verif.Lemmas.Trace
import Verif.Lemmas.L2Form
import Mathlib.Tactic.Ring

namespace Verif.L2Error
open Assembly L2Form MeshGraph Trace

variable {X : Type}

theorem foldlM_add {α : Type} (f : α → Res ℝ) (g : α → ℝ) (l : List α)
    (h : ∀ a ∈ l, f a = .ok (g a)) (acc : ℝ) :
    l.foldlM (fun acc a => do let v ← f a; pure (acc + v)) acc =
      (.ok (acc + (l.map g).sum) : Res ℝ) := by
  induction l generalizing acc with
  | nil => simp [pure, Except.pure]
  | cons a l ih =>
    rw [List.foldlM_cons]
    simp only [h a (by simp), bind, Except.bind, pure, Except.pure]
    have := ih (fun b hb => h b (by simp [hb])) (acc + g a)
    simp only [bind, Except.bind, pure, Except.pure] at this
    rw [this, List.map_cons, List.sum_cons]
    congr 1
    ring

theorem overFields_spec (dim : Nat) (skip : List String)
    (contrib : String → ESpace X → Nat → Elem X → Res ℝ)
    (g : String → ESpace X → Elem X × Nat → ℝ) (spaces : Dict String (ESpace X))
    (h : ∀ q ∈ kept skip spaces, ∀ p ∈ cellsOf dim q.2,
      contrib q.1 q.2 p.2 p.1 = .ok (g q.1 q.2 p)) :
    overFields dim skip contrib spaces =
      .ok ((kept skip spaces).map fun q => npSqrt ((cellsOf dim q.2).map (g q.1 q.2)).sum) := by
  induction spaces with
  | nil => rfl
  | cons q rest ih =>
    obtain ⟨name, s⟩ := q
    unfold overFields
    by_cases hk : name ∈ skip
    · rw [if_pos hk]
      have hf : kept skip ((name, s) :: rest) = kept skip rest := by simp [kept, hk]
      rw [hf] at h ⊢
      exact ih h
    · rw [if_neg hk]
      have hf : kept skip ((name, s) :: rest) = (name, s) :: kept skip rest := by simp [kept, hk]
      rw [hf] at h ⊢
      have e := foldlM_add (fun p : Elem X × Nat => contrib name s p.2 p.1) (g name s)
        (cellsOf dim s) (fun p hp => h (name, s) (by simp) p hp) 0
      rw [show (s.elements.zipIdx.filter fun p => p.1.dim == dim) = cellsOf dim s from rfl, e,
        ih (fun q hq => h q (by simp [hq]))]
      simp [bind, Except.bind, pure, Except.pure]

/-- The first kept field fails. -/
theorem overFields_error (dim : Nat) (skip : List String)
    (contrib : String → ESpace X → Nat → Elem X → Res ℝ) (err : Err)
    (q : String × ESpace X) (pre post : Dict String (ESpace X)) (hq : q.1 ∉ skip)
    (hpre : ∀ q ∈ kept skip pre, ∀ p ∈ cellsOf dim q.2, ∃ v, contrib q.1 q.2 p.2 p.1 = .ok v)
    (p : Elem X × Nat) (before after : List (Elem X × Nat))
    (hc : cellsOf dim q.2 = before ++ p :: after)
    (hb : ∀ p ∈ before, ∃ v, contrib q.1 q.2 p.2 p.1 = .ok v)
    (he : contrib q.1 q.2 p.2 p.1 = .error err) :
    overFields dim skip contrib (pre ++ q :: post) = .error err := by
  induction pre with
  | nil =>
    obtain ⟨name, s⟩ := q
    simp only [List.nil_append]
    unfold overFields
    rw [if_neg hq, show (s.elements.zipIdx.filter fun p => p.1.dim == dim) = cellsOf dim s from rfl,
      hc, List.foldlM_append]
    choose! v hv using hb
    have e := foldlM_add (fun p : Elem X × Nat => contrib name s p.2 p.1) v before hv 0
    rw [e]
    simp only [bind, Except.bind, List.foldlM_cons] at he ⊢
    simp [he]
  | cons r pre ih =>
    obtain ⟨name, s⟩ := r
    rw [List.cons_append]
    unfold overFields
    by_cases hk : name ∈ skip
    · rw [if_pos hk]
      refine ih fun q hq => hpre q ?_
      simpa [kept, hk] using hq
    · rw [if_neg hk]
      have hf : kept skip ((name, s) :: pre) = (name, s) :: kept skip pre := by simp [kept, hk]
      rw [hf] at hpre
      have h1 := hpre (name, s) (by simp)
      choose! v hv using h1
      have e := foldlM_add (fun p : Elem X × Nat => contrib name s p.2 p.1) v
        (cellsOf dim s) hv 0
      rw [show (s.elements.zipIdx.filter fun p => p.1.dim == dim) = cellsOf dim s from rfl, e,
        ih (fun q hq => hpre q (by simp [hq]))]
      rfl

theorem cellsOf_dim {dim : Nat} {s : ESpace X} {p : Elem X × Nat} (h : p ∈ cellsOf dim s) :
    p.1.dim = dim := by
  simpa [cellsOf] using (List.mem_filter.1 h).2

/-- Reading the coefficients of one element. -/
theorem fancy_coefs {alpha : List ℝ} {l : List Nat} (h : ∀ k ∈ l, k < alpha.length) :
    ∃ al, fancy alpha l = .ok al ∧ al.length = l.length ∧
      ∀ j < l.length, al.getD j 0 = alpha.getD (l.getD j 0) 0 := by
  obtain ⟨al, hal⟩ := fancy_total h
  refine ⟨al, fancy_iff.2 hal, hal.length_eq.symm, fun j hj => ?_⟩
  have hj' : j < al.length := by rw [← hal.length_eq]; exact hj
  have := hal.get hj hj'
  simp only [List.get_eq_getElem] at this
  simp only [List.getD_eq_getElem?_getD, List.getElem?_eq_getElem hj', List.getElem?_eq_getElem hj,
    Option.getD_some, this]

theorem splitCols_ok {nPhi nComp : Nat} (h : 0 < nPhi) :
    splitCols (nPhi * nComp) nPhi = .ok nComp := by
  simp [splitCols, Nat.ne_of_gt h, Nat.mul_div_cancel_left _ h]

theorem lt_mul_of {a c m n : Nat} (ha : a < n) (hc : c < m) : a * m + c < n * m := by
  have := Nat.mul_le_mul_right m (Nat.succ_le_of_lt ha)
  rw [Nat.succ_mul] at this
  omega

/-- The values of the discrete function. -/
theorem discreteTable_spec {dim n : Nat} {fe : FeSpace X} {q : String × ESpace X}
    {alpha : List ℝ} (hn : alpha.length = n) (h : HasCoefs dim fe n q) {p : Elem X × Nat}
    (hp : p ∈ cellsOf dim q.2) :
    ∃ d l al t, fe.dests p.2 = .ok d ∧ d.get? q.1 = some l ∧ destOf fe p.2 q.1 = l ∧
      (∀ k ∈ l, k < n) ∧
      fancy alpha l = .ok al ∧ discreteTable dim q.2 p.1 al = .ok t ∧
      t.rows = q.2.nComp ∧ t.cols = dirs dim q.2 ∧
      ∀ i, ∀ c < q.2.nComp, ∀ d < dirs dim q.2,
        t.val i c d = valueAt p.1 (coef alpha (destOf fe p.2 q.1) q.2.nComp c) i d := by
  subst hn
  obtain ⟨d, l, h1, h2, h3, h4⟩ := h.dest p hp
  have hd : destOf fe p.2 q.1 = l := by simp [destOf, h1, h2]
  obtain ⟨al, h5, h6, h7⟩ := fancy_coefs h4
  have hval : ∀ i c, c < q.2.nComp → ∀ d,
      (∑ a ∈ Finset.range p.1.nPhi, p.1.phi i a d * al.getD (a * q.2.nComp + c) 0) =
        valueAt p.1 (coef alpha (destOf fe p.2 q.1) q.2.nComp c) i d := by
    intro i c hc d
    refine Finset.sum_congr rfl fun a ha => ?_
    rw [h7 _ (by rw [h3]; exact lt_mul_of (Finset.mem_range.1 ha) hc), coef, hd]
  by_cases hl : q.2.lagrange = true
  · refine ⟨d, l, al, ⟨min dim q.2.nComp, 1, fun i c _ => ∑ a ∈ Finset.range p.1.nPhi,
      p.1.phi i a 0 * al.getD (a * q.2.nComp + c) 0⟩, h1, h2, hd, h4, h5, ?_, ?_, ?_, ?_⟩
    · simp [discreteTable, h6, h3, splitCols_ok (h.phi p hp), hl, bind, Except.bind, pure,
        Except.pure]
    · exact Nat.min_eq_right (h.small hl)
    · simp [dirs, hl]
    · intro i c hc d hd'
      have : d = 0 := by simp [dirs, hl] at hd'; omega
      subst this
      exact hval i c hc 0
  · have hl' : q.2.lagrange = false := by simpa using hl
    refine ⟨d, l, al, ⟨q.2.nComp, min dim p.1.nVal, fun i c d => ∑ a ∈ Finset.range p.1.nPhi,
      p.1.phi i a d * al.getD (a * q.2.nComp + c) 0⟩, h1, h2, hd, h4, h5, ?_, rfl, ?_, ?_⟩
    · simp [discreteTable, h6, h3, splitCols_ok (h.phi p hp), hl', bind, Except.bind, pure,
        Except.pure, Nat.ne_of_gt h.comps]
    · simp [dirs, hl', Nat.min_eq_left (h.vals hl' p hp)]
    · intro i c hc d _
      exact hval i c hc d

theorem bdim_self (n : Nat) : bdim n n = .ok n := by simp [bdim]

theorem bpick_lt {n c : Nat} (h : c < n) : bpick n c = c := by
  unfold bpick
  split <;> omega

theorem bsub_spec {f g : Table} (hr : f.rows = g.rows) (hc : f.cols = g.cols) :
    ∃ t, bsub f g = .ok t ∧ t.rows = g.rows ∧ t.cols = g.cols ∧
      ∀ i, ∀ c < g.rows, ∀ d < g.cols, t.val i c d = f.val i c d - g.val i c d := by
  refine ⟨⟨g.rows, g.cols, fun i c d => f.val i (bpick g.rows c) (bpick g.cols d) -
    g.val i (bpick g.rows c) (bpick g.cols d)⟩, ?_, rfl, rfl, fun i c h1 d h2 => ?_⟩
  · simp [bsub, hr, hc, bdim_self, bind, Except.bind, pure, Except.pure]
  · simp only [bpick_lt h1, bpick_lt h2]

theorem sumSq_spec {dim : Nat} {s : ESpace X} {el : Elem X} {t : Table} {v : Nat → Nat → Nat → ℝ}
    (hr : t.rows = s.nComp) (hc : t.cols = dirs dim s)
    (hv : ∀ i, ∀ c < s.nComp, ∀ d < dirs dim s, t.val i c d = v i c d) :
    sumSq el t = quadSq dim s el v := by
  unfold sumSq quadSq
  refine Finset.sum_congr rfl fun i _ => ?_
  rw [hr, hc, Finset.sum_comm, Finset.mul_sum]
  refine Finset.sum_congr rfl fun c hc => ?_
  rw [Finset.mul_sum]
  refine Finset.sum_congr rfl fun d hd => ?_
  rw [hv i c (Finset.mem_range.1 hc) d (Finset.mem_range.1 hd)]
  ring

theorem exactTable_spec {dim : Nat} {fe : FeSpace X} {n : Nat} {q : String × ESpace X} {f : Exact X}
    (h : HasCoefs dim fe n q) (hf : IsExact dim q f) (el : Elem X) :
    (exactTable dim q.2 el f).rows = q.2.nComp ∧ (exactTable dim q.2 el f).cols = dirs dim q.2 ∧
      ∀ i c, ∀ d < dirs dim q.2, (exactTable dim q.2 el f).val i c d = f.val el.x c d i := by
  unfold exactTable dirs
  by_cases hl : q.2.lagrange = true
  · simp only [hl, if_true]
    refine ⟨by rw [hf.rows]; exact Nat.min_eq_right (h.small hl), trivial, fun i c d hd => ?_⟩
    obtain rfl : d = 0 := by omega
    rfl
  · have hl' : q.2.lagrange = false := by simpa using hl
    simp only [hl']
    exact ⟨hf.rows, Nat.min_eq_left (hf.cols hl'), fun i c d _ => rfl⟩

theorem quadSq_nonneg {dim : Nat} {q : String × ESpace X} (h : NonNeg dim q) {p : Elem X × Nat}
    (hp : p ∈ cellsOf dim q.2) (v : Nat → Nat → Nat → ℝ) : 0 ≤ quadSq dim q.2 p.1 v :=
  Finset.sum_nonneg fun i hi => Finset.sum_nonneg fun _ _ => Finset.sum_nonneg fun _ _ =>
    mul_nonneg (h p hp i (Finset.mem_range.1 hi)) (sq_nonneg _)

theorem npSqrt_nonneg {x : ℝ} (h : 0 ≤ x) : npSqrt x = some (Real.sqrt x) := by
  simp [npSqrt, not_lt.2 h]

end Verif.L2Error
