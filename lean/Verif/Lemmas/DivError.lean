/-
Helper lemmas for C82.
-/
import Verif.Spec.DivError
import Verif.Lemmas.L2Error
import Verif.Lemmas.DualVec

namespace Verif.DivError
open Assembly L2Form MeshGraph Trace L2Error

variable {X : Type}

theorem overSpaces_spec (dim : Nat) (wanted : Family → Bool) (skip : List String)
    (field : String → Res (Option (Nat → Laplace.Elem ℝ X → Res ℝ)))
    (contrib : String → Nat → Laplace.Elem ℝ X → Res ℝ)
    (g : String × DSpace X → Laplace.Elem ℝ X × Nat → ℝ) (spaces : Dict String (DSpace X))
    (hf : ∀ q ∈ fields wanted skip spaces, field q.1 = .ok (some (contrib q.1)))
    (h : ∀ q ∈ fields wanted skip spaces, ∀ p ∈ cells dim q.2,
      contrib q.1 p.2 p.1 = .ok (g q p)) :
    overSpaces dim wanted skip field spaces =
      .ok ((fields wanted skip spaces).map fun q => npSqrt ((cells dim q.2).map (g q)).sum) := by
  induction spaces with
  | nil => rfl
  | cons q rest ih =>
    obtain ⟨name, s⟩ := q
    unfold overSpaces
    by_cases hw : wanted s.family = false
    · rw [if_pos hw]
      have e : fields wanted skip ((name, s) :: rest) = fields wanted skip rest := by
        simp [fields, hw]
      rw [e] at hf h ⊢
      exact ih hf h
    · rw [if_neg hw]
      have hw' : wanted s.family = true := by simpa using hw
      by_cases hk : name ∈ skip
      · rw [if_pos hk]
        have e : fields wanted skip ((name, s) :: rest) = fields wanted skip rest := by
          simp [fields, hk]
        rw [e] at hf h ⊢
        exact ih hf h
      · rw [if_neg hk]
        have e : fields wanted skip ((name, s) :: rest) = (name, s) :: fields wanted skip rest := by
          simp [fields, hk, hw']
        rw [e] at hf h ⊢
        have e1 := foldlM_add (fun p : Laplace.Elem ℝ X × Nat => contrib name p.2 p.1) (g (name, s))
          (cells dim s) (fun p hp => h (name, s) (by simp) p hp) 0
        rw [hf (name, s) (by simp), Res.bind_ok]
        dsimp only
        rw [show (s.elements.zipIdx.filter fun p => p.1.dim == dim) = cells dim s from rfl, e1,
          ih (fun q hq => hf q (by simp [hq])) (fun q hq => h q (by simp [hq]))]
        simp [bind, Except.bind, pure, Except.pure]

/-- Fields that are passed over leave no entry. -/
theorem overSpaces_none (dim : Nat) (wanted : Family → Bool) (skip : List String)
    (field : String → Res (Option (Nat → Laplace.Elem ℝ X → Res ℝ))) (spaces : Dict String (DSpace X))
    (hf : ∀ q ∈ fields wanted skip spaces, field q.1 = .ok none) :
    overSpaces dim wanted skip field spaces = .ok [] := by
  induction spaces with
  | nil => rfl
  | cons q rest ih =>
    obtain ⟨name, s⟩ := q
    unfold overSpaces
    by_cases hw : wanted s.family = false
    · rw [if_pos hw]
      exact ih fun q hq => hf q (by simpa [fields, hw] using hq)
    · rw [if_neg hw]
      have hw' : wanted s.family = true := by simpa using hw
      by_cases hk : name ∈ skip
      · rw [if_pos hk]
        exact ih fun q hq => hf q (by simpa [fields, hk] using hq)
      · rw [if_neg hk]
        have e : fields wanted skip ((name, s) :: rest) = (name, s) :: fields wanted skip rest := by
          simp [fields, hk, hw']
        rw [e] at hf
        rw [hf (name, s) (by simp), Res.bind_ok]
        exact ih fun q hq => hf q (by simp [hq])

/-- The first reported field raises. -/
theorem overSpaces_error (dim : Nat) (wanted : Family → Bool) (skip : List String)
    (field : String → Res (Option (Nat → Laplace.Elem ℝ X → Res ℝ))) (spaces : Dict String (DSpace X))
    {q : String × DSpace X} {rest : List (String × DSpace X)} (hq : fields wanted skip spaces = q :: rest)
    {e : Err} (hf : field q.1 = .error e ∨ ∃ c p ps, field q.1 = .ok (some c) ∧
      cells dim q.2 = p :: ps ∧ c p.2 p.1 = .error e) :
    overSpaces dim wanted skip field spaces = .error e := by
  induction spaces with
  | nil => cases hq
  | cons r spaces ih =>
    obtain ⟨name, s⟩ := r
    unfold overSpaces
    by_cases hw : wanted s.family = false
    · rw [if_pos hw]
      exact ih (by simpa [fields, hw] using hq)
    · rw [if_neg hw]
      have hw' : wanted s.family = true := by simpa using hw
      by_cases hk : name ∈ skip
      · rw [if_pos hk]
        exact ih (by simpa [fields, hk] using hq)
      · rw [if_neg hk]
        have e1 : fields wanted skip ((name, s) :: spaces) = (name, s) :: fields wanted skip spaces := by
          simp [fields, hk, hw']
        rw [e1] at hq
        obtain ⟨rfl, -⟩ := List.cons.inj hq
        rcases hf with hf | ⟨c, p, ps, h1, h2, h3⟩
        · rw [hf]; rfl
        · rw [h1, Res.bind_ok]
          dsimp only
          rw [show (s.elements.zipIdx.filter fun p => p.1.dim == dim) = cells dim s from rfl, h2,
            List.foldlM_cons, h3]
          rfl

theorem divStar_eq {dim : Nat} {el : Laplace.Elem ℝ X} (h1 : dim ≤ el.tab.nVal)
    (h2 : dim ≤ el.tab.nDer) (i a : Nat) : divStar dim el i a = basisDiv dim el i a := by
  unfold divStar basisDiv Dual.traceGrad Dual.tabDiv
  rw [Nat.min_eq_left h1, Nat.min_eq_right h2, mul_one_div]

theorem scaledStar_eq {dim : Nat} {el : Laplace.Elem ℝ X} (h1 : dim ≤ el.tab.nVal)
    (h2 : dim ≤ el.tab.nDer) (gamma : X → Nat → ℝ) {grad : Nat × (X → Nat → Nat → ℝ)}
    (hg : dim ≤ grad.1) (i a : Nat) :
    scaledStar dim el gamma grad i a = scaledDiv dim gamma grad.2 el i a := by
  unfold scaledStar scaledDiv basisDiv Dual.traceGrad Dual.tabDiv
  rw [Nat.min_eq_left h1, Nat.min_eq_right h2, Nat.min_eq_right hg]
  ring

/-- The contribution of one element. -/
theorem contribution_spec {dim : Nat} {fe : DFe X} {alpha : List ℝ} {q : String × DSpace X}
    (h : Ready dim fe alpha.length q) {f : DExact X} (hf : f.cols = some q.2.nComp)
    {star div : Laplace.Elem ℝ X → Nat → Nat → ℝ}
    (hs : ∀ p ∈ cells dim q.2, ∀ i a, star p.1 i a = div p.1 i a) {p : Laplace.Elem ℝ X × Nat}
    (hp : p ∈ cells dim q.2) :
    contribution fe alpha q.1 f star p.2 p.1 = .ok (∑ i ∈ Finset.range p.1.nPts,
      ∑ c ∈ Finset.range q.2.nComp, p.1.det i * p.1.weights i *
        (f.val p.1.x c i - discreteDiv div fe alpha q p i c) ^ 2) := by
  obtain ⟨d, l, h1, h2, h3, h4⟩ := h.dest p hp
  have hd : dofs fe p.2 q.1 = l := by simp [dofs, h1, h2]
  obtain ⟨al, h5, h6, h7⟩ := fancy_coefs h4
  have e1 : splitCols al.length p.1.tab.nPhi = .ok q.2.nComp := by
    rw [h6, h3]; exact splitCols_ok (h.phi p hp)
  unfold contribution
  simp only [h1, Dict.getItem, h2, h5, e1, Res.bind_ok]
  unfold diff
  simp only [hf, bdim, if_true, Res.bind_ok]
  simp only [Res.pure_eq, Res.bind_ok]
  congr 1
  unfold sheetSq
  dsimp only
  rw [Finset.sum_comm]
  refine Finset.sum_congr rfl fun i _ => Finset.sum_congr rfl fun c hc => ?_
  have hc' := Finset.mem_range.1 hc
  have hb : bpick q.2.nComp c = c := by
    unfold bpick
    split
    · omega
    · rfl
  have e2 : ∑ a ∈ Finset.range p.1.tab.nPhi, star p.1 i a * al.getD (a * q.2.nComp + c) 0 =
      discreteDiv div fe alpha q p i c := by
    unfold discreteDiv
    refine Finset.sum_congr rfl fun a ha => ?_
    rw [hs p hp, h7 _ (by rw [h3]; exact lt_mul_of (Finset.mem_range.1 ha) hc'), coef, hd]
  rw [hb, e2]
  ring

theorem integralSq_nonneg {dim : Nat} {q : String × DSpace X} (h : Weighted dim q)
    (v : Laplace.Elem ℝ X × Nat → Nat → Nat → ℝ) : 0 ≤ integralSq dim q v := by
  refine List.sum_nonneg fun x hx => ?_
  obtain ⟨p, hp, rfl⟩ := List.mem_map.1 hx
  exact Finset.sum_nonneg fun i hi => Finset.sum_nonneg fun c _ =>
    mul_nonneg (h.pos p hp i (Finset.mem_range.1 hi)).le (sq_nonneg _)

theorem sum_eq_zero_of_nonneg : ∀ {l : List ℝ}, (∀ x ∈ l, 0 ≤ x) → l.sum = 0 → ∀ x ∈ l, x = 0
  | [], _, _ => fun _ h => absurd h (List.not_mem_nil)
  | a :: l, h, h0 => by
    have h1 := h a (by simp)
    have h2 : 0 ≤ l.sum := List.sum_nonneg fun x hx => h x (by simp [hx])
    rw [List.sum_cons] at h0
    intro x hx
    rcases List.mem_cons.1 hx with rfl | hx
    · linarith
    · exact sum_eq_zero_of_nonneg (fun x hx => h x (by simp [hx])) (by linarith) x hx

theorem integralSq_eq_zero {dim : Nat} {q : String × DSpace X} (h : Weighted dim q)
    (v : Laplace.Elem ℝ X × Nat → Nat → Nat → ℝ) :
    integralSq dim q v = 0 ↔
      ∀ p ∈ cells dim q.2, ∀ i < p.1.nPts, ∀ c < q.2.nComp, v p i c = 0 := by
  have n1 : ∀ p ∈ cells dim q.2, ∀ i ∈ Finset.range p.1.nPts, ∀ c ∈ Finset.range q.2.nComp,
      0 ≤ p.1.det i * p.1.weights i * v p i c ^ 2 := fun p hp i hi c _ =>
    mul_nonneg (h.pos p hp i (Finset.mem_range.1 hi)).le (sq_nonneg _)
  constructor
  · intro h0 p hp i hi c hc
    have e := sum_eq_zero_of_nonneg (fun x hx => by
      obtain ⟨p, hp, rfl⟩ := List.mem_map.1 hx
      exact Finset.sum_nonneg fun i hi => Finset.sum_nonneg (n1 p hp i hi)) h0 _
      (List.mem_map.2 ⟨p, hp, rfl⟩)
    have e1 := (Finset.sum_eq_zero_iff_of_nonneg fun i hi => Finset.sum_nonneg (n1 p hp i hi)).1 e i
      (Finset.mem_range.2 hi)
    have e2 := (Finset.sum_eq_zero_iff_of_nonneg (n1 p hp i (Finset.mem_range.2 hi))).1 e1 c
      (Finset.mem_range.2 hc)
    exact pow_eq_zero_iff two_ne_zero |>.1
      ((mul_eq_zero.1 e2).resolve_left (h.pos p hp i hi).ne')
  · intro h0
    refine List.sum_eq_zero fun x hx => ?_
    obtain ⟨p, hp, rfl⟩ := List.mem_map.1 hx
    exact Finset.sum_eq_zero fun i hi => Finset.sum_eq_zero fun c hc => by
      rw [h0 p hp i (Finset.mem_range.1 hi) c (Finset.mem_range.1 hc)]
      ring

end Verif.DivError
