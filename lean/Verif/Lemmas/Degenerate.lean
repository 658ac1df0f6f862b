/-
Helper lemmas for C75, C76 and C77.
-/
import Verif.Spec.Degenerate
import Verif.Lemmas.Laplace
import Verif.Lemmas.Elasticity
import Verif.Lemmas.Cosserat
import Mathlib.Tactic.Linarith
import Mathlib.Tactic.Positivity

namespace Verif.Degenerate
open Assembly L2Form Laplace

section
variable {K X R : Type} [Field K] [LinearOrder K] [CommRing R] [Algebra K R]

/-- The fields of a degree of freedom, from the arrays of the code. -/
def arrFields (psi w div : Arr K) (nV a : Nat) : Fields K :=
  if a < nV then ⟨fun d => psi.val a d, div.val 0 a, 0⟩ else ⟨fun _ => 0, 0, w.val (a - nV) 0⟩

theorem pairing_low_low (psi w div : Arr K) {dim nV a b : Nat} (ha : a < nV) (hb : b < nV) (m c : K) :
    pairing dim m c (arrFields psi w div nV b) (arrFields psi w div nV a) =
      m * ∑ d ∈ Finset.range dim, psi.val b d * psi.val a d := by
  simp [pairing, arrFields, ha, hb]

theorem pairing_low_high (psi w div : Arr K) {dim nV a b : Nat} (ha : a < nV) (hb : ¬ b < nV)
    (m c : K) : pairing dim m c (arrFields psi w div nV b) (arrFields psi w div nV a) =
      - (w.val (b - nV) 0 * div.val 0 a) := by
  simp [pairing, arrFields, ha, hb]

theorem pairing_high_low (psi w div : Arr K) {dim nV a b : Nat} (ha : ¬ a < nV) (hb : b < nV)
    (m c : K) : pairing dim m c (arrFields psi w div nV b) (arrFields psi w div nV a) =
      div.val 0 b * w.val (a - nV) 0 := by
  simp [pairing, arrFields, ha, hb]

theorem pairing_high_high (psi w div : Arr K) {dim nV a b : Nat} (ha : ¬ a < nV) (hb : ¬ b < nV)
    (m c : K) : pairing dim m c (arrFields psi w div nV b) (arrFields psi w div nV a) =
      c * (w.val (b - nV) 0 * w.val (a - nV) 0) := by
  simp [pairing, arrFields, ha, hb]

theorem integrand_spec {psi w div : Arr K} {nV nQ : Nat} (h1 : psi.rows = nV) (h2 : w.rows = nQ)
    (h3 : w.cols = 1) (h4 : div.rows = 1) (h5 : div.cols = nV) (mass comp : K) (alpha : Nat → R) :
    ∃ v, integrand psi w div nV nQ mass comp alpha = .ok v ∧ v.n = nV + nQ ∧
      ∀ a < nV + nQ, v.val a = ∑ b ∈ Finset.range (nV + nQ),
        algebraMap K R (pairing psi.cols mass comp (arrFields psi w div nV b)
          (arrFields psi w div nV a)) * alpha b := by
  unfold integrand
  rw [matmul_ok (by simp [rowOf, Arr.lift, h1])]
  simp only [Res.bind_ok]
  rw [matmul_ok (by simp [rowOf, Arr.lift, h2])]
  simp only [Res.bind_ok]
  rw [matmul_ok (by simp [rowOf, Arr.lift, Arr.transpose, h5])]
  simp only [Res.bind_ok]
  rw [matmul_ok (by simp [Arr.scale, Arr.lift, Arr.transpose])]
  simp only [Res.bind_ok]
  rw [matmul_ok (by simp [Arr.lift, h3, h4])]
  simp only [Res.bind_ok]
  rw [sub_ok (by simp [Arr.scale, rowOf]) (by simp [Arr.lift, Arr.transpose, h1, h5])]
  simp only [Res.bind_ok]
  rw [matmul_ok (by simp [Arr.lift, Arr.transpose, h3, h4])]
  simp only [Res.bind_ok]
  rw [matmul_ok (by simp [Arr.scale, Arr.lift, Arr.transpose])]
  simp only [Res.bind_ok]
  rw [Cosserat.add_ok (by simp [rowOf, Arr.scale]) (by simp [Arr.lift, Arr.transpose])]
  simp only [Res.bind_ok]
  rw [if_neg (by simp [Arr.lift, Arr.transpose, h1, h2])]
  refine ⟨_, rfl, rfl, ?_⟩
  intro a ha
  dsimp only
  rw [sum_split]
  by_cases hlt : a < nV
  · rw [if_pos hlt]
    simp only [Arr.scale, Arr.transpose, Arr.lift, rowOf, h3, Finset.sum_range_one]
    rw [sub_eq_add_neg]
    congr 1
    · have e : ∀ b ∈ Finset.range nV, algebraMap K R (pairing psi.cols mass comp
          (arrFields psi w div nV b) (arrFields psi w div nV a)) * alpha b =
          ∑ d ∈ Finset.range psi.cols, alpha b * algebraMap K R (psi.val b d) * algebraMap K R mass *
            algebraMap K R (psi.val a d) := by
        intro b hb
        rw [pairing_low_low psi w div hlt (Finset.mem_range.1 hb), map_mul, map_sum', Finset.mul_sum,
          Finset.sum_mul]
        refine Finset.sum_congr rfl fun d _ => ?_
        rw [map_mul]; ring
      rw [Finset.sum_congr rfl e, Finset.sum_comm]
      refine Finset.sum_congr rfl fun d _ => ?_
      simp only [Finset.sum_mul, Nat.zero_add]
    · rw [Finset.sum_mul, ← Finset.sum_neg_distrib]
      refine Finset.sum_congr rfl fun b _ => ?_
      rw [pairing_low_high psi w div hlt (by omega), Nat.add_sub_cancel_left, map_neg, map_mul]
      ring
  · rw [if_neg hlt]
    simp only [Arr.scale, Arr.transpose, Arr.lift, rowOf, h3, h4, Finset.sum_range_one]
    congr 1
    · rw [Finset.sum_mul]
      refine Finset.sum_congr rfl fun b hb => ?_
      rw [pairing_high_low psi w div hlt (Finset.mem_range.1 hb), map_mul, Nat.zero_add]
      ring
    · rw [Finset.sum_mul, Finset.sum_mul]
      refine Finset.sum_congr rfl fun b _ => ?_
      rw [pairing_high_high psi w div hlt (by omega), Nat.add_sub_cancel_left]
      simp only [map_mul]
      ring

theorem integrand_error {psi w div : Arr K} {nV nQ : Nat} (h : psi.rows ≠ nV ∨ w.rows ≠ nQ)
    (mass comp : K) (alpha : Nat → R) :
    integrand psi w div nV nQ mass comp alpha = .error .valueError := by
  unfold integrand
  by_cases hv : psi.rows = nV
  · rw [matmul_ok (by simp [rowOf, Arr.lift, hv])]
    simp only [Res.bind_ok]
    rw [matmul_error]
    · rfl
    · simpa [rowOf, Arr.lift, eq_comm] using h.resolve_left (not_not_intro hv)
  · rw [matmul_error]
    · rfl
    · simpa [rowOf, Arr.lift, eq_comm] using hv

/-- The loop over the points, after a load. -/
theorem loop_spec (N nPts : Nat) (w : Nat → K) (f : Nat → Res (Vec R)) (M : Nat → Nat → Nat → K)
    (alpha : Nat → R) (hf : ∀ i < nPts, ∃ v, f i = .ok v ∧ v.n = N ∧
      ∀ a < N, v.val a = ∑ b ∈ Finset.range N, algebraMap K R (M i a b) * alpha b)
    (r0 : Vec R) (h0 : r0.n = N) :
    ∃ r, (List.range nPts).foldlM (fun (r : Vec R) i => do
        let v ← f i
        Vec.addScaled r (algebraMap K R (w i)) v) r0 = .ok r ∧ r.n = N ∧
      ∀ a < N, r.val a = ∑ b ∈ Finset.range N,
        algebraMap K R (∑ i ∈ Finset.range nPts, w i * M i a b) * alpha b + r0.val a := by
  obtain ⟨r, hr, hn, hv⟩ := Elasticity.quadrature_affine (R := R) N N nPts w f M (fun _ _ => 0) alpha
    (fun i hi => by
      obtain ⟨v, h1, h2, h3⟩ := hf i hi
      exact ⟨v, h1, h2, fun a ha => by rw [h3 a ha, map_zero, add_zero]⟩) r0 h0
  refine ⟨r, hr, hn, ?_⟩
  intro a ha
  rw [hv a ha]
  simp only [mul_zero, Finset.sum_const_zero, map_zero, add_zero]
  rw [add_comm]

theorem load_spec (nV nQ : Nat) (g : Nat → Nat → R) :
    ∃ r, (List.range 1).foldlM (fun (r : Vec R) c =>
        r.subAt (sliceIdx (nV + nQ) (c + nV) (c + nV + nQ) 1) ⟨nQ, g c⟩) (Vec.zeros (nV + nQ)) =
        .ok r ∧ r.n = nV + nQ ∧
      ∀ a < nV + nQ, r.val a = if a < nV then 0 else - g 0 (a - nV) := by
  obtain ⟨r, hr, hn, hv⟩ := subAt_block (R := R) (nV + nQ) nV nQ (by omega) (g 0)
  refine ⟨r, ?_, hn, ?_⟩
  · simp only [List.range_one, List.foldlM_cons, List.foldlM_nil, Nat.zero_add]
    rw [hr]; rfl
  · intro a ha
    rw [hv a ha]
    by_cases hlt : a < nV
    · rw [if_neg (by omega), if_pos hlt]
    · rw [if_pos (by omega), if_neg hlt]

theorem dofFields_eq (v : Elem K X) (q : Tab K) (div : Nat → Nat → K) (d : Arr K) (i : Nat)
    (h : ∀ a, d.val 0 a = div i a) (a : Nat) :
    arrFields (v.tab.values v.dim i) (q.values v.dim i) d v.tab.nPhi a = dofFields v q div i a := by
  unfold arrFields dofFields
  rw [h]
  rfl

theorem values_shapes {v : Elem K X} {q : Tab K} (h : MixedShapes v q) (i : Nat) :
    (v.tab.values v.dim i).rows = v.tab.nPhi ∧ (v.tab.values v.dim i).cols = v.dim ∧
    (q.values v.dim i).rows = q.nPhi ∧ (q.values v.dim i).cols = 1 := by
  refine ⟨rfl, Nat.min_eq_left h.values, rfl, ?_⟩
  show min v.dim q.nVal = 1
  rw [h.scalar]
  exact Nat.min_eq_right h.dim

theorem divergence_val {v : Elem K X} {q : Tab K} (h : MixedShapes v q) (i a : Nat) :
    (v.tab.divergence v.dim i (v.det i)).val 0 a = divAt v i a := by
  simp only [Tab.divergence, divAt, Nat.min_eq_left h.values, Nat.min_eq_right h.derivatives]

theorem sourceTerm_eq (v : Elem K X) (q : Tab K) (factor : Nat → K) (rhs : X → Nat → Nat → K)
    (g : Nat → R)
    (hg : ∀ a, g a = algebraMap K R (∑ i ∈ Finset.range v.nPts, v.det i * v.weights i *
      (factor i * rhs v.x 0 i * q.val 0 i a 0))) (a : Nat) :
    (if a < v.tab.nPhi then 0 else - g (a - v.tab.nPhi)) =
      - algebraMap K R (sourceTerm v q factor rhs a) := by
  unfold sourceTerm
  split
  · rw [map_zero, neg_zero]
  · rw [hg]

theorem unscaledForm_spec {u : Elem K X} {p : Tab K} (h : MixedShapes u p) (root : K → K)
    (threshold : K) (rhs : X → Nat → Nat → K) (phi delta : X → Nat → K) (alpha : Nat → R) :
    ∃ r, unscaledForm root threshold u p 1 1 rhs phi delta alpha = .ok r ∧
      r.n = u.tab.nPhi + p.nPhi ∧
      ∀ a < u.tab.nPhi + p.nPhi, r.val a = ∑ b ∈ Finset.range (u.tab.nPhi + p.nPhi),
          algebraMap K R (systemMatrix u p
            (fun i => 1 / (clamp threshold (delta u.x i) * clamp threshold (delta u.x i)))
            (fun i => clamp threshold (phi u.x i)) (divAt u) a b) * alpha b -
        algebraMap K R (sourceTerm u p (fun i => root (phi u.x i)) rhs a) := by
  obtain ⟨r0, e0, n0, v0⟩ := load_spec (R := R) u.tab.nPhi p.nPhi (fun c a => algebraMap K R
      (∑ i ∈ Finset.range u.nPts,
        root (phi u.x i) * (u.det i * u.weights i * p.val 0 i a 0) * rhs u.x c i))
  obtain ⟨r, hr, hn, hv⟩ := loop_spec (u.tab.nPhi + p.nPhi) u.nPts
    (fun i => u.det i * u.weights i)
    (fun i => integrand (u.tab.values u.dim i) (p.values u.dim i)
      (u.tab.divergence u.dim i (u.det i)) u.tab.nPhi p.nPhi
      (1 / (clamp threshold (delta u.x i) * clamp threshold (delta u.x i)))
      (clamp threshold (phi u.x i)) alpha)
    (fun i a b => pairing u.dim
      (1 / (clamp threshold (delta u.x i) * clamp threshold (delta u.x i)))
      (clamp threshold (phi u.x i)) (dofFields u p (divAt u) i b) (dofFields u p (divAt u) i a))
    alpha (fun i _ => by
      obtain ⟨s1, s2, s3, s4⟩ := values_shapes h i
      obtain ⟨w, w1, w2, w3⟩ := integrand_spec (R := R) s1 s3 s4
        (div := u.tab.divergence u.dim i (u.det i)) rfl rfl
        (1 / (clamp threshold (delta u.x i) * clamp threshold (delta u.x i)))
        (clamp threshold (phi u.x i)) alpha
      refine ⟨w, w1, w2, fun a ha => ?_⟩
      rw [w3 a ha, s2]
      simp only [dofFields_eq u p (divAt u) _ i (divergence_val h i)]) r0 n0
  refine ⟨r, ?_, hn, ?_⟩
  · unfold unscaledForm
    dsimp only
    simp only [Nat.mul_one]
    rw [e0]
    exact hr
  · intro a ha
    rw [hv a ha, v0 a ha, sub_eq_add_neg, ← sourceTerm_eq u p _ rhs _ (fun a => rfl)]
    congr 1
    split
    · rfl
    · congr 2
      refine Finset.sum_congr rfl fun i _ => ?_
      ring

theorem foldl_error {v : Elem K X} (hn : 0 < v.nPts) (f : Vec R → Nat → Res (Vec R)) (r : Vec R)
    (h : ∀ r, f r 0 = .error .valueError) : (List.range v.nPts).foldlM f r = .error .valueError := by
  obtain ⟨n, hn'⟩ : ∃ n, v.nPts = n + 1 := ⟨v.nPts - 1, by omega⟩
  rw [hn', List.range_succ_eq_map, List.foldlM_cons, h]
  rfl

theorem unscaledForm_error {u : Elem K X} {p : Tab K} {uComp pComp : Nat} (hn : 0 < u.nPts)
    (h : u.tab.nPhi ≠ u.tab.nPhi * uComp ∨ p.nPhi ≠ p.nPhi * pComp) (root : K → K)
    (threshold : K) (rhs : X → Nat → Nat → K) (phi delta : X → Nat → K) (alpha : Nat → R) :
    unscaledForm root threshold u p uComp pComp rhs phi delta alpha = .error .valueError := by
  unfold unscaledForm
  dsimp only
  cases hr : (List.range pComp).foldlM (fun (r : Vec R) c =>
    r.subAt (sliceIdx (u.tab.nPhi * uComp + p.nPhi * pComp) (c + u.tab.nPhi * uComp)
      (c + u.tab.nPhi * uComp + p.nPhi * pComp) pComp) ⟨p.nPhi, fun a => algebraMap K R
      (∑ i ∈ Finset.range u.nPts,
        root (phi u.x i) * (u.det i * u.weights i * p.val 0 i a 0) * rhs u.x c i)⟩)
    (Vec.zeros (u.tab.nPhi * uComp + p.nPhi * pComp)) with
  | error e =>
    rw [foldlM_subAt_error _ (fun r a e h => subAt_error h) _ _ _ hr]
    rfl
  | ok r =>
    simp only [Res.bind_ok]
    refine foldl_error hn _ _ fun r => ?_
    rw [integrand_error h]
    rfl

end

section
variable {K X R : Type} [Field K] [LinearOrder K] [IsStrictOrderedRing K] [CommRing R] [Algebra K R]

theorem positive_iff (phi : K) : (!vanishing phi ∧ 0 < phi) ↔ 1 / 10 ^ 8 < phi := by
  have h8 : (0 : K) < 1 / 10 ^ 8 := by positivity
  unfold vanishing
  simp only [Bool.not_eq_true', decide_eq_false_iff_not, not_le]
  constructor
  · rintro ⟨h1, h2⟩
    rwa [abs_of_pos h2] at h1
  · intro h
    have h2 := h8.trans h
    exact ⟨by rwa [abs_of_pos h2], h2⟩

theorem scaledDivergence_spec {v : Elem K X} {q : Tab K} (h : MixedShapes v q) (root : K → K)
    (phi delta : X → Nat → K) (grad : X → Nat → Nat → K) (i : Nat) :
    ∃ d, scaledDivergence root v.tab v.dim i (v.det i) (phi v.x i) (delta v.x i)
        (fun d => grad v.x d i) = .ok d ∧ d.rows = 1 ∧ d.cols = v.tab.nPhi ∧
      ∀ a, d.val 0 a = scaledDiv root v phi delta grad i a := by
  unfold scaledDivergence
  rw [if_neg (by have := h.values; omega)]
  refine ⟨_, rfl, rfl, rfl, ?_⟩
  intro a
  dsimp only
  unfold scaledDiv
  simp only [positive_iff, divergence_val h]

theorem form_spec {v : Elem K X} {q : Tab K} (h : MixedShapes v q) (root : K → K)
    (rhs : X → Nat → Nat → K) (phi delta : X → Nat → K) (grad : X → Nat → Nat → K)
    (alpha : Nat → R) :
    ∃ r, form root v q 1 1 rhs phi delta grad alpha = .ok r ∧ r.n = v.tab.nPhi + q.nPhi ∧
      ∀ a < v.tab.nPhi + q.nPhi, r.val a = ∑ b ∈ Finset.range (v.tab.nPhi + q.nPhi),
          algebraMap K R (systemMatrix v q (fun _ => 1) (fun _ => 1)
            (scaledDiv root v phi delta grad) a b) * alpha b -
        algebraMap K R (sourceTerm v q (fun _ => 1) rhs a) := by
  obtain ⟨r0, e0, n0, v0⟩ := load_spec (R := R) v.tab.nPhi q.nPhi (fun c a => algebraMap K R
      (∑ i ∈ Finset.range v.nPts, v.det i * v.weights i * q.val 0 i a 0 * rhs v.x c i))
  obtain ⟨r, hr, hn, hv⟩ := loop_spec (v.tab.nPhi + q.nPhi) v.nPts
    (fun i => v.det i * v.weights i)
    (fun i => do
      let div ← scaledDivergence root v.tab v.dim i (v.det i) (phi v.x i) (delta v.x i)
        (fun d => grad v.x d i)
      integrand (v.tab.values v.dim i) (q.values v.dim i) div v.tab.nPhi q.nPhi 1 1 alpha)
    (fun i a b => pairing v.dim 1 1 (dofFields v q (scaledDiv root v phi delta grad) i b)
      (dofFields v q (scaledDiv root v phi delta grad) i a))
    alpha (fun i _ => by
      obtain ⟨s1, s2, s3, s4⟩ := values_shapes h i
      obtain ⟨d, d1, d2, d3, d4⟩ := scaledDivergence_spec h root phi delta grad i
      obtain ⟨w, w1, w2, w3⟩ := integrand_spec (R := R) s1 s3 s4 d2 d3 1 1 alpha
      refine ⟨w, ?_, w2, fun a ha => ?_⟩
      · rw [d1]; exact w1
      rw [w3 a ha, s2]
      simp only [dofFields_eq v q (scaledDiv root v phi delta grad) _ i d4]) r0 n0
  refine ⟨r, ?_, hn, ?_⟩
  · unfold form
    dsimp only
    simp only [Nat.mul_one]
    rw [e0]
    simp only [bind_assoc] at hr
    exact hr
  · intro a ha
    rw [hv a ha, v0 a ha, sub_eq_add_neg, ← sourceTerm_eq v q _ rhs _ (fun a => rfl)]
    congr 1
    split
    · rfl
    · congr 2
      refine Finset.sum_congr rfl fun i _ => ?_
      ring

theorem form_error {v : Elem K X} {q : Tab K} {vComp qComp : Nat} (hn : 0 < v.nPts)
    (hv : v.dim ≤ v.tab.nVal)
    (h : v.tab.nPhi ≠ v.tab.nPhi * vComp ∨ q.nPhi ≠ q.nPhi * qComp) (root : K → K)
    (rhs : X → Nat → Nat → K) (phi delta : X → Nat → K) (grad : X → Nat → Nat → K)
    (alpha : Nat → R) :
    form root v q vComp qComp rhs phi delta grad alpha = .error .valueError := by
  unfold form
  dsimp only
  cases hr : (List.range qComp).foldlM (fun (r : Vec R) c =>
    r.subAt (sliceIdx (v.tab.nPhi * vComp + q.nPhi * qComp) (c + v.tab.nPhi * vComp)
      (c + v.tab.nPhi * vComp + q.nPhi * qComp) qComp) ⟨q.nPhi, fun a => algebraMap K R
      (∑ i ∈ Finset.range v.nPts, v.det i * v.weights i * q.val 0 i a 0 * rhs v.x c i)⟩)
    (Vec.zeros (v.tab.nPhi * vComp + q.nPhi * qComp)) with
  | error e =>
    rw [foldlM_subAt_error _ (fun r a e h => subAt_error h) _ _ _ hr]
    rfl
  | ok r =>
    simp only [Res.bind_ok]
    refine foldl_error hn _ _ fun r => ?_
    unfold scaledDivergence
    rw [if_neg (by omega)]
    simp only [Res.bind_ok]
    rw [integrand_error h]
    rfl

end

section
variable {K X : Type} [Field K]

theorem pairing_combine_left (dim : Nat) (m c : K) (n : Nat) (x : Nat → K) (f : Nat → Fields K)
    (t : Fields K) :
    pairing dim m c (combine n x f) t = ∑ b ∈ Finset.range n, x b * pairing dim m c (f b) t := by
  have e : ∑ d ∈ Finset.range dim, (combine n x f).vel d * t.vel d =
      ∑ b ∈ Finset.range n, x b * ∑ d ∈ Finset.range dim, (f b).vel d * t.vel d := by
    simp only [combine, Finset.sum_mul, Finset.mul_sum]
    rw [Finset.sum_comm]
    exact Finset.sum_congr rfl fun b _ => Finset.sum_congr rfl fun d _ => by ring
  unfold pairing
  rw [e]
  simp only [combine, Finset.sum_mul, Finset.mul_sum, ← Finset.sum_add_distrib,
    ← Finset.sum_sub_distrib]
  refine Finset.sum_congr rfl fun b _ => ?_
  simp only [← Finset.mul_sum]
  ring

theorem pairing_combine_right (dim : Nat) (m c : K) (n : Nat) (x : Nat → K) (f : Nat → Fields K)
    (s : Fields K) :
    pairing dim m c s (combine n x f) = ∑ b ∈ Finset.range n, x b * pairing dim m c s (f b) := by
  have e : ∑ d ∈ Finset.range dim, s.vel d * (combine n x f).vel d =
      ∑ b ∈ Finset.range n, x b * ∑ d ∈ Finset.range dim, s.vel d * (f b).vel d := by
    simp only [combine, Finset.mul_sum]
    rw [Finset.sum_comm]
    exact Finset.sum_congr rfl fun b _ => Finset.sum_congr rfl fun d _ => by ring
  unfold pairing
  rw [e]
  simp only [combine, Finset.mul_sum, ← Finset.sum_add_distrib, ← Finset.sum_sub_distrib]
  refine Finset.sum_congr rfl fun b _ => ?_
  simp only [← Finset.mul_sum]
  ring

theorem systemMatrix_mul (v : Elem K X) (q : Tab K) (m c : Nat → K) (div : Nat → Nat → K) (n : Nat)
    (x : Nat → K) (a : Nat) :
    ∑ b ∈ Finset.range n, systemMatrix v q m c div a b * x b =
      ∑ i ∈ Finset.range v.nPts, v.det i * v.weights i *
        pairing v.dim (m i) (c i) (combine n x (dofFields v q div i)) (dofFields v q div i a) := by
  simp only [pairing_combine_left, systemMatrix, Finset.sum_mul, Finset.mul_sum]
  rw [Finset.sum_comm]
  refine Finset.sum_congr rfl fun i _ => Finset.sum_congr rfl fun b _ => ?_
  ring

theorem systemMatrix_form (v : Elem K X) (q : Tab K) (m c : Nat → K) (div : Nat → Nat → K) (n : Nat)
    (x y : Nat → K) :
    ∑ a ∈ Finset.range n, y a * ∑ b ∈ Finset.range n, systemMatrix v q m c div a b * x b =
      ∑ i ∈ Finset.range v.nPts, v.det i * v.weights i *
        pairing v.dim (m i) (c i) (combine n x (dofFields v q div i))
          (combine n y (dofFields v q div i)) := by
  simp only [systemMatrix_mul, Finset.mul_sum]
  rw [Finset.sum_comm]
  refine Finset.sum_congr rfl fun i _ => ?_
  rw [pairing_combine_right, Finset.mul_sum]
  refine Finset.sum_congr rfl fun a _ => ?_
  ring

theorem pairing_self (dim : Nat) (m c : K) (s : Fields K) :
    pairing dim m c s s = m * ∑ d ∈ Finset.range dim, s.vel d ^ 2 + c * s.pres ^ 2 := by
  unfold pairing
  simp only [pow_two]
  ring

end

section
variable {K X R : Type} [Field K] [LinearOrder K] [CommRing R] [Algebra K R]

/-- Zero divergences. -/
def noDiv (nV : Nat) : Arr K := ⟨1, nV, fun _ _ => 0⟩

theorem combine_vel (psi w : Arr K) (nV nQ : Nat) (x : Nat → K) (d : Nat) :
    (combine (nV + nQ) x (arrFields psi w (noDiv nV) nV)).vel d =
      ∑ b ∈ Finset.range nV, x b * psi.val b d := by
  unfold combine
  dsimp only
  rw [sum_split]
  have e1 : ∀ b ∈ Finset.range nV, x b * (arrFields psi w (noDiv nV) nV b).vel d =
      x b * psi.val b d := by
    intro b hb
    rw [arrFields, if_pos (Finset.mem_range.1 hb)]
  have e2 : ∀ b ∈ Finset.range nQ,
      x (nV + b) * (arrFields psi w (noDiv nV) nV (nV + b)).vel d = 0 := by
    intro b _
    rw [arrFields, if_neg (by omega), mul_zero]
  rw [Finset.sum_congr rfl e1, Finset.sum_congr rfl e2, Finset.sum_const_zero, add_zero]

theorem combine_pres (psi w : Arr K) (nV nQ : Nat) (x : Nat → K) :
    (combine (nV + nQ) x (arrFields psi w (noDiv nV) nV)).pres =
      ∑ b ∈ Finset.range nQ, x (nV + b) * w.val b 0 := by
  unfold combine
  dsimp only
  rw [sum_split]
  have e1 : ∀ b ∈ Finset.range nV, x b * (arrFields psi w (noDiv nV) nV b).pres = 0 := by
    intro b hb
    rw [arrFields, if_pos (Finset.mem_range.1 hb), mul_zero]
  have e2 : ∀ b ∈ Finset.range nQ,
      x (nV + b) * (arrFields psi w (noDiv nV) nV (nV + b)).pres = x (nV + b) * w.val b 0 := by
    intro b _
    rw [arrFields, if_neg (by omega), Nat.add_sub_cancel_left]
  rw [Finset.sum_congr rfl e1, Finset.sum_congr rfl e2, Finset.sum_const_zero, zero_add]

theorem projectionIntegrand_spec {psi w : Arr K} {nV nQ : Nat} (h1 : psi.rows = nV)
    (h2 : w.rows = nQ) (h3 : w.cols = 1) (root : K → K) (phi delta : K) (scaled : Nat → K)
    (alpha : Nat → R) :
    ∃ v, projectionIntegrand root psi w nV nQ phi delta scaled alpha = .ok v ∧ v.n = nV + nQ ∧
      ∀ a < nV + nQ, v.val a = ∑ b ∈ Finset.range (nV + nQ),
        algebraMap K R (pairing psi.cols 1 1 (arrFields psi w (noDiv nV) nV b)
          (arrFields psi w (noDiv nV) nV a)) * alpha b +
        algebraMap K R (- pairing psi.cols 1 1 (physical root phi delta
          (combine (nV + nQ) scaled (arrFields psi w (noDiv nV) nV)))
          (arrFields psi w (noDiv nV) nV a)) := by
  unfold projectionIntegrand
  rw [matmul_ok (by simp [rowOf, Arr.lift, h1])]
  simp only [Res.bind_ok]
  rw [matmul_ok (by simp [rowOf, h1])]
  simp only [Res.bind_ok]
  rw [matmul_ok (by simp [rowOf, Arr.lift, h2])]
  simp only [Res.bind_ok]
  rw [matmul_ok (by simp [rowOf, h2])]
  simp only [Res.bind_ok]
  rw [sub_ok (by split <;> simp [Arr.lift, Arr.scale, rowOf])
    (by split <;> simp [Arr.lift, Arr.scale])]
  simp only [Res.bind_ok]
  rw [matmul_ok (by simp [Arr.lift, Arr.transpose])]
  simp only [Res.bind_ok]
  rw [sub_ok (by split <;> simp [Arr.lift, Arr.scale, rowOf])
    (by split <;> simp [Arr.lift, Arr.scale])]
  simp only [Res.bind_ok]
  rw [matmul_ok (by simp [Arr.lift, Arr.transpose])]
  simp only [Res.bind_ok]
  rw [if_neg (by simp [Arr.lift, Arr.transpose, h1, h2])]
  refine ⟨_, rfl, rfl, ?_⟩
  intro a ha
  dsimp only
  have hA : ∀ b ∈ Finset.range nV, ∀ d, (algebraMap K R (psi.val b d)) =
      algebraMap K R ((arrFields psi w (noDiv nV) nV b).vel d) := by
    intro b hb d
    rw [arrFields, if_pos (Finset.mem_range.1 hb)]
  rw [sum_split]
  by_cases hlt : a < nV
  · rw [if_pos hlt]
    have e1 : ∀ b ∈ Finset.range nV, algebraMap K R (pairing psi.cols 1 1
          (arrFields psi w (noDiv nV) nV b) (arrFields psi w (noDiv nV) nV a)) * alpha b =
          ∑ d ∈ Finset.range psi.cols, alpha b * algebraMap K R (psi.val b d) *
            algebraMap K R (psi.val a d) := by
      intro b hb
      rw [pairing_low_low psi w _ hlt (Finset.mem_range.1 hb), one_mul, map_sum', Finset.sum_mul]
      refine Finset.sum_congr rfl fun d _ => ?_
      rw [map_mul]; ring
    have e2 : ∀ b ∈ Finset.range nQ, algebraMap K R (pairing psi.cols 1 1
          (arrFields psi w (noDiv nV) nV (nV + b)) (arrFields psi w (noDiv nV) nV a)) *
          alpha (nV + b) = 0 := by
      intro b hb
      rw [pairing_low_high psi w _ hlt (by omega)]
      simp [noDiv]
    have e3 : pairing psi.cols 1 1 (physical root phi delta
          (combine (nV + nQ) scaled (arrFields psi w (noDiv nV) nV)))
          (arrFields psi w (noDiv nV) nV a) =
        ∑ d ∈ Finset.range psi.cols, (if 0 < phi then delta else 1) *
          (∑ b ∈ Finset.range nV, scaled b * psi.val b d) * psi.val a d := by
      unfold pairing
      have ea : arrFields psi w (noDiv nV) nV a = ⟨fun d => psi.val a d, 0, 0⟩ := by
        rw [arrFields, if_pos hlt]; rfl
      rw [ea]
      simp only [mul_zero, sub_zero, add_zero, one_mul]
      refine Finset.sum_congr rfl fun d _ => ?_
      unfold physical
      split
      · dsimp only
        rw [combine_vel]
      · dsimp only
        rw [combine_vel, one_mul]
    rw [Finset.sum_congr rfl e1, Finset.sum_congr rfl e2, Finset.sum_const_zero, add_zero, e3,
      Finset.sum_comm, map_neg, map_sum', ← sub_eq_add_neg, ← Finset.sum_sub_distrib]
    refine Finset.sum_congr rfl fun d _ => ?_
    simp only [Arr.lift, Arr.transpose, rowOf, Nat.zero_add]
    rw [sub_mul, ← Finset.sum_mul]
    congr 1
    rw [map_mul]
    congr 1
    split
    · simp only [Arr.scale]
      rw [mul_comm]
    · rw [one_mul]
  · rw [if_neg hlt]
    have e1 : ∀ b ∈ Finset.range nV, algebraMap K R (pairing psi.cols 1 1
          (arrFields psi w (noDiv nV) nV b) (arrFields psi w (noDiv nV) nV a)) * alpha b = 0 := by
      intro b hb
      rw [pairing_high_low psi w _ hlt (Finset.mem_range.1 hb)]
      simp [noDiv]
    have e2 : ∀ b ∈ Finset.range nQ, algebraMap K R (pairing psi.cols 1 1
          (arrFields psi w (noDiv nV) nV (nV + b)) (arrFields psi w (noDiv nV) nV a)) *
          alpha (nV + b) =
          alpha (nV + b) * algebraMap K R (w.val b 0) * algebraMap K R (w.val (a - nV) 0) := by
      intro b hb
      rw [pairing_high_high psi w _ hlt (by omega), Nat.add_sub_cancel_left, one_mul, map_mul]
      ring
    have e3 : pairing psi.cols 1 1 (physical root phi delta
          (combine (nV + nQ) scaled (arrFields psi w (noDiv nV) nV)))
          (arrFields psi w (noDiv nV) nV a) =
        (if 0 < phi then 1 / root phi else 1) *
          (∑ b ∈ Finset.range nQ, scaled (nV + b) * w.val b 0) * w.val (a - nV) 0 := by
      unfold pairing
      have ea : arrFields psi w (noDiv nV) nV a = ⟨fun _ => 0, 0, w.val (a - nV) 0⟩ := by
        rw [arrFields, if_neg hlt]
      rw [ea]
      simp only [mul_zero, sub_zero, add_zero, one_mul, Finset.sum_const_zero, zero_add]
      unfold physical
      split
      · dsimp only
        rw [combine_pres]
        ring
      · dsimp only
        rw [combine_pres]
        ring
    rw [Finset.sum_congr rfl e1, Finset.sum_congr rfl e2, Finset.sum_const_zero, zero_add, e3,
      map_neg, ← sub_eq_add_neg, ← Finset.sum_mul]
    simp only [Arr.lift, Arr.transpose, rowOf, h3, Finset.sum_range_one]
    rw [sub_mul]
    congr 1
    rw [map_mul]
    congr 1
    rw [map_mul]
    split
    · simp only [Arr.scale]
      rw [map_mul, mul_comm]
    · rw [map_one, one_mul]

theorem projectionForm_spec {v : Elem K X} {q : Tab K} (h : MixedShapes v q) (root : K → K)
    (phi delta : X → Nat → K) (scaled : Nat → K) (alpha : Nat → R) :
    ∃ r, projectionForm root v q 1 1 phi delta scaled alpha = .ok r ∧ r.n = v.tab.nPhi + q.nPhi ∧
      ∀ a < v.tab.nPhi + q.nPhi, r.val a = ∑ b ∈ Finset.range (v.tab.nPhi + q.nPhi),
          algebraMap K R (l2Matrix v q a b) * alpha b -
        algebraMap K R (physicalMoment root v q phi delta scaled a) := by
  obtain ⟨r, hr, hn, hv⟩ := Elasticity.quadrature_affine (R := R) (v.tab.nPhi + q.nPhi)
    (v.tab.nPhi + q.nPhi) v.nPts (fun i => v.det i * v.weights i)
    (fun i => projectionIntegrand root (v.tab.values v.dim i) (q.values v.dim i) v.tab.nPhi q.nPhi
      (phi v.x i) (delta v.x i) scaled alpha)
    (fun i a b => pairing v.dim 1 1 (dofFields v q (fun _ _ => 0) i b)
      (dofFields v q (fun _ _ => 0) i a))
    (fun i a => - pairing v.dim 1 1 (physical root (phi v.x i) (delta v.x i)
      (combine (v.tab.nPhi + q.nPhi) scaled (dofFields v q (fun _ _ => 0) i)))
      (dofFields v q (fun _ _ => 0) i a)) alpha
    (fun i _ => by
      obtain ⟨s1, s2, s3, s4⟩ := values_shapes h i
      obtain ⟨w, w1, w2, w3⟩ := projectionIntegrand_spec (R := R) s1 s3 s4 root (phi v.x i)
        (delta v.x i) scaled alpha
      have e : arrFields (v.tab.values v.dim i) (q.values v.dim i) (noDiv v.tab.nPhi) v.tab.nPhi =
          dofFields v q (fun _ _ => 0) i := funext fun a =>
        dofFields_eq v q (fun _ _ => 0) (noDiv v.tab.nPhi) i (fun _ => rfl) a
      refine ⟨w, w1, w2, fun a ha => ?_⟩
      rw [w3 a ha, s2, e]) (Vec.zeros _) rfl
  refine ⟨r, ?_, hn, ?_⟩
  · unfold projectionForm
    dsimp only
    simp only [Nat.mul_one]
    exact hr
  · intro a ha
    rw [hv a ha]
    simp only [Vec.zeros, zero_add, mul_neg, Finset.sum_neg_distrib, map_neg, ← sub_eq_add_neg]
    rfl

end

end Verif.Degenerate
