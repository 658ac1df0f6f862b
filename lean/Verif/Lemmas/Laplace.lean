/-
Helper lemmas for C65 and C66.
-/
import Verif.Spec.Laplace
import Verif.Lemmas.L2Form
import Verif.Lemmas.Prelude
import Mathlib.Tactic.Ring
import Mathlib.Algebra.Algebra.Basic
import Mathlib.Algebra.BigOperators.Ring.Finset

namespace Verif.Laplace
open Assembly L2Form

variable {K X R : Type} [Field K] [CommRing R] [Algebra K R]

theorem matmul_ok {a b : Arr R} (h : a.cols = b.rows) :
    matmul a b = .ok ⟨a.rows, b.cols, fun i j => ∑ k ∈ Finset.range a.cols, a.val i k * b.val k j⟩ := by
  unfold matmul
  rw [if_neg (not_not_intro h)]

theorem sub_ok {a b : Arr R} (h : a.rows = b.rows) (h' : a.cols = b.cols) :
    a.sub b = .ok ⟨a.rows, a.cols, fun i j => a.val i j - b.val i j⟩ := by
  unfold Arr.sub
  rw [if_neg (by simp [h, h'])]

/-- A loop that adds one scaled vector per point. -/
theorem foldlM_addScaled (n : Nat) (f : Nat → Res (Vec R)) (c : Nat → R) (g : Nat → Nat → R) :
    ∀ (l : List Nat), (∀ i ∈ l, ∃ v, f i = .ok v ∧ v.n = n ∧ ∀ a < n, v.val a = g i a) →
    ∀ r : Vec R, r.n = n → ∃ r', l.foldlM (fun (r : Vec R) i => do
        let v ← f i
        Vec.addScaled r (c i) v) r = .ok r' ∧ r'.n = n ∧
      ∀ a < n, r'.val a = r.val a + (l.map fun i => c i * g i a).sum := by
  intro l
  induction l with
  | nil => intro _ r hr; exact ⟨r, rfl, hr, fun a _ => by simp⟩
  | cons i l ih =>
    intro h r hr
    obtain ⟨v, hv, hn, hg⟩ := h i (by simp)
    have hs : Vec.addScaled r (c i) v = .ok ⟨r.n, fun a => r.val a + c i * v.val a⟩ := by
      unfold Vec.addScaled
      rw [if_neg (by rw [hr, hn]; simp)]
    obtain ⟨r', hr', hn', ha⟩ := ih (fun j hj => h j (by simp [hj]))
      ⟨r.n, fun a => r.val a + c i * v.val a⟩ hr
    refine ⟨r', ?_, hn', ?_⟩
    · rw [List.foldlM_cons, hv]
      simp only [Res.bind_ok, hs]
      exact hr'
    · intro a hl
      rw [ha a hl]
      simp only [hg a hl, List.map_cons, List.sum_cons]
      ring

theorem lift_val (a : Arr K) (i j : Nat) : (a.lift R).val i j = algebraMap K R (a.val i j) := rfl

theorem map_sum' (s : Finset Nat) (f : Nat → K) :
    algebraMap K R (∑ i ∈ s, f i) = ∑ i ∈ s, algebraMap K R (f i) := map_sum _ _ _

/-- The integrand of the mixed form. -/
theorem mixedIntegrand_spec {u : Elem K X} {p : Tab K} (h : MixedShapes u p) (kappa : K)
    (alpha : Nat → R) (i : Nat) :
    ∃ v, mixedIntegrand u p u.tab.nPhi p.nPhi kappa alpha i = .ok v ∧
      v.n = u.tab.nPhi + p.nPhi ∧ ∀ a < u.tab.nPhi + p.nPhi, v.val a =
        if a < u.tab.nPhi then
          ∑ j ∈ Finset.range u.tab.nPhi, alpha j * algebraMap K R
            (1 / kappa * ∑ d ∈ Finset.range u.dim, u.tab.val 0 i j d * u.tab.val 0 i a d) -
          ∑ j ∈ Finset.range p.nPhi, alpha (u.tab.nPhi + j) *
            algebraMap K R (p.val 0 i j 0 * divAt u i a)
        else ∑ j ∈ Finset.range u.tab.nPhi, alpha j *
          algebraMap K R (p.val 0 i (a - u.tab.nPhi) 0 * divAt u i j) := by
  have hd : min u.dim u.tab.nVal = u.dim := Nat.min_eq_left h.values
  have hd' : min u.tab.nDer u.dim = u.dim := Nat.min_eq_right h.derivatives
  have hp : min u.dim p.nVal = 1 := by rw [h.scalar]; exact Nat.min_eq_right h.dim
  have hdiv : ∀ j a, (u.tab.divergence u.dim i (u.det i)).val j a = divAt u i a := by
    intro j a
    simp only [Tab.divergence, divAt, hd, hd']
  unfold mixedIntegrand
  dsimp only
  rw [matmul_ok (by simp [rowOf, Arr.lift, Tab.values])]
  simp only [Res.bind_ok]
  rw [matmul_ok (by simp [rowOf, Arr.lift, Tab.values])]
  simp only [Res.bind_ok]
  rw [matmul_ok (by simp [rowOf, Arr.lift, Arr.transpose, Tab.divergence])]
  simp only [Res.bind_ok]
  rw [matmul_ok (by simp [Arr.scale, Arr.lift, Arr.transpose, Tab.values])]
  simp only [Res.bind_ok]
  rw [matmul_ok (by simp [Arr.lift, Tab.values, Tab.divergence, hp])]
  simp only [Res.bind_ok]
  rw [sub_ok (by simp [Arr.scale, rowOf])
    (by simp [Arr.lift, Arr.transpose, Tab.values, Tab.divergence])]
  simp only [Res.bind_ok]
  rw [matmul_ok (by simp [Arr.lift, Arr.transpose, Tab.values, Tab.divergence, hp])]
  simp only [Res.bind_ok]
  rw [if_neg (by simp [Arr.lift, Arr.transpose, Tab.values])]
  refine ⟨_, rfl, rfl, ?_⟩
  intro a ha
  dsimp only
  split
  · rename_i hlt
    simp only [Arr.scale, Arr.transpose, Arr.lift, Tab.values, rowOf, Tab.divergence, hd, hd', hp,
      Finset.sum_range_one]
    congr 1
    · simp only [Finset.sum_mul, map_mul, map_sum']
      rw [Finset.sum_comm]
      refine Finset.sum_congr rfl fun j _ => ?_
      rw [Finset.mul_sum, Finset.mul_sum]
      refine Finset.sum_congr rfl fun d _ => ?_
      rw [Nat.zero_add]
      ring
    · rw [Finset.sum_mul]
      refine Finset.sum_congr rfl fun j _ => ?_
      rw [map_mul, divAt]
      ring
  · simp only [Arr.transpose, Arr.lift, Tab.values, rowOf, Tab.divergence, hd, hd',
      Finset.sum_range_one]
    rw [Finset.sum_mul]
    refine Finset.sum_congr rfl fun j _ => ?_
    rw [map_mul, divAt, Nat.zero_add]
    ring

theorem sum_split (n m : Nat) (f : Nat → R) :
    ∑ b ∈ Finset.range (n + m), f b =
      ∑ j ∈ Finset.range n, f j + ∑ j ∈ Finset.range m, f (n + j) := by
  rw [Finset.sum_range_add]

theorem subAt_block (n b m : Nat) (h : b + m ≤ n) (g : Nat → R) :
    ∃ r, (Vec.zeros n : Vec R).subAt (sliceIdx n b (b + m) 1) ⟨m, g⟩ = .ok r ∧ r.n = n ∧
      ∀ a < n, r.val a = if b ≤ a ∧ a < b + m then - g (a - b) else 0 := by
  rw [sliceIdx_contig h]
  unfold Vec.subAt
  rw [if_neg (by simp)]
  refine ⟨_, rfl, rfl, ?_⟩
  intro a _
  simp only [Vec.zeros, List.mem_range'_1]
  split
  · rename_i hb
    obtain ⟨j, rfl⟩ := Nat.exists_eq_add_of_le hb.1
    have : j < m := by omega
    have e := idxOf_range' (c := b) (m := m) (step := 1) (by omega) this
    rw [Nat.one_mul] at e
    rw [e, Nat.add_sub_cancel_left]
    ring
  · rfl

/-- The mixed form is affine with the matrix and the source of the specification. -/
theorem mixedForm_spec {u : Elem K X} {p : Tab K} (h : MixedShapes u p)
    (rhs : X → Nat → Nat → K) (kappa : X → Nat → K) (alpha : Nat → R) :
    ∃ r, mixedForm u p 1 1 rhs kappa alpha = .ok r ∧ r.n = u.tab.nPhi + p.nPhi ∧
      ∀ a < u.tab.nPhi + p.nPhi, r.val a =
        ∑ b ∈ Finset.range (u.tab.nPhi + p.nPhi),
          algebraMap K R (mixedMatrix u p kappa a b) * alpha b -
        algebraMap K R (mixedSource u p rhs a) := by
  set nu := u.tab.nPhi with hnu
  set np := p.nPhi with hnp
  obtain ⟨r0, hr0, hn0, ha0⟩ := subAt_block (R := R) (nu + np) nu np (by omega)
    (fun a => algebraMap K R
      (∑ i ∈ Finset.range u.nPts, u.det i * u.weights i * p.val 0 i a 0 * rhs u.x 0 i))
  obtain ⟨r, hr, hn, hval⟩ := foldlM_addScaled (nu + np)
    (fun i => mixedIntegrand u p nu np (kappa u.x i) alpha i)
    (fun i => algebraMap K R (u.det i * u.weights i)) _ (List.range u.nPts)
    (fun i _ => mixedIntegrand_spec h (kappa u.x i) alpha i) r0 hn0
  refine ⟨r, ?_, hn, ?_⟩
  · unfold mixedForm
    dsimp only
    simp only [List.range_one, List.foldlM_cons, List.foldlM_nil, Nat.mul_one, Nat.zero_add,
      ← hnu, ← hnp]
    rw [hr0]
    simp only [Res.bind_ok, Res.pure_eq]
    exact hr
  · intro a ha
    rw [hval a ha, ha0 a ha, sum_map_range, sum_split]
    by_cases hlt : a < nu
    · rw [if_neg (by omega)]
      simp only [mixedMatrix, mixedSource, ← hnu, hlt, if_true, map_zero, sub_zero, zero_add]
      have e1 : ∀ j ∈ Finset.range nu,
          algebraMap K R (if j < nu then fluxMass u kappa j a else - divPair u p (j - nu) a) *
            alpha j = algebraMap K R (fluxMass u kappa j a) * alpha j := by
        intro j hj
        rw [if_pos (Finset.mem_range.1 hj)]
      have e2 : ∀ j ∈ Finset.range np,
          algebraMap K R (if nu + j < nu then fluxMass u kappa (nu + j) a
            else - divPair u p (nu + j - nu) a) * alpha (nu + j) =
          - (algebraMap K R (divPair u p j a) * alpha (nu + j)) := by
        intro j hj
        rw [if_neg (by omega), Nat.add_sub_cancel_left, map_neg, neg_mul]
      rw [Finset.sum_congr rfl e1, Finset.sum_congr rfl e2, Finset.sum_neg_distrib, ← sub_eq_add_neg]
      simp only [mul_sub, Finset.sum_sub_distrib]
      congr 1
      · simp_rw [Finset.mul_sum (Finset.range nu)]
        rw [Finset.sum_comm]
        refine Finset.sum_congr rfl fun j _ => ?_
        rw [fluxMass, map_sum', Finset.sum_mul]
        refine Finset.sum_congr rfl fun i _ => ?_
        simp only [map_mul]
        ring
      · simp only [Finset.mul_sum]
        rw [Finset.sum_comm]
        refine Finset.sum_congr rfl fun j _ => ?_
        rw [divPair, map_sum', Finset.sum_mul]
        refine Finset.sum_congr rfl fun i _ => ?_
        simp only [map_mul]
        ring
    · rw [if_pos ⟨by omega, ha⟩]
      simp only [mixedMatrix, mixedSource, ← hnu, hlt, if_false]
      have e1 : ∀ j ∈ Finset.range nu,
          algebraMap K R (if j < nu then divPair u p (a - nu) j else 0) * alpha j =
            algebraMap K R (divPair u p (a - nu) j) * alpha j := by
        intro j hj
        rw [if_pos (Finset.mem_range.1 hj)]
      have e2 : ∀ j ∈ Finset.range np,
          algebraMap K R (if nu + j < nu then divPair u p (a - nu) (nu + j) else 0) *
            alpha (nu + j) = 0 := by
        intro j hj
        rw [if_neg (by omega), map_zero, zero_mul]
      rw [Finset.sum_congr rfl e1, Finset.sum_congr rfl e2, Finset.sum_const_zero, add_zero,
        ← source, add_comm, ← sub_eq_add_neg]
      congr 1
      simp only [Finset.mul_sum]
      rw [Finset.sum_comm]
      refine Finset.sum_congr rfl fun j _ => ?_
      rw [divPair, map_sum', Finset.sum_mul]
      refine Finset.sum_congr rfl fun i _ => ?_
      simp only [map_mul]
      ring

theorem gradients_spec {el : PElem K X} (h : el.tab.nDer = el.dim) (i : Nat) :
    ∃ g, gradients el i = .ok g ∧ g.rows = el.tab.nPhi ∧ g.cols = gradComps el ∧
      ∀ a l, g.val a l = gradAt el i a l := by
  unfold gradients
  dsimp only
  rw [matmul_ok (by simp [h])]
  simp only [Res.bind_ok, Res.pure_eq]
  exact ⟨_, rfl, rfl, rfl, fun a l => rfl⟩

theorem primalIntegrand_spec {el : PElem K X} (h : el.tab.nDer = el.dim) (kappa : K)
    (alpha : Nat → R) (i : Nat) :
    ∃ v, primalIntegrand el el.tab.nPhi kappa alpha i = .ok v ∧ v.n = el.tab.nPhi ∧
      ∀ a < el.tab.nPhi, v.val a = ∑ j ∈ Finset.range el.tab.nPhi, alpha j * algebraMap K R
        (kappa * ∑ l ∈ Finset.range (gradComps el), gradAt el i j l * gradAt el i a l) := by
  obtain ⟨g, hg, hrows, hcols, hval⟩ := gradients_spec h i
  unfold primalIntegrand
  rw [hg]
  simp only [Res.bind_ok]
  rw [matmul_ok (by simp [rowOf, Arr.lift, hrows])]
  simp only [Res.bind_ok]
  rw [matmul_ok (by simp [rowOf, Arr.lift, Arr.scale, Arr.transpose])]
  simp only [Res.bind_ok]
  rw [if_neg (by simp [rowOf, Arr.lift, Arr.scale, Arr.transpose, hrows])]
  refine ⟨_, rfl, rfl, ?_⟩
  intro a _
  simp only [Arr.scale, Arr.transpose, Arr.lift, rowOf, hcols, hval]
  simp_rw [Finset.sum_mul, Finset.mul_sum]
  rw [Finset.sum_comm]
  refine Finset.sum_congr rfl fun j _ => ?_
  rw [map_sum', Finset.mul_sum]
  refine Finset.sum_congr rfl fun l _ => ?_
  rw [Nat.zero_add]
  simp only [map_mul]
  ring

/-- The primal form is affine with the stiffness matrix. -/
theorem primalForm_spec {el : PElem K X} (h : el.tab.nDer = el.dim) (rhs : X → Nat → Nat → K)
    (kappa : X → Nat → K) (alpha : Nat → R) :
    ∃ r, primalForm el 1 rhs kappa alpha = .ok r ∧ r.n = el.tab.nPhi ∧
      ∀ a < el.tab.nPhi, r.val a = ∑ b ∈ Finset.range el.tab.nPhi,
          algebraMap K R (stiffness (gradComps el) el kappa b a) * alpha b -
        algebraMap K R (primalSource el rhs a) := by
  set n := el.tab.nPhi with hn
  obtain ⟨r0, hr0, hn0, ha0⟩ := subAt_block (R := R) n 0 n (by omega)
    (fun a => algebraMap K R
      (∑ i ∈ Finset.range el.nPts, el.det i * el.weights i * el.tab.val 0 i a 0 * rhs el.x 0 i))
  rw [Nat.zero_add] at hr0
  obtain ⟨r, hr, hn', hval⟩ := foldlM_addScaled n
    (fun i => primalIntegrand el n (kappa el.x i) alpha i)
    (fun i => algebraMap K R (el.det i * el.weights i)) _ (List.range el.nPts)
    (fun i _ => primalIntegrand_spec h (kappa el.x i) alpha i) r0 hn0
  refine ⟨r, ?_, hn', ?_⟩
  · unfold primalForm
    dsimp only
    simp only [List.range_one, List.foldlM_cons, List.foldlM_nil, Nat.mul_one, Nat.zero_add, ← hn]
    rw [hr0]
    simp only [Res.bind_ok, Res.pure_eq]
    exact hr
  · intro a ha
    rw [hval a ha, ha0 a ha, if_pos ⟨by omega, by omega⟩, sum_map_range, Nat.sub_zero, ← primalSource,
      add_comm, ← sub_eq_add_neg]
    congr 1
    simp_rw [Finset.mul_sum (Finset.range el.tab.nPhi)]
    rw [Finset.sum_comm]
    refine Finset.sum_congr rfl fun j _ => ?_
    rw [stiffness, map_sum', Finset.sum_mul]
    refine Finset.sum_congr rfl fun i _ => ?_
    simp only [map_mul]
    ring

/-! ### Errors -/

theorem subAt_error {r : Vec R} {idx : List Nat} {v : Vec R} {e : Err}
    (h : r.subAt idx v = .error e) : e = .valueError := by
  unfold Vec.subAt at h
  split at h
  · exact (Except.error.inj h).symm
  · cases h

theorem matmul_error {a b : Arr R} (h : a.cols ≠ b.rows) : matmul a b = .error .valueError := by
  unfold matmul
  rw [if_pos h]

theorem mixedIntegrand_error {u : Elem K X} {p : Tab K} {nQ nP : Nat}
    (h : nQ ≠ u.tab.nPhi ∨ nP ≠ p.nPhi) (kappa : K) (alpha : Nat → R) (i : Nat) :
    mixedIntegrand u p nQ nP kappa alpha i = .error .valueError := by
  unfold mixedIntegrand
  dsimp only
  by_cases hq : nQ = u.tab.nPhi
  · rw [matmul_ok (by simp [rowOf, Arr.lift, Tab.values, hq])]
    simp only [Res.bind_ok]
    rw [matmul_error (by simpa [rowOf, Arr.lift, Tab.values] using h.resolve_left (not_not_intro hq))]
    rfl
  · rw [matmul_error (by simpa [rowOf, Arr.lift, Tab.values] using hq)]
    rfl

theorem foldlM_subAt_error {α : Type} (f : Vec R → α → Res (Vec R))
    (hf : ∀ r a e, f r a = .error e → e = .valueError) :
    ∀ (l : List α) (r : Vec R) e, l.foldlM f r = .error e → e = .valueError := by
  intro l
  induction l with
  | nil => intro r e h; cases h
  | cons a l ih =>
    intro r e h
    rw [List.foldlM_cons] at h
    cases hr : f r a with
    | error e' =>
      rw [hr] at h
      have := Except.error.inj h
      exact this ▸ hf r a e' hr
    | ok r' =>
      rw [hr] at h
      exact ih r' e h

theorem mixedForm_error {u : Elem K X} {p : Tab K} {uComp pComp : Nat} (hn : 0 < u.nPts)
    (h : u.tab.nPhi * uComp ≠ u.tab.nPhi ∨ p.nPhi * pComp ≠ p.nPhi)
    (rhs : X → Nat → Nat → K) (kappa : X → Nat → K) (alpha : Nat → R) :
    mixedForm u p uComp pComp rhs kappa alpha = .error .valueError := by
  unfold mixedForm
  dsimp only
  obtain ⟨n, hn'⟩ : ∃ n, u.nPts = n + 1 := ⟨u.nPts - 1, by omega⟩
  cases hr : (List.range pComp).foldlM (fun (r : Vec R) c =>
    r.subAt (sliceIdx (u.tab.nPhi * uComp + p.nPhi * pComp) (c + u.tab.nPhi * uComp)
      (c + u.tab.nPhi * uComp + p.nPhi * pComp) pComp) ⟨p.nPhi, fun a => algebraMap K R
      (∑ i ∈ Finset.range u.nPts, u.det i * u.weights i * p.val 0 i a 0 * rhs u.x c i)⟩)
    (Vec.zeros (u.tab.nPhi * uComp + p.nPhi * pComp)) with
  | error e =>
    rw [foldlM_subAt_error _ (fun r a e h => subAt_error h) _ _ _ hr]
    rfl
  | ok r =>
    simp only [Res.bind_ok]
    rw [hn', List.range_succ_eq_map, List.foldlM_cons, mixedIntegrand_error h]
    rfl

theorem primalForm_error {el : PElem K X} (hd : el.tab.nDer = el.dim) {nComp : Nat} (hn : 0 < el.nPts)
    (h : el.tab.nPhi * nComp ≠ el.tab.nPhi) (rhs : X → Nat → Nat → K) (kappa : X → Nat → K)
    (alpha : Nat → R) : primalForm el nComp rhs kappa alpha = .error .valueError := by
  unfold primalForm
  dsimp only
  obtain ⟨n, hn'⟩ : ∃ n, el.nPts = n + 1 := ⟨el.nPts - 1, by omega⟩
  cases hr : (List.range nComp).foldlM (fun (r : Vec R) c =>
    r.subAt (sliceIdx (el.tab.nPhi * nComp) c (c + el.tab.nPhi * nComp) nComp)
      ⟨el.tab.nPhi, fun a => algebraMap K R
      (∑ i ∈ Finset.range el.nPts, el.det i * el.weights i * el.tab.val 0 i a 0 * rhs el.x c i)⟩)
    (Vec.zeros (el.tab.nPhi * nComp)) with
  | error e =>
    rw [foldlM_subAt_error _ (fun r a e h => subAt_error h) _ _ _ hr]
    rfl
  | ok r =>
    simp only [Res.bind_ok]
    obtain ⟨g, hg, h1, h2, _⟩ := gradients_spec hd 0
    rw [hn', List.range_succ_eq_map, List.foldlM_cons]
    unfold primalIntegrand
    rw [hg]
    simp only [Res.bind_ok]
    rw [matmul_error (by simpa [rowOf, Arr.lift, h1] using h)]
    rfl

/-! ### The boundary term -/

theorem foldlM_addScaled' (n : Nat) (c : Nat → R) (g : Nat → Nat → R) (l : List Nat) (r : Vec R)
    (hr : r.n = n) : ∃ r', l.foldlM (fun (r : Vec R) i => Vec.addScaled r (c i) ⟨n, g i⟩) r = .ok r' ∧
      r'.n = n ∧ ∀ a < n, r'.val a = r.val a + (l.map fun i => c i * g i a).sum :=
  foldlM_addScaled n (fun i => .ok ⟨n, g i⟩) c g l (fun i _ => ⟨_, rfl, rfl, fun _ _ => rfl⟩) r hr

theorem mixedBoundary_spec {nPts nPhi uComp dim : Nat} (weights det : Nat → K) {trace : Tab K}
    {dofs : List Nat} (normal : Nat → K) (pD : Nat → Nat → K)
    (hd : ∀ d ∈ dofs, d < trace.nPhi) (hl : dofs.length = nPhi) (hv : dim ≤ trace.nVal) :
    ∃ r, mixedBoundary nPts nPhi uComp dim weights det trace dofs normal pD =
        .ok (r, zeros2 (nPhi * uComp)) ∧ r.n = nPhi * uComp ∧
      ∀ a d, dofs[a]? = some d → ∀ c < uComp, r.val (a * uComp + c) =
        boundaryFlux nPts weights det pD
          (fun _ i => ∑ k ∈ Finset.range dim, trace.val 0 i d k * normal k) c a := by
  have hb : ∀ c, ∃ b : Vec K, (List.range nPts).foldlM (fun (b : Vec K) i =>
      Vec.addScaled b (det i * weights i * pD i c) ⟨dofs.length, fun a =>
        ∑ d ∈ Finset.range (min dim trace.nVal), trace.val 0 i (dofs.getD a 0) d * normal d⟩)
      (Vec.zeros nPhi) = .ok b ∧ b.n = nPhi ∧ ∀ a d, dofs[a]? = some d → b.val a =
        boundaryFlux nPts weights det pD
          (fun _ i => ∑ k ∈ Finset.range dim, trace.val 0 i d k * normal k) c a := by
    intro c
    obtain ⟨b, h1, h2, h3⟩ := foldlM_addScaled' dofs.length
      (fun i => det i * weights i * pD i c)
      (fun i a => ∑ d ∈ Finset.range (min dim trace.nVal), trace.val 0 i (dofs.getD a 0) d * normal d)
      (List.range nPts) (Vec.zeros nPhi) hl.symm
    refine ⟨b, h1, h2.trans hl, ?_⟩
    intro a d hda
    have hlt : a < dofs.length := by
      rcases Nat.lt_or_ge a dofs.length with h | h
      · exact h
      · rw [List.getElem?_eq_none h] at hda; cases hda
    rw [h3 a hlt, sum_map_range, boundaryFlux]
    simp only [Vec.zeros, zero_add]
    refine Finset.sum_congr rfl fun i _ => ?_
    rw [Nat.min_eq_left hv, List.getD_eq_getElem?_getD, hda, Option.getD_some]
  choose blk hblk hbn hbv using hb
  have hadd : AddsV (fun r : Vec K => (List.range uComp).foldlM (fun (r : Vec K) c => do
      let block ← (List.range nPts).foldlM (fun (b : Vec K) i =>
        Vec.addScaled b (det i * weights i * pD i c) ⟨dofs.length, fun a =>
          ∑ d ∈ Finset.range (min dim trace.nVal), trace.val 0 i (dofs.getD a 0) d * normal d⟩)
        (Vec.zeros nPhi)
      r.addAt (sliceIdx (nPhi * uComp) c (c + nPhi * uComp) uComp) block) r)
      (fun a => ((List.range uComp).map fun c =>
        if a ∈ List.range' c nPhi uComp then (blk c).val ((List.range' c nPhi uComp).idxOf a)
        else 0).sum) := by
    refine addsV_foldlM _ (fun c a => if a ∈ List.range' c nPhi uComp then
      (blk c).val ((List.range' c nPhi uComp).idxOf a) else 0) _ ?_
    intro c hc
    have hc' := List.mem_range.1 hc
    have := addsV_addAt (List.range' c nPhi uComp) (blk c) (by simp [hbn c])
    intro r
    have e := this r
    rw [hblk c]
    simp only [Res.bind_ok]
    rw [sliceIdx_comp hc']
    exact e
  refine ⟨⟨nPhi * uComp, fun a => (Vec.zeros (nPhi * uComp) : Vec K).val a +
      ((List.range uComp).map fun c =>
        if a ∈ List.range' c nPhi uComp then (blk c).val ((List.range' c nPhi uComp).idxOf a)
        else 0).sum⟩, ?_, ?_, ?_⟩
  · unfold mixedBoundary
    dsimp only
    have hany : (dofs.any fun d => decide (trace.nPhi ≤ d)) = false := by
      rw [List.any_eq_false]
      intro d hd'
      have := hd d hd'
      simpa using this
    rw [hany]
    simp only [Bool.false_eq_true, if_false]
    have e := hadd (Vec.zeros (nPhi * uComp))
    dsimp only at e
    rw [e]
    rfl
  · rfl
  · intro a d hda c hc
    have hlt : a < nPhi := by
      rcases Nat.lt_or_ge a dofs.length with h | h
      · omega
      · rw [List.getElem?_eq_none h] at hda; cases hda
    simp only [Vec.zeros, zero_add]
    rw [sum_map_range, sum_ite_single uComp c hc (fun c' => a * uComp + c ∈ List.range' c' nPhi uComp)
      (fun c' => (blk c').val ((List.range' c' nPhi uComp).idxOf (a * uComp + c)))
      (fun c' hc' => mem_comp hlt hc hc'), idxOf_comp hlt hc, hbv c a d hda]

/-! ### Dual numbers -/

theorem fst_affine (n : Nat) (m : Nat → K) (s : K) (alpha : Nat → K) :
    (∑ b ∈ Finset.range n, algebraMap K (Dual K) (m b) * adVar alpha b -
      algebraMap K (Dual K) s).fst = ∑ b ∈ Finset.range n, m b * alpha b - s := by
  rw [TrivSqZeroExt.fst_sub, TrivSqZeroExt.fst_sum, TrivSqZeroExt.algebraMap_eq_inl]
  simp [adVar]

theorem snd_affine (n : Nat) (m : Nat → K) (s : K) (alpha : Nat → K) (j : Nat) (hj : j < n) :
    (∑ b ∈ Finset.range n, algebraMap K (Dual K) (m b) * adVar alpha b -
      algebraMap K (Dual K) s).snd j = m j := by
  rw [TrivSqZeroExt.snd_sub, TrivSqZeroExt.snd_sum, TrivSqZeroExt.algebraMap_eq_inl]
  simp only [TrivSqZeroExt.inlHom_apply, TrivSqZeroExt.snd_inl, sub_zero, Finset.sum_apply]
  rw [Finset.sum_eq_single j]
  · simp [adVar]
  · intro b _ hb
    simp [adVar, Pi.single_apply, hb, Ne.symm hb]
  · intro h
    exact absurd (Finset.mem_range.2 hj) h

end Verif.Laplace
