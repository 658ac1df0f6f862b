/-
Helper lemmas for C73.
-/
import Verif.Spec.Cosserat
import Verif.Lemmas.Elasticity

namespace Verif.Cosserat
open Assembly L2Form Laplace Elasticity

variable {K X R : Type} [Field K] [CommRing R] [Algebra K R]

theorem add_ok {a b : Arr R} (h1 : a.rows = b.rows) (h2 : a.cols = b.cols) :
    add a b = .ok ⟨a.rows, a.cols, fun i j => a.val i j + b.val i j⟩ := by
  unfold add
  rw [if_neg (by simp [h1, h2])]

theorem thetaOuter_shape {m : Nat} (hm : m = 2 ∨ m = 3) (th : Nat → R) :
    (thetaOuter m th).rows = m ∧ (thetaOuter m th).cols = m := by
  rcases hm with rfl | rfl <;> exact ⟨rfl, rfl⟩

/-- The rotation tensor is linear in the rotation. -/
theorem thetaOuter_sum {m n : Nat} (hm : m = 2 ∨ m = 3) (a : Nat → R) (w : Nat → Nat → K)
    (th : Nat → R) (hth : ∀ c < spins m, th c = ∑ q ∈ Finset.range n, a q * algebraMap K R (w q c))
    {k l : Nat} (hk : k < m) (hl : l < m) :
    (thetaOuter m th).val k l = ∑ q ∈ Finset.range n, a q * algebraMap K R (axial m (w q) k l) := by
  rcases hm with rfl | rfl
  · have h0 := hth 0 (by decide)
    interval_cases k <;> interval_cases l <;> simp [thetaOuter, axial, h0]
  · have h0 := hth 0 (by decide)
    have h1 := hth 1 (by decide)
    have h2 := hth 2 (by decide)
    interval_cases k <;> interval_cases l <;> simp [thetaOuter, axial, h0, h1, h2]

/-- The stress computed by the code, for numbers. -/
def stressOf (m : Nat) (c : Coeffs K) (g : Nat → Nat → K) (k l : Nat) : K :=
  2 * c.mu * (1 / 2 * (g k l + g l k)) + 2 * c.kappa * (1 / 2 * (g k l - g l k)) +
    c.lam * (∑ q ∈ Finset.range m, g q q) * if k = l then 1 else 0

theorem stress_spec {m N : Nat} {u : Arr R} (hr : u.rows = m) (hc : u.cols = m) (c : Coeffs K)
    (alpha : Nat → R) (G : Nat → Nat → Nat → K)
    (hu : ∀ k < m, ∀ l < m, u.val k l = ∑ p ∈ Finset.range N, alpha p * algebraMap K R (G p k l)) :
    ∃ s, stress m c u = .ok s ∧ s.rows = m ∧ s.cols = m ∧
      ∀ k < m, ∀ l < m, s.val k l =
        ∑ p ∈ Finset.range N, alpha p * algebraMap K R (stressOf m c (G p) k l) := by
  unfold stress
  dsimp only
  unfold addIdentity
  rw [if_pos (by simp [hr])]
  refine ⟨_, rfl, hr, hc, ?_⟩
  intro k hk l hl
  have ht : trace u = ∑ p ∈ Finset.range N, alpha p *
      algebraMap K R (∑ q ∈ Finset.range m, G p q q) := by
    simp only [trace, hr, map_sum', Finset.mul_sum]
    rw [Finset.sum_comm]
    refine Finset.sum_congr rfl fun q hq => ?_
    rw [hu q (Finset.mem_range.1 hq) q (Finset.mem_range.1 hq)]
  have hif : ∀ p : Prop, ∀ [Decidable p], algebraMap K R (if p then 1 else 0) = if p then 1 else 0 := by
    intro p _; split <;> simp
  dsimp only
  rw [ht]
  simp only [symmetricPart, skewPart]
  rw [hu k hk l hl, hu l hl k hk, ← Finset.sum_add_distrib, ← Finset.sum_sub_distrib]
  simp only [Finset.mul_sum, Finset.sum_mul, ← Finset.sum_add_distrib]
  refine Finset.sum_congr rfl fun p _ => ?_
  simp only [stressOf, map_add, map_mul, map_sub, hif]
  ring

theorem stress_total (dim : Nat) (c : Coeffs K) (u : Arr R) :
    stress dim c u = .error .valueError ∨
    ∃ s, stress dim c u = .ok s ∧ s.rows = u.rows ∧ s.cols = u.cols := by
  unfold stress
  dsimp only
  unfold addIdentity
  split
  · exact .inr ⟨_, rfl, rfl, rfl⟩
  · split
    · exact .inr ⟨_, rfl, rfl, rfl⟩
    · exact .inl rfl

/-- The stress against a strain that is a single row. -/
theorem stressOf_row [CharZero K] {m : Nat} (hm : m = 2 ∨ m = 3) (c : Coeffs K) (g : Nat → Nat → K)
    (v : Nat → K) {r : Nat} (hr : r < m) :
    ∑ l ∈ Finset.range m, v l * stressOf m c g r l =
      power m c (fun k l => if r = k then v l else 0) g := by
  have h2 : (2 : K) ≠ 0 := two_ne_zero
  rcases hm with rfl | rfl
  · interval_cases r <;>
    · simp [power, contract, sym, skew, tr, stressOf, Finset.sum_range_succ]
      field_simp
      ring
  · interval_cases r <;>
    · simp [power, contract, sym, skew, tr, stressOf, Finset.sum_range_succ]
      field_simp
      ring

/-- `S_cross` for numbers. -/
def crossOf (m : Nat) (s : Nat → Nat → K) (c : Nat) : K :=
  if m = 2 then 1 / 2 * (s 1 0 - s 0 1) - 1 / 2 * (s 0 1 - s 1 0)
  else match c with
    | 0 => 1 / 2 * (s 2 1 - s 1 2) - 1 / 2 * (s 1 2 - s 2 1)
    | 1 => 1 / 2 * (s 0 2 - s 2 0) - 1 / 2 * (s 2 0 - s 0 2)
    | _ => 1 / 2 * (s 1 0 - s 0 1) - 1 / 2 * (s 0 1 - s 1 0)

/-- The moment of the stress is its power on the rotation tensor. -/
theorem crossOf_axial [CharZero K] {m : Nat} (hm : m = 2 ∨ m = 3) (c : Coeffs K)
    (g : Nat → Nat → K) (psi : K) {r : Nat} (hr : r < spins m) :
    psi * crossOf m (stressOf m c g) r =
      power m c (axial m fun k => if r = k then psi else 0) g := by
  have h2 : (2 : K) ≠ 0 := two_ne_zero
  rcases hm with rfl | rfl
  · have hr : r < 1 := hr
    interval_cases r
    simp [power, contract, sym, skew, tr, stressOf, crossOf, axial, Finset.sum_range_succ]
    field_simp
    ring
  · have hr : r < 3 := hr
    interval_cases r <;>
    · simp [power, contract, sym, skew, tr, stressOf, crossOf, axial, Finset.sum_range_succ]
      field_simp
      ring

theorem sCross_shape {m : Nat} (hm : m = 2 ∨ m = 3) (s : Arr R) :
    (sCross (K := K) m s).rows = 1 ∧ (sCross (K := K) m s).cols = spins m := by
  rcases hm with rfl | rfl <;> exact ⟨rfl, rfl⟩

theorem sCross_sum {m N : Nat} (hm : m = 2 ∨ m = 3) {s : Arr R} (alpha : Nat → R)
    (S : Nat → Nat → Nat → K)
    (hs : ∀ k < m, ∀ l < m, s.val k l = ∑ p ∈ Finset.range N, alpha p * algebraMap K R (S p k l))
    {c : Nat} (hc : c < spins m) :
    (sCross (K := K) m s).val 0 c =
      ∑ p ∈ Finset.range N, alpha p * algebraMap K R (crossOf m (S p) c) := by
  have key : ∀ k < m, ∀ l < m, (skewPart (K := K) s).val k l - (skewPart (K := K) s).val l k =
      ∑ p ∈ Finset.range N, alpha p *
        algebraMap K R (1 / 2 * (S p k l - S p l k) - 1 / 2 * (S p l k - S p k l)) := by
    intro k hk l hl
    simp only [skewPart]
    rw [hs k hk l hl, hs l hl k hk, ← Finset.sum_sub_distrib, ← Finset.sum_sub_distrib,
      Finset.mul_sum, Finset.mul_sum, ← Finset.sum_sub_distrib]
    refine Finset.sum_congr rfl fun p _ => ?_
    simp only [map_sub, map_mul]
    ring
  rcases hm with rfl | rfl
  · have hc : c < 1 := hc
    interval_cases c
    exact key 1 (by decide) 0 (by decide)
  · have hc : c < 3 := hc
    interval_cases c
    · exact key 2 (by decide) 1 (by decide)
    · exact key 0 (by decide) 2 (by decide)
    · exact key 1 (by decide) 0 (by decide)

/-! ### The form -/

/-- The shapes fit: two or three dimensions, derivatives in the cell's directions. -/
structure Fits (u : PElem K X) (t : Tab K) : Prop where
  shapes : Elasticity.Shapes u
  der : t.nDer = u.dim

theorem spins_eq (m : Nat) : (if m = 2 then 1 else 3) = spins m := rfl

theorem strainOf_low {m : Nat} {u : PElem K X} {t : Tab K} {i p : Nat} (h : p < u.tab.nPhi * m) :
    strainOf m u t i p = basisGrad m u i p := by
  unfold strainOf uDofs
  rw [if_pos h]

theorem strainOf_high (m : Nat) (u : PElem K X) (t : Tab K) (i q : Nat) :
    strainOf m u t i (u.tab.nPhi * m + q) =
      axial m fun c => if q % spins m = c then t.val 0 i (q / spins m) 0 else 0 := by
  unfold strainOf uDofs
  rw [if_neg (by omega), Nat.add_sub_cancel_left]

theorem curvatureOf_low {m : Nat} {u : PElem K X} {t : Tab K} {i p : Nat} (h : p < u.tab.nPhi * m)
    (c l : Nat) : curvatureOf m u t i p c l = 0 := by
  unfold curvatureOf uDofs
  rw [if_pos h]

theorem curvatureOf_high (m : Nat) (u : PElem K X) (t : Tab K) (i q c l : Nat) :
    curvatureOf m u t i (u.tab.nPhi * m + q) c l =
      basisGrad (spins m) { u with tab := t } i q c l := by
  unfold curvatureOf uDofs
  rw [if_neg (by omega), Nat.add_sub_cancel_left]

theorem contractSpin_zero_left (m : Nat) {g h : Nat → Nat → K} (hg : ∀ c l, g c l = 0) :
    contractSpin m g h = 0 :=
  Finset.sum_eq_zero fun c _ => Finset.sum_eq_zero fun l _ => by rw [hg, zero_mul]

theorem contractSpin_row {m r : Nat} (hr : r < spins m) (v : Nat → K) (h : Nat → Nat → K) :
    contractSpin m (fun c l => if r = c then v l else 0) h =
      ∑ l ∈ Finset.range m, v l * h r l := by
  unfold contractSpin
  rw [Finset.sum_eq_single r]
  · refine Finset.sum_congr rfl fun l _ => ?_
    dsimp only
    rw [if_pos rfl]
  · intro c _ hc
    refine Finset.sum_eq_zero fun l _ => ?_
    dsimp only
    rw [if_neg (Ne.symm hc), zero_mul]
  · intro hh; exact absurd (Finset.mem_range.2 hr) hh

/-- Power of the degrees of freedom `p` and `q` in the point `i`. -/
def pointPower (m : Nat) (u : PElem K X) (t : Tab K) (c : Coeffs K) (i p q : Nat) : K :=
  power m c (strainOf m u t i p) (strainOf m u t i q) +
    c.gamma * contractSpin m (curvatureOf m u t i p) (curvatureOf m u t i q)

theorem integrand_spec [CharZero K] {u : PElem K X} {t : Tab K} (h : Fits u t) (c : Coeffs K)
    (alpha : Nat → R) (i : Nat) :
    ∃ v, integrand u t u.dim (spins u.dim) c alpha i = .ok v ∧ v.n = dofs u.dim u t ∧
      ∀ p < dofs u.dim u t, v.val p = ∑ q ∈ Finset.range (dofs u.dim u t),
        algebraMap K R (pointPower u.dim u t c i p q) * alpha q := by
  have hm := h.shapes.dim
  obtain ⟨gU, hgU, h1, h2, h3⟩ := gradients_spec h.shapes.der i
  rw [h.shapes.comps] at h2
  obtain ⟨gT, hgT, t1, t2, t3⟩ := gradients_spec (el := { u with tab := t }) h.der i
  have t2 : gT.cols = u.dim := t2.trans h.shapes.comps
  have t1 : gT.rows = t.nPhi := t1
  obtain ⟨gu, hgu, u1, u2, u3⟩ := fieldGradient_spec
    (total := u.tab.nPhi * u.dim + t.nPhi * spins u.dim) (b := 0)
    (nPhi := u.tab.nPhi) (comps := u.dim) (m := u.dim) (by omega) le_rfl h1 alpha
  obtain ⟨gt, hgt, v1, v2, v3⟩ := fieldGradient_spec
    (total := u.tab.nPhi * u.dim + t.nPhi * spins u.dim) (b := u.tab.nPhi * u.dim)
    (nPhi := t.nPhi) (comps := spins u.dim) (m := spins u.dim) le_rfl le_rfl t1 alpha
  obtain ⟨th, hth, w1, w2, w3⟩ := fieldGradient_spec
    (total := u.tab.nPhi * u.dim + t.nPhi * spins u.dim) (b := u.tab.nPhi * u.dim)
    (nPhi := t.nPhi) (comps := spins u.dim) (m := spins u.dim) le_rfl le_rfl
    (g := ⟨t.nPhi, 1, fun a _ => t.val 0 i a 0⟩) rfl alpha
  obtain ⟨o1, o2⟩ := thetaOuter_shape hm (fun k => th.val k 0)
  -- the strain
  have he := add_ok (a := gu) (b := thetaOuter u.dim fun k => th.val k 0) (by rw [u1, o1])
    (by rw [u2, h2, o2])
  have hE : ∀ k < u.dim, ∀ l < u.dim,
      gu.val k l + (thetaOuter u.dim fun k => th.val k 0).val k l =
      ∑ p ∈ Finset.range (dofs u.dim u t), alpha p * algebraMap K R (strainOf u.dim u t i p k l) := by
    intro k hk l hl
    rw [u3 k hk l, thetaOuter_sum hm (fun q => alpha (u.tab.nPhi * u.dim + q))
      (fun q c => if q % spins u.dim = c then t.val 0 i (q / spins u.dim) 0 else 0) _
      (fun c hc => w3 c hc 0) hk hl, dofs, uDofs, Finset.sum_range_add]
    congr 1
    · refine Finset.sum_congr rfl fun p hp => ?_
      rw [Nat.zero_add, strainOf_low (Finset.mem_range.1 hp), h3, basisGrad]
    · refine Finset.sum_congr rfl fun q _ => ?_
      rw [strainOf_high]
  obtain ⟨s, hs, s1, s2, s3⟩ := stress_spec (m := u.dim) (N := dofs u.dim u t)
    (u := ⟨gu.rows, gu.cols, fun i j => gu.val i j + (thetaOuter u.dim fun k => th.val k 0).val i j⟩)
    u1 (u2.trans h2) c alpha (fun p => strainOf u.dim u t i p) hE
  have hcurv : ∀ k < spins u.dim, ∀ l, gt.val k l = ∑ p ∈ Finset.range (dofs u.dim u t),
      alpha p * algebraMap K R (curvatureOf u.dim u t i p k l) := by
    intro k hk l
    rw [v3 k hk l, dofs, uDofs, Finset.sum_range_add]
    have z : ∑ p ∈ Finset.range (u.tab.nPhi * u.dim),
        alpha p * algebraMap K R (curvatureOf u.dim u t i p k l) = 0 :=
      Finset.sum_eq_zero fun p hp => by
        rw [curvatureOf_low (Finset.mem_range.1 hp), map_zero, mul_zero]
    rw [z, zero_add]
    refine Finset.sum_congr rfl fun q _ => ?_
    rw [curvatureOf_high, t3, basisGrad]
  obtain ⟨x1, x2⟩ := sCross_shape (K := K) hm s
  unfold integrand
  dsimp only
  rw [gradComps_eq, h.shapes.comps, spins_eq, hgU]
  simp only [Res.bind_ok, hgT, hgu, hgt, hth, he, hs]
  rw [matmul_ok (by simp [Arr.lift, Arr.transpose, h2, s2])]
  simp only [Res.bind_ok, Arr.lift, Arr.transpose, Arr.scale, h1, s1]
  rw [if_neg (by simp)]
  simp only [Res.pure_eq]
  rw [matmul_ok (by simp [t2, v2]), matmul_ok (by simp [x1])]
  simp only [Res.bind_ok]
  rw [add_ok (by simp [t1]) (by simp [v1, x2])]
  simp only [Res.bind_ok, t1, v1]
  rw [if_neg (by simp)]
  refine ⟨_, rfl, rfl, ?_⟩
  intro p hp
  dsimp only
  by_cases hlow : p < u.tab.nPhi * u.dim
  · rw [if_pos hlow]
    obtain ⟨ha, hc⟩ := index_lt hlow
    have hk : ∀ l ∈ Finset.range gU.cols, algebraMap K R (gU.val (p / u.dim) l) * s.val (p % u.dim) l =
        ∑ q ∈ Finset.range (dofs u.dim u t), alpha q * algebraMap K R
          (gradAt u i (p / u.dim) l * stressOf u.dim c (strainOf u.dim u t i q) (p % u.dim) l) := by
      intro l hl
      rw [s3 _ hc l (by rw [← h2]; exact Finset.mem_range.1 hl), Finset.mul_sum]
      refine Finset.sum_congr rfl fun q _ => ?_
      rw [h3, map_mul]
      ring
    rw [Finset.sum_congr rfl hk, Finset.sum_comm]
    refine Finset.sum_congr rfl fun q _ => ?_
    rw [← Finset.mul_sum, ← map_sum', h2, stressOf_row hm _ _ _ hc, ← basisGrad_eq, mul_comm,
      pointPower, strainOf_low hlow, contractSpin_zero_left _ (fun c l => curvatureOf_low hlow c l),
      mul_zero, add_zero]
  · rw [if_neg hlow]
    obtain ⟨r, rfl⟩ : ∃ r, p = u.tab.nPhi * u.dim + r := ⟨p - u.tab.nPhi * u.dim, by omega⟩
    rw [Nat.add_sub_cancel_left]
    have hr : r < t.nPhi * spins u.dim := by unfold dofs uDofs at hp; omega
    obtain ⟨ha, hc⟩ := index_lt hr
    have hk : ∀ l ∈ Finset.range gT.cols, algebraMap K R (gT.val (r / spins u.dim) l) *
        (gt.val (r % spins u.dim) l * algebraMap K R c.gamma) =
        ∑ q ∈ Finset.range (dofs u.dim u t), alpha q * algebraMap K R (c.gamma *
          (gradAt { u with tab := t } i (r / spins u.dim) l *
            curvatureOf u.dim u t i q (r % spins u.dim) l)) := by
      intro l hl
      rw [hcurv _ hc l, Finset.sum_mul, Finset.mul_sum]
      refine Finset.sum_congr rfl fun q _ => ?_
      rw [t3, map_mul, map_mul]
      ring
    rw [Finset.sum_congr rfl hk, Finset.sum_comm, Finset.sum_range_one,
      sCross_sum hm alpha _ s3 hc, Finset.mul_sum, ← Finset.sum_add_distrib]
    refine Finset.sum_congr rfl fun q _ => ?_
    have hb : (curvatureOf u.dim u t i (u.tab.nPhi * u.dim + r)) = fun k l =>
        if r % spins u.dim = k then gradAt { u with tab := t } i (r / spins u.dim) l else 0 := by
      funext k l
      rw [curvatureOf_high, basisGrad]
    rw [← Finset.mul_sum, ← map_sum', ← Finset.mul_sum, t2, pointPower, hb, contractSpin_row hc,
      strainOf_high, ← crossOf_axial hm c _ _ hc, map_add, map_mul _ (t.val 0 i _ 0)]
    ring

/-- A name for a result. -/
theorem named {α : Type} {x : Res α} {v : α} (h : x = .ok v) : ∃ r, x = .ok r ∧ r = v := ⟨v, h, rfl⟩

theorem form_spec [CharZero K] {u : PElem K X} {t : Tab K} (h : Fits u t)
    (rhs : X → Nat → Nat → K) (c : X → Nat → Coeffs K) (alpha : Nat → R) :
    ∃ r, form u t u.dim (spins u.dim) rhs c alpha = .ok r ∧ r.n = dofs u.dim u t ∧
      ∀ p < dofs u.dim u t, r.val p = ∑ q ∈ Finset.range (dofs u.dim u t),
          algebraMap K R (cosseratMatrix u.dim u t c p q) * alpha q +
        algebraMap K R (load u.dim u t rhs p) := by
  have l1 := loads_adds (R := R) (total := u.tab.nPhi * u.dim + t.nPhi * spins u.dim) (b := 0)
    (nPhi := u.tab.nPhi) (comps := u.dim) (by omega)
    (fun c a => algebraMap K R (∑ i ∈ Finset.range u.nPts,
      u.det i * u.weights i * u.tab.val 0 i a 0 * rhs u.x c i))
    (Vec.zeros (u.tab.nPhi * u.dim + t.nPhi * spins u.dim))
  simp only [Nat.add_zero] at l1
  have l2 := loads_adds (R := R) (total := u.tab.nPhi * u.dim + t.nPhi * spins u.dim)
    (b := u.tab.nPhi * u.dim) (nPhi := t.nPhi) (comps := spins u.dim) le_rfl
    (fun c a => algebraMap K R (∑ i ∈ Finset.range u.nPts,
      u.det i * u.weights i * t.val 0 i a 0 * rhs u.x (c + u.dim) i))
  unfold AddsV at l2
  dsimp only at l1 l2
  obtain ⟨r1, e1, d1⟩ := named l1
  obtain ⟨r2, e2, d2⟩ := named (l2 r1)
  have n1 : r1.n = u.tab.nPhi * u.dim + t.nPhi * spins u.dim := by rw [d1]; rfl
  have n2 : r2.n = r1.n := by rw [d2]
  unfold form
  dsimp only
  rw [e1]
  simp only [Res.bind_ok]
  rw [e2]
  simp only [Res.bind_ok]
  obtain ⟨r, hr, hn, hv⟩ := quadrature_affine (R := R) (dofs u.dim u t) (dofs u.dim u t)
    u.nPts (fun i => u.det i * u.weights i)
    (fun i => integrand u t u.dim (spins u.dim) (c u.x i) alpha i)
    (fun i p q => pointPower u.dim u t (c u.x i) i p q) (fun _ _ => 0) alpha
    (fun i _ => by
      obtain ⟨v, h1, h2, h3⟩ := integrand_spec h (c u.x i) alpha i
      exact ⟨v, h1, h2, fun a ha => by rw [h3 a ha, map_zero, add_zero]⟩)
    r2 (n2.trans n1)
  refine ⟨r, hr, hn, ?_⟩
  intro p hp
  rw [hv p hp, d2, d1]
  simp only [mul_zero, Finset.sum_const_zero, map_zero, add_zero]
  rw [add_comm]
  congr 1
  simp only [Vec.zeros, zero_add, Nat.zero_le, true_and, Nat.sub_zero]
  unfold load bodyLoad
  have hp' : p < u.tab.nPhi * u.dim + t.nPhi * spins u.dim := hp
  by_cases hlow : p < u.tab.nPhi * u.dim
  · rw [if_pos hlow, if_neg (by omega), add_zero, if_pos (by exact hlow)]
  · rw [if_neg hlow, if_pos ⟨by omega, hp'⟩, zero_add, if_neg (by exact hlow)]
    rfl

/-! ### Linearity -/

theorem power_comm (m : Nat) (c : Coeffs K) (g h : Nat → Nat → K) : power m c g h = power m c h g := by
  unfold power
  rw [contract_comm, contract_comm m (skew g), mul_comm (tr m g)]

theorem contractSpin_comm (m : Nat) (g h : Nat → Nat → K) :
    contractSpin m g h = contractSpin m h g :=
  Finset.sum_congr rfl fun _ _ => Finset.sum_congr rfl fun _ _ => mul_comm _ _

theorem pointPower_comm (m : Nat) (u : PElem K X) (t : Tab K) (c : Coeffs K) (i p q : Nat) :
    pointPower m u t c i p q = pointPower m u t c i q p := by
  unfold pointPower
  rw [power_comm, contractSpin_comm]

theorem contract_sum (m : Nat) (g : Nat → Nat → K) (N : Nat) (v : Nat → K)
    (H : Nat → Nat → Nat → K) :
    contract m g (fun k l => ∑ p ∈ Finset.range N, v p * H p k l) =
      ∑ p ∈ Finset.range N, v p * contract m g (H p) := by
  unfold contract
  simp only [Finset.mul_sum]
  conv_rhs => rw [Finset.sum_comm]
  refine Finset.sum_congr rfl fun k _ => ?_
  rw [Finset.sum_comm]
  refine Finset.sum_congr rfl fun p _ => Finset.sum_congr rfl fun l _ => ?_
  ring

theorem contractSpin_sum (m : Nat) (g : Nat → Nat → K) (N : Nat) (v : Nat → K)
    (H : Nat → Nat → Nat → K) :
    contractSpin m g (fun k l => ∑ p ∈ Finset.range N, v p * H p k l) =
      ∑ p ∈ Finset.range N, v p * contractSpin m g (H p) := by
  unfold contractSpin
  simp only [Finset.mul_sum]
  conv_rhs => rw [Finset.sum_comm]
  refine Finset.sum_congr rfl fun k _ => ?_
  rw [Finset.sum_comm]
  refine Finset.sum_congr rfl fun p _ => Finset.sum_congr rfl fun l _ => ?_
  ring

theorem power_sum (m : Nat) (c : Coeffs K) (g : Nat → Nat → K) (N : Nat) (v : Nat → K)
    (H : Nat → Nat → Nat → K) :
    power m c g (fun k l => ∑ p ∈ Finset.range N, v p * H p k l) =
      ∑ p ∈ Finset.range N, v p * power m c g (H p) := by
  have hs : (sym fun k l => ∑ p ∈ Finset.range N, v p * H p k l) =
      fun k l => ∑ p ∈ Finset.range N, v p * sym (H p) k l := by
    funext k l
    unfold sym
    rw [← Finset.sum_add_distrib, Finset.sum_div]
    refine Finset.sum_congr rfl fun p _ => ?_
    ring
  have hk : (skew fun k l => ∑ p ∈ Finset.range N, v p * H p k l) =
      fun k l => ∑ p ∈ Finset.range N, v p * skew (H p) k l := by
    funext k l
    unfold skew
    rw [← Finset.sum_sub_distrib, Finset.sum_div]
    refine Finset.sum_congr rfl fun p _ => ?_
    ring
  have ht : tr m (fun k l => ∑ p ∈ Finset.range N, v p * H p k l) =
      ∑ p ∈ Finset.range N, v p * tr m (H p) := by
    unfold tr
    simp only [Finset.mul_sum]
    rw [Finset.sum_comm]
  unfold power
  rw [hs, hk, ht, contract_sum, contract_sum]
  simp only [Finset.mul_sum, ← Finset.sum_add_distrib]
  refine Finset.sum_congr rfl fun p _ => ?_
  ring

/-- The matrix applied to a field. -/
theorem cosseratMatrix_mul (m : Nat) (u : PElem K X) (t : Tab K) (c : X → Nat → Coeffs K)
    (v : Nat → K) (p : Nat) :
    ∑ q ∈ Finset.range (dofs m u t), cosseratMatrix m u t c p q * v q =
      ∑ i ∈ Finset.range u.nPts, u.det i * u.weights i *
        (power m (c u.x i) (strainOf m u t i p) (fieldStrain m u t v i) +
          (c u.x i).gamma * contractSpin m (curvatureOf m u t i p) (fieldCurvature m u t v i)) := by
  have e1 : ∀ i, power m (c u.x i) (strainOf m u t i p) (fieldStrain m u t v i) =
      ∑ q ∈ Finset.range (dofs m u t), v q *
        power m (c u.x i) (strainOf m u t i p) (strainOf m u t i q) := fun i => power_sum ..
  have e2 : ∀ i, contractSpin m (curvatureOf m u t i p) (fieldCurvature m u t v i) =
      ∑ q ∈ Finset.range (dofs m u t), v q *
        contractSpin m (curvatureOf m u t i p) (curvatureOf m u t i q) := fun i => contractSpin_sum ..
  simp only [e1, e2, cosseratMatrix, Finset.sum_mul, Finset.mul_sum, ← Finset.sum_add_distrib]
  rw [Finset.sum_comm]
  refine Finset.sum_congr rfl fun i _ => Finset.sum_congr rfl fun q _ => ?_
  ring

/-- The quadratic form of the matrix. -/
theorem cosseratMatrix_energy (m : Nat) (u : PElem K X) (t : Tab K) (c : X → Nat → Coeffs K)
    (v : Nat → K) :
    ∑ p ∈ Finset.range (dofs m u t), ∑ q ∈ Finset.range (dofs m u t),
        v p * cosseratMatrix m u t c p q * v q =
      ∑ i ∈ Finset.range u.nPts, u.det i * u.weights i *
        (power m (c u.x i) (fieldStrain m u t v i) (fieldStrain m u t v i) +
          (c u.x i).gamma * contractSpin m (fieldCurvature m u t v i) (fieldCurvature m u t v i)) := by
  have e1 : ∀ i g, power m (c u.x i) (fieldStrain m u t v i) g =
      ∑ p ∈ Finset.range (dofs m u t), v p * power m (c u.x i) (strainOf m u t i p) g := by
    intro i g
    rw [power_comm]
    refine (power_sum ..).trans ?_
    exact Finset.sum_congr rfl fun p _ => by rw [power_comm]
  have e2 : ∀ i g, contractSpin m (fieldCurvature m u t v i) g =
      ∑ p ∈ Finset.range (dofs m u t), v p * contractSpin m (curvatureOf m u t i p) g := by
    intro i g
    rw [contractSpin_comm]
    refine (contractSpin_sum ..).trans ?_
    exact Finset.sum_congr rfl fun p _ => by rw [contractSpin_comm]
  have e3 : ∀ p, ∑ q ∈ Finset.range (dofs m u t), v p * cosseratMatrix m u t c p q * v q =
      v p * ∑ q ∈ Finset.range (dofs m u t), cosseratMatrix m u t c p q * v q := by
    intro p
    rw [Finset.mul_sum]
    exact Finset.sum_congr rfl fun q _ => by ring
  simp only [e3, cosseratMatrix_mul]
  simp only [Finset.mul_sum]
  rw [Finset.sum_comm]
  refine Finset.sum_congr rfl fun i _ => ?_
  rw [e1 i (fieldStrain m u t v i), e2 i (fieldCurvature m u t v i), Finset.mul_sum,
    ← Finset.sum_add_distrib, Finset.mul_sum]
  refine Finset.sum_congr rfl fun q _ => ?_
  ring

theorem power_zero {m : Nat} (c : Coeffs K) (g : Nat → Nat → K) {h : Nat → Nat → K}
    (hh : ∀ k < m, ∀ l < m, h k l = 0) : power m c g h = 0 := by
  have h1 : contract m (sym g) (sym h) = 0 :=
    Finset.sum_eq_zero fun k hk => Finset.sum_eq_zero fun l hl => by
      rw [sym, sym, hh k (Finset.mem_range.1 hk) l (Finset.mem_range.1 hl),
        hh l (Finset.mem_range.1 hl) k (Finset.mem_range.1 hk), add_zero, zero_div, mul_zero]
  have h2 : contract m (skew g) (skew h) = 0 :=
    Finset.sum_eq_zero fun k hk => Finset.sum_eq_zero fun l hl => by
      rw [skew, skew, hh k (Finset.mem_range.1 hk) l (Finset.mem_range.1 hl),
        hh l (Finset.mem_range.1 hl) k (Finset.mem_range.1 hk), sub_zero, zero_div, mul_zero]
  have h3 : tr m h = 0 :=
    Finset.sum_eq_zero fun k hk => hh k (Finset.mem_range.1 hk) k (Finset.mem_range.1 hk)
  rw [power, h1, h2, h3]
  ring

/-- The rotation tensor of a sum. -/
theorem axial_sum {m : Nat} (n : Nat) (v : Nat → K) (w : Nat → Nat → K) (k l : Nat) :
    ∑ q ∈ Finset.range n, v q * axial m (w q) k l =
      axial m (fun c => ∑ q ∈ Finset.range n, v q * w q c) k l := by
  unfold axial
  split_ifs <;> simp

/-- Displacement and rotation parts of the strain of a field. -/
theorem fieldStrain_eq {m : Nat} (hm : 0 < m) (u : PElem K X) (t : Tab K) (v : Nat → K) (i : Nat)
    {k : Nat} (hk : k < m) (l : Nat) :
    fieldStrain m u t v i k l = fieldGrad m u v i k l + axial m (fun c => if c < spins m then
      ∑ a ∈ Finset.range t.nPhi, v (u.tab.nPhi * m + (a * spins m + c)) * t.val 0 i a 0 else 0) k l := by
  unfold fieldStrain dofs uDofs
  rw [Finset.sum_range_add, fieldGrad_eq u v i hk l]
  congr 1
  · refine Finset.sum_congr rfl fun p hp => ?_
    rw [strainOf_low (Finset.mem_range.1 hp)]
  · simp only [strainOf_high]
    rw [axial_sum]
    congr 1
    funext c
    by_cases hc : c < spins m
    · rw [if_pos hc]
      exact sum_comp hc (fun q => v (u.tab.nPhi * m + q)) (fun a => t.val 0 i a 0)
    · rw [if_neg hc]
      refine Finset.sum_eq_zero fun q hq => ?_
      rw [if_neg, mul_zero]
      have := (index_lt (Finset.mem_range.1 hq)).2
      omega

theorem fieldCurvature_eq {m : Nat} (u : PElem K X) (t : Tab K) (v : Nat → K) (i : Nat)
    {c : Nat} (hc : c < spins m) (l : Nat) :
    fieldCurvature m u t v i c l = ∑ a ∈ Finset.range t.nPhi,
      v (u.tab.nPhi * m + (a * spins m + c)) * gradAt { u with tab := t } i a l := by
  unfold fieldCurvature dofs uDofs
  rw [Finset.sum_range_add]
  have z : ∑ p ∈ Finset.range (u.tab.nPhi * m), v p * curvatureOf m u t i p c l = 0 :=
    Finset.sum_eq_zero fun p hp => by rw [curvatureOf_low (Finset.mem_range.1 hp), mul_zero]
  rw [z, zero_add]
  simp only [curvatureOf_high, basisGrad]
  exact sum_comp hc (fun q => v (u.tab.nPhi * m + q)) (fun a => gradAt { u with tab := t } i a l)

theorem contract_self_nonneg {K : Type} [Field K] [LinearOrder K] [IsStrictOrderedRing K] (m : Nat)
    (g : Nat → Nat → K) : 0 ≤ contract m g g :=
  Finset.sum_nonneg fun _ _ => Finset.sum_nonneg fun _ _ => mul_self_nonneg _

theorem contractSpin_self_nonneg {K : Type} [Field K] [LinearOrder K] [IsStrictOrderedRing K]
    (m : Nat) (g : Nat → Nat → K) : 0 ≤ contractSpin m g g :=
  Finset.sum_nonneg fun _ _ => Finset.sum_nonneg fun _ _ => mul_self_nonneg _

theorem contract_eq_zero {K : Type} [Field K] [LinearOrder K] [IsStrictOrderedRing K] {m : Nat}
    {g : Nat → Nat → K} (h : contract m g g = 0) : ∀ k < m, ∀ l < m, g k l = 0 := by
  intro k hk l hl
  have h1 := (Finset.sum_eq_zero_iff_of_nonneg
    (fun k _ => Finset.sum_nonneg fun l _ => mul_self_nonneg _)).1 h k (Finset.mem_range.2 hk)
  have h2 := (Finset.sum_eq_zero_iff_of_nonneg (fun l _ => mul_self_nonneg _)).1 h1 l
    (Finset.mem_range.2 hl)
  exact mul_self_eq_zero.1 h2

theorem contractSpin_eq_zero {K : Type} [Field K] [LinearOrder K] [IsStrictOrderedRing K] {m : Nat}
    {g : Nat → Nat → K} (h : contractSpin m g g = 0) : ∀ c < spins m, ∀ l < m, g c l = 0 := by
  intro k hk l hl
  have h1 := (Finset.sum_eq_zero_iff_of_nonneg
    (fun k _ => Finset.sum_nonneg fun l _ => mul_self_nonneg _)).1 h k (Finset.mem_range.2 hk)
  have h2 := (Finset.sum_eq_zero_iff_of_nonneg (fun l _ => mul_self_nonneg _)).1 h1 l
    (Finset.mem_range.2 hl)
  exact mul_self_eq_zero.1 h2

theorem power_eq {m : Nat} (c : Coeffs K) (g h : Nat → Nat → K) :
    power m c g h = elasticPower m c.mu c.lam g h + 2 * c.kappa * contract m (skew g) (skew h) := by
  unfold power elasticPower
  ring

/-! ### Boundary blocks -/

/-- Blocks of one field: every component adds the same matrix to itself. -/
theorem fieldBlocks_spec {total b nPhi comps : Nat} (h : b + nPhi * comps ≤ total)
    (res : Nat → Nat → K) (jac : Nat → Nat → K) (r : Vec K) (j : Mat K) :
    ∃ r' j', fieldBlocks total b nPhi comps res jac (r, j) = .ok (r', j') ∧ r'.n = r.n ∧ j'.n = j.n ∧
      (∀ p, r'.val p = r.val p + if b ≤ p ∧ p < b + nPhi * comps then
        res ((p - b) % comps) ((p - b) / comps) else 0) ∧
      ∀ p q, j'.val p q = j.val p q + if (b ≤ p ∧ p < b + nPhi * comps) ∧
          (b ≤ q ∧ q < b + nPhi * comps) ∧ (p - b) % comps = (q - b) % comps then
        jac ((p - b) / comps) ((q - b) / comps) else 0 := by
  have hs : ∀ c < comps, sliceIdx total (c + b) (c + b + nPhi * comps) comps =
      List.range' (c + b) nPhi comps := by
    intro c hc
    rw [← sliceIdx_field h hc]
    congr 1
    omega
  have hstep : ∀ l : List Nat, (∀ c ∈ l, c < comps) → ∀ (r : Vec K) (j : Mat K),
      l.foldlM (fun (st : Vec K × Mat K) c => do
        let idx := sliceIdx total (c + b) (c + b + nPhi * comps) comps
        let r ← st.1.addAt idx ⟨nPhi, res c⟩
        let j ← addBlock st.2 idx ⟨nPhi, jac⟩
        pure (r, j)) (r, j) = .ok
        (⟨r.n, fun p => r.val p + (l.map fun c => if p ∈ List.range' (c + b) nPhi comps then
            res c ((List.range' (c + b) nPhi comps).idxOf p) else 0).sum⟩,
         ⟨j.n, fun p q => j.val p q + (l.map fun c => if p ∈ List.range' (c + b) nPhi comps ∧
            q ∈ List.range' (c + b) nPhi comps then jac ((List.range' (c + b) nPhi comps).idxOf p)
              ((List.range' (c + b) nPhi comps).idxOf q) else 0).sum⟩) := by
    intro l
    induction l with
    | nil => intro _ r j; simp [Res.pure_eq]
    | cons c l ih =>
      intro hl r j
      rw [List.foldlM_cons]
      dsimp only
      have e1 := addsV_addAt (List.range' (c + b) nPhi comps) ⟨nPhi, res c⟩ (by simp) r
      have e2 := addsM_addBlock (List.range' (c + b) nPhi comps) ⟨nPhi, jac⟩ (by simp) j
      dsimp only at e1 e2
      rw [hs c (hl c (by simp)), e1]
      simp only [Res.bind_ok]
      rw [e2]
      refine (ih (fun c hc => hl c (by simp [hc])) _ _).trans ?_
      simp only [List.map_cons, List.sum_cons, add_assoc]
  refine ⟨_, _, hstep (List.range comps) (fun c hc => List.mem_range.1 hc) r j, rfl, rfl, ?_, ?_⟩
  · intro p
    dsimp only
    congr 1
    have hc : ∀ c ∈ Finset.range comps, (if p ∈ List.range' (c + b) nPhi comps then
        res c ((List.range' (c + b) nPhi comps).idxOf p) else 0) =
        if (b ≤ p ∧ p < b + nPhi * comps) ∧ (p - b) % comps = c then
          res ((p - b) % comps) ((p - b) / comps) else 0 := by
      intro c hc
      have hm := mem_field (b := b) (nPhi := nPhi) (p := p) (Finset.mem_range.1 hc)
      by_cases hp : p ∈ List.range' (c + b) nPhi comps
      · obtain ⟨h1, h2, h3⟩ := hm.1 hp
        rw [if_pos hp, if_pos ⟨⟨h1, h2⟩, h3⟩]
        subst h3
        rw [idxOf_field h1 h2]
      · rw [if_neg hp, if_neg (fun hh => hp (hm.2 ⟨hh.1.1, hh.1.2, hh.2⟩))]
    rw [sum_map_range, Finset.sum_congr rfl hc]
    by_cases hp : b ≤ p ∧ p < b + nPhi * comps
    · simp only [hp, true_and, and_self, if_true]
      have h4 : p - b < nPhi * comps := by omega
      rw [Finset.sum_ite_eq, if_pos (Finset.mem_range.2 (index_lt h4).2)]
    · simp only [hp, false_and, if_false, Finset.sum_const_zero]
  · intro p q
    dsimp only
    congr 1
    have hc : ∀ c ∈ Finset.range comps, (if p ∈ List.range' (c + b) nPhi comps ∧
        q ∈ List.range' (c + b) nPhi comps then jac ((List.range' (c + b) nPhi comps).idxOf p)
          ((List.range' (c + b) nPhi comps).idxOf q) else 0) =
        if (p - b) % comps = c then (if (b ≤ p ∧ p < b + nPhi * comps) ∧
          (b ≤ q ∧ q < b + nPhi * comps) ∧ (p - b) % comps = (q - b) % comps then
          jac ((p - b) / comps) ((q - b) / comps) else 0) else 0 := by
      intro c hc
      have hm := mem_field (b := b) (nPhi := nPhi) (p := p) (Finset.mem_range.1 hc)
      have hm' := mem_field (b := b) (nPhi := nPhi) (p := q) (Finset.mem_range.1 hc)
      by_cases hp : p ∈ List.range' (c + b) nPhi comps
      · obtain ⟨h1, h2, h3⟩ := hm.1 hp
        rw [if_pos h3]
        by_cases hq : q ∈ List.range' (c + b) nPhi comps
        · obtain ⟨k1, k2, k3⟩ := hm'.1 hq
          rw [if_pos ⟨hp, hq⟩, if_pos ⟨⟨h1, h2⟩, ⟨k1, k2⟩, h3.trans k3.symm⟩]
          have e1 := idxOf_field h1 h2
          have e2 := idxOf_field k1 k2
          rw [h3] at e1
          rw [k3] at e2
          rw [e1, e2]
        · rw [if_neg (fun hh => hq hh.2), if_neg]
          rintro ⟨_, ⟨k1, k2⟩, k3⟩
          exact hq (hm'.2 ⟨k1, k2, k3.symm.trans h3⟩)
      · rw [if_neg (fun hh => hp hh.1)]
        split
        · rename_i h3
          rw [if_neg]
          rintro ⟨⟨h1, h2⟩, _⟩
          exact hp (hm.2 ⟨h1, h2, h3⟩)
        · rfl
    rw [sum_map_range, Finset.sum_congr rfl hc, Finset.sum_ite_eq]
    by_cases hp : b ≤ p ∧ p < b + nPhi * comps
    · have h4 : p - b < nPhi * comps := by omega
      rw [if_pos (Finset.mem_range.2 (index_lt h4).2)]
    · simp only [hp, false_and, if_false, ite_self]

/-! ### Errors -/

theorem integrand_error {u : PElem K X} {t : Tab K} (hd : u.tab.nDer = u.dim) (ht : t.nDer = u.dim)
    {uComp tComp : Nat} (hc : uComp ≠ gradComps u ∨ tComp ≠ spins u.dim) (hp : 0 < u.tab.nPhi)
    (hq : 0 < t.nPhi) (c : Coeffs K) (alpha : Nat → R) (i : Nat) :
    integrand u t uComp tComp c alpha i = .error .valueError := by
  have hm : gradComps u = 2 ∨ gradComps u = 3 := by unfold gradComps; split <;> simp
  have hsp : spins u.dim = spins (gradComps u) := by
    unfold gradComps spins
    split <;> rfl
  obtain ⟨gU, hgU, h1, h2, h3⟩ := gradients_spec hd i
  obtain ⟨gT, hgT, t1, t2, t3⟩ := gradients_spec (el := { u with tab := t }) ht i
  have t2 : gT.cols = gradComps u := t2
  have t1 : gT.rows = t.nPhi := t1
  unfold integrand
  dsimp only
  rw [gradComps_eq, spins_eq, hgU]
  simp only [Res.bind_ok, hgT]
  rcases fieldGradient_total (u.tab.nPhi * uComp + t.nPhi * tComp) 0 (u.tab.nPhi * uComp) uComp
    (gradComps u) gU alpha with e | ⟨gu, e, u1, u2⟩
  · rw [e]; rfl
  rw [e]
  simp only [Res.bind_ok]
  rcases fieldGradient_total (u.tab.nPhi * uComp + t.nPhi * tComp) (u.tab.nPhi * uComp)
    (t.nPhi * tComp) tComp (spins u.dim) gT alpha with e | ⟨gt, e, v1, v2⟩
  · rw [e]; rfl
  rw [e]
  simp only [Res.bind_ok]
  rcases fieldGradient_total (u.tab.nPhi * uComp + t.nPhi * tComp) (u.tab.nPhi * uComp)
    (t.nPhi * tComp) tComp (spins u.dim) (⟨t.nPhi, 1, fun a _ => t.val 0 i a 0⟩ : Arr K) alpha
    with e | ⟨th, e, w1, w2⟩
  · rw [e]; rfl
  rw [e]
  simp only [Res.bind_ok]
  obtain ⟨o1, o2⟩ := thetaOuter_shape hm (fun k => th.val k 0)
  rw [add_ok (by rw [u1, o1]) (by rw [u2, h2, o2])]
  simp only [Res.bind_ok]
  rcases stress_total u.dim c (⟨gu.rows, gu.cols, fun i j => gu.val i j +
    (thetaOuter (gradComps u) fun k => th.val k 0).val i j⟩ : Arr R) with e | ⟨s, e, s1, s2⟩
  · rw [e]; rfl
  rw [e]
  simp only [Res.bind_ok]
  simp only at s1 s2
  rw [matmul_ok (by simp [Arr.lift, Arr.transpose, h2, s2, u2])]
  simp only [Res.bind_ok, Arr.lift, Arr.transpose, Arr.scale, h1, s1, u1]
  by_cases hu : uComp = gradComps u
  · rw [if_neg (by rw [hu]; simp)]
    simp only [Res.pure_eq]
    obtain ⟨x1, x2⟩ := sCross_shape (K := K) hm s
    rw [matmul_ok (by simp [t2, v2]), matmul_ok (by simp [x1])]
    simp only [Res.bind_ok]
    rw [add_ok (by simp [t1]) (by simp [v1, x2, hsp])]
    simp only [Res.bind_ok, t1, v1]
    rw [if_pos]
    · rfl
    · intro hh
      exact (hc.resolve_left (not_not_intro hu)) (Nat.eq_of_mul_eq_mul_left hq hh).symm
  · rw [if_pos]
    · rfl
    · intro hh
      exact hu (Nat.eq_of_mul_eq_mul_left hp hh).symm

theorem form_error {u : PElem K X} {t : Tab K} (hd : u.tab.nDer = u.dim) (ht : t.nDer = u.dim)
    {uComp tComp : Nat} (hc : uComp ≠ gradComps u ∨ tComp ≠ spins u.dim) (hp : 0 < u.tab.nPhi)
    (hq : 0 < t.nPhi) (hn : 0 < u.nPts) (rhs : X → Nat → Nat → K) (c : X → Nat → Coeffs K)
    (alpha : Nat → R) : form u t uComp tComp rhs c alpha = .error .valueError := by
  unfold form
  dsimp only
  cases hr : (List.range uComp).foldlM (fun (r : Vec R) c =>
      r.addAt (sliceIdx (u.tab.nPhi * uComp + t.nPhi * tComp) c (c + u.tab.nPhi * uComp) uComp)
        ⟨u.tab.nPhi, fun a => algebraMap K R (∑ i ∈ Finset.range u.nPts,
          u.det i * u.weights i * u.tab.val 0 i a 0 * rhs u.x c i)⟩)
      (Vec.zeros (u.tab.nPhi * uComp + t.nPhi * tComp)) with
  | error e =>
    rw [foldlM_subAt_error _ (fun r a e he => addAt_error he) _ _ _ hr]
    rfl
  | ok r =>
    simp only [Res.bind_ok]
    cases hr2 : (List.range tComp).foldlM (fun (r : Vec R) c =>
        r.addAt (sliceIdx (u.tab.nPhi * uComp + t.nPhi * tComp) (c + u.tab.nPhi * uComp)
          (c + u.tab.nPhi * uComp + t.nPhi * tComp) tComp)
          ⟨t.nPhi, fun a => algebraMap K R (∑ i ∈ Finset.range u.nPts,
            u.det i * u.weights i * t.val 0 i a 0 * rhs u.x (c + uComp) i)⟩) r with
    | error e =>
      rw [foldlM_subAt_error _ (fun r a e he => addAt_error he) _ _ _ hr2]
      rfl
    | ok r =>
      simp only [Res.bind_ok]
      obtain ⟨m, hm⟩ := Nat.exists_eq_succ_of_ne_zero (Nat.pos_iff_ne_zero.1 hn)
      rw [hm, List.range_succ_eq_map, List.foldlM_cons, integrand_error hd ht hc hp hq]
      rfl

end Verif.Cosserat
