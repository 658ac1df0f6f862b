/-
Helper lemmas for C78 to C81.
-/
import Verif.Spec.Dual
import Verif.Lemmas.Cosserat
import Verif.Lemmas.TaylorHood
import Verif.Lemmas.Degenerate

namespace Verif.Dual
open Assembly L2Form Laplace Elasticity Cosserat

variable {K X R : Type} [Field K] [CommRing R] [Algebra K R]

/-! ### Linear expressions in `alpha` -/

/-- `x` is the linear form with the coefficients `f`. -/
def Lin (N : Nat) (alpha : Nat → R) (x : R) (f : Nat → K) : Prop :=
  x = ∑ q ∈ Finset.range N, alpha q * algebraMap K R (f q)

section
variable {N : Nat} {alpha : Nat → R} {x y : R} {f g : Nat → K}

theorem Lin.add (h : Lin N alpha x f) (h' : Lin N alpha y g) :
    Lin N alpha (x + y) fun q => f q + g q := by
  unfold Lin at *
  rw [h, h', ← Finset.sum_add_distrib]
  exact Finset.sum_congr rfl fun q _ => by rw [map_add, mul_add]

theorem Lin.sub (h : Lin N alpha x f) (h' : Lin N alpha y g) :
    Lin N alpha (x - y) fun q => f q - g q := by
  unfold Lin at *
  rw [h, h', ← Finset.sum_sub_distrib]
  exact Finset.sum_congr rfl fun q _ => by rw [map_sub, mul_sub]

theorem Lin.neg (h : Lin N alpha x f) : Lin N alpha (-x) fun q => - f q := by
  unfold Lin at *
  rw [h, ← Finset.sum_neg_distrib]
  exact Finset.sum_congr rfl fun q _ => by rw [map_neg, mul_neg]

theorem Lin.zero : Lin N alpha (0 : R) fun _ => (0 : K) := by
  unfold Lin
  simp

theorem Lin.smul (h : Lin N alpha x f) (c : K) :
    Lin N alpha (algebraMap K R c * x) fun q => c * f q := by
  unfold Lin at *
  rw [h, Finset.mul_sum]
  exact Finset.sum_congr rfl fun q _ => by rw [map_mul]; ring

theorem Lin.mulRight (h : Lin N alpha x f) (c : K) :
    Lin N alpha (x * algebraMap K R c) fun q => f q * c := by
  unfold Lin at *
  rw [h, Finset.sum_mul]
  exact Finset.sum_congr rfl fun q _ => by rw [map_mul]; ring

theorem Lin.sum {s : Finset Nat} {x : Nat → R} {f : Nat → Nat → K}
    (h : ∀ k ∈ s, Lin N alpha (x k) fun q => f q k) :
    Lin N alpha (∑ k ∈ s, x k) fun q => ∑ k ∈ s, f q k := by
  unfold Lin at *
  rw [Finset.sum_congr rfl h, Finset.sum_comm]
  exact Finset.sum_congr rfl fun q _ => by rw [map_sum', Finset.mul_sum]

theorem Lin.congr (h : Lin N alpha x f) (e : ∀ q < N, f q = g q) : Lin N alpha x g := by
  unfold Lin at *
  rw [h]
  exact Finset.sum_congr rfl fun q hq => by rw [e q (Finset.mem_range.1 hq)]

theorem Lin.ite (h : Lin N alpha x f) (p : Prop) [Decidable p] :
    Lin N alpha (x * if p then 1 else 0) fun q => f q * if p then 1 else 0 := by
  by_cases hp : p
  · simpa only [hp, if_true, mul_one] using h
  · simp only [hp, if_false, mul_zero]
    exact Lin.zero

end

/-! ### Components of the degrees of freedom -/

theorem comp_out {b nPhi comps : Nat} {f : Nat → K} {p k : Nat}
    (h : p < b ∨ b + nPhi * comps ≤ p) : comp b nPhi comps f p k = 0 := by
  unfold comp
  rw [if_neg (by omega)]

theorem comp_in {b nPhi comps : Nat} {f : Nat → K} {p k : Nat} (h : b ≤ p)
    (h' : p < b + nPhi * comps) :
    comp b nPhi comps f p k = if (p - b) % comps = k then f ((p - b) / comps) else 0 := by
  unfold comp
  simp only [h, h', true_and]

theorem field_lin {total b nPhi comps m : Nat} (hb : b + nPhi * comps ≤ total) (hm : m ≤ comps)
    {g : Arr K} (hg : g.rows = nPhi) (alpha : Nat → R) :
    ∃ u, fieldGradient total b (nPhi * comps) comps m g alpha = .ok u ∧ u.rows = m ∧
      u.cols = g.cols ∧ ∀ k < m, ∀ l, Lin total alpha (u.val k l)
        fun p => comp b nPhi comps (fun a => g.val a l) p k := by
  obtain ⟨u, h1, h2, h3, h4⟩ := fieldGradient_spec hb hm hg alpha
  refine ⟨u, h1, h2, h3, ?_⟩
  intro k hk l
  unfold Lin
  obtain ⟨r, rfl⟩ : ∃ r, total = b + nPhi * comps + r := ⟨total - (b + nPhi * comps), by omega⟩
  rw [h4 k hk l, Finset.sum_range_add, Finset.sum_range_add]
  have z1 : ∑ p ∈ Finset.range b, alpha p *
      algebraMap K R (comp b nPhi comps (fun a => g.val a l) p k) = 0 :=
    Finset.sum_eq_zero fun p hp => by
      rw [comp_out (.inl (Finset.mem_range.1 hp)), map_zero, mul_zero]
  have z2 : ∑ p ∈ Finset.range r, alpha (b + nPhi * comps + p) * algebraMap K R
      (comp b nPhi comps (fun a => g.val a l) (b + nPhi * comps + p) k) = 0 :=
    Finset.sum_eq_zero fun p _ => by
      rw [comp_out (.inr (by omega)), map_zero, mul_zero]
  rw [z1, z2, zero_add, add_zero]
  refine Finset.sum_congr rfl fun p hp => ?_
  dsimp only
  rw [comp_in (by omega) (by have := Finset.mem_range.1 hp; omega), Nat.add_sub_cancel_left]

/-! ### The laws -/

/-- The curvature of a couple stress, without the length. -/
def curvature (m : Nat) (c : Coeffs K) (a : Nat → Nat → K) (k l : Nat) : K :=
  if m = 2 then a k l * (1 / (c.muO + c.kapO)) else strain m c.muO c.lamO c.kapO a k l

theorem couplePower_eq {m : Nat} (hm : m = 2 ∨ m = 3) (c : Coeffs K) (a b : Nat → Nat → K) :
    couplePower m c a b = contractSpin m (curvature m c a) b := by
  rcases hm with rfl | rfl
  · unfold couplePower contractSpin curvature
    simp only [if_true, div_eq_mul_inv, one_mul, Finset.sum_mul]
    exact Finset.sum_congr rfl fun _ _ => Finset.sum_congr rfl fun _ _ => by ring
  · rfl

theorem compliance_spec {m N : Nat} {s : Arr R} (hr : s.rows = m) (hc : s.cols = m) (mu lam kappa : K)
    {alpha : Nat → R} {S : Nat → Nat → Nat → K}
    (hs : ∀ k < m, ∀ l < m, Lin N alpha (s.val k l) fun q => S q k l) :
    ∃ a, compliance m mu lam kappa s = .ok a ∧ a.rows = m ∧ a.cols = m ∧
      ∀ k < m, ∀ l < m, Lin N alpha (a.val k l) fun q => strain m mu lam kappa (S q) k l := by
  unfold compliance
  dsimp only
  rw [TaylorHood.addIdentity_ok (by exact hr)]
  refine ⟨_, rfl, hr, hc, ?_⟩
  intro k hk l hl
  have ht : Lin N alpha (trace s) fun q => tr m (S q) := by
    unfold trace tr
    rw [hr]
    exact Lin.sum fun q hq => hs q (Finset.mem_range.1 hq) q (Finset.mem_range.1 hq)
  have h1 : Lin N alpha (algebraMap K R (1 / 2) * (s.val k l + s.val l k) +
      -(algebraMap K R (lam / (2 * mu + (m : K) * lam)) * trace s) * if k = l then 1 else 0) _ :=
    (((hs k hk l hl).add (hs l hl k hk)).smul (1 / 2)).add (((ht.smul _).neg).ite (k = l))
  have h2 : Lin N alpha (algebraMap K R (1 / 2) * (s.val k l - s.val l k)) _ :=
    ((hs k hk l hl).sub (hs l hl k hk)).smul (1 / 2)
  refine ((h1.smul (1 / (2 * mu))).add (h2.smul (1 / (2 * kappa)))).congr ?_
  intro q _
  unfold strain sym skew
  ring

theorem coupleCompliance_spec {m N : Nat} (hm : m = 2 ∨ m = 3) {s : Arr R} (hr : s.rows = spins m)
    (hc : s.cols = m) (scaled : Bool) (c : Coeffs K) {alpha : Nat → R} {S : Nat → Nat → Nat → K}
    (hs : ∀ k < spins m, ∀ l < m, Lin N alpha (s.val k l) fun q => S q k l) :
    ∃ a, coupleCompliance scaled m c s = .ok a ∧ a.rows = spins m ∧ a.cols = m ∧
      ∀ k < spins m, ∀ l < m, Lin N alpha (a.val k l) fun q =>
        (if scaled then 1 else 1 / c.len) * curvature m c (S q) k l := by
  unfold coupleCompliance
  rcases hm with rfl | rfl
  · rw [if_pos rfl]
    refine ⟨_, rfl, hr, hc, ?_⟩
    intro k hk l hl
    refine (((hs k hk l hl).mulRight _).mulRight (coupleFactor scaled c)).congr ?_
    intro q _
    unfold coupleFactor curvature
    rw [if_pos rfl, mul_comm]
  · rw [if_neg (by decide)]
    obtain ⟨a, h1, h2, h3, h4⟩ := compliance_spec (m := 3) hr hc c.muO c.lamO c.kapO hs
    rw [h1]
    refine ⟨_, rfl, h2, h3, ?_⟩
    intro k hk l hl
    refine ((h4 k hk l hl).mulRight (coupleFactor scaled c)).congr ?_
    intro q _
    unfold coupleFactor curvature
    rw [if_neg (show ¬ (3 : Nat) = 2 by decide), mul_comm]

/-! ### The fields in a point -/

theorem divergence_eq {t : Tab K} {dim : Nat} (h1 : dim ≤ t.nVal) (h2 : dim ≤ t.nDer) (i : Nat)
    (det : K) (a : Nat) : (t.divergence dim i det).val 0 a = tabDiv t dim det i a := by
  unfold Tab.divergence tabDiv
  dsimp only
  rw [Nat.min_eq_left h1, Nat.min_eq_right h2]

theorem coupleDivergence_eq {t : Tab K} {dim : Nat} (h1 : dim ≤ t.nVal) (h2 : dim ≤ t.nDer)
    (scaled : Bool) (i : Nat) (det : K) (c : Coeffs K) (a : Nat) :
    (coupleDivergence scaled t dim i det c).val 0 a = coupleDiv scaled t dim det c i a := by
  unfold coupleDivergence coupleDiv
  dsimp only
  rw [divergence_eq h1 h2, Nat.min_eq_left h1]

theorem Fits.rows {sp : Spaces K X} (h : Fits sp) : (if sp.s.dim = 2 then 2 else 3) = sp.s.dim := by
  rcases h.dim with e | e <;> rw [e] <;> rfl

theorem values_cols {t : Tab K} {dim : Nat} (h : dim ≤ t.nVal) (i : Nat) :
    (t.values dim i).cols = dim := Nat.min_eq_left h

/-- What is known about the fields in the point `i`. -/
structure PointSpec (scaled : Bool) (sp : Spaces K X) (c : Coeffs K) (alpha : Nat → R) (i : Nat)
    (p : Point R) : Prop where
  aS : p.aS.rows = sp.s.dim ∧ p.aS.cols = sp.s.dim
  dS : p.dS.rows = 1 ∧ p.dS.cols = sp.s.dim
  aM : p.aM.rows = spins sp.s.dim ∧ p.aM.cols = sp.s.dim
  dM : p.dM.rows = 1 ∧ p.dM.cols = spins sp.s.dim
  u : p.u.rows = 1 ∧ p.u.cols = sp.s.dim
  t : p.t.rows = 1 ∧ p.t.cols = spins sp.s.dim
  sVal : ∀ k < sp.s.dim, ∀ l < sp.s.dim, Lin sp.total alpha (p.s.val k l) fun q =>
    (dofFields scaled sp c i q).sig k l
  aSVal : ∀ k < sp.s.dim, ∀ l < sp.s.dim, Lin sp.total alpha (p.aS.val k l) fun q =>
    strain sp.s.dim c.muS c.lamS c.kapS (dofFields scaled sp c i q).sig k l
  dSVal : ∀ k < sp.s.dim, Lin sp.total alpha (p.dS.val 0 k) fun q => (dofFields scaled sp c i q).dsig k
  aMVal : ∀ k < spins sp.s.dim, ∀ l < sp.s.dim, Lin sp.total alpha (p.aM.val k l) fun q =>
    (if scaled then 1 else 1 / c.len) *
      curvature sp.s.dim c (dofFields scaled sp c i q).mom k l
  dMVal : ∀ k < spins sp.s.dim, Lin sp.total alpha (p.dM.val 0 k) fun q =>
    (dofFields scaled sp c i q).dmom k
  uVal : ∀ k < sp.s.dim, Lin sp.total alpha (p.u.val 0 k) fun q => (dofFields scaled sp c i q).disp k
  tVal : ∀ k < spins sp.s.dim, Lin sp.total alpha (p.t.val 0 k) fun q =>
    (dofFields scaled sp c i q).rot k

theorem pointFields_spec {sp : Spaces K X} (h : Fits sp) (scaled : Bool) (c : Coeffs K)
    (alpha : Nat → R) (i : Nat) :
    ∃ p, pointFields scaled sp c alpha i = .ok p ∧ PointSpec scaled sp c alpha i p := by
  have b1 : 0 + sp.s.tab.nPhi * sp.sComp ≤ sp.total := by
    unfold Spaces.total Spaces.nS; omega
  have b2 : sp.nS + sp.m.nPhi * sp.mComp ≤ sp.total := by
    unfold Spaces.total Spaces.nM; omega
  have b3 : sp.nS + sp.nM + sp.u.nPhi * sp.uComp ≤ sp.total := by
    unfold Spaces.total Spaces.nU; omega
  have b4 : sp.nS + sp.nM + sp.nU + sp.t.nPhi * sp.tComp ≤ sp.total := le_rfl
  obtain ⟨sh, s0, s1, s2, s3⟩ := field_lin (m := sp.s.dim) b1 h.sComp.ge
    (g := sp.s.tab.values sp.s.dim i) rfl alpha
  obtain ⟨uh, u0, u1, u2, u3⟩ := field_lin (m := sp.s.dim) b3 h.uComp.ge
    (g := scalarValues sp.u i) rfl alpha
  obtain ⟨mh, m0, m1, m2, m3⟩ := field_lin (m := spins sp.s.dim) b2 h.mComp.ge
    (g := sp.m.values sp.s.dim i) rfl alpha
  obtain ⟨th, t0, t1, t2, t3⟩ := field_lin (m := spins sp.s.dim) b4 h.tComp.ge
    (g := scalarValues sp.t i) rfl alpha
  obtain ⟨dS, d0, d1, d2, d3⟩ := field_lin (m := sp.s.dim) b1 h.sComp.ge
    (g := (sp.s.tab.divergence sp.s.dim i (sp.s.det i)).transpose) rfl alpha
  obtain ⟨dM, e0, e1, e2, e3⟩ := field_lin (m := spins sp.s.dim) b2 h.mComp.ge
    (g := (coupleDivergence scaled sp.m sp.s.dim i (sp.s.det i) c).transpose) rfl alpha
  rw [values_cols h.sVal] at s2
  rw [values_cols h.mVal] at m2
  obtain ⟨aS, a0, a1, a2, a3⟩ := compliance_spec (N := sp.total) (alpha := alpha)
    (S := fun q => (dofFields scaled sp c i q).sig) s1 s2 c.muS c.lamS c.kapS (fun k hk l _ => s3 k hk l)
  obtain ⟨aM, c0, c1, c2, c3⟩ := coupleCompliance_spec (N := sp.total) (alpha := alpha)
    (S := fun q => (dofFields scaled sp c i q).mom) h.dim m1 m2 scaled c (fun k hk l _ => m3 k hk l)
  refine ⟨⟨sh, aS, dS.transpose, aM, dM.transpose, uh.transpose, th.transpose⟩, ?_, ?_⟩
  · unfold pointFields
    dsimp only
    rw [h.rows, spins_eq]
    unfold Spaces.nS Spaces.nM Spaces.nU Spaces.nT at *
    simp only [s0, u0, m0, t0, d0, e0, a0, c0, Res.bind_ok]
    rfl
  · exact
    { aS := ⟨a1, a2⟩, dS := ⟨d2, d1⟩, aM := ⟨c1, c2⟩, dM := ⟨e2, e1⟩, u := ⟨u2, u1⟩, t := ⟨t2, t1⟩
      sVal := fun k hk l _ => s3 k hk l
      aSVal := a3
      dSVal := fun k hk => (d3 k hk 0).congr fun q _ => by
        have e : (fun a => (sp.s.tab.divergence sp.s.dim i (sp.s.det i)).transpose.val a 0) =
          fun a => tabDiv sp.s.tab sp.s.dim (sp.s.det i) i a := by
          funext a; exact divergence_eq h.sVal h.sDer i _ a
        rw [e]; rfl
      aMVal := c3
      dMVal := fun k hk => (e3 k hk 0).congr fun q _ => by
        have e : (fun a => (coupleDivergence scaled sp.m sp.s.dim i (sp.s.det i) c).transpose.val a 0) =
          fun a => coupleDiv scaled sp.m sp.s.dim (sp.s.det i) c i a := by
          funext a; exact coupleDivergence_eq h.mVal h.mDer scaled i _ c a
        rw [e]; rfl
      uVal := fun k hk => u3 k hk 0
      tVal := fun k hk => t3 k hk 0 }

/-! ### Powers against one degree of freedom -/

theorem zero_contract (m : Nat) (g : Nat → Nat → K) : contract m g (fun _ _ => 0) = 0 := by
  simp [contract]

theorem axial_zero (m : Nat) (k l : Nat) : axial m (fun _ => (0 : K)) k l = 0 := by
  unfold axial
  simp

theorem axial_zero_contract (m : Nat) (g : Nat → Nat → K) :
    contract m (axial m fun _ => 0) g = 0 := by
  simp [contract, axial_zero]

theorem couplePower_zero (m : Nat) (c : Coeffs K) (a : Nat → Nat → K) :
    couplePower m c a (fun _ _ => 0) = 0 := by
  unfold couplePower
  split
  · simp [contractSpin]
  · exact zero_contract m _

theorem sum_single {n r : Nat} (hr : r < n) (f : Nat → K) (d : K) :
    ∑ k ∈ Finset.range n, f k * (if r = k then d else 0) = f r * d := by
  rw [Finset.sum_eq_single r]
  · rw [if_pos rfl]
  · intro k _ hk
    rw [if_neg (Ne.symm hk), mul_zero]
  · intro hh; exact absurd (Finset.mem_range.2 hr) hh

theorem sum_single' {n r : Nat} (hr : r < n) (f : Nat → K) (d : K) :
    ∑ k ∈ Finset.range n, (if r = k then d else 0) * f k = d * f r := by
  rw [mul_comm, ← sum_single hr]
  exact Finset.sum_congr rfl fun k _ => mul_comm _ _

theorem contractSpin_row' {m r : Nat} (hr : r < spins m) (v : Nat → K) (h : Nat → Nat → K) :
    contractSpin m h (fun c l => if r = c then v l else 0) =
      ∑ l ∈ Finset.range m, h r l * v l := by
  rw [contractSpin_comm, contractSpin_row hr]
  exact Finset.sum_congr rfl fun k _ => mul_comm _ _

theorem dualPower_s {m : Nat} (scaled : Bool) (c : Coeffs K) (s : Fields K) {r : Nat} (hr : r < m)
    (v : Nat → K) (d : K) :
    dualPower scaled m c s ⟨fun k l => if r = k then v l else 0, fun k => if r = k then d else 0,
        fun _ _ => 0, fun _ => 0, fun _ => 0, fun _ => 0⟩ =
      ∑ l ∈ Finset.range m, strain m c.muS c.lamS c.kapS s.sig r l * v l + s.disp r * d -
        ∑ l ∈ Finset.range m, axial m s.rot r l * v l := by
  unfold dualPower lawPower
  dsimp only
  rw [contract_row hr, contract_row hr, axial_zero_contract, couplePower_zero]
  simp only [zero_mul, mul_zero, add_zero, sub_zero, Finset.sum_const_zero]
  rw [sum_single hr]

theorem dualPower_m {m : Nat} (hm : m = 2 ∨ m = 3) (scaled : Bool) (c : Coeffs K) (s : Fields K)
    {r : Nat} (hr : r < spins m) (v : Nat → K) (d : K) :
    dualPower scaled m c s ⟨fun _ _ => 0, fun _ => 0, fun k l => if r = k then v l else 0,
        fun k => if r = k then d else 0, fun _ => 0, fun _ => 0⟩ =
      (if scaled then 1 else 1 / c.len) * ∑ l ∈ Finset.range m, curvature m c s.mom r l * v l +
        s.rot r * d := by
  unfold dualPower lawPower
  dsimp only
  rw [zero_contract, zero_contract, axial_zero_contract, couplePower_eq hm, contractSpin_row' hr]
  simp only [zero_mul, mul_zero, add_zero, zero_add, sub_zero, Finset.sum_const_zero]
  rw [sum_single hr]

theorem dualPower_u {m : Nat} (scaled : Bool) (c : Coeffs K) (s : Fields K) {r : Nat} (hr : r < m)
    (w : K) :
    dualPower scaled m c s ⟨fun _ _ => 0, fun _ => 0, fun _ _ => 0, fun _ => 0,
        fun k => if r = k then w else 0, fun _ => 0⟩ = w * s.dsig r := by
  unfold dualPower lawPower
  dsimp only
  rw [zero_contract, zero_contract, axial_zero_contract, couplePower_zero]
  simp only [zero_mul, mul_zero, add_zero, zero_add, sub_zero, Finset.sum_const_zero]
  rw [sum_single' hr]

/-- `S_cross` for numbers. -/
def crossOf (m : Nat) (s : Nat → Nat → K) (c : Nat) : K :=
  if m = 2 then s 1 0 - s 0 1
  else match c with
    | 0 => s 2 1 - s 1 2
    | 1 => s 0 2 - s 2 0
    | _ => s 1 0 - s 0 1

theorem crossOf_axial {m : Nat} (hm : m = 2 ∨ m = 3) (s : Nat → Nat → K) (w : K) {r : Nat}
    (hr : r < spins m) :
    contract m (axial m fun k => if r = k then w else 0) s = w * crossOf m s r := by
  rcases hm with rfl | rfl
  · have hr : r < 1 := hr
    interval_cases r
    simp [contract, crossOf, axial, Finset.sum_range_succ]
    ring
  · have hr : r < 3 := hr
    interval_cases r <;>
    · simp [contract, crossOf, axial, Finset.sum_range_succ]
      ring

theorem dualPower_t {m : Nat} (hm : m = 2 ∨ m = 3) (scaled : Bool) (c : Coeffs K) (s : Fields K)
    {r : Nat} (hr : r < spins m) (w : K) :
    dualPower scaled m c s ⟨fun _ _ => 0, fun _ => 0, fun _ _ => 0, fun _ => 0, fun _ => 0,
        fun k => if r = k then w else 0⟩ = w * s.dmom r - w * crossOf m s.sig r := by
  unfold dualPower lawPower
  dsimp only
  rw [zero_contract, zero_contract, couplePower_zero, crossOf_axial hm _ _ hr]
  simp only [zero_mul, mul_zero, add_zero, zero_add, sub_zero, Finset.sum_const_zero]
  rw [sum_single' hr]

theorem rieszPower_s {m : Nat} (scaled : Bool) (c : Coeffs K) (s : Fields K) {r : Nat} (hr : r < m)
    (v : Nat → K) (d : K) :
    rieszPower scaled m c s ⟨fun k l => if r = k then v l else 0, fun k => if r = k then d else 0,
        fun _ _ => 0, fun _ => 0, fun _ => 0, fun _ => 0⟩ =
      ∑ l ∈ Finset.range m, strain m c.muS c.lamS c.kapS s.sig r l * v l + s.dsig r * d := by
  unfold rieszPower lawPower
  dsimp only
  rw [contract_row hr, couplePower_zero]
  simp only [mul_zero, add_zero, Finset.sum_const_zero]
  rw [sum_single hr]

theorem rieszPower_m {m : Nat} (hm : m = 2 ∨ m = 3) (scaled : Bool) (c : Coeffs K) (s : Fields K)
    {r : Nat} (hr : r < spins m) (v : Nat → K) (d : K) :
    rieszPower scaled m c s ⟨fun _ _ => 0, fun _ => 0, fun k l => if r = k then v l else 0,
        fun k => if r = k then d else 0, fun _ => 0, fun _ => 0⟩ =
      (if scaled then 1 else 1 / c.len) * ∑ l ∈ Finset.range m, curvature m c s.mom r l * v l +
        s.dmom r * d := by
  unfold rieszPower lawPower
  dsimp only
  rw [zero_contract, couplePower_eq hm, contractSpin_row' hr]
  simp only [mul_zero, add_zero, zero_add, Finset.sum_const_zero]
  rw [sum_single hr]

theorem rieszPower_u {m : Nat} (scaled : Bool) (c : Coeffs K) (s : Fields K) {r : Nat} (hr : r < m)
    (w : K) :
    rieszPower scaled m c s ⟨fun _ _ => 0, fun _ => 0, fun _ _ => 0, fun _ => 0,
        fun k => if r = k then w else 0, fun _ => 0⟩ = s.disp r * w := by
  unfold rieszPower lawPower
  dsimp only
  rw [zero_contract, couplePower_zero]
  simp only [mul_zero, add_zero, zero_add, Finset.sum_const_zero]
  rw [sum_single hr]

theorem rieszPower_t {m : Nat} (scaled : Bool) (c : Coeffs K) (s : Fields K) {r : Nat}
    (hr : r < spins m) (w : K) :
    rieszPower scaled m c s ⟨fun _ _ => 0, fun _ => 0, fun _ _ => 0, fun _ => 0, fun _ => 0,
        fun k => if r = k then w else 0⟩ = s.rot r * w := by
  unfold rieszPower lawPower
  dsimp only
  rw [zero_contract, couplePower_zero]
  simp only [mul_zero, add_zero, zero_add, Finset.sum_const_zero]
  rw [sum_single hr]

/-! ### The fields of a degree of freedom -/

section
variable (scaled : Bool) (sp : Spaces K X) (c : Coeffs K) (i : Nat)

theorem dofFields_s {p : Nat} (h : p < sp.nS) :
    dofFields scaled sp c i p =
      ⟨fun k l => if p % sp.sComp = k then sp.s.tab.val 0 i (p / sp.sComp) l else 0,
        fun k => if p % sp.sComp = k then
          tabDiv sp.s.tab sp.s.dim (sp.s.det i) i (p / sp.sComp) else 0,
        fun _ _ => 0, fun _ => 0, fun _ => 0, fun _ => 0⟩ := by
  have h' : p < 0 + sp.s.tab.nPhi * sp.sComp := by rw [Nat.zero_add]; exact h
  unfold dofFields
  congr 1
  · funext k l; rw [comp_in (Nat.zero_le _) h']; rfl
  · funext k; rw [comp_in (Nat.zero_le _) h']; rfl
  · funext k l; exact comp_out (.inl h)
  · funext k; exact comp_out (.inl h)
  · funext k; exact comp_out (.inl (by omega))
  · funext k; exact comp_out (.inl (by omega))

theorem dofFields_m {p : Nat} (h : p < sp.nM) :
    dofFields scaled sp c i (sp.nS + p) =
      ⟨fun _ _ => 0, fun _ => 0,
        fun k l => if p % sp.mComp = k then sp.m.val 0 i (p / sp.mComp) l else 0,
        fun k => if p % sp.mComp = k then
          coupleDiv scaled sp.m sp.s.dim (sp.s.det i) c i (p / sp.mComp) else 0,
        fun _ => 0, fun _ => 0⟩ := by
  have h' : sp.nS + p < sp.nS + sp.m.nPhi * sp.mComp := Nat.add_lt_add_left h _
  have h0 : 0 + sp.s.tab.nPhi * sp.sComp ≤ sp.nS + p := by unfold Spaces.nS; omega
  unfold dofFields
  congr 1
  · funext k l; exact comp_out (.inr h0)
  · funext k; exact comp_out (.inr h0)
  · funext k l; rw [comp_in (by omega) h', Nat.add_sub_cancel_left]
  · funext k; rw [comp_in (by omega) h', Nat.add_sub_cancel_left]
  · funext k; exact comp_out (.inl (by omega))
  · funext k; exact comp_out (.inl (by omega))

theorem dofFields_u {p : Nat} (h : p < sp.nU) :
    dofFields scaled sp c i (sp.nS + sp.nM + p) =
      ⟨fun _ _ => 0, fun _ => 0, fun _ _ => 0, fun _ => 0,
        fun k => if p % sp.uComp = k then sp.u.val 0 i (p / sp.uComp) 0 else 0, fun _ => 0⟩ := by
  have h' : sp.nS + sp.nM + p < sp.nS + sp.nM + sp.u.nPhi * sp.uComp := Nat.add_lt_add_left h _
  have h0 : 0 + sp.s.tab.nPhi * sp.sComp ≤ sp.nS + sp.nM + p := by unfold Spaces.nS; omega
  have h1 : sp.nS + sp.m.nPhi * sp.mComp ≤ sp.nS + sp.nM + p := by unfold Spaces.nM; omega
  unfold dofFields
  congr 1
  · funext k l; exact comp_out (.inr h0)
  · funext k; exact comp_out (.inr h0)
  · funext k l; exact comp_out (.inr h1)
  · funext k; exact comp_out (.inr h1)
  · funext k; rw [comp_in (by omega) h', Nat.add_sub_cancel_left]
  · funext k; exact comp_out (.inl (by omega))

theorem dofFields_t {p : Nat} (h : p < sp.nT) :
    dofFields scaled sp c i (sp.nS + sp.nM + sp.nU + p) =
      ⟨fun _ _ => 0, fun _ => 0, fun _ _ => 0, fun _ => 0, fun _ => 0,
        fun k => if p % sp.tComp = k then sp.t.val 0 i (p / sp.tComp) 0 else 0⟩ := by
  have h' : sp.nS + sp.nM + sp.nU + p < sp.nS + sp.nM + sp.nU + sp.t.nPhi * sp.tComp :=
    Nat.add_lt_add_left h _
  have h0 : 0 + sp.s.tab.nPhi * sp.sComp ≤ sp.nS + sp.nM + sp.nU + p := by unfold Spaces.nS; omega
  have h1 : sp.nS + sp.m.nPhi * sp.mComp ≤ sp.nS + sp.nM + sp.nU + p := by unfold Spaces.nM; omega
  have h2 : sp.nS + sp.nM + sp.u.nPhi * sp.uComp ≤ sp.nS + sp.nM + sp.nU + p := by
    unfold Spaces.nU; omega
  unfold dofFields
  congr 1
  · funext k l; exact comp_out (.inr h0)
  · funext k; exact comp_out (.inr h0)
  · funext k l; exact comp_out (.inr h1)
  · funext k; exact comp_out (.inr h1)
  · funext k; exact comp_out (.inr h2)
  · funext k; rw [comp_in (by omega) h', Nat.add_sub_cancel_left]

end

/-! ### The integrands -/

theorem cross_shape {m : Nat} (hm : m = 2 ∨ m = 3) (s : Arr R) :
    (cross m s).rows = 1 ∧ (cross m s).cols = spins m := by
  rcases hm with rfl | rfl <;> exact ⟨rfl, rfl⟩

theorem cross_lin {m N : Nat} (hm : m = 2 ∨ m = 3) {s : Arr R} {alpha : Nat → R}
    {S : Nat → Nat → Nat → K}
    (hs : ∀ k < m, ∀ l < m, Lin N alpha (s.val k l) fun q => S q k l) {r : Nat} (hr : r < spins m) :
    Lin N alpha ((cross m s).val 0 r) fun q => crossOf m (S q) r := by
  rcases hm with rfl | rfl
  · have hr : r < 1 := hr
    interval_cases r
    exact (hs 1 (by decide) 0 (by decide)).sub (hs 0 (by decide) 1 (by decide))
  · have hr : r < 3 := hr
    interval_cases r
    · exact (hs 2 (by decide) 1 (by decide)).sub (hs 1 (by decide) 2 (by decide))
    · exact (hs 0 (by decide) 2 (by decide)).sub (hs 2 (by decide) 0 (by decide))
    · exact (hs 1 (by decide) 0 (by decide)).sub (hs 0 (by decide) 1 (by decide))

theorem theta_lin {m N : Nat} (hm : m = 2 ∨ m = 3) {th : Nat → R} {alpha : Nat → R}
    {w : Nat → Nat → K} (ht : ∀ k < spins m, Lin N alpha (th k) fun q => w q k) {k l : Nat}
    (hk : k < m) (hl : l < m) :
    Lin N alpha ((thetaOuter m th).val k l) fun q => axial m (w q) k l :=
  thetaOuter_sum hm alpha w th ht hk hl

/-- The four equations, stacked, when each is linear with the coefficients of a form. -/
theorem stack_spec {sp : Spaces K X} (h : Fits sp) {e1 e2 e3 e4 : Arr R} {alpha : Nat → R}
    (P : Nat → Nat → K)
    (r1 : e1.rows = sp.s.tab.nPhi) (c1 : e1.cols = sp.s.dim)
    (r2 : e2.rows = sp.m.nPhi) (c2 : e2.cols = spins sp.s.dim)
    (r3 : e3.rows = sp.u.nPhi) (c3 : e3.cols = sp.s.dim)
    (r4 : e4.rows = sp.t.nPhi) (c4 : e4.cols = spins sp.s.dim)
    (v1 : ∀ p < sp.nS, Lin sp.total alpha (e1.val (p / sp.s.dim) (p % sp.s.dim)) fun q => P q p)
    (v2 : ∀ p < sp.nM, Lin sp.total alpha (e2.val (p / spins sp.s.dim) (p % spins sp.s.dim))
      fun q => P q (sp.nS + p))
    (v3 : ∀ p < sp.nU, Lin sp.total alpha (e3.val (p / sp.s.dim) (p % sp.s.dim))
      fun q => P q (sp.nS + sp.nM + p))
    (v4 : ∀ p < sp.nT, Lin sp.total alpha (e4.val (p / spins sp.s.dim) (p % spins sp.s.dim))
      fun q => P q (sp.nS + sp.nM + sp.nU + p)) :
    ∃ v, stack sp e1 e2 e3 e4 = .ok v ∧ v.n = sp.total ∧ ∀ p < sp.total, v.val p =
      ∑ q ∈ Finset.range sp.total, algebraMap K R (P q p) * alpha q := by
  have comm : ∀ p x, Lin sp.total alpha x (fun q => P q p) →
      x = ∑ q ∈ Finset.range sp.total, algebraMap K R (P q p) * alpha q := by
    intro p x hx
    rw [hx]
    exact Finset.sum_congr rfl fun q _ => mul_comm _ _
  unfold stack
  rw [if_neg (by
    rw [r1, c1, r2, c2, r3, c3, r4, c4]
    unfold Spaces.nS Spaces.nM Spaces.nU Spaces.nT
    rw [h.sComp, h.mComp, h.uComp, h.tComp]
    simp)]
  refine ⟨_, rfl, rfl, ?_⟩
  intro p hp
  dsimp only
  rw [c1, c2, c3, c4]
  unfold Spaces.total at hp
  split
  · next h1 => exact comm p _ (v1 p h1)
  · next h1 =>
    split
    · next h2 =>
      obtain ⟨r, rfl⟩ : ∃ r, p = sp.nS + r := ⟨p - sp.nS, by omega⟩
      rw [Nat.add_sub_cancel_left]
      exact comm _ _ (v2 r (by omega))
    · next h2 =>
      split
      · next h3 =>
        obtain ⟨r, rfl⟩ : ∃ r, p = sp.nS + sp.nM + r := ⟨p - (sp.nS + sp.nM), by omega⟩
        rw [Nat.add_sub_cancel_left]
        exact comm _ _ (v3 r (by omega))
      · next h3 =>
        obtain ⟨r, rfl⟩ : ∃ r, p = sp.nS + sp.nM + sp.nU + r :=
          ⟨p - (sp.nS + sp.nM + sp.nU), by omega⟩
        rw [Nat.add_sub_cancel_left]
        exact comm _ _ (v4 r (by omega))

theorem integrand_spec {sp : Spaces K X} (h : Fits sp) (scaled : Bool) (c : Coeffs K)
    (alpha : Nat → R) (i : Nat) :
    ∃ v, integrand scaled sp c alpha i = .ok v ∧ v.n = sp.total ∧ ∀ p < sp.total, v.val p =
      ∑ q ∈ Finset.range sp.total, algebraMap K R (dualPower scaled sp.s.dim c
        (dofFields scaled sp c i q) (dofFields scaled sp c i p)) * alpha q := by
  obtain ⟨p, hp, ps⟩ := pointFields_spec h scaled c alpha i
  obtain ⟨o1, o2⟩ := thetaOuter_shape h.dim (fun k => p.t.val 0 k)
  obtain ⟨x1, x2⟩ := cross_shape h.dim p.s
  unfold integrand
  dsimp only
  rw [h.rows, hp]
  simp only [Res.bind_ok]
  rw [matmul_ok (by simp [Arr.lift, Arr.transpose, values_cols h.sVal, ps.aS.2]),
    matmul_ok (by simp [Arr.lift, Arr.transpose, Tab.divergence, ps.u.1]),
    matmul_ok (by simp [Arr.lift, Arr.transpose, values_cols h.sVal, o2])]
  simp only [Res.bind_ok]
  rw [add_ok (by simp [Arr.lift, Arr.transpose, Tab.values, Tab.divergence])
    (by simp [Arr.transpose, ps.aS.1, ps.u.2])]
  simp only [Res.bind_ok]
  rw [sub_ok (by simp) (by simp [Arr.transpose, ps.aS.1, o1])]
  simp only [Res.bind_ok]
  rw [matmul_ok (by simp [Arr.lift, Arr.transpose, values_cols h.mVal, ps.aM.2]),
    matmul_ok (by simp [Arr.lift, Arr.transpose, coupleDivergence, ps.t.1])]
  simp only [Res.bind_ok]
  rw [add_ok (by simp [Arr.lift, Arr.transpose, Tab.values, coupleDivergence])
    (by simp [Arr.transpose, ps.aM.1, ps.t.2])]
  simp only [Res.bind_ok]
  rw [matmul_ok (by simp [Arr.lift, scalarValues, ps.dS.1]),
    matmul_ok (by simp [Arr.lift, scalarValues, ps.dM.1]),
    matmul_ok (by simp [Arr.lift, scalarValues, x1])]
  simp only [Res.bind_ok]
  rw [sub_ok (by simp) (by simp [ps.dM.2, x2])]
  simp only [Res.bind_ok]
  refine stack_spec h (fun q p => dualPower scaled sp.s.dim c (dofFields scaled sp c i q)
    (dofFields scaled sp c i p)) rfl (by simp [Arr.transpose, ps.aS.1]) rfl
    (by simp [Arr.transpose, ps.aM.1]) rfl ps.dS.2 rfl ps.dM.2 ?_ ?_ ?_ ?_
  · intro r hr
    obtain ⟨_, hc⟩ := index_lt (n := sp.s.tab.nPhi) (m := sp.s.dim) (by rw [← h.sComp]; exact hr)
    have l1 : Lin sp.total alpha (∑ l ∈ Finset.range sp.s.dim,
        algebraMap K R (sp.s.tab.val 0 i (r / sp.s.dim) l) * p.aS.val (r % sp.s.dim) l) _ :=
      Lin.sum fun l hl => (ps.aSVal _ hc l (Finset.mem_range.1 hl)).smul _
    have l2 := (ps.uVal _ hc).smul (R := R)
      ((sp.s.tab.divergence sp.s.dim i (sp.s.det i)).val 0 (r / sp.s.dim))
    have l3 : Lin sp.total alpha (∑ l ∈ Finset.range sp.s.dim,
        algebraMap K R (sp.s.tab.val 0 i (r / sp.s.dim) l) *
          (thetaOuter sp.s.dim fun k => p.t.val 0 k).val (r % sp.s.dim) l) _ :=
      Lin.sum fun l hl => (theta_lin h.dim ps.tVal hc (Finset.mem_range.1 hl)).smul _
    have key := (l1.add l2).sub l3
    simp only [Arr.lift, Arr.transpose, Tab.divergence, Finset.sum_range_one,
      values_cols h.sVal] at key ⊢
    refine Lin.congr key ?_
    intro q _
    rw [dofFields_s scaled sp c i hr, h.sComp, dualPower_s scaled c _ hc]
    congr 1
    · congr 1
      · exact Finset.sum_congr rfl fun l _ => mul_comm _ _
      · rw [mul_comm]; congr 1
        exact divergence_eq h.sVal h.sDer i _ _
    · exact Finset.sum_congr rfl fun l _ => mul_comm _ _
  · intro r hr
    obtain ⟨_, hc⟩ := index_lt (n := sp.m.nPhi) (m := spins sp.s.dim) (by rw [← h.mComp]; exact hr)
    have l1 : Lin sp.total alpha (∑ l ∈ Finset.range sp.s.dim,
        algebraMap K R (sp.m.val 0 i (r / spins sp.s.dim) l) * p.aM.val (r % spins sp.s.dim) l) _ :=
      Lin.sum fun l hl => (ps.aMVal _ hc l (Finset.mem_range.1 hl)).smul _
    have l2 := (ps.tVal _ hc).smul (R := R)
      ((coupleDivergence scaled sp.m sp.s.dim i (sp.s.det i) c).val 0 (r / spins sp.s.dim))
    have key := l1.add l2
    simp only [Arr.lift, Arr.transpose, show (coupleDivergence scaled sp.m sp.s.dim i (sp.s.det i)
      c).rows = 1 from rfl, Finset.sum_range_one, values_cols h.mVal] at key ⊢
    refine Lin.congr key ?_
    intro q _
    rw [dofFields_m scaled sp c i hr, h.mComp, dualPower_m h.dim scaled c _ hc]
    congr 1
    · rw [Finset.mul_sum]
      exact Finset.sum_congr rfl fun l _ => by ring
    · rw [mul_comm]; congr 1
      exact coupleDivergence_eq h.mVal h.mDer scaled i _ c _
  · intro r hr
    obtain ⟨_, hc⟩ := index_lt (n := sp.u.nPhi) (m := sp.s.dim) (by rw [← h.uComp]; exact hr)
    have key := (ps.dSVal _ hc).smul (R := R) (sp.u.val 0 i (r / sp.s.dim) 0)
    simp only [Arr.lift, scalarValues, Finset.sum_range_one] at key ⊢
    refine Lin.congr key ?_
    intro q _
    rw [dofFields_u scaled sp c i hr, h.uComp, dualPower_u scaled c _ hc]
  · intro r hr
    obtain ⟨_, hc⟩ := index_lt (n := sp.t.nPhi) (m := spins sp.s.dim) (by rw [← h.tComp]; exact hr)
    have key := ((ps.dMVal _ hc).smul (R := R) (sp.t.val 0 i (r / spins sp.s.dim) 0)).sub
      ((cross_lin h.dim ps.sVal hc).smul (R := R) (sp.t.val 0 i (r / spins sp.s.dim) 0))
    simp only [Arr.lift, scalarValues, Finset.sum_range_one] at key ⊢
    refine Lin.congr key ?_
    intro q _
    rw [dofFields_t scaled sp c i hr, h.tComp, dualPower_t h.dim scaled c _ hc]

theorem rieszIntegrand_spec {sp : Spaces K X} (h : Fits sp) (scaled : Bool) (c : Coeffs K)
    (alpha : Nat → R) (i : Nat) :
    ∃ v, rieszIntegrand scaled sp c alpha i = .ok v ∧ v.n = sp.total ∧ ∀ p < sp.total, v.val p =
      ∑ q ∈ Finset.range sp.total, algebraMap K R (rieszPower scaled sp.s.dim c
        (dofFields scaled sp c i q) (dofFields scaled sp c i p)) * alpha q := by
  obtain ⟨p, hp, ps⟩ := pointFields_spec h scaled c alpha i
  unfold rieszIntegrand
  dsimp only
  rw [hp]
  simp only [Res.bind_ok]
  rw [matmul_ok (by simp [Arr.lift, Arr.transpose, values_cols h.sVal, ps.aS.2]),
    matmul_ok (by simp [Arr.lift, Arr.transpose, Tab.divergence, ps.dS.1])]
  simp only [Res.bind_ok]
  rw [add_ok (by simp [Arr.lift, Arr.transpose, Tab.values, Tab.divergence])
    (by simp [Arr.transpose, ps.aS.1, ps.dS.2])]
  simp only [Res.bind_ok]
  rw [matmul_ok (by simp [Arr.lift, Arr.transpose, values_cols h.mVal, ps.aM.2]),
    matmul_ok (by simp [Arr.lift, Arr.transpose, coupleDivergence, ps.dM.1])]
  simp only [Res.bind_ok]
  rw [add_ok (by simp [Arr.lift, Arr.transpose, Tab.values, coupleDivergence])
    (by simp [Arr.transpose, ps.aM.1, ps.dM.2])]
  simp only [Res.bind_ok]
  rw [matmul_ok (by simp [Arr.lift, scalarValues, ps.u.1]),
    matmul_ok (by simp [Arr.lift, scalarValues, ps.t.1])]
  simp only [Res.bind_ok]
  refine stack_spec h (fun q p => rieszPower scaled sp.s.dim c (dofFields scaled sp c i q)
    (dofFields scaled sp c i p)) rfl (by simp [Arr.transpose, ps.aS.1]) rfl
    (by simp [Arr.transpose, ps.aM.1]) rfl ps.u.2 rfl ps.t.2 ?_ ?_ ?_ ?_
  · intro r hr
    obtain ⟨_, hc⟩ := index_lt (n := sp.s.tab.nPhi) (m := sp.s.dim) (by rw [← h.sComp]; exact hr)
    have l1 : Lin sp.total alpha (∑ l ∈ Finset.range sp.s.dim,
        algebraMap K R (sp.s.tab.val 0 i (r / sp.s.dim) l) * p.aS.val (r % sp.s.dim) l) _ :=
      Lin.sum fun l hl => (ps.aSVal _ hc l (Finset.mem_range.1 hl)).smul _
    have l2 := (ps.dSVal _ hc).smul (R := R)
      ((sp.s.tab.divergence sp.s.dim i (sp.s.det i)).val 0 (r / sp.s.dim))
    have key := l1.add l2
    simp only [Arr.lift, Arr.transpose, Tab.divergence, Finset.sum_range_one,
      values_cols h.sVal] at key ⊢
    refine Lin.congr key ?_
    intro q _
    rw [dofFields_s scaled sp c i hr, h.sComp, rieszPower_s scaled c _ hc]
    congr 1
    · exact Finset.sum_congr rfl fun l _ => mul_comm _ _
    · rw [mul_comm]; congr 1
      exact divergence_eq h.sVal h.sDer i _ _
  · intro r hr
    obtain ⟨_, hc⟩ := index_lt (n := sp.m.nPhi) (m := spins sp.s.dim) (by rw [← h.mComp]; exact hr)
    have l1 : Lin sp.total alpha (∑ l ∈ Finset.range sp.s.dim,
        algebraMap K R (sp.m.val 0 i (r / spins sp.s.dim) l) * p.aM.val (r % spins sp.s.dim) l) _ :=
      Lin.sum fun l hl => (ps.aMVal _ hc l (Finset.mem_range.1 hl)).smul _
    have l2 := (ps.dMVal _ hc).smul (R := R)
      ((coupleDivergence scaled sp.m sp.s.dim i (sp.s.det i) c).val 0 (r / spins sp.s.dim))
    have key := l1.add l2
    simp only [Arr.lift, Arr.transpose, show (coupleDivergence scaled sp.m sp.s.dim i (sp.s.det i)
      c).rows = 1 from rfl, Finset.sum_range_one, values_cols h.mVal] at key ⊢
    refine Lin.congr key ?_
    intro q _
    rw [dofFields_m scaled sp c i hr, h.mComp, rieszPower_m h.dim scaled c _ hc]
    congr 1
    · rw [Finset.mul_sum]
      exact Finset.sum_congr rfl fun l _ => by ring
    · rw [mul_comm]; congr 1
      exact coupleDivergence_eq h.mVal h.mDer scaled i _ c _
  · intro r hr
    obtain ⟨_, hc⟩ := index_lt (n := sp.u.nPhi) (m := sp.s.dim) (by rw [← h.uComp]; exact hr)
    have key := (ps.uVal _ hc).smul (R := R) (sp.u.val 0 i (r / sp.s.dim) 0)
    simp only [Arr.lift, scalarValues, Finset.sum_range_one] at key ⊢
    refine Lin.congr key ?_
    intro q _
    rw [dofFields_u scaled sp c i hr, h.uComp, rieszPower_u scaled c _ hc, mul_comm]
  · intro r hr
    obtain ⟨_, hc⟩ := index_lt (n := sp.t.nPhi) (m := spins sp.s.dim) (by rw [← h.tComp]; exact hr)
    have key := (ps.tVal _ hc).smul (R := R) (sp.t.val 0 i (r / spins sp.s.dim) 0)
    simp only [Arr.lift, scalarValues, Finset.sum_range_one] at key ⊢
    refine Lin.congr key ?_
    intro q _
    rw [dofFields_t scaled sp c i hr, h.tComp, rieszPower_t scaled c _ hc, mul_comm]

end Verif.Dual
