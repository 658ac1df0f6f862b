/-
Helper lemmas for C78 to C81: the systems of the dual forms, and the blocks of the vectorized ones.
-/
import Verif.Lemmas.Dual

namespace Verif.Dual
open Assembly L2Form Laplace Elasticity Cosserat

variable {K X R : Type} [Field K] [CommRing R] [Algebra K R]

/-! ### The systems -/

theorem disp_load (scaled : Bool) {sp : Spaces K X} (h : Fits sp) (c : Coeffs K) (i p : Nat)
    (g : Nat → K) :
    ∑ k ∈ Finset.range sp.s.dim, (dofFields scaled sp c i p).disp k * g k =
      if sp.nS + sp.nM ≤ p ∧ p < sp.nS + sp.nM + sp.u.nPhi * sp.uComp then
        sp.u.val 0 i ((p - (sp.nS + sp.nM)) / sp.uComp) 0 * g ((p - (sp.nS + sp.nM)) % sp.uComp)
      else 0 := by
  unfold dofFields
  dsimp only
  split
  · next hp =>
    have hlt := (index_lt (p := p - (sp.nS + sp.nM)) (n := sp.u.nPhi) (m := sp.uComp) (by omega)).2
    have e : ∀ k ∈ Finset.range sp.s.dim, comp (sp.nS + sp.nM) sp.u.nPhi sp.uComp
        (fun a => sp.u.val 0 i a 0) p k * g k =
        (if (p - (sp.nS + sp.nM)) % sp.uComp = k then
          sp.u.val 0 i ((p - (sp.nS + sp.nM)) / sp.uComp) 0 else 0) * g k := fun k _ => by
      rw [comp_in hp.1 hp.2]
    rw [Finset.sum_congr rfl e, sum_single' (by rw [← h.uComp]; exact hlt)]
  · next hp =>
    exact Finset.sum_eq_zero fun k _ => by rw [comp_out (by omega), zero_mul]

theorem rot_load (scaled : Bool) {sp : Spaces K X} (h : Fits sp) (c : Coeffs K) (i p : Nat)
    (g : Nat → K) :
    ∑ k ∈ Finset.range (spins sp.s.dim), (dofFields scaled sp c i p).rot k * g k =
      if sp.nS + sp.nM + sp.nU ≤ p ∧ p < sp.nS + sp.nM + sp.nU + sp.t.nPhi * sp.tComp then
        sp.t.val 0 i ((p - (sp.nS + sp.nM + sp.nU)) / sp.tComp) 0 *
          g ((p - (sp.nS + sp.nM + sp.nU)) % sp.tComp)
      else 0 := by
  unfold dofFields
  dsimp only
  split
  · next hp =>
    have hlt := (index_lt (p := p - (sp.nS + sp.nM + sp.nU)) (n := sp.t.nPhi) (m := sp.tComp)
      (by omega)).2
    have e : ∀ k ∈ Finset.range (spins sp.s.dim), comp (sp.nS + sp.nM + sp.nU) sp.t.nPhi sp.tComp
        (fun a => sp.t.val 0 i a 0) p k * g k =
        (if (p - (sp.nS + sp.nM + sp.nU)) % sp.tComp = k then
          sp.t.val 0 i ((p - (sp.nS + sp.nM + sp.nU)) / sp.tComp) 0 else 0) * g k := fun k _ => by
      rw [comp_in hp.1 hp.2]
    rw [Finset.sum_congr rfl e, sum_single' (by rw [← h.tComp]; exact hlt)]
  · next hp =>
    exact Finset.sum_eq_zero fun k _ => by rw [comp_out (by omega), zero_mul]

theorem loads_spec (scaled : Bool) {sp : Spaces K X} (h : Fits sp) (rhs : X → Nat → Nat → K)
    (c : X → Nat → Coeffs K) :
    ∃ r, loads (R := R) sp rhs = .ok r ∧ r.n = sp.total ∧
      ∀ p, r.val p = algebraMap K R (- load scaled sp rhs c p) := by
  have l1 := loads_adds (R := R) (total := sp.total) (b := sp.nS + sp.nM) (nPhi := sp.u.nPhi)
    (comps := sp.uComp) (by unfold Spaces.total Spaces.nU; omega)
    (fun c a => algebraMap K R (∑ i ∈ Finset.range sp.s.nPts,
      -1 * (sp.s.det i * sp.s.weights i * sp.u.val 0 i a 0) * rhs sp.s.x c i)) (Vec.zeros sp.total)
  have l2 := loads_adds (R := R) (total := sp.total) (b := sp.nS + sp.nM + sp.nU)
    (nPhi := sp.t.nPhi) (comps := sp.tComp) le_rfl
    (fun c a => algebraMap K R (∑ i ∈ Finset.range sp.s.nPts,
      -1 * (sp.s.det i * sp.s.weights i * sp.t.val 0 i a 0) * rhs sp.s.x (c + sp.uComp) i))
  unfold AddsV at l2
  dsimp only at l1 l2
  obtain ⟨r1, e1, d1⟩ := named l1
  obtain ⟨r2, e2, d2⟩ := named (l2 r1)
  refine ⟨r2, ?_, ?_, ?_⟩
  · unfold loads
    unfold Spaces.nU Spaces.nT at *
    simp only [e1, Res.bind_ok, e2]
  · rw [d2, d1]; rfl
  · intro p
    rw [d2, d1]
    simp only [Vec.zeros, zero_add]
    unfold load
    have e : ∀ i ∈ Finset.range sp.s.nPts, sp.s.det i * sp.s.weights i *
        (∑ k ∈ Finset.range sp.s.dim, (dofFields scaled sp (c sp.s.x i) i p).disp k * rhs sp.s.x k i +
        ∑ k ∈ Finset.range (spins sp.s.dim),
          (dofFields scaled sp (c sp.s.x i) i p).rot k * rhs sp.s.x (k + sp.s.dim) i) =
        sp.s.det i * sp.s.weights i * (if sp.nS + sp.nM ≤ p ∧ p < sp.nS + sp.nM + sp.u.nPhi * sp.uComp
          then sp.u.val 0 i ((p - (sp.nS + sp.nM)) / sp.uComp) 0 *
            rhs sp.s.x ((p - (sp.nS + sp.nM)) % sp.uComp) i else 0) +
        sp.s.det i * sp.s.weights i * (if sp.nS + sp.nM + sp.nU ≤ p ∧
          p < sp.nS + sp.nM + sp.nU + sp.t.nPhi * sp.tComp
          then sp.t.val 0 i ((p - (sp.nS + sp.nM + sp.nU)) / sp.tComp) 0 *
            rhs sp.s.x ((p - (sp.nS + sp.nM + sp.nU)) % sp.tComp + sp.s.dim) i else 0) := by
      intro i _
      rw [disp_load scaled h _ i p (fun k => rhs sp.s.x k i),
        rot_load scaled h _ i p (fun k => rhs sp.s.x (k + sp.s.dim) i), mul_add]
    rw [Finset.sum_congr rfl e, Finset.sum_add_distrib, neg_add, map_add, h.uComp]
    congr 1
    · split
      · rw [← Finset.sum_neg_distrib]
        congr 1
        exact Finset.sum_congr rfl fun i _ => by ring
      · simp
    · split
      · rw [← Finset.sum_neg_distrib]
        congr 1
        exact Finset.sum_congr rfl fun i _ => by ring
      · simp

theorem loop_lin (N nPts : Nat) (w : Nat → K) (f : Nat → Res (Vec R)) (M : Nat → Nat → Nat → K)
    (alpha : Nat → R) (hf : ∀ i < nPts, ∃ v, f i = .ok v ∧ v.n = N ∧
      ∀ a < N, v.val a = ∑ b ∈ Finset.range N, algebraMap K R (M i a b) * alpha b)
    (r0 : Vec R) (h0 : r0.n = N) :
    ∃ r, (List.range nPts).foldlM (fun (r : Vec R) i => do
        let v ← f i
        Vec.addScaled r (algebraMap K R (w i)) v) r0 = .ok r ∧ r.n = N ∧
      ∀ a < N, r.val a = ∑ b ∈ Finset.range N,
        algebraMap K R (∑ i ∈ Finset.range nPts, w i * M i a b) * alpha b + r0.val a := by
  obtain ⟨r, hr, hn, hv⟩ := quadrature_affine (R := R) N N nPts w f M (fun _ _ => 0) alpha
    (fun i hi => by
      obtain ⟨v, h1, h2, h3⟩ := hf i hi
      exact ⟨v, h1, h2, fun a ha => by rw [h3 a ha, map_zero, add_zero]⟩) r0 h0
  refine ⟨r, hr, hn, ?_⟩
  intro a ha
  rw [hv a ha]
  simp only [mul_zero, Finset.sum_const_zero, map_zero, add_zero]
  rw [add_comm]

theorem form_spec (scaled : Bool) {sp : Spaces K X} (h : Fits sp) (rhs : X → Nat → Nat → K)
    (c : X → Nat → Coeffs K) (alpha : Nat → R) :
    ∃ r, form scaled sp rhs c alpha = .ok r ∧ r.n = sp.total ∧ ∀ p < sp.total, r.val p =
      ∑ q ∈ Finset.range sp.total, algebraMap K R (dualMatrix scaled sp c p q) * alpha q +
        algebraMap K R (- load scaled sp rhs c p) := by
  obtain ⟨r0, e0, n0, v0⟩ := loads_spec (R := R) scaled h rhs c
  obtain ⟨r, hr, hn, hv⟩ := loop_lin (R := R) sp.total sp.s.nPts
    (fun i => sp.s.det i * sp.s.weights i) (fun i => integrand scaled sp (c sp.s.x i) alpha i)
    (fun i p q => dualPower scaled sp.s.dim (c sp.s.x i) (dofFields scaled sp (c sp.s.x i) i q)
      (dofFields scaled sp (c sp.s.x i) i p)) alpha
    (fun i _ => integrand_spec h scaled (c sp.s.x i) alpha i) r0 n0
  refine ⟨r, ?_, hn, ?_⟩
  · unfold form
    rw [e0]
    exact hr
  · intro p hp
    rw [hv p hp, v0]
    rfl

theorem rieszForm_spec (scaled : Bool) {sp : Spaces K X} (h : Fits sp) (c : X → Nat → Coeffs K)
    (alpha : Nat → R) :
    ∃ r, rieszForm scaled sp c alpha = .ok r ∧ r.n = sp.total ∧ ∀ p < sp.total, r.val p =
      ∑ q ∈ Finset.range sp.total, algebraMap K R (rieszMatrix scaled sp c p q) * alpha q +
        algebraMap K R 0 := by
  obtain ⟨r, hr, hn, hv⟩ := loop_lin (R := R) sp.total sp.s.nPts
    (fun i => sp.s.det i * sp.s.weights i) (fun i => rieszIntegrand scaled sp (c sp.s.x i) alpha i)
    (fun i p q => rieszPower scaled sp.s.dim (c sp.s.x i) (dofFields scaled sp (c sp.s.x i) i q)
      (dofFields scaled sp (c sp.s.x i) i p)) alpha
    (fun i _ => rieszIntegrand_spec h scaled (c sp.s.x i) alpha i) (Vec.zeros sp.total) rfl
  refine ⟨r, hr, hn, ?_⟩
  intro p hp
  rw [hv p hp, map_zero]
  rfl

/-! ### Blocks -/

theorem addsM_of_eq {f g : Mat K → Res (Mat K)} {δ : Nat → Nat → K} (h : AddsM f δ)
    (e : ∀ j, g j = f j) : AddsM g δ := fun j => (e j).trans (h j)

theorem addsM_bind {f g : Mat K → Res (Mat K)} {δ δ' : Nat → Nat → K} (h : AddsM f δ)
    (h' : AddsM g δ') : AddsM (fun j => f j >>= g) fun p q => δ p q + δ' p q := by
  intro j
  show f j >>= g = _
  rw [h j, Res.bind_ok, h']
  simp only [add_assoc]

theorem addRect_field {total b nPhi comps c b' nPhi' comps' c' : Nat}
    (h : b + nPhi * comps ≤ total) (hc : c < comps) (h' : b' + nPhi' * comps' ≤ total)
    (hc' : c' < comps') (f : Nat → Nat → K) :
    AddsM (fun j => addRect j (sliceIdx total (c + b) (c + b + nPhi * comps) comps)
      (sliceIdx total (c' + b') (c' + b' + nPhi' * comps') comps') nPhi nPhi' f) fun p q =>
      if (b ≤ p ∧ p < b + nPhi * comps ∧ (p - b) % comps = c) ∧
        (b' ≤ q ∧ q < b' + nPhi' * comps' ∧ (q - b') % comps' = c') then
        f ((p - b) / comps) ((q - b') / comps') else 0 := by
  have e : ∀ {b nPhi comps c : Nat}, b + nPhi * comps ≤ total → c < comps →
      sliceIdx total (c + b) (c + b + nPhi * comps) comps = List.range' (c + b) nPhi comps := by
    intro b nPhi comps c h hc
    rw [← sliceIdx_field h hc]
    congr 1
    omega
  intro j
  dsimp only
  rw [e h hc, e h' hc']
  unfold addRect
  rw [if_neg (by simp)]
  congr 2
  funext p q
  congr 1
  have m1 := mem_field (b := b) (nPhi := nPhi) (p := p) hc
  have m2 := mem_field (b := b') (nPhi := nPhi') (p := q) hc'
  simp only [m1, m2]
  split
  · next hh =>
    obtain ⟨⟨a1, a2, a3⟩, b1, b2, b3⟩ := hh
    subst a3 b3
    rw [idxOf_field a1 a2, idxOf_field b1 b2]
  · rfl

/-- A block of products. -/
theorem addRect_products {total b nPhi comps c b' nPhi' comps' c' : Nat}
    (h : b + nPhi * comps ≤ total) (hc : c < comps) (h' : b' + nPhi' * comps' ≤ total)
    (hc' : c' < comps') {ι : Type} (S : Finset ι) (w : ι → K) (phi psi : ι → Nat → K) (f : Nat → Nat → K)
    (hf : ∀ x y, f x y = ∑ i ∈ S, w i * (phi i x * psi i y)) :
    AddsM (fun j => addRect j (sliceIdx total (c + b) (c + b + nPhi * comps) comps)
      (sliceIdx total (c' + b') (c' + b' + nPhi' * comps') comps') nPhi nPhi' f) fun p q =>
      ∑ i ∈ S, w i * (comp b nPhi comps (phi i) p c * comp b' nPhi' comps' (psi i) q c') := by
  refine (addRect_field h hc h' hc' f).congr ?_
  intro p q
  unfold comp
  by_cases h1 : b ≤ p ∧ p < b + nPhi * comps ∧ (p - b) % comps = c
  · by_cases h2 : b' ≤ q ∧ q < b' + nPhi' * comps' ∧ (q - b') % comps' = c'
    · rw [if_pos ⟨h1, h2⟩, hf]
      exact Finset.sum_congr rfl fun i _ => by rw [if_pos h1, if_pos h2]
    · rw [if_neg (fun hh => h2 hh.2)]
      exact (Finset.sum_eq_zero fun i _ => by rw [if_neg h2]; ring).symm
  · rw [if_neg (fun hh => h1 hh.1)]
    exact (Finset.sum_eq_zero fun i _ => by rw [if_neg h1]; ring).symm

theorem diagonalBlocks_adds {total b nPhi comps : Nat} (h : b + nPhi * comps ≤ total) {ι : Type} (S : Finset ι)
    (w : ι → K) (phi psi : ι → Nat → K) (f : Nat → Nat → K)
    (hf : ∀ x y, f x y = ∑ i ∈ S, w i * (phi i x * psi i y)) :
    AddsM (diagonalBlocks total b nPhi comps f) fun p q => ∑ i ∈ S, w i *
      ∑ k ∈ Finset.range comps, comp b nPhi comps (phi i) p k * comp b nPhi comps (psi i) q k := by
  have key := addsM_foldlM (fun (j : Mat K) c =>
      addRect j (sliceIdx total (c + b) (c + b + nPhi * comps) comps)
        (sliceIdx total (c + b) (c + b + nPhi * comps) comps) nPhi nPhi f)
    (fun c p q => ∑ i ∈ S, w i *
      (comp b nPhi comps (phi i) p c * comp b nPhi comps (psi i) q c)) (List.range comps)
    (fun c hc => addRect_products h (List.mem_range.1 hc) h (List.mem_range.1 hc) S w phi psi f hf)
  refine AddsM.congr key ?_
  intro p q
  rw [sum_map_range, Finset.sum_comm]
  exact Finset.sum_congr rfl fun i _ => by rw [Finset.mul_sum]

theorem couplingBlocks_adds {total b nPhi b' nPhi' comps : Nat} (h : b + nPhi * comps ≤ total)
    (h' : b' + nPhi' * comps ≤ total) (n : Nat) (w : Nat → K) (phi psi : Nat → Nat → K)
    (f : Nat → Nat → K) (hf : ∀ x y, f x y = ∑ i ∈ Finset.range n, w i * (phi i x * psi i y)) :
    AddsM (couplingBlocks total b nPhi comps b' nPhi' comps f) fun p q =>
      ∑ i ∈ Finset.range n, w i * ∑ k ∈ Finset.range comps,
        (comp b nPhi comps (phi i) p k * comp b' nPhi' comps (psi i) q k +
          comp b nPhi comps (phi i) q k * comp b' nPhi' comps (psi i) p k) := by
  have inner : ∀ c < comps, ∀ c' < comps, AddsM (fun j => (do
      if c ≠ c' then pure j
      else
        let rows := sliceIdx total (c + b) (c + b + nPhi * comps) comps
        let cols := sliceIdx total (c' + b') (c' + b' + nPhi' * comps) comps
        let j ← addRect j rows cols nPhi nPhi' f
        addRect j cols rows nPhi' nPhi fun x y => f y x : Res (Mat K)))
      fun p q => if c = c' then ∑ i ∈ Finset.range n, w i *
        (comp b nPhi comps (phi i) p c * comp b' nPhi' comps (psi i) q c +
          comp b nPhi comps (phi i) q c * comp b' nPhi' comps (psi i) p c) else 0 := by
    intro c hc c' hc'
    by_cases hcc : c = c'
    · subst hcc
      simp only [ne_eq, not_true, if_false, if_true]
      have k1 := addRect_products h hc h' hc (Finset.range n) w phi psi f hf
      have k2 := addRect_products h' hc h hc (Finset.range n) w psi phi (fun x y => f y x) (fun x y => by
        rw [hf]; exact Finset.sum_congr rfl fun i _ => by ring)
      refine (addsM_bind k1 k2).congr ?_
      intro p q
      rw [← Finset.sum_add_distrib]
      exact Finset.sum_congr rfl fun i _ => by ring
    · simp only [ne_eq, hcc, not_false_iff, if_true, if_false]
      intro j
      simp [pure, Except.pure]
  have mid : ∀ c < comps, AddsM (fun j => (List.range comps).foldlM (fun (j : Mat K) c' => (do
      if c ≠ c' then pure j
      else
        let rows := sliceIdx total (c + b) (c + b + nPhi * comps) comps
        let cols := sliceIdx total (c' + b') (c' + b' + nPhi' * comps) comps
        let j ← addRect j rows cols nPhi nPhi' f
        addRect j cols rows nPhi' nPhi fun x y => f y x : Res (Mat K))) j)
      fun p q => ∑ i ∈ Finset.range n, w i *
        (comp b nPhi comps (phi i) p c * comp b' nPhi' comps (psi i) q c +
          comp b nPhi comps (phi i) q c * comp b' nPhi' comps (psi i) p c) := by
    intro c hc
    refine AddsM.congr (addsM_foldlM _ _ (List.range comps)
      (fun c' hc' => inner c hc c' (List.mem_range.1 hc'))) ?_
    intro p q
    rw [sum_map_range, Finset.sum_ite_eq, if_pos (Finset.mem_range.2 hc)]
  refine AddsM.congr (addsM_foldlM _ _ (List.range comps)
    (fun c hc => mid c (List.mem_range.1 hc))) ?_
  intro p q
  rw [sum_map_range, Finset.sum_comm]
  exact Finset.sum_congr rfl fun i _ => by rw [Finset.mul_sum]

theorem rotationEntry_adds {total b nT tComp nS sComp : Nat} (h : b + nT * tComp ≤ total)
    (h' : nS * sComp ≤ total) (n : Nat) (w : Nat → K) (phi : Nat → Nat → K)
    (psi : Nat → Nat → Nat → K) (op : Nat → Nat → Nat → K)
    (hop : ∀ d x y, op d x y = ∑ i ∈ Finset.range n, w i * (phi i x * psi i d y)) {c : Nat}
    (hc : c < tComp) {cs : Nat} (hcs : cs < sComp) (d : Nat) (sgn : K) :
    AddsM (fun j => (do
      let rows := sliceIdx total (c + b) (c + b + nT * tComp) tComp
      let cols := sliceIdx total cs (cs + nS * sComp) sComp
      let j ← addRect j rows cols nT nS fun x y => -1 * (sgn * op d x y)
      addRect j cols rows nS nT fun x y => -1 * (sgn * op d y x) : Res (Mat K))) fun p q =>
      ∑ i ∈ Finset.range n, w i * (-sgn *
        (comp b nT tComp (phi i) p c * comp 0 nS sComp (psi i d) q cs +
          comp b nT tComp (phi i) q c * comp 0 nS sComp (psi i d) p cs)) := by
  have k1 := addRect_products h hc (b' := 0) (nPhi' := nS) (comps' := sComp) (by omega) hcs (Finset.range n)
    (fun i => w i * -sgn) phi (fun i => psi i d) (fun x y => -1 * (sgn * op d x y)) (fun x y => by
      rw [hop, Finset.mul_sum, Finset.mul_sum]
      exact Finset.sum_congr rfl fun i _ => by ring)
  have k2 := addRect_products (b := 0) (nPhi := nS) (comps := sComp) (by omega) hcs h hc (Finset.range n)
    (fun i => w i * -sgn) (fun i => psi i d) phi (fun x y => -1 * (sgn * op d y x)) (fun x y => by
      rw [hop, Finset.mul_sum, Finset.mul_sum]
      exact Finset.sum_congr rfl fun i _ => by ring)
  simp only [Nat.add_zero] at k1 k2
  refine (addsM_bind k1 k2).congr ?_
  intro p q
  rw [← Finset.sum_add_distrib]
  exact Finset.sum_congr rfl fun i _ => by ring

/-- The entries of `crossTable`. -/
def tableOf (m c : Nat) : List (Nat × Nat × K) :=
  if m = 3 then match c with
    | 0 => [(2, 1, 1), (1, 2, -1)]
    | 1 => [(0, 2, 1), (2, 0, -1)]
    | _ => [(1, 0, 1), (0, 1, -1)]
  else [(1, 0, 1), (0, 1, -1)]

theorem crossTable_eq {m c : Nat} (hm : m = 2 ∨ m = 3) (hc : c < spins m) :
    crossTable (K := K) m c = .ok (tableOf m c) ∧ ∀ e ∈ tableOf (K := K) m c, e.1 < m := by
  rcases hm with rfl | rfl
  · have hc : c < 1 := hc
    interval_cases c
    exact ⟨rfl, by simp [tableOf]⟩
  · have hc : c < 3 := hc
    interval_cases c
    · exact ⟨rfl, by simp [tableOf]⟩
    · exact ⟨rfl, by simp [tableOf]⟩
    · exact ⟨rfl, by simp [tableOf]⟩

theorem rotationBlocks_adds {total m b nT nS : Nat} (hm : m = 2 ∨ m = 3)
    (h : b + nT * spins m ≤ total) (h' : nS * m ≤ total) (n : Nat) (w : Nat → K)
    (phi : Nat → Nat → K) (psi : Nat → Nat → Nat → K) (op : Nat → Nat → Nat → K)
    (hop : ∀ d x y, op d x y = ∑ i ∈ Finset.range n, w i * (phi i x * psi i d y)) :
    AddsM (rotationBlocks total m b nT (spins m) nS m op) fun p q =>
      ∑ i ∈ Finset.range n, w i * -(
        contract m (axial m (comp b nT (spins m) (phi i) p))
          (fun k l => comp 0 nS m (psi i l) q k) +
        contract m (axial m (comp b nT (spins m) (phi i) q))
          (fun k l => comp 0 nS m (psi i l) p k)) := by
  have key := addsM_foldlM (fun (j : Mat K) c => (do
      let table ← crossTable (K := K) m c
      table.foldlM (fun (j : Mat K) e => do
        let rows := sliceIdx total (c + b) (c + b + nT * spins m) (spins m)
        let cols := sliceIdx total e.1 (e.1 + nS * m) m
        let j ← addRect j rows cols nT nS fun x y => -1 * (e.2.2 * op e.2.1 x y)
        addRect j cols rows nS nT fun x y => -1 * (e.2.2 * op e.2.1 y x)) j : Res (Mat K)))
    (fun c p q => ((tableOf m c).map fun e => ∑ i ∈ Finset.range n, w i * (-e.2.2 *
        (comp b nT (spins m) (phi i) p c * comp 0 nS m (psi i e.2.1) q e.1 +
          comp b nT (spins m) (phi i) q c * comp 0 nS m (psi i e.2.1) p e.1))).sum)
    (List.range (spins m)) (fun c hc => by
      obtain ⟨e1, e2⟩ := crossTable_eq (K := K) hm (List.mem_range.1 hc)
      simp only [e1, Res.bind_ok]
      exact addsM_foldlM _ _ (tableOf m c) fun e he =>
        rotationEntry_adds h h' n w phi psi op hop (List.mem_range.1 hc) (e2 e he) e.2.1 e.2.2)
  refine AddsM.congr key ?_
  intro p q
  rw [sum_map_range]
  rcases hm with rfl | rfl
  · simp only [show spins 2 = 1 from rfl, Finset.sum_range_one, tableOf, if_neg (show ¬ 2 = 3 by decide),
      List.map_cons, List.map_nil, List.sum_cons, List.sum_nil, add_zero, ← Finset.sum_add_distrib]
    refine Finset.sum_congr rfl fun i _ => ?_
    simp [contract, axial, Finset.sum_range_succ]
    ring
  · simp only [show spins 3 = 3 from rfl, Finset.sum_range_succ, Finset.sum_range_zero, tableOf, if_true,
      List.map_cons, List.map_nil, List.sum_cons, List.sum_nil, add_zero, zero_add,
      ← Finset.sum_add_distrib]
    refine Finset.sum_congr rfl fun i _ => ?_
    simp [contract, axial, Finset.sum_range_succ]
    ring

/-! ### The laws -/

theorem strain_zero (m : Nat) (mu lam kappa : K) (k l : Nat) :
    strain m mu lam kappa (fun _ _ => 0) k l = 0 := by
  simp [strain, sym, skew, tr]

theorem strain_zero_contract (m : Nat) (mu lam kappa : K) (g : Nat → Nat → K) :
    contract m (strain m mu lam kappa fun _ _ => 0) g = 0 := by
  simp [contract, strain_zero]

theorem tensorEntry {m : Nat} (hm : m = 2 ∨ m = 3) (mu lam kappa : K) (phi : Nat → Nat → K)
    {a b r s : Nat} (hr : r < m) (hs : s < m) :
    (1 / 2 * ((∑ k ∈ Finset.range m, phi b k * phi a k) * if r = s then 1 else 0) +
        1 / 2 * (phi b r * phi a s)) * (1 / (2 * mu)) +
      (1 / 2 * ((∑ k ∈ Finset.range m, phi b k * phi a k) * if r = s then 1 else 0) -
        1 / 2 * (phi b r * phi a s)) * (1 / (2 * kappa)) +
      - (phi a r * phi b s) * (1 / (2 * mu) * (lam / (2 * mu + (m : K) * lam))) =
    contract m (strain m mu lam kappa fun k l => if s = k then phi b l else 0)
      (fun k l => if r = k then phi a l else 0) := by
  rw [contract_row hr]
  rcases hm with rfl | rfl
  · interval_cases r <;> interval_cases s <;>
    · simp [strain, sym, skew, tr, Finset.sum_range_succ]
      ring
  · interval_cases r <;> interval_cases s <;>
    · simp [strain, sym, skew, tr, Finset.sum_range_succ]
      ring

theorem tensorBlock_eq {m : Nat} (hm : m = 2 ∨ m = 3) (n : Nat) (t : Tab K)
    (w mu lam kappa : Nat → K) (p q : Nat) :
    tensorBlock n m m t w mu lam kappa p q = ∑ i ∈ Finset.range n, w i *
      contract m (strain m (mu i) (lam i) (kappa i) fun k l =>
          if q % m = k then t.val 0 i (q / m) l else 0)
        (fun k l => if p % m = k then t.val 0 i (p / m) l else 0) := by
  unfold tensorBlock outerFun innerFun
  rw [← Finset.sum_add_distrib, ← Finset.sum_add_distrib]
  refine Finset.sum_congr rfl fun i _ => ?_
  have h0 : 0 < m := by omega
  rw [← tensorEntry hm (mu i) (lam i) (kappa i) (t.val 0 i) (a := p / m) (b := q / m)
    (Nat.mod_lt p h0) (Nat.mod_lt q h0)]
  ring

theorem tensor_adds {total b nPhi m : Nat} (hm : m = 2 ∨ m = 3) (h : b + nPhi * m ≤ total) (n : Nat)
    (t : Tab K) (w mu lam kappa : Nat → K) :
    AddsM (fun j => addRect j (sliceIdx total b (b + nPhi * m) 1) (sliceIdx total b (b + nPhi * m) 1)
      (nPhi * m) (nPhi * m) (tensorBlock n m m t w mu lam kappa)) fun p q =>
      ∑ i ∈ Finset.range n, w i * contract m (strain m (mu i) (lam i) (kappa i) fun k l =>
          comp b nPhi m (fun a => t.val 0 i a l) q k)
        (fun k l => comp b nPhi m (fun a => t.val 0 i a l) p k) := by
  have key := addRect_field (total := total) (b := b) (nPhi := nPhi * m) (comps := 1) (c := 0)
    (b' := b) (nPhi' := nPhi * m) (comps' := 1) (c' := 0) (by omega) (by omega) (by omega) (by omega)
    (tensorBlock n m m t w mu lam kappa)
  simp only [Nat.zero_add, Nat.mul_one, Nat.mod_one, and_true, Nat.div_one] at key
  refine key.congr ?_
  intro p q
  by_cases hp : b ≤ p ∧ p < b + nPhi * m
  · by_cases hq : b ≤ q ∧ q < b + nPhi * m
    · rw [if_pos ⟨hp, hq⟩, tensorBlock_eq hm]
      refine Finset.sum_congr rfl fun i _ => ?_
      have e : ∀ x, b ≤ x ∧ x < b + nPhi * m →
          (fun k l => comp b nPhi m (fun a => t.val 0 i a l) x k) =
          fun k l => if (x - b) % m = k then t.val 0 i ((x - b) / m) l else 0 := by
        intro x hx
        funext k l
        rw [comp_in hx.1 hx.2]
      rw [e p hp, e q hq]
    · rw [if_neg (fun hh => hq hh.2)]
      refine (Finset.sum_eq_zero fun i _ => ?_).symm
      have e : (fun k l => comp b nPhi m (fun a => t.val 0 i a l) q k) = fun _ _ => 0 := by
        funext k l; exact comp_out (by omega)
      rw [e, strain_zero_contract, mul_zero]
  · rw [if_neg (fun hh => hp hh.1)]
    refine (Finset.sum_eq_zero fun i _ => ?_).symm
    have e : (fun k l => comp b nPhi m (fun a => t.val 0 i a l) p k) = fun _ _ => 0 := by
      funext k l; exact comp_out (by omega)
    rw [e, zero_contract, mul_zero]

/-- The factor of the points. -/
def pointWeight (sp : Spaces K X) (i : Nat) : K := sp.s.det i * sp.s.weights i

theorem massBlocks_adds (scaled : Bool) {sp : Spaces K X} (h : Fits sp) (c : X → Nat → Coeffs K) :
    AddsM (massBlocks scaled sp c) fun p q => ∑ i ∈ Finset.range sp.s.nPts, pointWeight sp i *
      lawPower scaled sp.s.dim (c sp.s.x i) (dofFields scaled sp (c sp.s.x i) i q)
        (dofFields scaled sp (c sp.s.x i) i p) := by
  have b1 : 0 + sp.s.tab.nPhi * sp.s.dim ≤ sp.total := by
    unfold Spaces.total Spaces.nS; rw [h.sComp]; omega
  have k1 := tensor_adds h.dim b1 sp.s.nPts sp.s.tab (pointWeight sp) (fun i => (c sp.s.x i).muS)
    (fun i => (c sp.s.x i).lamS) (fun i => (c sp.s.x i).kapS)
  have e1 : min sp.s.dim sp.s.tab.nVal = sp.s.dim := Nat.min_eq_left h.sVal
  have e2 : min sp.s.dim sp.m.nVal = sp.s.dim := Nat.min_eq_left h.mVal
  have n1 : sp.nS = sp.s.tab.nPhi * sp.s.dim := by unfold Spaces.nS; rw [h.sComp]
  rcases h.dim with hd | hd
  · have b2 : sp.nS + sp.m.nPhi * sp.mComp ≤ sp.total := by
      unfold Spaces.total Spaces.nM; omega
    have k2 := diagonalBlocks_adds b2 (Finset.range sp.s.nPts ×ˢ Finset.range sp.s.dim)
      (fun x => pointWeight sp x.1 * coupleFactor scaled (c sp.s.x x.1) *
        (1 / ((c sp.s.x x.1).muO + (c sp.s.x x.1).kapO)))
      (fun x a => sp.m.val 0 x.1 a x.2) (fun x a => sp.m.val 0 x.1 a x.2)
      (fun a b => ∑ i ∈ Finset.range sp.s.nPts,
        (∑ k ∈ Finset.range sp.s.dim, sp.m.val 0 i b k * sp.m.val 0 i a k) *
          (pointWeight sp i * coupleFactor scaled (c sp.s.x i) *
            (1 / ((c sp.s.x i).muO + (c sp.s.x i).kapO)))) (fun x y => by
        rw [Finset.sum_product]
        refine Finset.sum_congr rfl fun i _ => ?_
        rw [Finset.sum_mul]
        exact Finset.sum_congr rfl fun l _ => by ring)
    refine (addsM_of_eq (g := massBlocks scaled sp c) (addsM_bind k1 k2) fun j => ?_).congr ?_
    · unfold massBlocks
      dsimp only
      simp only [e1, e2, if_neg (show ¬ sp.s.dim = 3 by omega), Nat.zero_add, ← n1]
      rfl
    · intro p q
      rw [Finset.sum_product, ← Finset.sum_add_distrib]
      refine Finset.sum_congr rfl fun i _ => ?_
      unfold lawPower couplePower contractSpin
      rw [if_pos hd, mul_add]
      congr 1
      · unfold dofFields
        dsimp only
        rw [h.sComp]
      · unfold coupleFactor dofFields
        dsimp only
        rw [h.mComp, ← Finset.mul_sum, Finset.sum_comm]
        simp only [Finset.sum_div, Finset.mul_sum]
        refine Finset.sum_congr rfl fun k _ => Finset.sum_congr rfl fun l _ => ?_
        ring
  · have n2 : sp.nM = sp.m.nPhi * sp.s.dim := by unfold Spaces.nM; rw [h.mComp, hd]; rfl
    have b2 : sp.nS + sp.m.nPhi * sp.s.dim ≤ sp.total := by
      rw [← n2]; unfold Spaces.total; omega
    have k2 := tensor_adds h.dim b2 sp.s.nPts sp.m
      (fun i => pointWeight sp i * coupleFactor scaled (c sp.s.x i)) (fun i => (c sp.s.x i).muO)
      (fun i => (c sp.s.x i).lamO) (fun i => (c sp.s.x i).kapO)
    refine (addsM_of_eq (g := massBlocks scaled sp c) (addsM_bind k1 k2) fun j => ?_).congr ?_
    · unfold massBlocks
      dsimp only
      simp only [e1, e2, if_pos hd, Nat.zero_add, ← n1, ← n2]
      rfl
    · intro p q
      rw [← Finset.sum_add_distrib]
      refine Finset.sum_congr rfl fun i _ => ?_
      unfold lawPower couplePower
      rw [if_neg (show ¬ sp.s.dim = 2 by omega), mul_add]
      congr 1
      · unfold dofFields
        dsimp only
        rw [h.sComp]
      · unfold coupleFactor dofFields
        dsimp only
        have hs : sp.mComp = sp.s.dim := by rw [h.mComp, hd]; rfl
        rw [hs, mul_assoc]

/-! ### The vectorized systems -/

theorem traceGrad_eq {t : Tab K} {dim : Nat} (h1 : dim ≤ t.nVal) (h2 : dim ≤ t.nDer) {det : K}
    (hd : det ≠ 0) (i a : Nat) : traceGrad t dim i a = det * tabDiv t dim det i a := by
  unfold traceGrad tabDiv
  rw [Nat.min_eq_left h1, Nat.min_eq_right h2, mul_div_cancel₀ _ hd]

theorem coupleTrace_eq {t : Tab K} {dim : Nat} (h1 : dim ≤ t.nVal) (h2 : dim ≤ t.nDer) {det : K}
    (hd : det ≠ 0) (scaled : Bool) (c : Coeffs K) (i a : Nat) :
    coupleTrace scaled t dim i det c a = det * coupleDiv scaled t dim det c i a := by
  unfold coupleTrace coupleDiv
  rw [traceGrad_eq h1 h2 hd, Nat.min_eq_left h1]
  split
  · ring
  · rfl

theorem rieszTrace_eq {t : Tab K} {dim : Nat} (h1 : dim ≤ t.nVal) (h2 : dim ≤ t.nDer) {det : K}
    (hd : det ≠ 0) (scaled : Bool) (c : Coeffs K) (i a : Nat) :
    rieszTrace scaled t dim i det c a = coupleDiv scaled t dim det c i a := by
  unfold rieszTrace coupleDiv
  rw [traceGrad_eq h1 h2 hd, Nat.min_eq_left h1]
  split
  · field_simp
    ring
  · field_simp

theorem vectorized_spec (scaled : Bool) {sp : Spaces K X} (h : Fits sp)
    (hd : ∀ i < sp.s.nPts, sp.s.det i ≠ 0) (rhs : X → Nat → Nat → K) (c : X → Nat → Coeffs K) :
    ∃ r j, vectorized scaled sp rhs c = .ok (r, j) ∧ r.n = sp.total ∧ j.n = sp.total ∧
      (∀ p, r.val p = - load scaled sp rhs c p) ∧ ∀ p q, j.val p q = dualMatrix scaled sp c p q := by
  obtain ⟨r, e0, n0, v0⟩ := loads_spec (R := K) scaled h rhs c
  have b1 : 0 + sp.s.tab.nPhi * sp.sComp ≤ sp.total := by
    unfold Spaces.total Spaces.nS; omega
  have b1' : sp.s.tab.nPhi * sp.s.dim ≤ sp.total := by
    unfold Spaces.total Spaces.nS; rw [h.sComp]; omega
  have b2 : sp.nS + sp.m.nPhi * sp.mComp ≤ sp.total := by
    unfold Spaces.total Spaces.nM; omega
  have b3 : sp.nS + sp.nM + sp.u.nPhi * sp.uComp ≤ sp.total := by
    unfold Spaces.total Spaces.nU; omega
  have b4 : sp.nS + sp.nM + sp.nU + sp.t.nPhi * sp.tComp ≤ sp.total := le_rfl
  have k1 := massBlocks_adds scaled h c
  have k2 := rotationBlocks_adds h.dim (by rw [← h.tComp]; exact b4) b1' sp.s.nPts (pointWeight sp)
    (fun i a => sp.t.val 0 i a 0) (fun i d a => sp.s.tab.val 0 i a d)
    (fun d a b => ∑ i ∈ Finset.range sp.s.nPts,
      sp.t.val 0 i a 0 * sp.s.tab.val 0 i b d * (sp.s.det i * sp.s.weights i))
    (fun d x y => Finset.sum_congr rfl fun i _ => by unfold pointWeight; ring)
  have k3 := couplingBlocks_adds (b' := 0) (nPhi' := sp.s.tab.nPhi) b3
    (by rw [h.uComp, ← h.sComp]; exact b1) sp.s.nPts (pointWeight sp)
    (fun i a => sp.u.val 0 i a 0) (fun i a => tabDiv sp.s.tab sp.s.dim (sp.s.det i) i a)
    (fun a b => ∑ i ∈ Finset.range sp.s.nPts,
      sp.s.weights i * sp.u.val 0 i a 0 * traceGrad sp.s.tab sp.s.dim i b)
    (fun x y => Finset.sum_congr rfl fun i hi => by
      rw [traceGrad_eq h.sVal h.sDer (hd i (Finset.mem_range.1 hi))]; unfold pointWeight; ring)
  have k4 := couplingBlocks_adds (b' := sp.nS) (nPhi' := sp.m.nPhi) b4
    (by rw [h.tComp, ← h.mComp]; exact b2) sp.s.nPts (pointWeight sp)
    (fun i a => sp.t.val 0 i a 0)
    (fun i a => coupleDiv scaled sp.m sp.s.dim (sp.s.det i) (c sp.s.x i) i a)
    (fun a b => ∑ i ∈ Finset.range sp.s.nPts, sp.s.weights i * sp.t.val 0 i a 0 *
      coupleTrace scaled sp.m sp.s.dim i (sp.s.det i) (c sp.s.x i) b)
    (fun x y => Finset.sum_congr rfl fun i hi => by
      rw [coupleTrace_eq h.mVal h.mDer (hd i (Finset.mem_range.1 hi))]; unfold pointWeight; ring)
  have key := addsM_bind k1 (addsM_bind k2 (addsM_bind k3 k4)) (zeros2 sp.total)
  obtain ⟨j, e1, d1⟩ := named key
  refine ⟨r, j, ?_, n0, ?_, ?_, ?_⟩
  · unfold vectorized
    dsimp only at e1 ⊢
    rw [e0]
    simp only [Res.bind_ok]
    rw [h.sComp, h.uComp, h.mComp, h.tComp]
    simp only [h.uComp, h.tComp, ← bind_assoc] at e1 ⊢
    rw [e1]
    rfl
  · rw [d1]; rfl
  · intro p; rw [v0]; rfl
  · intro p q
    rw [d1]
    simp only [zeros2, zero_add, ← Finset.sum_add_distrib]
    unfold dualMatrix matrixOf
    refine Finset.sum_congr rfl fun i _ => ?_
    unfold dualPower
    have key : ∀ {w L A B S1 S2 S1' S2' : K}, S1' = S1 → S2' = S2 →
        w * L + (w * -(A + B) + (w * S1 + w * S2)) = w * (L + S1' + S2' - B - A) := by
      intro w L A B S1 S2 S1' S2' h1 h2; rw [h1, h2]; ring
    simp only [dofFields, h.sComp, h.uComp, h.tComp, h.mComp]
    exact key (Finset.sum_congr rfl fun k _ => by ring) (Finset.sum_congr rfl fun k _ => by ring)

theorem rieszVectorized_spec (scaled : Bool) {sp : Spaces K X} (h : Fits sp)
    (hd : ∀ i < sp.s.nPts, sp.s.det i ≠ 0) (c : X → Nat → Coeffs K) :
    ∃ j, rieszVectorized scaled sp c = .ok (Vec.zeros sp.total, j) ∧ j.n = sp.total ∧
      ∀ p q, j.val p q = rieszMatrix scaled sp c p q := by
  have b1 : 0 + sp.s.tab.nPhi * sp.sComp ≤ sp.total := by
    unfold Spaces.total Spaces.nS; omega
  have b2 : sp.nS + sp.m.nPhi * sp.mComp ≤ sp.total := by
    unfold Spaces.total Spaces.nM; omega
  have b3 : sp.nS + sp.nM + sp.u.nPhi * sp.uComp ≤ sp.total := by
    unfold Spaces.total Spaces.nU; omega
  have b4 : sp.nS + sp.nM + sp.nU + sp.t.nPhi * sp.tComp ≤ sp.total := le_rfl
  have k1 := massBlocks_adds scaled h c
  have k2 := diagonalBlocks_adds b1 (Finset.range sp.s.nPts) (pointWeight sp)
    (fun i a => tabDiv sp.s.tab sp.s.dim (sp.s.det i) i a)
    (fun i a => tabDiv sp.s.tab sp.s.dim (sp.s.det i) i a)
    (fun a b => ∑ i ∈ Finset.range sp.s.nPts,
      traceGrad sp.s.tab sp.s.dim i b * (1 / sp.s.det i) *
        (traceGrad sp.s.tab sp.s.dim i a * (1 / sp.s.det i)) * (sp.s.det i * sp.s.weights i))
    (fun x y => Finset.sum_congr rfl fun i hi => by
      have hn := hd i (Finset.mem_range.1 hi)
      rw [traceGrad_eq h.sVal h.sDer hn, traceGrad_eq h.sVal h.sDer hn]
      unfold pointWeight; field_simp)
  have k3 := diagonalBlocks_adds b2 (Finset.range sp.s.nPts) (pointWeight sp)
    (fun i a => coupleDiv scaled sp.m sp.s.dim (sp.s.det i) (c sp.s.x i) i a)
    (fun i a => coupleDiv scaled sp.m sp.s.dim (sp.s.det i) (c sp.s.x i) i a)
    (fun a b => ∑ i ∈ Finset.range sp.s.nPts,
      rieszTrace scaled sp.m sp.s.dim i (sp.s.det i) (c sp.s.x i) b *
        rieszTrace scaled sp.m sp.s.dim i (sp.s.det i) (c sp.s.x i) a * (sp.s.det i * sp.s.weights i))
    (fun x y => Finset.sum_congr rfl fun i hi => by
      have hn := hd i (Finset.mem_range.1 hi)
      rw [rieszTrace_eq h.mVal h.mDer hn, rieszTrace_eq h.mVal h.mDer hn]
      unfold pointWeight; ring)
  have k4 := diagonalBlocks_adds b3 (Finset.range sp.s.nPts) (pointWeight sp)
    (fun i a => sp.u.val 0 i a 0) (fun i a => sp.u.val 0 i a 0)
    (fun a b => ∑ i ∈ Finset.range sp.s.nPts,
      sp.u.val 0 i b 0 * sp.u.val 0 i a 0 * (sp.s.det i * sp.s.weights i))
    (fun x y => Finset.sum_congr rfl fun i _ => by unfold pointWeight; ring)
  have k5 := diagonalBlocks_adds b4 (Finset.range sp.s.nPts) (pointWeight sp)
    (fun i a => sp.t.val 0 i a 0) (fun i a => sp.t.val 0 i a 0)
    (fun a b => ∑ i ∈ Finset.range sp.s.nPts,
      sp.t.val 0 i b 0 * sp.t.val 0 i a 0 * (sp.s.det i * sp.s.weights i))
    (fun x y => Finset.sum_congr rfl fun i _ => by unfold pointWeight; ring)
  have key := addsM_bind k1 (addsM_bind k2 (addsM_bind k3 (addsM_bind k4 k5))) (zeros2 sp.total)
  obtain ⟨j, e1, d1⟩ := named key
  refine ⟨j, ?_, ?_, ?_⟩
  · unfold rieszVectorized
    dsimp only at e1 ⊢
    simp only [← bind_assoc] at e1 ⊢
    rw [e1]
    rfl
  · rw [d1]; rfl
  · intro p q
    rw [d1]
    simp only [zeros2, zero_add, ← Finset.sum_add_distrib]
    unfold rieszMatrix matrixOf
    refine Finset.sum_congr rfl fun i _ => ?_
    unfold rieszPower
    simp only [dofFields, h.sComp, h.uComp, h.tComp, h.mComp, Finset.sum_add_distrib]
    have key : ∀ {w L A B C D A' B' C' D' : K}, A' = A → B' = B → C' = C → D' = D →
        w * L + (w * A + (w * B + (w * C + w * D))) = w * (L + (A' + C') + (B' + D')) := by
      intro w L A B C D A' B' C' D' h1 h2 h3 h4; rw [h1, h2, h3, h4]; ring
    exact key (Finset.sum_congr rfl fun k _ => by ring) (Finset.sum_congr rfl fun k _ => by ring)
      (Finset.sum_congr rfl fun k _ => by ring) (Finset.sum_congr rfl fun k _ => by ring)

end Verif.Dual
