/-
Helper lemmas for C81.
-/
import Verif.Model.DualLe
import Verif.Lemmas.DualEnergy

namespace Verif.Dual
open Assembly L2Form Laplace Elasticity Cosserat

variable {K X : Type} [Field K]

/-- The coefficients of elasticity without couples, as those of Cosserat elasticity; of the couple
stress there is none, so that its coefficients do not matter. -/
def leCoeffs (lam mu : X → Nat → K) : X → Nat → Coeffs K :=
  fun x i => ⟨lam x i, mu x i, mu x i, lam x i, mu x i, mu x i, 1, fun _ => 0⟩

/-- The law with `κ = μ`: `(σ - λ / (2μ + mλ) tr(σ) I) / 2μ`. -/
theorem strain_same [CharZero K] (m : Nat) (mu lam : K) (a b : Nat → Nat → K) :
    contract m (strain m mu lam mu a) b =
      (contract m a b - lam / (2 * mu + (m : K) * lam) * tr m a * tr m b) / (2 * mu) := by
  have e : ∀ k l, strain m mu lam mu a k l =
      (a k l - lam / (2 * mu + (m : K) * lam) * tr m a * (if k = l then 1 else 0)) / (2 * mu) := by
    intro k l
    unfold strain sym skew
    rw [← add_div]
    congr 1
    have h2 : (2 : K) ≠ 0 := two_ne_zero
    field_simp
    ring
  unfold contract
  simp only [e, div_mul_eq_mul_div, ← Finset.sum_div]
  congr 1
  simp only [sub_mul, Finset.sum_sub_distrib]
  congr 1
  rw [show tr m b = ∑ k ∈ Finset.range m, b k k from rfl, Finset.mul_sum]
  rw [Finset.sum_div]
  refine Finset.sum_congr rfl fun k hk => ?_
  simp only [mul_ite, mul_one, mul_zero, ite_div, zero_div, ite_mul, zero_mul]
  rw [Finset.sum_ite_eq, if_pos hk]
  ring

theorem tr_comp {m : Nat} (hm : 0 < m) (b nPhi : Nat) (f : Nat → Nat → K) (p : Nat) :
    tr m (fun k l => comp b nPhi m (fun a => f a l) p k) =
      if b ≤ p ∧ p < b + nPhi * m then f ((p - b) / m) ((p - b) % m) else 0 := by
  unfold tr
  by_cases h : b ≤ p ∧ p < b + nPhi * m
  · simp only [comp_in h.1 h.2]
    rw [if_pos h, Finset.sum_ite_eq, if_pos (Finset.mem_range.2 (Nat.mod_lt _ hm))]
  · rw [if_neg h]
    exact Finset.sum_eq_zero fun k _ => comp_out (by omega)

/-- Without couple stress the law is that of the stress. -/
theorem lawPower_le {sp : Spaces K X} (hn : sp.m.nPhi = 0) (scaled : Bool) (c : Coeffs K) (i p q : Nat) :
    lawPower scaled sp.s.dim c (dofFields scaled sp c i q) (dofFields scaled sp c i p) =
      contract sp.s.dim (strain sp.s.dim c.muS c.lamS c.kapS (dofFields scaled sp c i q).sig)
        (dofFields scaled sp c i p).sig := by
  have e : (dofFields scaled sp c i p).mom = fun _ _ => 0 := by
    funext k l
    dsimp only [dofFields]
    exact comp_out (by rw [hn]; omega)
  unfold lawPower
  rw [e, couplePower_zero, mul_zero, add_zero]

theorem leMass_adds [CharZero K] {sp : Spaces K X} (h : Fits sp) (hn : sp.m.nPhi = 0)
    (lam mu : X → Nat → K) :
    AddsM (leMass sp (lam sp.s.x) (mu sp.s.x)) fun p q => ∑ i ∈ Finset.range sp.s.nPts,
      pointWeight sp i * lawPower false sp.s.dim (leCoeffs lam mu sp.s.x i)
        (dofFields false sp (leCoeffs lam mu sp.s.x i) i q)
        (dofFields false sp (leCoeffs lam mu sp.s.x i) i p) := by
  have h0 : 0 < sp.s.dim := by have := h.dim; omega
  have n1 : sp.nS = sp.s.tab.nPhi * sp.s.dim := by unfold Spaces.nS; rw [h.sComp]
  have b1 : 0 + sp.s.tab.nPhi * sp.s.dim ≤ sp.total := by
    unfold Spaces.total Spaces.nS; rw [h.sComp]; omega
  have e1 : min sp.s.dim sp.s.tab.nVal = sp.s.dim := Nat.min_eq_left h.sVal
  have k1 := diagonalBlocks_adds b1 (Finset.range sp.s.nPts ×ˢ Finset.range sp.s.dim)
    (fun x => 1 / (2 * mu sp.s.x x.1) * pointWeight sp x.1)
    (fun x a => sp.s.tab.val 0 x.1 a x.2) (fun x a => sp.s.tab.val 0 x.1 a x.2)
    (fun a b => ∑ i ∈ Finset.range sp.s.nPts,
      (∑ k ∈ Finset.range sp.s.dim, sp.s.tab.val 0 i b k * sp.s.tab.val 0 i a k) *
        (1 / (2 * mu sp.s.x i) * sp.s.det i * sp.s.weights i)) (fun x y => by
      rw [Finset.sum_product]
      refine Finset.sum_congr rfl fun i _ => ?_
      rw [Finset.sum_mul]
      exact Finset.sum_congr rfl fun l _ => by unfold pointWeight; ring)
  have k2 := addRect_field (total := sp.total) (b := 0) (nPhi := sp.s.tab.nPhi * sp.s.dim) (comps := 1)
    (c := 0) (b' := 0) (nPhi' := sp.s.tab.nPhi * sp.s.dim) (comps' := 1) (c' := 0) (by omega) (by omega)
    (by omega) (by omega)
    (fun r c => ∑ i ∈ Finset.range sp.s.nPts,
      -1 * (sp.s.tab.val 0 i (c / sp.s.dim) (c % sp.s.dim) * sp.s.tab.val 0 i (r / sp.s.dim) (r % sp.s.dim)) *
        (1 / (2 * mu sp.s.x i) * (lam sp.s.x i / (2 * mu sp.s.x i + (sp.s.dim : K) * lam sp.s.x i)) *
          sp.s.det i * sp.s.weights i))
  simp only [Nat.zero_add, Nat.mul_one, Nat.mod_one, and_true, Nat.div_one, Nat.zero_le, true_and,
    Nat.sub_zero] at k2
  refine (addsM_of_eq (g := leMass sp (lam sp.s.x) (mu sp.s.x)) (addsM_bind k1 k2) fun j => ?_).congr ?_
  · unfold leMass
    dsimp only
    simp only [e1, h.sComp, n1]
  · intro p q
    have hv : (if p < sp.s.tab.nPhi * sp.s.dim ∧ q < sp.s.tab.nPhi * sp.s.dim then
        ∑ i ∈ Finset.range sp.s.nPts,
          -1 * (sp.s.tab.val 0 i (q / sp.s.dim) (q % sp.s.dim) *
            sp.s.tab.val 0 i (p / sp.s.dim) (p % sp.s.dim)) *
          (1 / (2 * mu sp.s.x i) * (lam sp.s.x i / (2 * mu sp.s.x i + (sp.s.dim : K) * lam sp.s.x i)) *
            sp.s.det i * sp.s.weights i) else 0) =
        ∑ i ∈ Finset.range sp.s.nPts, - (pointWeight sp i * (1 / (2 * mu sp.s.x i) *
          (lam sp.s.x i / (2 * mu sp.s.x i + (sp.s.dim : K) * lam sp.s.x i))) *
          (tr sp.s.dim (fun k l => comp 0 sp.s.tab.nPhi sp.s.dim (fun a => sp.s.tab.val 0 i a l) q k) *
            tr sp.s.dim (fun k l => comp 0 sp.s.tab.nPhi sp.s.dim (fun a => sp.s.tab.val 0 i a l) p k))) := by
      simp only [tr_comp h0, Nat.zero_le, true_and, Nat.zero_add, Nat.sub_zero]
      by_cases hp : p < sp.s.tab.nPhi * sp.s.dim
      · by_cases hq : q < sp.s.tab.nPhi * sp.s.dim
        · simp only [hp, hq, and_self, if_true]
          exact Finset.sum_congr rfl fun i _ => by unfold pointWeight; ring
        · simp only [hp, hq, and_false, if_false, zero_mul, mul_zero, neg_zero, Finset.sum_const_zero]
      · simp only [hp, false_and, if_false, mul_zero, neg_zero, Finset.sum_const_zero]
    rw [hv, Finset.sum_product, ← Finset.sum_add_distrib]
    refine Finset.sum_congr rfl fun i _ => ?_
    rw [lawPower_le hn, show (leCoeffs lam mu sp.s.x i).kapS = mu sp.s.x i from rfl,
      show (leCoeffs lam mu sp.s.x i).muS = mu sp.s.x i from rfl,
      show (leCoeffs lam mu sp.s.x i).lamS = lam sp.s.x i from rfl, strain_same]
    dsimp only [dofFields]
    rw [h.sComp, ← Finset.mul_sum, Finset.sum_comm]
    have key : ∀ {w m l C C' a b : K}, C' = C →
        1 / m * w * C' + - (w * (1 / m * l) * (a * b)) = w * ((C - l * a * b) / m) := by
      intro w m l C C' a b h; rw [h]; ring
    refine key ?_
    unfold contract
    exact Finset.sum_congr rfl fun k _ => Finset.sum_congr rfl fun l _ => mul_comm _ _

/-- Without couple stress its divergence is no part of the form. -/
theorem dmom_le {sp : Spaces K X} (hn : sp.m.nPhi = 0) (scaled : Bool) (c : Coeffs K) (i p k : Nat) :
    (dofFields scaled sp c i p).dmom k = 0 := by
  dsimp only [dofFields]
  exact comp_out (by rw [hn]; omega)

theorem leVectorized_spec [CharZero K] {sp : Spaces K X} (h : Fits sp) (hn : sp.m.nPhi = 0)
    (hd : ∀ i < sp.s.nPts, sp.s.det i ≠ 0) (rhs : X → Nat → Nat → K) (lam mu : X → Nat → K) :
    ∃ r j, leVectorized sp rhs lam mu = .ok (r, j) ∧ r.n = sp.total ∧ j.n = sp.total ∧
      (∀ p, r.val p = - load false sp rhs (leCoeffs lam mu) p) ∧
      ∀ p q, j.val p q = dualMatrix false sp (leCoeffs lam mu) p q := by
  obtain ⟨r, e0, n0, v0⟩ := loads_spec (R := K) false h rhs (leCoeffs lam mu)
  have b1 : 0 + sp.s.tab.nPhi * sp.sComp ≤ sp.total := by
    unfold Spaces.total Spaces.nS; omega
  have b1' : sp.s.tab.nPhi * sp.s.dim ≤ sp.total := by
    unfold Spaces.total Spaces.nS; rw [h.sComp]; omega
  have b3 : sp.nS + sp.nM + sp.u.nPhi * sp.uComp ≤ sp.total := by
    unfold Spaces.total Spaces.nU; omega
  have b4 : sp.nS + sp.nM + sp.nU + sp.t.nPhi * sp.tComp ≤ sp.total := le_rfl
  have k1 := leMass_adds h hn lam mu
  have k2 := rotationBlocks_adds h.dim (by rw [← h.tComp]; exact b4) b1' sp.s.nPts (pointWeight sp)
    (fun i a => sp.t.val 0 i a 0) (fun i d a => sp.s.tab.val 0 i a d)
    (fun d a b => ∑ i ∈ Finset.range sp.s.nPts,
      sp.t.val 0 i a 0 * sp.s.tab.val 0 i b d * (sp.s.det i * sp.s.weights i))
    (fun d x y => Finset.sum_congr rfl fun i _ => by unfold pointWeight; ring)
  have k3 := couplingBlocks_adds (b' := 0) (nPhi' := sp.s.tab.nPhi) b3
    (by rw [h.uComp, ← h.sComp]; exact b1) sp.s.nPts (pointWeight sp)
    (fun i a => sp.u.val 0 i a 0) (fun i a => tabDiv sp.s.tab sp.s.dim (sp.s.det i) i a)
    (fun a b => ∑ i ∈ Finset.range sp.s.nPts,
      sp.s.weights i * sp.u.val 0 i a 0 * traceGrad sp.s.tab sp.s.dim i b)
    (fun x y => Finset.sum_congr rfl fun i hi => by
      rw [traceGrad_eq h.sVal h.sDer (hd i (Finset.mem_range.1 hi))]; unfold pointWeight; ring)
  have key := addsM_bind k1 (addsM_bind k2 k3) (zeros2 sp.total)
  obtain ⟨j, e1, d1⟩ := named key
  refine ⟨r, j, ?_, n0, ?_, ?_, ?_⟩
  · unfold leVectorized
    dsimp only at e1 ⊢
    rw [e0]
    simp only [Res.bind_ok]
    rw [h.sComp, h.uComp, h.tComp]
    simp only [h.uComp, ← bind_assoc] at e1 ⊢
    rw [e1]
    rfl
  · rw [d1]; rfl
  · intro p; rw [v0]; rfl
  · intro p q
    rw [d1]
    simp only [zeros2, zero_add, ← Finset.sum_add_distrib]
    unfold dualMatrix matrixOf
    refine Finset.sum_congr rfl fun i _ => ?_
    unfold dualPower
    simp only [dmom_le hn, mul_zero, add_zero, Finset.sum_const_zero]
    have key : ∀ {w L A B S1 S1' : K}, S1' = S1 →
        w * L + (w * -(A + B) + w * S1) = w * (L + S1' - B - A) := by
      intro w L A B S1 S1' h1; rw [h1]; ring
    simp only [dofFields, h.sComp, h.uComp, h.tComp, h.mComp]
    exact key (Finset.sum_congr rfl fun k _ => by ring)

theorem leRieszVectorized_spec [CharZero K] {sp : Spaces K X} (h : Fits sp) (hn : sp.m.nPhi = 0)
    (hd : ∀ i < sp.s.nPts, sp.s.det i ≠ 0) (lam mu : X → Nat → K) :
    ∃ j, leRieszVectorized sp lam mu = .ok (Vec.zeros sp.total, j) ∧ j.n = sp.total ∧
      ∀ p q, j.val p q = rieszMatrix false sp (leCoeffs lam mu) p q := by
  have b1 : 0 + sp.s.tab.nPhi * sp.sComp ≤ sp.total := by
    unfold Spaces.total Spaces.nS; omega
  have b3 : sp.nS + sp.nM + sp.u.nPhi * sp.uComp ≤ sp.total := by
    unfold Spaces.total Spaces.nU; omega
  have b4 : sp.nS + sp.nM + sp.nU + sp.t.nPhi * sp.tComp ≤ sp.total := le_rfl
  have k1 := leMass_adds h hn lam mu
  have k2 := diagonalBlocks_adds b1 (Finset.range sp.s.nPts) (pointWeight sp)
    (fun i a => tabDiv sp.s.tab sp.s.dim (sp.s.det i) i a)
    (fun i a => tabDiv sp.s.tab sp.s.dim (sp.s.det i) i a)
    (fun a b => ∑ i ∈ Finset.range sp.s.nPts,
      traceGrad sp.s.tab sp.s.dim i b * (1 / sp.s.det i) *
        (traceGrad sp.s.tab sp.s.dim i a * (1 / sp.s.det i)) * (sp.s.det i * sp.s.weights i))
    (fun x y => Finset.sum_congr rfl fun i hi => by
      have hn := hd i (Finset.mem_range.1 hi)
      rw [traceGrad_eq h.sVal h.sDer hn, traceGrad_eq h.sVal h.sDer hn]
      unfold pointWeight; field_simp)
  have k4 := diagonalBlocks_adds b3 (Finset.range sp.s.nPts) (pointWeight sp)
    (fun i a => sp.u.val 0 i a 0) (fun i a => sp.u.val 0 i a 0)
    (fun a b => ∑ i ∈ Finset.range sp.s.nPts,
      sp.u.val 0 i b 0 * sp.u.val 0 i a 0 * (sp.s.det i * sp.s.weights i))
    (fun x y => Finset.sum_congr rfl fun i _ => by unfold pointWeight; ring)
  have k5 := diagonalBlocks_adds b4 (Finset.range sp.s.nPts) (pointWeight sp)
    (fun i a => sp.t.val 0 i a 0) (fun i a => sp.t.val 0 i a 0)
    (fun a b => ∑ i ∈ Finset.range sp.s.nPts,
      sp.t.val 0 i b 0 * sp.t.val 0 i a 0 * (sp.s.det i * sp.s.weights i))
    (fun x y => Finset.sum_congr rfl fun i _ => by unfold pointWeight; ring)
  have key := addsM_bind k1 (addsM_bind k2 (addsM_bind k4 k5)) (zeros2 sp.total)
  obtain ⟨j, e1, d1⟩ := named key
  refine ⟨j, ?_, ?_, ?_⟩
  · unfold leRieszVectorized
    dsimp only at e1 ⊢
    simp only [← bind_assoc] at e1 ⊢
    rw [e1]
    rfl
  · rw [d1]; rfl
  · intro p q
    rw [d1]
    simp only [zeros2, zero_add, ← Finset.sum_add_distrib]
    unfold rieszMatrix matrixOf
    refine Finset.sum_congr rfl fun i _ => ?_
    unfold rieszPower
    simp only [dmom_le hn, mul_zero, zero_add]
    simp only [dofFields, h.sComp, h.uComp, h.tComp, h.mComp, Finset.sum_add_distrib]
    have key : ∀ {w L A C D A' C' D' : K}, A' = A → C' = C → D' = D →
        w * L + (w * A + (w * C + w * D)) = w * (L + (A' + C') + D') := by
      intro w L A C D A' C' D' h1 h3 h4; rw [h1, h3, h4]; ring
    exact key (Finset.sum_congr rfl fun k _ => by ring)
      (Finset.sum_congr rfl fun k _ => by ring) (Finset.sum_congr rfl fun k _ => by ring)

end Verif.Dual
