/-
Helper lemmas for C119.
-/
import Verif.Spec.Multiplier
import Verif.Lemmas.InterfaceCoupling

namespace Verif.Multiplier
open Assembly L2Form Laplace Coupling
open Strong.Arbogast (quot root)

variable {X R : Type} [CommRing R] [Algebra ℝ R]

theorem dofFields_n {n p : Side ℝ X} {dim i b : Nat} (hb : b < n.dofs.length) :
    dofFields n p dim i b = ⟨0, n.normalFlux dim i b, 0⟩ := if_pos hb

theorem dofFields_p {n p : Side ℝ X} {dim i b : Nat} (hb : b < p.dofs.length) :
    dofFields n p dim i (n.dofs.length + b) = ⟨p.normalFlux dim i b, 0, 0⟩ := by
  unfold dofFields
  rw [if_neg (by omega), if_pos (by omega), Nat.add_sub_cancel_left]

theorem dofFields_q {n p : Side ℝ X} {dim i : Nat} (b : Nat) :
    dofFields n p dim i (n.dofs.length + p.dofs.length + b) = ⟨0, 0, n.pTab.val 0 i b 0⟩ := by
  unfold dofFields
  rw [if_neg (by omega), if_neg (by omega), Nat.add_sub_cancel_left]

/-- The pairing of the code -/
def rawPairing (d c e : ℝ) (w z : Fields ℝ) : ℝ :=
  d * w.pres * z.fluxN + c * w.pres * z.fluxP + d * (w.fluxN + e * w.fluxP) * z.pres

theorem rawPairing_eq {d c e : ℝ} (h : d * e = 1) (w z : Fields ℝ) : rawPairing d c e w z = pairing d 1 c w z := by
  unfold rawPairing pairing
  linear_combination w.fluxP * z.pres * h

theorem integrand_spec {n p : Side ℝ X} {dim : Nat} (hd : 0 < dim) (hs : n.pTab.nVal = 1) (d c e : ℝ)
    (alpha : Nat → R) (i : Nat) :
    ∃ v, integrand n p dim n.dofs.length p.dofs.length n.pTab.nPhi d c e alpha i = .ok v ∧ v.n = size n p ∧
      ∀ a < size n p, v.val a = ∑ b ∈ Finset.range (size n p),
        algebraMap ℝ R (rawPairing d c e (dofFields n p dim i b) (dofFields n p dim i a)) * alpha b := by
  have hm : min dim n.pTab.nVal = 1 := by omega
  unfold integrand
  dsimp only
  rw [matmul_ok (by simp [rowOf, Arr.lift, Side.flux])]
  simp only [Res.bind_ok]
  rw [matmul_ok (by simp [rowOf, Arr.lift, Side.flux])]
  simp only [Res.bind_ok]
  rw [matmul_ok (by simp [rowOf, Arr.lift, Tab.values])]
  simp only [Res.bind_ok]
  rw [matmul_ok (by simp [Arr.scale, Arr.lift, Arr.transpose, Side.flux, Tab.values, hm])]
  simp only [Res.bind_ok]
  rw [matmul_ok (by simp [Arr.scale, Arr.lift, Arr.transpose, Side.flux, Tab.values, hm])]
  simp only [Res.bind_ok]
  rw [matmul_ok (by simp [Arr.lift, Arr.transpose, Side.flux, Tab.values, hm])]
  simp only [Res.bind_ok]
  rw [matmul_ok (by simp [Arr.scale, Arr.lift, Arr.transpose, Side.flux, Tab.values, hm])]
  simp only [Res.bind_ok]
  rw [Cosserat.add_ok (by simp [rowOf, Arr.scale]) (by simp [Arr.lift, Arr.transpose])]
  simp only [Res.bind_ok]
  rw [if_neg (by simp [Arr.scale, Arr.lift, Arr.transpose, Side.flux, Tab.values])]
  refine ⟨_, rfl, rfl, ?_⟩
  intro a ha
  unfold size at ha ⊢
  dsimp only
  rw [sum_split, sum_split]
  have split : ∀ t : Fields ℝ,
      ((∑ b ∈ Finset.range n.dofs.length, algebraMap ℝ R (rawPairing d c e (dofFields n p dim i b) t) * alpha b +
        ∑ b ∈ Finset.range p.dofs.length,
          algebraMap ℝ R (rawPairing d c e (dofFields n p dim i (n.dofs.length + b)) t) * alpha (n.dofs.length + b)) +
        ∑ b ∈ Finset.range n.pTab.nPhi,
          algebraMap ℝ R (rawPairing d c e (dofFields n p dim i (n.dofs.length + p.dofs.length + b)) t) *
            alpha (n.dofs.length + p.dofs.length + b)) =
      algebraMap ℝ R (d * t.pres) *
          ∑ b ∈ Finset.range n.dofs.length, alpha b * algebraMap ℝ R (n.normalFlux dim i b) +
        algebraMap ℝ R (d * e * t.pres) *
          ∑ b ∈ Finset.range p.dofs.length, alpha (n.dofs.length + b) * algebraMap ℝ R (p.normalFlux dim i b) +
        algebraMap ℝ R (d * t.fluxN + c * t.fluxP) * ∑ b ∈ Finset.range n.pTab.nPhi,
          alpha (n.dofs.length + p.dofs.length + b) * algebraMap ℝ R (n.pTab.val 0 i b 0) := by
    intro t
    rw [Finset.mul_sum, Finset.mul_sum, Finset.mul_sum]
    congr 1
    · congr 1
      · refine Finset.sum_congr rfl fun b hb => ?_
        rw [dofFields_n (Finset.mem_range.1 hb)]
        simp only [rawPairing, map_add, map_mul, map_zero, map_one]
        ring
      · refine Finset.sum_congr rfl fun b hb => ?_
        rw [dofFields_p (Finset.mem_range.1 hb)]
        simp only [rawPairing, map_add, map_mul, map_zero, map_one]
        ring
    · refine Finset.sum_congr rfl fun b hb => ?_
      rw [dofFields_q b]
      simp only [rawPairing, map_add, map_mul, map_zero, map_one]
      ring
  rw [split]
  by_cases h1 : a < n.dofs.length
  · rw [if_pos h1, dofFields_n h1]
    simp only [Arr.scale, Arr.transpose, Arr.lift, rowOf, Side.flux, Tab.values, hm, Finset.sum_range_one, Nat.zero_add]
    show _ * algebraMap ℝ R (n.normalFlux dim i a) = _
    simp only [map_add, map_mul, map_zero, Side.normalFlux]
    ring
  · rw [if_neg h1]
    by_cases h2 : a < n.dofs.length + p.dofs.length
    · obtain ⟨a', rfl⟩ : ∃ a', a = n.dofs.length + a' := ⟨a - n.dofs.length, by omega⟩
      rw [if_pos h2, dofFields_p (by omega), Nat.add_sub_cancel_left]
      simp only [Arr.scale, Arr.transpose, Arr.lift, rowOf, Side.flux, Tab.values, hm, Finset.sum_range_one, Nat.zero_add]
      show _ * algebraMap ℝ R (p.normalFlux dim i a') = _
      simp only [map_add, map_mul, map_zero, Side.normalFlux]
      ring
    · obtain ⟨a', rfl⟩ : ∃ a', a = n.dofs.length + p.dofs.length + a' := ⟨a - (n.dofs.length + p.dofs.length), by omega⟩
      rw [if_neg h2, dofFields_q a', Nat.add_sub_cancel_left]
      simp only [Arr.scale, Arr.transpose, Arr.lift, rowOf, Side.flux, Tab.values, hm, Finset.sum_range_one, Nat.zero_add]
      simp only [map_add, map_mul, map_zero, Side.normalFlux]
      ring

theorem form_spec {close : ℝ → ℝ → Bool} {closeX : X → X → Bool} {n p : Side ℝ X} (hm : Matching close closeX p n)
    (hs : Shapes p n) {dim : Nat} (hd : 0 < dim) (f : Nat → Option (ℝ × ℝ × ℝ)) (alpha : Nat → R) :
    ∃ r, form close closeX n p dim 1 1 1 f alpha =
        .ok (if (List.range n.nPts).all fun i => (f i).isSome then some r else none) ∧ r.n = size n p ∧
      ∀ a < size n p, r.val a = ∑ b ∈ Finset.range (size n p), algebraMap ℝ R
        (∑ i ∈ Finset.range n.nPts, n.det i * n.weights i * rawPairing ((f i).getD (0, 0, 0)).1
          ((f i).getD (0, 0, 0)).2.1 ((f i).getD (0, 0, 0)).2.2 (dofFields n p dim i b) (dofFields n p dim i a)) *
          alpha b := by
  have hphi : p.pTab.nPhi = n.pTab.nPhi := by
    have := hm.tabs
    unfold closeTabs at this
    simp only [Bool.and_eq_true, beq_iff_eq] at this
    exact this.1.1.1.1
  obtain ⟨r, h1, h2, h3⟩ := Elasticity.quadrature_affine (R := R) (size n p) (size n p) n.nPts (fun i => n.det i * n.weights i)
    (fun i => integrand n p dim n.dofs.length p.dofs.length n.pTab.nPhi ((f i).getD (0, 0, 0)).1
      ((f i).getD (0, 0, 0)).2.1 ((f i).getD (0, 0, 0)).2.2 alpha i)
    (fun i a b => rawPairing ((f i).getD (0, 0, 0)).1 ((f i).getD (0, 0, 0)).2.1 ((f i).getD (0, 0, 0)).2.2
      (dofFields n p dim i b) (dofFields n p dim i a))
    (fun _ _ => 0) alpha (fun i _ => by
      obtain ⟨v, h1, h2, h3⟩ := integrand_spec hd hs.scalar ((f i).getD (0, 0, 0)).1 ((f i).getD (0, 0, 0)).2.1
        ((f i).getD (0, 0, 0)).2.2 alpha i
      exact ⟨v, h1, h2, fun a ha => by rw [h3 a ha, map_zero, add_zero]⟩) (Vec.zeros (size n p)) rfl
  refine ⟨r, ?_, h2, ?_⟩
  · unfold form
    rw [hm.tabs, hm.points, hm.weights, hm.det, any_false hs.left, any_false hs.right]
    simp only [Bool.not_true, Bool.false_eq_true, if_false, ne_eq, hm.size, not_true, Nat.mul_one, hphi]
    simp only [size, hm.size] at h1
    exact congrArg (fun t : Res (Vec R) => t.bind fun r =>
      .ok (if (List.range n.nPts).all fun i => (f i).isSome then some r else none)) h1
  · intro a ha
    rw [h3 a ha]
    simp only [mul_zero, Finset.sum_const_zero, map_zero, add_zero]
    show (0 : R) + _ = _
    rw [zero_add]

end Verif.Multiplier
