/-
Helper lemmas for C110.
-/
import Verif.Spec.Coupling
import Verif.Lemmas.Degenerate

namespace Verif.Coupling
open Assembly L2Form Laplace

variable {K X R : Type} [Field K] [CommRing R] [Algebra K R]

theorem integrand_spec {p n : Side K X} {dim : Nat} (hd : 0 < dim) (hs : n.pTab.nVal = 1) (kappa delta : K)
    (alpha : Nat → R) (i : Nat) :
    ∃ v, integrand p n dim p.dofs.length n.dofs.length n.pTab.nPhi kappa delta alpha i = .ok v ∧ v.n = size p n ∧
      ∀ a < size p n, v.val a = ∑ b ∈ Finset.range (size p n),
        algebraMap K R (pairing (1 / (kappa / (delta / 2))) 1 (dofFields p n dim i b) (dofFields p n dim i a)) *
          alpha b := by
  have hm : min dim n.pTab.nVal = 1 := by omega
  unfold integrand
  dsimp only
  rw [matmul_ok (by simp [rowOf, Arr.lift, Side.flux])]
  simp only [Res.bind_ok]
  rw [matmul_ok (by simp [rowOf, Arr.lift, Side.flux])]
  simp only [Res.bind_ok]
  rw [matmul_ok (by simp [rowOf, Arr.lift, Tab.values])]
  simp only [Res.bind_ok]
  rw [Cosserat.add_ok (by simp [Arr.scale, rowOf]) (by simp [Arr.scale, Arr.lift, Side.flux, Tab.values, hm])]
  simp only [Res.bind_ok]
  rw [matmul_ok (by simp [Arr.scale, Arr.lift, Arr.transpose, Side.flux])]
  simp only [Res.bind_ok]
  rw [Cosserat.add_ok (by simp [Arr.scale, rowOf]) (by simp [Arr.scale, Arr.lift, Side.flux, Tab.values, hm])]
  simp only [Res.bind_ok]
  rw [matmul_ok (by simp [Arr.scale, Arr.lift, Arr.transpose, Side.flux])]
  simp only [Res.bind_ok]
  rw [matmul_ok (by simp [Arr.lift, Arr.transpose, Side.flux, Tab.values, hm])]
  simp only [Res.bind_ok]
  rw [matmul_ok (by simp [Arr.lift, Arr.transpose, Side.flux, Tab.values, hm])]
  simp only [Res.bind_ok]
  rw [Cosserat.add_ok (by simp [rowOf]) (by simp [Arr.lift, Arr.transpose])]
  simp only [Res.bind_ok]
  rw [if_neg (by simp [Arr.lift, Arr.transpose, Side.flux, Tab.values])]
  refine ⟨_, rfl, rfl, ?_⟩
  intro a ha
  unfold size at ha ⊢
  dsimp only
  rw [sum_split, sum_split]
  generalize 1 / (kappa / (delta / 2)) = c
  have hp : ∀ b < p.dofs.length, dofFields p n dim i b = ⟨p.normalFlux dim i b, 0, 0⟩ := fun b hb => if_pos hb
  have hn : ∀ b < n.dofs.length, dofFields p n dim i (p.dofs.length + b) = ⟨0, n.normalFlux dim i b, 0⟩ := by
    intro b hb
    unfold dofFields
    rw [if_neg (by omega), if_pos (by omega), Nat.add_sub_cancel_left]
  have hq : ∀ b, dofFields p n dim i (p.dofs.length + n.dofs.length + b) = ⟨0, 0, n.pTab.val 0 i b 0⟩ := by
    intro b
    unfold dofFields
    rw [if_neg (by omega), if_neg (by omega), Nat.add_sub_cancel_left]
  have split : ∀ t : Fields K,
      ((∑ b ∈ Finset.range p.dofs.length, algebraMap K R (pairing c 1 (dofFields p n dim i b) t) * alpha b +
        ∑ b ∈ Finset.range n.dofs.length,
          algebraMap K R (pairing c 1 (dofFields p n dim i (p.dofs.length + b)) t) * alpha (p.dofs.length + b)) +
        ∑ b ∈ Finset.range n.pTab.nPhi,
          algebraMap K R (pairing c 1 (dofFields p n dim i (p.dofs.length + n.dofs.length + b)) t) *
            alpha (p.dofs.length + n.dofs.length + b)) =
      algebraMap K R (c * t.fluxP + t.pres) *
          ∑ b ∈ Finset.range p.dofs.length, alpha b * algebraMap K R (p.normalFlux dim i b) +
        algebraMap K R (c * t.fluxN + t.pres) *
          ∑ b ∈ Finset.range n.dofs.length, alpha (p.dofs.length + b) * algebraMap K R (n.normalFlux dim i b) +
        algebraMap K R (t.fluxP + t.fluxN) * ∑ b ∈ Finset.range n.pTab.nPhi,
          alpha (p.dofs.length + n.dofs.length + b) * algebraMap K R (n.pTab.val 0 i b 0) := by
    intro t
    rw [Finset.mul_sum, Finset.mul_sum, Finset.mul_sum]
    congr 1
    · congr 1
      · refine Finset.sum_congr rfl fun b hb => ?_
        rw [hp b (Finset.mem_range.1 hb)]
        simp only [pairing, map_add, map_mul, map_zero, map_one]
        ring
      · refine Finset.sum_congr rfl fun b hb => ?_
        rw [hn b (Finset.mem_range.1 hb)]
        simp only [pairing, map_add, map_mul, map_zero, map_one]
        ring
    · refine Finset.sum_congr rfl fun b hb => ?_
      rw [hq b]
      simp only [pairing, map_add, map_mul, map_zero, map_one]
      ring
  rw [split]
  by_cases h1 : a < p.dofs.length
  · rw [if_pos h1, hp a h1]
    simp only [Arr.scale, Arr.transpose, Arr.lift, rowOf, Side.flux, Tab.values, Finset.sum_range_one, Nat.zero_add]
    show (_ * _ + _) * algebraMap K R (p.normalFlux dim i a) = _
    simp only [map_add, map_mul, map_zero, Side.normalFlux]
    ring
  · rw [if_neg h1]
    by_cases h2 : a < p.dofs.length + n.dofs.length
    · obtain ⟨a', rfl⟩ : ∃ a', a = p.dofs.length + a' := ⟨a - p.dofs.length, by omega⟩
      rw [if_pos h2, hn a' (by omega), Nat.add_sub_cancel_left]
      simp only [Arr.scale, Arr.transpose, Arr.lift, rowOf, Side.flux, Tab.values, Finset.sum_range_one, Nat.zero_add]
      show (_ * _ + _) * algebraMap K R (n.normalFlux dim i a') = _
      simp only [map_add, map_mul, map_zero, Side.normalFlux]
      ring
    · obtain ⟨a', rfl⟩ : ∃ a', a = p.dofs.length + n.dofs.length + a' := ⟨a - (p.dofs.length + n.dofs.length), by omega⟩
      rw [if_neg h2, hq a', Nat.add_sub_cancel_left]
      simp only [Arr.scale, Arr.transpose, Arr.lift, rowOf, Side.flux, Tab.values, Finset.sum_range_one, Nat.zero_add]
      simp only [map_add, map_mul, map_zero, Side.normalFlux]
      ring

theorem any_false {l : List Nat} {m : Nat} (h : ∀ d ∈ l, d < m) : (l.any fun d => decide (m ≤ d)) = false := by
  rw [List.any_eq_false]
  intro d hd
  simpa using h d hd

theorem form_spec {close : K → K → Bool} {closeX : X → X → Bool} {p n : Side K X} (hm : Matching close closeX p n)
    (hs : Shapes p n) {dim : Nat} (hd : 0 < dim) (kappa delta : X → Nat → K) (alpha : Nat → R) :
    ∃ r, form close closeX p n dim 1 1 kappa delta alpha = .ok r ∧ r.n = size p n ∧
      ∀ a < size p n, r.val a = ∑ b ∈ Finset.range (size p n), algebraMap K R
        (couplingMatrix p n dim (fun i => 1 / (kappa n.x i / (delta n.x i / 2))) 1 a b) * alpha b := by
  have hphi : p.pTab.nPhi = n.pTab.nPhi := by
    have := hm.tabs
    unfold closeTabs at this
    simp only [Bool.and_eq_true, beq_iff_eq] at this
    exact this.1.1.1.1
  obtain ⟨r, h1, h2, h3⟩ := Elasticity.quadrature_affine (R := R) (size p n) (size p n) n.nPts (fun i => n.det i * n.weights i)
    (fun i => integrand p n dim p.dofs.length n.dofs.length n.pTab.nPhi (kappa n.x i) (delta n.x i) alpha i)
    (fun i a b => pairing (1 / (kappa n.x i / (delta n.x i / 2))) 1 (dofFields p n dim i b) (dofFields p n dim i a))
    (fun _ _ => 0) alpha (fun i _ => by
      obtain ⟨v, h1, h2, h3⟩ := integrand_spec hd hs.scalar (kappa n.x i) (delta n.x i) alpha i
      exact ⟨v, h1, h2, fun a ha => by rw [h3 a ha, map_zero, add_zero]⟩) (Vec.zeros (size p n)) rfl
  refine ⟨r, ?_, h2, ?_⟩
  · unfold form
    rw [hm.tabs, hm.points, hm.weights, hm.det, any_false hs.left, any_false hs.right]
    simp only [Bool.not_true, Bool.false_eq_true, if_false, ne_eq, hm.size, not_true, Nat.mul_one, hphi]
    rw [← h1, hm.size]
    simp only [size, hm.size]
  · intro a ha
    rw [h3 a ha]
    simp only [mul_zero, Finset.sum_const_zero, map_zero, add_zero]
    show (0 : R) + _ = _
    rw [zero_add]
    rfl

end Verif.Coupling
