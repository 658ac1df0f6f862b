/-
Helper lemmas for C111.
-/
import Verif.Spec.InterfaceCoupling
import Verif.Lemmas.Coupling

namespace Verif.Interface
open Assembly L2Form Laplace Coupling
open Strong.Arbogast (quot root)

variable {X R : Type} [CommRing R] [Algebra ℝ R]

theorem integrand_spec {p n : Side ℝ X} {dim : Nat} (hd : 0 < dim) (hs : n.pTab.nVal = 1) (robin exchange : ℝ)
    (alpha : Nat → R) (i : Nat) :
    ∃ v, integrand p n dim p.dofs.length n.dofs.length n.pTab.nPhi robin exchange alpha i = .ok v ∧ v.n = size p n ∧
      ∀ a < size p n, v.val a = ∑ b ∈ Finset.range (size p n),
        algebraMap ℝ R (scaledPairing robin exchange (dofFields p n dim i b) (dofFields p n dim i a)) *
          alpha b := by
  have hm : min dim n.pTab.nVal = 1 := by omega
  unfold integrand
  dsimp only
  rw [matmul_ok (by simp [rowOf, Arr.lift, Side.flux])]
  simp only [Res.bind_ok]
  rw [matmul_ok (by simp [rowOf, Arr.lift, Side.flux])]
  simp only [Res.bind_ok]
  rw [matmul_ok (by simp [rowOf, Arr.lift, Tab.values])]
  simp only [Res.bind_ok]
  rw [Cosserat.add_ok (by simp [Arr.scale, rowOf]) (by simp [Arr.scale, Arr.lift, Side.flux, Tab.values, hm])]
  simp only [Res.bind_ok]
  rw [matmul_ok (by simp [Arr.scale, Arr.lift, Arr.transpose, Side.flux])]
  simp only [Res.bind_ok]
  rw [Cosserat.add_ok (by simp [Arr.scale, rowOf]) (by simp [Arr.scale, Arr.lift, Side.flux, Tab.values, hm])]
  simp only [Res.bind_ok]
  rw [matmul_ok (by simp [Arr.scale, Arr.lift, Arr.transpose, Side.flux])]
  simp only [Res.bind_ok]
  rw [matmul_ok (by simp [Arr.lift, Arr.transpose, Side.flux, Tab.values, hm])]
  simp only [Res.bind_ok]
  rw [matmul_ok (by simp [Arr.lift, Arr.transpose, Side.flux, Tab.values, hm])]
  simp only [Res.bind_ok]
  rw [Cosserat.add_ok (by simp [rowOf]) (by simp [Arr.lift, Arr.transpose])]
  simp only [Res.bind_ok]
  rw [if_neg (by simp [Arr.scale, Arr.lift, Arr.transpose, Side.flux, Tab.values])]
  refine ⟨_, rfl, rfl, ?_⟩
  intro a ha
  unfold size at ha ⊢
  dsimp only
  rw [sum_split, sum_split]
  have hp : ∀ b < p.dofs.length, dofFields p n dim i b = ⟨p.normalFlux dim i b, 0, 0⟩ := fun b hb => if_pos hb
  have hn : ∀ b < n.dofs.length, dofFields p n dim i (p.dofs.length + b) = ⟨0, n.normalFlux dim i b, 0⟩ := by
    intro b hb
    unfold dofFields
    rw [if_neg (by omega), if_pos (by omega), Nat.add_sub_cancel_left]
  have hq : ∀ b, dofFields p n dim i (p.dofs.length + n.dofs.length + b) = ⟨0, 0, n.pTab.val 0 i b 0⟩ := by
    intro b
    unfold dofFields
    rw [if_neg (by omega), if_neg (by omega), Nat.add_sub_cancel_left]
  have split : ∀ t : Fields ℝ,
      ((∑ b ∈ Finset.range p.dofs.length, algebraMap ℝ R (scaledPairing robin exchange (dofFields p n dim i b) t) * alpha b +
        ∑ b ∈ Finset.range n.dofs.length,
          algebraMap ℝ R (scaledPairing robin exchange (dofFields p n dim i (p.dofs.length + b)) t) * alpha (p.dofs.length + b)) +
        ∑ b ∈ Finset.range n.pTab.nPhi,
          algebraMap ℝ R (scaledPairing robin exchange (dofFields p n dim i (p.dofs.length + n.dofs.length + b)) t) *
            alpha (p.dofs.length + n.dofs.length + b)) =
      algebraMap ℝ R (robin * t.fluxP + exchange * t.pres) *
          ∑ b ∈ Finset.range p.dofs.length, alpha b * algebraMap ℝ R (p.normalFlux dim i b) +
        algebraMap ℝ R (robin * t.fluxN + exchange * t.pres) *
          ∑ b ∈ Finset.range n.dofs.length, alpha (p.dofs.length + b) * algebraMap ℝ R (n.normalFlux dim i b) +
        algebraMap ℝ R (exchange * (t.fluxP + t.fluxN)) * ∑ b ∈ Finset.range n.pTab.nPhi,
          alpha (p.dofs.length + n.dofs.length + b) * algebraMap ℝ R (n.pTab.val 0 i b 0) := by
    intro t
    rw [Finset.mul_sum, Finset.mul_sum, Finset.mul_sum]
    congr 1
    · congr 1
      · refine Finset.sum_congr rfl fun b hb => ?_
        rw [hp b (Finset.mem_range.1 hb)]
        simp only [scaledPairing, map_add, map_mul, map_zero, map_one]
        ring
      · refine Finset.sum_congr rfl fun b hb => ?_
        rw [hn b (Finset.mem_range.1 hb)]
        simp only [scaledPairing, map_add, map_mul, map_zero, map_one]
        ring
    · refine Finset.sum_congr rfl fun b hb => ?_
      rw [hq b]
      simp only [scaledPairing, map_add, map_mul, map_zero, map_one]
      ring
  rw [split]
  by_cases h1 : a < p.dofs.length
  · rw [if_pos h1, hp a h1]
    simp only [Arr.scale, Arr.transpose, Arr.lift, rowOf, Side.flux, Tab.values, Finset.sum_range_one, Nat.zero_add]
    show (_ * _ + _ * _) * algebraMap ℝ R (p.normalFlux dim i a) = _
    simp only [map_add, map_mul, map_zero, Side.normalFlux]
    ring
  · rw [if_neg h1]
    by_cases h2 : a < p.dofs.length + n.dofs.length
    · obtain ⟨a', rfl⟩ : ∃ a', a = p.dofs.length + a' := ⟨a - p.dofs.length, by omega⟩
      rw [if_pos h2, hn a' (by omega), Nat.add_sub_cancel_left]
      simp only [Arr.scale, Arr.transpose, Arr.lift, rowOf, Side.flux, Tab.values, Finset.sum_range_one, Nat.zero_add]
      show (_ * _ + _ * _) * algebraMap ℝ R (n.normalFlux dim i a') = _
      simp only [map_add, map_mul, map_zero, Side.normalFlux]
      ring
    · obtain ⟨a', rfl⟩ : ∃ a', a = p.dofs.length + n.dofs.length + a' := ⟨a - (p.dofs.length + n.dofs.length), by omega⟩
      rw [if_neg h2, hq a', Nat.add_sub_cancel_left]
      simp only [Arr.scale, Arr.transpose, Arr.lift, rowOf, Side.flux, Tab.values, Finset.sum_range_one, Nat.zero_add]
      simp only [map_add, map_mul, map_zero, Side.normalFlux]
      ring

theorem form_spec {close : ℝ → ℝ → Bool} {closeX : X → X → Bool} {p n : Side ℝ X} (hm : Matching close closeX p n)
    (hs : Shapes p n) {dim : Nat} (hd : 0 < dim) (c : Coefficients X) (alpha : Nat → R) :
    ∃ r, form close closeX p n dim 1 1 c alpha =
        .ok (if (List.range n.nPts).all fun i => (c.at n.x i).isSome then some r else none) ∧ r.n = size p n ∧
      ∀ a < size p n, r.val a = ∑ b ∈ Finset.range (size p n), algebraMap ℝ R
        (scaledMatrix p n dim (fun i => ((c.at n.x i).getD (0, 0)).1) (fun i => ((c.at n.x i).getD (0, 0)).2) a b) *
          alpha b := by
  have hphi : p.pTab.nPhi = n.pTab.nPhi := by
    have := hm.tabs
    unfold closeTabs at this
    simp only [Bool.and_eq_true, beq_iff_eq] at this
    exact this.1.1.1.1
  obtain ⟨r, h1, h2, h3⟩ := Elasticity.quadrature_affine (R := R) (size p n) (size p n) n.nPts (fun i => n.det i * n.weights i)
    (fun i => integrand p n dim p.dofs.length n.dofs.length n.pTab.nPhi ((c.at n.x i).getD (0, 0)).1
      ((c.at n.x i).getD (0, 0)).2 alpha i)
    (fun i a b => scaledPairing ((c.at n.x i).getD (0, 0)).1 ((c.at n.x i).getD (0, 0)).2 (dofFields p n dim i b)
      (dofFields p n dim i a))
    (fun _ _ => 0) alpha (fun i _ => by
      obtain ⟨v, h1, h2, h3⟩ := integrand_spec hd hs.scalar ((c.at n.x i).getD (0, 0)).1 ((c.at n.x i).getD (0, 0)).2 alpha i
      exact ⟨v, h1, h2, fun a ha => by rw [h3 a ha, map_zero, add_zero]⟩) (Vec.zeros (size p n)) rfl
  refine ⟨r, ?_, h2, ?_⟩
  · unfold form
    rw [hm.tabs, hm.points, hm.weights, hm.det, any_false hs.left, any_false hs.right]
    simp only [Bool.not_true, Bool.false_eq_true, if_false, ne_eq, hm.size, not_true, Nat.mul_one, hphi]
    simp only [size, hm.size] at h1
    exact congrArg (fun t : Res (Vec R) => t.bind fun r =>
      .ok (if (List.range n.nPts).all fun i => (c.at n.x i).isSome then some r else none)) h1
  · intro a ha
    rw [h3 a ha]
    simp only [mul_zero, Finset.sum_const_zero, map_zero, add_zero]
    show (0 : R) + _ = _
    rw [zero_add]
    rfl

end Verif.Interface
