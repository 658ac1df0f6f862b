/-
Exact solutions of elasticity without couples: from the law and the balance to the weak forms of C71, C74 and C81.
-/
import Verif.Lemmas.Strong
import Verif.Lemmas.StrongWeak
import Verif.Lemmas.DualLe
import Verif.Spec.TaylorHood

namespace Verif.Strong
open Verif.Dual

theorem HasPartial.unique {k : Nat} {f : ℝ → ℝ → ℝ → ℝ} {a b x y z : ℝ} (ha : HasPartial k f a x y z)
    (hb : HasPartial k f b x y z) : a = b := by
  match k, ha, hb with
  | 0, ha, hb => exact HasDerivAt.unique ha hb
  | 1, ha, hb => exact HasDerivAt.unique ha hb
  | _ + 2, ha, hb => exact HasDerivAt.unique ha hb

theorem GradientAt.unique {m n : Nat} {u : ℝ → ℝ → ℝ → Fin m → ℝ} {g h : Fin m → Fin n → ℝ} {x y z : ℝ}
    (hg : GradientAt u g x y z) (hh : GradientAt u h x y z) : g = h := by
  funext i j
  exact (hg i j).unique (hh i j)

variable {lambda mu r p : ℝ} {u ds v : Fin 2 → ℝ} {gu gv s : Fin 2 → Fin 2 → ℝ} {f : Fin 3 → ℝ}

theorem primalLe2 (h1 : ∀ i j, s i j = hooke lambda mu mu (fun i j => gu i j + skew2 r i j) i j) (h2 : axial2 s = 0)
    (h3 : f 0 = ds 0 ∧ f 1 = ds 1) (v : Fin 2 → ℝ) (gv : Fin 2 → Fin 2 → ℝ) :
    Elasticity.elasticPower 2 mu lambda (mat gu) (mat gv) + (v 0 * f 0 + v 1 * f 1) = workFlux s ds v gv := by
  have e00 := h1 0 0
  have e01 := h1 0 1
  have e10 := h1 1 0
  have e11 := h1 1 1
  simp [hooke, skew2] at e00 e01 e10 e11
  have e00 : s 0 0 = lambda * (gu 0 0 + gu 1 1) + 2 * mu * gu 0 0 := by rw [e00]; ring
  have e11 : s 1 1 = lambda * (gu 0 0 + gu 1 1) + 2 * mu * gu 1 1 := by rw [e11]; ring
  have hs : s 1 0 = s 0 1 := by unfold axial2 at h2; linarith
  have e10 : s 1 0 = mu * (gu 0 1 + gu 1 0) := by linarith
  have e01 : s 0 1 = mu * (gu 0 1 + gu 1 0) := by linarith
  simp only [Elasticity.elasticPower, Elasticity.contract, Elasticity.tr, Elasticity.sym, Finset.sum_range_succ,
    Finset.sum_range_zero, workFlux, Fin.sum_univ_two, e00, e11, e10, e01, h3.1, h3.2]
  simp [mat, vec]
  ring

theorem taylorHood2 (h1 : ∀ i j, s i j = hooke lambda mu mu (fun i j => gu i j + skew2 r i j) i j)
    (h2 : axial2 s = 0) (h3 : f 0 = ds 0 ∧ f 1 = ds 1) (h4 : p = (lambda + mu) * (gu 0 0 + gu 1 1))
    (h5 : lambda + mu ≠ 0) (v : Fin 2 → ℝ) (gv : Fin 2 → Fin 2 → ℝ) (q : ℝ) :
    TaylorHood.mixedPower mu lambda (mat gu) p (mat gv) q + (v 0 * f 0 + v 1 * f 1) = workFlux s ds v gv := by
  rw [← primalLe2 h1 h2 h3 v gv]
  simp only [TaylorHood.mixedPower, TaylorHood.deviator, Elasticity.elasticPower, Elasticity.contract, Elasticity.tr,
    Elasticity.sym, Finset.sum_range_succ, Finset.sum_range_zero, h4]
  simp [mat, vec]
  field_simp
  ring

theorem mixedLe2 (h1 : ∀ i j, s i j = hooke lambda mu mu (fun i j => gu i j + skew2 r i j) i j) (h2 : axial2 s = 0)
    (h3 : f = ![ds 0, ds 1, 0]) (hm : mu ≠ 0) (ht : lambda + mu ≠ 0) (t : Fields ℝ)
    (t1 : t.mom = fun _ _ => 0) (t2 : t.dmom = fun _ => 0) {X : Type} (x : X) (i : Nat) :
    dualPower false 2 (leCoeffs (fun _ _ => lambda) (fun _ _ => mu) x i)
      ⟨mat s, vec ds, fun _ _ => 0, fun _ => 0, vec u, vec ![r]⟩ t = stressFlux u gu t + loadOf 2 1 f t := by
  have h := weak2 (scaled := false) (c := leCoeffs (fun _ _ => lambda) (fun _ _ => mu) x i) hm hm
    (fun hh => ht ?_) (fun hh => hm ?_) (.inr one_ne_zero) (u := u) (gu := gu) (s := s) (ds := ds) (w := ![r])
    (gw := fun _ _ => 0) (om := fun _ _ => 0) (dom := fun _ => 0) (f := f) h1 (fun _ _ => (mul_zero _).symm)
    ⟨by rw [h3]; rfl, by rw [h3]; rfl, by rw [h3, h2, sub_zero]; rfl⟩ t
  · have e1 : mat (fun (_ : Fin 1) (_ : Fin 2) => (0 : ℝ)) = fun _ _ => 0 := by
      funext k l; unfold mat vec; split_ifs <;> rfl
    have e2 : vec (fun (_ : Fin 1) => (0 : ℝ)) = fun _ => 0 := by
      funext k; unfold vec; split_ifs <;> rfl
    rw [e1, e2] at h
    rw [h]
    congr 1
    simp [fluxDivergence, stressFlux, t1, t2]
  · have hh : 2 * mu + (2 : Nat) * lambda = 0 := hh
    push_cast at hh; linarith
  · have hh : mu + mu = 0 := hh
    linarith

end Verif.Strong
