/-
An exact solution in the weak form: the laws and the balances give the mixed form up to a divergence.
-/
import Verif.Spec.Strong
import Verif.Lemmas.DualEnergy
import Mathlib.Tactic.Ring
import Mathlib.Tactic.FieldSimp
import Mathlib.Tactic.LinearCombination

namespace Verif.Strong
open Verif.Dual Cosserat Elasticity

theorem contract_congr {m : Nat} {a a' b : Nat → Nat → ℝ} (h : ∀ k < m, ∀ l < m, a k l = a' k l) :
    contract m a b = contract m a' b :=
  Finset.sum_congr rfl fun k hk => Finset.sum_congr rfl fun l hl => by
    rw [h k (Finset.mem_range.1 hk) l (Finset.mem_range.1 hl)]

theorem stressLaw_mat {m : Nat} (lambda mu kappa : ℝ) (e : Fin m → Fin m → ℝ) {k l : Nat} (hk : k < m) (hl : l < m) :
    stressLaw m mu lambda kappa (mat e) k l = mat (hooke lambda mu kappa e) k l := by
  have ht : tr m (mat e) = ∑ i, e i i := by
    rw [tr, Finset.sum_range]
    exact Finset.sum_congr rfl fun i _ => by simp [mat, vec]
  unfold stressLaw
  rw [ht]
  simp only [mat, vec, sym, skew, hk, hl, dif_pos, hooke, Fin.mk.injEq]
  split_ifs <;> ring

theorem strain_congr {m : Nat} {mu lambda kappa : ℝ} {s s' : Nat → Nat → ℝ}
    (h : ∀ k < m, ∀ l < m, s k l = s' k l) {k l : Nat} (hk : k < m) (hl : l < m) :
    strain m mu lambda kappa s k l = strain m mu lambda kappa s' k l := by
  have ht : tr m s = tr m s' := Finset.sum_congr rfl fun k hk => h k (Finset.mem_range.1 hk) k (Finset.mem_range.1 hk)
  simp only [strain, sym, skew, ht, h k hk l hl, h l hl k hk]

theorem strain_hooke {m : Nat} {lambda mu kappa : ℝ} (hm : mu ≠ 0) (hk : kappa ≠ 0) (ht : 2 * mu + m * lambda ≠ 0)
    {s e : Fin m → Fin m → ℝ} (h : ∀ i j, s i j = hooke lambda mu kappa e i j) {k l : Nat} (hk' : k < m) (hl : l < m) :
    strain m mu lambda kappa (mat s) k l = mat e k l := by
  have hs : s = hooke lambda mu kappa e := funext fun i => funext fun j => h i j
  rw [hs, ← strain_stressLaw m hm hk ht (mat e) k l]
  exact strain_congr (fun k hk l hl => (stressLaw_mat lambda mu kappa e hk hl).symm) hk' hl

variable {scaled : Bool} {c : Dual.Coeffs ℝ}

theorem weak2 (hm : c.muS ≠ 0) (hk : c.kapS ≠ 0) (ht : 2 * c.muS + (2 : Nat) * c.lamS ≠ 0) (ho : c.muO + c.kapO ≠ 0)
    (hl : scaled = true ∨ c.len ≠ 0) {u : Fin 2 → ℝ} {gu s : Fin 2 → Fin 2 → ℝ} {ds : Fin 2 → ℝ} {w : Fin 1 → ℝ}
    {gw om : Fin 1 → Fin 2 → ℝ} {dom : Fin 1 → ℝ} {f : Fin 3 → ℝ}
    (h1 : ∀ i j, s i j = hooke c.lamS c.muS c.kapS (fun i j => gu i j + skew2 (w 0) i j) i j)
    (h2 : ∀ i j, om i j = c.len * (c.kapO + c.muO) * gw i j)
    (h3 : f 0 = ds 0 ∧ f 1 = ds 1 ∧ f 2 = dom 0 - axial2 s) (t : Fields ℝ) :
    dualPower scaled 2 c ⟨mat s, vec ds, mat om, vec dom, vec u, vec w⟩ t =
      fluxDivergence scaled c.len u gu w gw t + loadOf 2 1 f t := by
  have e00 := strain_hooke hm hk ht h1 (k := 0) (l := 0) (by decide) (by decide)
  have e01 := strain_hooke hm hk ht h1 (k := 0) (l := 1) (by decide) (by decide)
  have e10 := strain_hooke hm hk ht h1 (k := 1) (l := 0) (by decide) (by decide)
  have e11 := strain_hooke hm hk ht h1 (k := 1) (l := 1) (by decide) (by decide)
  have o0 := h2 0 0
  have o1 := h2 0 1
  obtain ⟨f0, f1, f2⟩ := h3
  simp only [dualPower, lawPower, couplePower, if_pos, contractSpin, spins, contract, Finset.sum_range_succ,
    Finset.sum_range_zero, e00, e01, e10, e11]
  cases scaled
  · have hl := hl.resolve_left Bool.false_ne_true
    simp [mat, vec, fluxDivergence, loadOf, axial, skew2, axial2, f0, f1, f2, o0, o1]
    field_simp
    ring
  · simp [mat, vec, fluxDivergence, loadOf, axial, skew2, axial2, f0, f1, f2, o0, o1]
    field_simp
    ring

theorem weak3 (hm : c.muS ≠ 0) (hk : c.kapS ≠ 0) (ht : 2 * c.muS + (3 : Nat) * c.lamS ≠ 0) (hm' : c.muO ≠ 0)
    (hk' : c.kapO ≠ 0) (ht' : 2 * c.muO + (3 : Nat) * c.lamO ≠ 0) (hlen : scaled = true ∨ c.len ≠ 0) {u ds w dom : Fin 3 → ℝ}
    {gu s gw om : Fin 3 → Fin 3 → ℝ} {f : Fin 6 → ℝ}
    (h1 : ∀ i j, s i j = hooke c.lamS c.muS c.kapS (fun i j => gu i j + skew3 w i j) i j)
    (h2 : ∀ i j, om i j = hooke c.lamO c.muO c.kapO (fun i j => c.len * gw i j) i j)
    (h3 : (f 0 = ds 0 ∧ f 1 = ds 1 ∧ f 2 = ds 2) ∧ f 3 = dom 0 - axial3 s 0 ∧ f 4 = dom 1 - axial3 s 1 ∧
      f 5 = dom 2 - axial3 s 2) (t : Fields ℝ) :
    dualPower scaled 3 c ⟨mat s, vec ds, mat om, vec dom, vec u, vec w⟩ t =
      fluxDivergence scaled c.len u gu w gw t + loadOf 3 3 f t := by
  have e00 := strain_hooke hm hk ht h1 (k := 0) (l := 0) (by decide) (by decide)
  have e01 := strain_hooke hm hk ht h1 (k := 0) (l := 1) (by decide) (by decide)
  have e02 := strain_hooke hm hk ht h1 (k := 0) (l := 2) (by decide) (by decide)
  have e10 := strain_hooke hm hk ht h1 (k := 1) (l := 0) (by decide) (by decide)
  have e11 := strain_hooke hm hk ht h1 (k := 1) (l := 1) (by decide) (by decide)
  have e12 := strain_hooke hm hk ht h1 (k := 1) (l := 2) (by decide) (by decide)
  have e20 := strain_hooke hm hk ht h1 (k := 2) (l := 0) (by decide) (by decide)
  have e21 := strain_hooke hm hk ht h1 (k := 2) (l := 1) (by decide) (by decide)
  have e22 := strain_hooke hm hk ht h1 (k := 2) (l := 2) (by decide) (by decide)
  have o00 := strain_hooke hm' hk' ht' h2 (k := 0) (l := 0) (by decide) (by decide)
  have o01 := strain_hooke hm' hk' ht' h2 (k := 0) (l := 1) (by decide) (by decide)
  have o02 := strain_hooke hm' hk' ht' h2 (k := 0) (l := 2) (by decide) (by decide)
  have o10 := strain_hooke hm' hk' ht' h2 (k := 1) (l := 0) (by decide) (by decide)
  have o11 := strain_hooke hm' hk' ht' h2 (k := 1) (l := 1) (by decide) (by decide)
  have o12 := strain_hooke hm' hk' ht' h2 (k := 1) (l := 2) (by decide) (by decide)
  have o20 := strain_hooke hm' hk' ht' h2 (k := 2) (l := 0) (by decide) (by decide)
  have o21 := strain_hooke hm' hk' ht' h2 (k := 2) (l := 1) (by decide) (by decide)
  have o22 := strain_hooke hm' hk' ht' h2 (k := 2) (l := 2) (by decide) (by decide)
  obtain ⟨⟨f0, f1, f2⟩, f3, f4, f5⟩ := h3
  simp only [dualPower, lawPower, couplePower, show ¬(3 : Nat) = 2 by decide, if_false, contractSpin, spins, contract,
    Finset.sum_range_succ, Finset.sum_range_zero, e00, e01, e02, e10, e11, e12, e20, e21, e22, o00, o01, o02, o10, o11,
    o12, o20, o21, o22]
  have v0 : ∀ a : Fin 3 → ℝ, vec a 0 = a 0 := fun _ => rfl
  have v1 : ∀ a : Fin 3 → ℝ, vec a 1 = a 1 := fun _ => rfl
  have v2 : ∀ a : Fin 3 → ℝ, vec a 2 = a 2 := fun _ => rfl
  have m0 : ∀ (a : Fin 3 → Fin 3 → ℝ) l, mat a 0 l = vec (a 0) l := fun _ _ => rfl
  have m1 : ∀ (a : Fin 3 → Fin 3 → ℝ) l, mat a 1 l = vec (a 1) l := fun _ _ => rfl
  have m2 : ∀ (a : Fin 3 → Fin 3 → ℝ) l, mat a 2 l = vec (a 2) l := fun _ _ => rfl
  have hl : loadOf 3 3 f t = t.disp 0 * f 0 + t.disp 1 * f 1 + t.disp 2 * f 2 +
      (t.rot 0 * f 3 + t.rot 1 * f 4 + t.rot 2 * f 5) := by
    simp only [loadOf, Fin.sum_univ_three]; rfl
  have hf : fluxDivergence scaled c.len u gu w gw t =
      u 0 * t.dsig 0 + (gu 0 0 * t.sig 0 0 + gu 0 1 * t.sig 0 1 + gu 0 2 * t.sig 0 2) +
      (u 1 * t.dsig 1 + (gu 1 0 * t.sig 1 0 + gu 1 1 * t.sig 1 1 + gu 1 2 * t.sig 1 2)) +
      (u 2 * t.dsig 2 + (gu 2 0 * t.sig 2 0 + gu 2 1 * t.sig 2 1 + gu 2 2 * t.sig 2 2)) +
      (w 0 * t.dmom 0 + (if scaled then c.len else 1) *
          (gw 0 0 * t.mom 0 0 + gw 0 1 * t.mom 0 1 + gw 0 2 * t.mom 0 2) +
        (w 1 * t.dmom 1 + (if scaled then c.len else 1) *
          (gw 1 0 * t.mom 1 0 + gw 1 1 * t.mom 1 1 + gw 1 2 * t.mom 1 2)) +
        (w 2 * t.dmom 2 + (if scaled then c.len else 1) *
          (gw 2 0 * t.mom 2 0 + gw 2 1 * t.mom 2 1 + gw 2 2 * t.mom 2 2))) := by
    simp only [fluxDivergence, Fin.sum_univ_three]; rfl
  rw [hl, hf, f0, f1, f2, f3, f4, f5]
  have a00 : ∀ w : Nat → ℝ, axial 3 w 0 0 = 0 := fun _ => rfl
  have a01 : ∀ w : Nat → ℝ, axial 3 w 0 1 = -w 2 := fun _ => rfl
  have a02 : ∀ w : Nat → ℝ, axial 3 w 0 2 = w 1 := fun _ => rfl
  have a10 : ∀ w : Nat → ℝ, axial 3 w 1 0 = w 2 := fun _ => rfl
  have a11 : ∀ w : Nat → ℝ, axial 3 w 1 1 = 0 := fun _ => rfl
  have a12 : ∀ w : Nat → ℝ, axial 3 w 1 2 = -w 0 := fun _ => rfl
  have a20 : ∀ w : Nat → ℝ, axial 3 w 2 0 = -w 1 := fun _ => rfl
  have a21 : ∀ w : Nat → ℝ, axial 3 w 2 1 = w 0 := fun _ => rfl
  have a22 : ∀ w : Nat → ℝ, axial 3 w 2 2 = 0 := fun _ => rfl
  have s00 : skew3 w 0 0 = 0 := rfl
  have s01 : skew3 w 0 1 = -w 2 := rfl
  have s02 : skew3 w 0 2 = w 1 := rfl
  have s10 : skew3 w 1 0 = w 2 := rfl
  have s11 : skew3 w 1 1 = 0 := rfl
  have s12 : skew3 w 1 2 = -w 0 := rfl
  have s20 : skew3 w 2 0 = -w 1 := rfl
  have s21 : skew3 w 2 1 = w 0 := rfl
  have s22 : skew3 w 2 2 = 0 := rfl
  have x0 : axial3 s 0 = s 2 1 - s 1 2 := rfl
  have x1 : axial3 s 1 = s 0 2 - s 2 0 := rfl
  have x2 : axial3 s 2 = s 1 0 - s 0 1 := rfl
  simp only [m0, m1, m2, v0, v1, v2, a00, a01, a02, a10, a11, a12, a20, a21, a22, s00, s01, s02, s10, s11, s12, s20, s21,
    s22, x0, x1, x2]
  cases scaled
  · have h := hlen.resolve_left Bool.false_ne_true
    simp only [Bool.false_eq_true, if_false]; field_simp; ring
  · simp only [if_true]; ring

theorem power_mat {m : Nat} (c : Cosserat.Coeffs ℝ) {s e : Fin m → Fin m → ℝ}
    (hs : ∀ i j, s i j = hooke c.lam c.mu c.kappa e i j) (h : Fin m → Fin m → ℝ) :
    power m c (mat e) (mat h) = ∑ i, ∑ j, s i j * h i j := by
  have ht : ∀ e : Fin m → Fin m → ℝ, tr m (mat e) = ∑ i, e i i := by
    intro e
    rw [tr, Finset.sum_range]
    exact Finset.sum_congr rfl fun i _ => by simp [mat, vec]
  have hc : ∀ a b : Nat → Nat → ℝ, contract m a b = ∑ i : Fin m, ∑ j : Fin m, a i j * b i j := by
    intro a b
    rw [contract, Finset.sum_range]
    exact Finset.sum_congr rfl fun i _ => Finset.sum_range _
  have hm : ∀ (e : Fin m → Fin m → ℝ) (i j : Fin m), mat e i j = e i j := by
    intro e i j
    simp [mat, vec]
  have swap : ∀ a : Fin m → Fin m → ℝ, ∑ i, ∑ j, a j i = ∑ i, ∑ j, a i j := fun a => Finset.sum_comm
  have e1 : contract m (sym (mat e)) (sym (mat h)) = 1 / 2 * ∑ i, ∑ j, (e i j + e j i) * h i j := by
    rw [hc]
    have : ∑ i, ∑ j, (e i j + e j i) * h i j =
        1 / 2 * (∑ i, ∑ j, (e i j + e j i) * h i j + ∑ i, ∑ j, (e j i + e i j) * h j i) := by
      rw [swap fun i j => (e i j + e j i) * h i j]; ring
    rw [this, ← Finset.sum_add_distrib, Finset.mul_sum, Finset.mul_sum]
    refine Finset.sum_congr rfl fun i _ => ?_
    rw [← Finset.sum_add_distrib, Finset.mul_sum, Finset.mul_sum]
    exact Finset.sum_congr rfl fun j _ => by rw [sym, sym, hm, hm, hm, hm]; ring
  have e2 : contract m (skew (mat e)) (skew (mat h)) = 1 / 2 * ∑ i, ∑ j, (e i j - e j i) * h i j := by
    rw [hc]
    have : ∑ i, ∑ j, (e i j - e j i) * h i j =
        1 / 2 * (∑ i, ∑ j, (e i j - e j i) * h i j + ∑ i, ∑ j, (e j i - e i j) * h j i) := by
      rw [swap fun i j => (e i j - e j i) * h i j]; ring
    rw [this, ← Finset.sum_add_distrib, Finset.mul_sum, Finset.mul_sum]
    refine Finset.sum_congr rfl fun i _ => ?_
    rw [← Finset.sum_add_distrib, Finset.mul_sum, Finset.mul_sum]
    exact Finset.sum_congr rfl fun j _ => by rw [skew, skew, hm, hm, hm, hm]; ring
  have e3 : (∑ i, e i i) * ∑ i, h i i = ∑ i, ∑ j, (if i = j then ∑ k, e k k else 0) * h i j := by
    rw [Finset.mul_sum]
    refine Finset.sum_congr rfl fun i _ => ?_
    simp
  rw [power, ht, ht, e1, e2, e3, Finset.mul_sum, Finset.mul_sum, Finset.mul_sum, Finset.mul_sum, Finset.mul_sum,
    ← Finset.sum_add_distrib, ← Finset.sum_add_distrib]
  refine Finset.sum_congr rfl fun i _ => ?_
  rw [Finset.mul_sum, Finset.mul_sum, Finset.mul_sum, Finset.mul_sum, Finset.mul_sum,
    ← Finset.sum_add_distrib, ← Finset.sum_add_distrib]
  refine Finset.sum_congr rfl fun j _ => ?_
  rw [hs, hooke]
  split_ifs <;> ring

theorem primal2 {c : Cosserat.Coeffs ℝ} {gu s : Fin 2 → Fin 2 → ℝ} {ds : Fin 2 → ℝ} {w : Fin 1 → ℝ}
    {gw om : Fin 1 → Fin 2 → ℝ} {dom : Fin 1 → ℝ} {f : Fin 3 → ℝ}
    (h1 : ∀ i j, s i j = hooke c.lam c.mu c.kappa (fun i j => gu i j + skew2 (w 0) i j) i j)
    (h2 : ∀ i j, om i j = c.gamma * gw i j)
    (h3 : f 0 = ds 0 ∧ f 1 = ds 1 ∧ f 2 = dom 0 - axial2 s) (v : Fin 2 → ℝ) (gv : Fin 2 → Fin 2 → ℝ) (h : Fin 1 → ℝ)
    (gh : Fin 1 → Fin 2 → ℝ) :
    power 2 c (mat fun i j => gu i j + skew2 (w 0) i j) (mat fun i j => gv i j + skew2 (h 0) i j) +
      c.gamma * contractSpin 2 (mat gw) (mat gh) + primalLoad f v h = primalFlux s ds om dom v gv h gh := by
  obtain ⟨f0, f1, f2⟩ := h3
  have hg : contractSpin 2 (mat gw) (mat gh) = gw 0 0 * gh 0 0 + gw 0 1 * gh 0 1 := by
    simp [contractSpin, spins, Finset.sum_range_succ, mat, vec]
  have hl : primalLoad f v h = v 0 * f 0 + v 1 * f 1 + h 0 * f 2 := by
    simp only [primalLoad, Fin.sum_univ_two, Fin.sum_univ_one]; rfl
  rw [power_mat c h1, hg, hl, f0, f1, f2]
  simp only [primalFlux, Fin.sum_univ_two, Fin.sum_univ_one, h2, skew2, axial2, Matrix.cons_val]
  ring

theorem primal3 {c : Cosserat.Coeffs ℝ} {ds w dom : Fin 3 → ℝ} {gu s gw om : Fin 3 → Fin 3 → ℝ} {f : Fin 6 → ℝ}
    (h1 : ∀ i j, s i j = hooke c.lam c.mu c.kappa (fun i j => gu i j + skew3 w i j) i j)
    (h2 : ∀ i j, om i j = c.gamma * gw i j)
    (h3 : (f 0 = ds 0 ∧ f 1 = ds 1 ∧ f 2 = ds 2) ∧ f 3 = dom 0 - axial3 s 0 ∧ f 4 = dom 1 - axial3 s 1 ∧
      f 5 = dom 2 - axial3 s 2) (v : Fin 3 → ℝ) (gv : Fin 3 → Fin 3 → ℝ) (h : Fin 3 → ℝ) (gh : Fin 3 → Fin 3 → ℝ) :
    power 3 c (mat fun i j => gu i j + skew3 w i j) (mat fun i j => gv i j + skew3 h i j) +
      c.gamma * contractSpin 3 (mat gw) (mat gh) + primalLoad f v h = primalFlux s ds om dom v gv h gh := by
  obtain ⟨⟨f0, f1, f2⟩, f3, f4, f5⟩ := h3
  have hg : contractSpin 3 (mat gw) (mat gh) = ∑ i, ∑ j, gw i j * gh i j := by
    rw [contractSpin, spins, if_neg (by decide), Finset.sum_range]
    refine Finset.sum_congr rfl fun i _ => ?_
    rw [Finset.sum_range]
    exact Finset.sum_congr rfl fun j _ => by simp [mat, vec]
  have hl : primalLoad f v h = v 0 * f 0 + v 1 * f 1 + v 2 * f 2 + (h 0 * f 3 + h 1 * f 4 + h 2 * f 5) := by
    simp only [primalLoad, Fin.sum_univ_three]; rfl
  rw [power_mat c h1, hg, hl, f0, f1, f2, f3, f4, f5]
  simp only [primalFlux, Fin.sum_univ_three, h2, skew3, axial3, Matrix.cons_val]
  ring

end Verif.Strong
