/-
Lemmas for C78 to C81: the laws are symmetric, linear and positive, and the forms refuse other numbers
of components.
-/
import Verif.Lemmas.DualVec

namespace Verif.Dual
open Assembly L2Form Laplace Elasticity Cosserat

section
variable {K X : Type} [Field K]

/-! ### The inverse law -/

/-- The law of the stress, `2μ sym e + λ tr(e) I + 2κ skew e`. -/
def stressLaw (m : Nat) (mu lam kappa : K) (e : Nat → Nat → K) (k l : Nat) : K :=
  2 * mu * sym e k l + lam * tr m e * (if k = l then 1 else 0) + 2 * kappa * skew e k l

theorem tr_identity (m : Nat) (x : K) :
    ∑ k ∈ Finset.range m, x * (if k = k then (1 : K) else 0) = m * x := by
  simp

theorem tr_sym [CharZero K] (m : Nat) (e : Nat → Nat → K) :
    ∑ k ∈ Finset.range m, sym e k k = tr m e := by
  unfold tr sym
  exact Finset.sum_congr rfl fun k _ => by ring

theorem tr_skew (m : Nat) (e : Nat → Nat → K) : ∑ k ∈ Finset.range m, skew e k k = 0 := by
  unfold skew
  exact Finset.sum_eq_zero fun k _ => by rw [sub_self, zero_div]

theorem tr_stressLaw [CharZero K] (m : Nat) (mu lam kappa : K) (e : Nat → Nat → K) :
    tr m (stressLaw m mu lam kappa e) = (2 * mu + m * lam) * tr m e := by
  have h : tr m (stressLaw m mu lam kappa e) = 2 * mu * ∑ k ∈ Finset.range m, sym e k k +
      ∑ k ∈ Finset.range m, lam * tr m e * (if k = k then (1 : K) else 0) +
      2 * kappa * ∑ k ∈ Finset.range m, skew e k k := by
    rw [tr, Finset.mul_sum, Finset.mul_sum, ← Finset.sum_add_distrib, ← Finset.sum_add_distrib]
    rfl
  rw [h, tr_sym, tr_skew, tr_identity]
  ring

theorem tr_strain [CharZero K] (m : Nat) {mu lam : K} (kappa : K) (hm : mu ≠ 0)
    (ht : 2 * mu + m * lam ≠ 0) (s : Nat → Nat → K) :
    tr m (strain m mu lam kappa s) = tr m s / (2 * mu + m * lam) := by
  have h : tr m (strain m mu lam kappa s) = (1 / (2 * mu)) * ∑ k ∈ Finset.range m, sym s k k -
      (1 / (2 * mu)) * ∑ k ∈ Finset.range m,
        (lam / (2 * mu + m * lam) * tr m s) * (if k = k then (1 : K) else 0) +
      (1 / (2 * kappa)) * ∑ k ∈ Finset.range m, skew s k k := by
    rw [tr, Finset.mul_sum, Finset.mul_sum, Finset.mul_sum, ← Finset.sum_sub_distrib,
      ← Finset.sum_add_distrib]
    refine Finset.sum_congr rfl fun k _ => ?_
    unfold strain
    ring
  rw [h, tr_sym, tr_skew, tr_identity]
  field_simp
  ring

theorem strain_stressLaw [CharZero K] (m : Nat) {mu lam kappa : K} (hm : mu ≠ 0) (hk : kappa ≠ 0)
    (ht : 2 * mu + m * lam ≠ 0) (e : Nat → Nat → K) (k l : Nat) :
    strain m mu lam kappa (stressLaw m mu lam kappa e) k l = e k l := by
  have hD : lam / (2 * mu + m * lam) * ((2 * mu + m * lam) * tr m e) = lam * tr m e := by
    rw [← mul_assoc, div_mul_cancel₀ _ ht]
  unfold strain
  rw [tr_stressLaw, hD]
  unfold sym skew stressLaw sym skew
  by_cases h : k = l
  · subst h
    simp only [if_true]
    field_simp
    ring
  · rw [if_neg h, if_neg (Ne.symm h)]
    field_simp
    ring

theorem stressLaw_strain [CharZero K] (m : Nat) {mu lam kappa : K} (hm : mu ≠ 0) (hk : kappa ≠ 0)
    (ht : 2 * mu + m * lam ≠ 0) (s : Nat → Nat → K) (k l : Nat) :
    stressLaw m mu lam kappa (strain m mu lam kappa s) k l = s k l := by
  unfold stressLaw
  rw [tr_strain m kappa hm ht]
  unfold sym skew strain sym skew
  by_cases h : k = l
  · subst h
    simp only [if_true]
    field_simp
    ring
  · rw [if_neg h, if_neg (Ne.symm h)]
    field_simp
    ring

end

section
theorem contract_swap {K : Type} [Field K] (m : Nat) (g h : Nat → Nat → K) :
    contract m (fun k l => g l k) (fun k l => h l k) = contract m g h := Finset.sum_comm

variable {K X : Type} [Field K] [LinearOrder K] [IsStrictOrderedRing K]

/-! ### Positivity -/

theorem strain_contract (m : Nat) (mu lam kappa : K) (s t : Nat → Nat → K) :
    contract m (strain m mu lam kappa s) t =
      (contract m (sym s) (sym t) - lam / (2 * mu + m * lam) * tr m s * tr m t) / (2 * mu) +
        contract m (skew s) (skew t) / (2 * kappa) := by
  have h1 : contract m (sym s) t = contract m (sym s) (sym t) := by
    have e := contract_swap m (sym s) t
    have e2 : contract m (sym s) (sym t) =
        (contract m (sym s) t + contract m (fun k l => sym s l k) (fun k l => t l k)) / 2 := by
      unfold contract
      rw [← Finset.sum_add_distrib, Finset.sum_div]
      refine Finset.sum_congr rfl fun k _ => ?_
      rw [← Finset.sum_add_distrib, Finset.sum_div]
      refine Finset.sum_congr rfl fun l _ => ?_
      unfold sym
      ring
    rw [e2, e]
    ring
  have h2 : contract m (skew s) t = contract m (skew s) (skew t) := by
    have e := contract_swap m (skew s) t
    have e2 : contract m (skew s) (skew t) =
        (contract m (skew s) t + contract m (fun k l => skew s l k) (fun k l => t l k)) / 2 := by
      unfold contract
      rw [← Finset.sum_add_distrib, Finset.sum_div]
      refine Finset.sum_congr rfl fun k _ => ?_
      rw [← Finset.sum_add_distrib, Finset.sum_div]
      refine Finset.sum_congr rfl fun l _ => ?_
      unfold skew
      ring
    rw [e2, e]
    ring
  have h3 : contract m (fun k l => if k = l then (1 : K) else 0) t = tr m t := by
    unfold contract tr
    refine Finset.sum_congr rfl fun k hk => ?_
    simp only [ite_mul, one_mul, zero_mul, Finset.sum_ite_eq, if_pos hk]
  rw [← h1, ← h2, ← h3]
  unfold contract
  rw [Finset.mul_sum, ← Finset.sum_sub_distrib, Finset.sum_div, Finset.sum_div,
    ← Finset.sum_add_distrib]
  refine Finset.sum_congr rfl fun k _ => ?_
  rw [Finset.mul_sum, ← Finset.sum_sub_distrib, Finset.sum_div, Finset.sum_div,
    ← Finset.sum_add_distrib]
  refine Finset.sum_congr rfl fun l _ => ?_
  unfold strain
  ring

theorem strain_comm (m : Nat) (mu lam kappa : K) (s t : Nat → Nat → K) :
    contract m (strain m mu lam kappa s) t = contract m (strain m mu lam kappa t) s := by
  rw [strain_contract, strain_contract, contract_comm m (sym s), contract_comm m (skew s)]
  ring

/-- The power of a stress on its strain is positive. -/
theorem strain_power (m : Nat) {mu lam kappa : K} (hm : 0 < mu) (hk : 0 < kappa)
    (ht : 0 < 2 * mu + m * lam) (s : Nat → Nat → K) :
    0 ≤ contract m (strain m mu lam kappa s) s ∧
      (contract m (strain m mu lam kappa s) s = 0 → ∀ k < m, ∀ l < m, s k l = 0) := by
  have a1 := contract_self_nonneg m (sym s)
  have a2 := contract_self_nonneg m (skew s)
  have a3 := mul_self_nonneg (tr m s)
  have a4 := contract_sym_trace m s
  have key : ∃ x : K, 0 < x ∧
      x * contract m (sym s) (sym s) ≤
        (2 * mu + m * lam) * contract m (sym s) (sym s) - lam * (tr m s * tr m s) := by
    rcases le_total lam 0 with hl | hl
    · exact ⟨2 * mu + m * lam, ht, by nlinarith [mul_nonneg (neg_nonneg.2 hl) a3]⟩
    · exact ⟨2 * mu, by linarith, by nlinarith [mul_nonneg hl (sub_nonneg.2 a4)]⟩
  obtain ⟨x, hx, hle⟩ := key
  have e : contract m (strain m mu lam kappa s) s =
      ((2 * mu + m * lam) * contract m (sym s) (sym s) - lam * (tr m s * tr m s)) /
        ((2 * mu + m * lam) * (2 * mu)) + contract m (skew s) (skew s) / (2 * kappa) := by
    rw [strain_contract]
    have h1 := ht.ne'
    have h2 := hm.ne'
    have h3 := hk.ne'
    generalize 2 * mu + (m : K) * lam = D at h1 ⊢
    field_simp
  have b1 := mul_nonneg hx.le a1
  have b2 : 0 ≤ ((2 * mu + m * lam) * contract m (sym s) (sym s) - lam * (tr m s * tr m s)) /
      ((2 * mu + m * lam) * (2 * mu)) := div_nonneg (b1.trans hle) (by positivity)
  have b3 : 0 ≤ contract m (skew s) (skew s) / (2 * kappa) := by positivity
  rw [e]
  refine ⟨add_nonneg b2 b3, fun h0 k hk' l hl' => ?_⟩
  have c1 := (add_eq_zero_iff_of_nonneg b2 b3).1 h0
  have c2 := (div_eq_zero_iff.1 c1.1).resolve_right (by positivity)
  have c3 := (div_eq_zero_iff.1 c1.2).resolve_right (by positivity)
  rw [c2] at hle
  have c4 := (mul_eq_zero.1 (le_antisymm hle b1)).resolve_left hx.ne'
  have d1 := contract_eq_zero c4 k hk' l hl'
  have d2 := contract_eq_zero c3 k hk' l hl'
  unfold sym at d1
  unfold skew at d2
  linarith

/-- The coefficients are positive. -/
structure Positive (m : Nat) (c : Coeffs K) : Prop where
  muS : 0 < c.muS
  kapS : 0 < c.kapS
  trS : 0 < 2 * c.muS + m * c.lamS
  muO : 0 < c.muO
  kapO : 0 < c.kapO
  trO : 0 < 2 * c.muO + m * c.lamO
  len : 0 < c.len

theorem couplePower_pos {m : Nat} (hm : m = 2 ∨ m = 3) {c : Coeffs K} (h : Positive m c)
    (s : Nat → Nat → K) : 0 ≤ couplePower m c s s ∧
      (couplePower m c s s = 0 → ∀ k < spins m, ∀ l < m, s k l = 0) := by
  rcases hm with rfl | rfl
  · unfold couplePower
    rw [if_pos rfl]
    have hp : 0 < c.muO + c.kapO := add_pos h.muO h.kapO
    refine ⟨div_nonneg (contractSpin_self_nonneg _ _) hp.le, fun h0 => ?_⟩
    exact contractSpin_eq_zero ((div_eq_zero_iff.1 h0).resolve_right hp.ne')
  · unfold couplePower
    rw [if_neg (by decide)]
    exact strain_power 3 h.muO h.kapO h.trO s

theorem couplePower_comm (m : Nat) (c : Coeffs K) (s t : Nat → Nat → K) :
    couplePower m c s t = couplePower m c t s := by
  unfold couplePower
  rw [contractSpin_comm, strain_comm]

theorem lawPower_pos {m : Nat} (hm : m = 2 ∨ m = 3) (scaled : Bool) {c : Coeffs K}
    (h : Positive m c) (s : Fields K) : 0 ≤ lawPower scaled m c s s ∧
      (lawPower scaled m c s s = 0 → (∀ k < m, ∀ l < m, s.sig k l = 0) ∧
        ∀ k < spins m, ∀ l < m, s.mom k l = 0) := by
  obtain ⟨a1, a2⟩ := strain_power m h.muS h.kapS h.trS s.sig
  obtain ⟨b1, b2⟩ := couplePower_pos hm h s.mom
  have hf : 0 < (if scaled then 1 else 1 / c.len : K) := by
    split
    · exact one_pos
    · exact one_div_pos.2 h.len
  unfold lawPower
  refine ⟨add_nonneg a1 (mul_nonneg hf.le b1), fun h0 => ?_⟩
  have c1 := (add_eq_zero_iff_of_nonneg a1 (mul_nonneg hf.le b1)).1 h0
  exact ⟨a2 c1.1, b2 ((mul_eq_zero.1 c1.2).resolve_left hf.ne')⟩

theorem lawPower_vanish {m : Nat} (hm : m = 2 ∨ m = 3) (scaled : Bool) (c : Coeffs K) {s t : Fields K}
    (h1 : ∀ k < m, ∀ l < m, t.sig k l = 0) (h2 : ∀ k < spins m, ∀ l < m, t.mom k l = 0) :
    lawPower scaled m c s t = 0 := by
  have z : ∀ {n : Nat} {g b : Nat → Nat → K}, (∀ k < n, ∀ l < m, b k l = 0) →
      ∑ k ∈ Finset.range n, ∑ l ∈ Finset.range m, g k l * b k l = 0 := by
    intro n g b h
    refine Finset.sum_eq_zero fun k hk => Finset.sum_eq_zero fun l hl => ?_
    rw [h k (Finset.mem_range.1 hk) l (Finset.mem_range.1 hl), mul_zero]
  have e : couplePower m c s.mom t.mom = 0 := by
    unfold couplePower
    rcases hm with rfl | rfl
    · rw [if_pos rfl, contractSpin, z h2, zero_div]
    · rw [if_neg (by decide)]
      exact z (fun k hk l hl => h2 k hk l hl)
  unfold lawPower
  rw [e, mul_zero, add_zero]
  exact z h1

theorem lawPower_comm (scaled : Bool) (m : Nat) (c : Coeffs K) (s t : Fields K) :
    lawPower scaled m c s t = lawPower scaled m c t s := by
  unfold lawPower
  rw [strain_comm, couplePower_comm]

theorem dualPower_comm (scaled : Bool) (m : Nat) (c : Coeffs K) (s t : Fields K) :
    dualPower scaled m c s t = dualPower scaled m c t s := by
  unfold dualPower
  rw [lawPower_comm]
  have h : ∀ {a b b' d d' x y : K}, b = b' → d = d' → a + b + d - x - y = a + b' + d' - y - x := by
    intro a b b' d d' x y h1 h2; rw [h1, h2]; ring
  exact h (Finset.sum_congr rfl fun k _ => add_comm _ _) (Finset.sum_congr rfl fun k _ => add_comm _ _)

theorem rieszPower_comm (scaled : Bool) (m : Nat) (c : Coeffs K) (s t : Fields K) :
    rieszPower scaled m c s t = rieszPower scaled m c t s := by
  unfold rieszPower
  rw [lawPower_comm]
  congr 1
  · congr 1
    exact Finset.sum_congr rfl fun k _ => by ring
  · exact Finset.sum_congr rfl fun k _ => by ring

end

section
variable {K X : Type} [Field K]

/-! ### Linearity -/

/-- `s + a t` -/
def axpy (s : Fields K) (a : K) (t : Fields K) : Fields K where
  sig k l := s.sig k l + a * t.sig k l
  dsig k := s.dsig k + a * t.dsig k
  mom k l := s.mom k l + a * t.mom k l
  dmom k := s.dmom k + a * t.dmom k
  disp k := s.disp k + a * t.disp k
  rot k := s.rot k + a * t.rot k

/-- A form that is linear in the first argument. -/
structure LinearForm (B : Fields K → Fields K → K) : Prop where
  zero : ∀ t, B ⟨fun _ _ => 0, fun _ => 0, fun _ _ => 0, fun _ => 0, fun _ => 0, fun _ => 0⟩ t = 0
  axpy : ∀ s a s' t, B (axpy s a s') t = B s t + a * B s' t

theorem LinearForm.combine {B : Fields K → Fields K → K} (h : LinearForm B) (n : Nat) (v : Nat → K)
    (f : Nat → Fields K) (t : Fields K) :
    B (combine n v f) t = ∑ p ∈ Finset.range n, v p * B (f p) t := by
  induction n with
  | zero =>
    rw [Finset.sum_range_zero, ← h.zero t]
    congr 1
  | succ n ih =>
    rw [Finset.sum_range_succ, ← ih, ← h.axpy]
    congr 1
    simp only [Dual.combine, Dual.axpy, Finset.sum_range_succ]

theorem strain_axpy (m : Nat) (mu lam kappa : K) (s s' : Nat → Nat → K) (a : K) (k l : Nat) :
    strain m mu lam kappa (fun k l => s k l + a * s' k l) k l =
      strain m mu lam kappa s k l + a * strain m mu lam kappa s' k l := by
  unfold strain sym skew tr
  rw [Finset.sum_add_distrib, ← Finset.mul_sum]
  ring

theorem contract_axpy (m : Nat) (s s' t : Nat → Nat → K) (a : K) :
    contract m (fun k l => s k l + a * s' k l) t = contract m s t + a * contract m s' t := by
  unfold contract
  rw [Finset.mul_sum, ← Finset.sum_add_distrib]
  refine Finset.sum_congr rfl fun k _ => ?_
  rw [Finset.mul_sum, ← Finset.sum_add_distrib]
  exact Finset.sum_congr rfl fun l _ => by ring

theorem contractSpin_axpy (m : Nat) (s s' t : Nat → Nat → K) (a : K) :
    contractSpin m (fun k l => s k l + a * s' k l) t = contractSpin m s t + a * contractSpin m s' t := by
  unfold contractSpin
  rw [Finset.mul_sum, ← Finset.sum_add_distrib]
  refine Finset.sum_congr rfl fun k _ => ?_
  rw [Finset.mul_sum, ← Finset.sum_add_distrib]
  exact Finset.sum_congr rfl fun l _ => by ring

theorem couplePower_axpy (m : Nat) (c : Coeffs K) (s s' t : Nat → Nat → K) (a : K) :
    couplePower m c (fun k l => s k l + a * s' k l) t = couplePower m c s t + a * couplePower m c s' t := by
  unfold couplePower
  split
  · rw [contractSpin_axpy]; ring
  · rw [← contract_axpy]
    congr 1
    funext k l
    exact strain_axpy ..

theorem lawPower_axpy (scaled : Bool) (m : Nat) (c : Coeffs K) (s s' t : Fields K) (a : K) :
    lawPower scaled m c (axpy s a s') t = lawPower scaled m c s t + a * lawPower scaled m c s' t := by
  unfold lawPower
  have e1 : (axpy s a s').sig = fun k l => s.sig k l + a * s'.sig k l := rfl
  have e2 : (axpy s a s').mom = fun k l => s.mom k l + a * s'.mom k l := rfl
  rw [e1, e2, couplePower_axpy]
  have e3 : strain m c.muS c.lamS c.kapS (fun k l => s.sig k l + a * s'.sig k l) = fun k l =>
      strain m c.muS c.lamS c.kapS s.sig k l + a * strain m c.muS c.lamS c.kapS s'.sig k l := by
    funext k l; exact strain_axpy ..
  rw [e3, contract_axpy]
  ring

theorem axial_axpy (m : Nat) (w w' : Nat → K) (a : K) (k l : Nat) :
    axial m (fun c => w c + a * w' c) k l = axial m w k l + a * axial m w' k l := by
  unfold axial
  split_ifs <;> ring

theorem contract_axpy_right (m : Nat) (s t t' : Nat → Nat → K) (a : K) :
    contract m s (fun k l => t k l + a * t' k l) = contract m s t + a * contract m s t' := by
  rw [contract_comm, contract_axpy, contract_comm m t, contract_comm m t']

theorem strain_contract_zero (m : Nat) (mu lam kappa : K) (t : Nat → Nat → K) :
    contract m (strain m mu lam kappa fun _ _ => 0) t = 0 := by
  have h := contract_axpy m (strain m mu lam kappa fun _ _ => 0)
    (strain m mu lam kappa fun _ _ => 0) t (-1)
  have e : (fun k l => strain m mu lam kappa (fun _ _ => 0) k l +
      -1 * strain m mu lam kappa (fun _ _ => 0) k l) = strain m mu lam kappa fun _ _ => (0 : K) := by
    funext k l
    rw [← strain_axpy]
    simp
  rw [e] at h
  rw [h]
  ring

theorem lawPower_zero (scaled : Bool) (m : Nat) (c : Coeffs K) (t : Fields K) :
    lawPower scaled m c ⟨fun _ _ => 0, fun _ => 0, fun _ _ => 0, fun _ => 0, fun _ => 0, fun _ => 0⟩ t
      = 0 := by
  unfold lawPower couplePower
  dsimp only
  rw [strain_contract_zero, strain_contract_zero, contractSpin_zero_left m fun _ _ => rfl]
  split <;> split <;> simp

theorem dualPower_linear (scaled : Bool) (m : Nat) (c : Coeffs K) :
    LinearForm (dualPower scaled m c) where
  zero t := by
    unfold dualPower
    rw [lawPower_zero]
    dsimp only
    rw [zero_contract, axial_zero_contract]
    simp
  axpy s a s' t := by
    unfold dualPower
    rw [lawPower_axpy]
    have e1 : (axpy s a s').sig = fun k l => s.sig k l + a * s'.sig k l := rfl
    have e2 : axial m (axpy s a s').rot = fun k l => axial m s.rot k l + a * axial m s'.rot k l := by
      funext k l; exact axial_axpy ..
    have e3 : ∑ k ∈ Finset.range m, ((axpy s a s').disp k * t.dsig k + t.disp k * (axpy s a s').dsig k) =
        ∑ k ∈ Finset.range m, (s.disp k * t.dsig k + t.disp k * s.dsig k) +
          a * ∑ k ∈ Finset.range m, (s'.disp k * t.dsig k + t.disp k * s'.dsig k) := by
      rw [Finset.mul_sum, ← Finset.sum_add_distrib]
      exact Finset.sum_congr rfl fun k _ => by unfold axpy; ring
    have e4 : ∑ k ∈ Finset.range (spins m),
        ((axpy s a s').rot k * t.dmom k + t.rot k * (axpy s a s').dmom k) =
        ∑ k ∈ Finset.range (spins m), (s.rot k * t.dmom k + t.rot k * s.dmom k) +
          a * ∑ k ∈ Finset.range (spins m), (s'.rot k * t.dmom k + t.rot k * s'.dmom k) := by
      rw [Finset.mul_sum, ← Finset.sum_add_distrib]
      exact Finset.sum_congr rfl fun k _ => by unfold axpy; ring
    rw [e1, e2, e3, e4, contract_axpy, contract_axpy_right]
    ring

theorem rieszPower_linear (scaled : Bool) (m : Nat) (c : Coeffs K) :
    LinearForm (rieszPower scaled m c) where
  zero t := by
    unfold rieszPower
    rw [lawPower_zero]
    simp
  axpy s a s' t := by
    unfold rieszPower
    rw [lawPower_axpy]
    have e3 : ∑ k ∈ Finset.range m, ((axpy s a s').dsig k * t.dsig k + (axpy s a s').disp k * t.disp k) =
        ∑ k ∈ Finset.range m, (s.dsig k * t.dsig k + s.disp k * t.disp k) +
          a * ∑ k ∈ Finset.range m, (s'.dsig k * t.dsig k + s'.disp k * t.disp k) := by
      rw [Finset.mul_sum, ← Finset.sum_add_distrib]
      exact Finset.sum_congr rfl fun k _ => by unfold axpy; ring
    have e4 : ∑ k ∈ Finset.range (spins m),
        ((axpy s a s').dmom k * t.dmom k + (axpy s a s').rot k * t.rot k) =
        ∑ k ∈ Finset.range (spins m), (s.dmom k * t.dmom k + s.rot k * t.rot k) +
          a * ∑ k ∈ Finset.range (spins m), (s'.dmom k * t.dmom k + s'.rot k * t.rot k) := by
      rw [Finset.mul_sum, ← Finset.sum_add_distrib]
      exact Finset.sum_congr rfl fun k _ => by unfold axpy; ring
    rw [e3, e4]
    ring

/-- The fields of the coefficients `v` in the point `i`. -/
def fieldAt (scaled : Bool) (sp : Spaces K X) (c : X → Nat → Coeffs K) (v : Nat → K) (i : Nat) :
    Fields K := combine sp.total v (dofFields scaled sp (c sp.s.x i) i)

theorem matrixOf_mul {power : Coeffs K → Fields K → Fields K → K} (h : ∀ c, LinearForm (power c))
    (scaled : Bool) (sp : Spaces K X) (c : X → Nat → Coeffs K) (v : Nat → K) (p : Nat) :
    ∑ q ∈ Finset.range sp.total, matrixOf power scaled sp c p q * v q =
      ∑ i ∈ Finset.range sp.s.nPts, sp.s.det i * sp.s.weights i * power (c sp.s.x i)
        (fieldAt scaled sp c v i) (dofFields scaled sp (c sp.s.x i) i p) := by
  unfold matrixOf fieldAt
  simp only [(h _).combine, Finset.sum_mul, Finset.mul_sum]
  rw [Finset.sum_comm]
  exact Finset.sum_congr rfl fun i _ => Finset.sum_congr rfl fun q _ => by ring

theorem matrixOf_energy {power : Coeffs K → Fields K → Fields K → K} (h : ∀ c, LinearForm (power c))
    (hs : ∀ c s t, power c s t = power c t s) (scaled : Bool) (sp : Spaces K X)
    (c : X → Nat → Coeffs K) (v : Nat → K) :
    ∑ p ∈ Finset.range sp.total, ∑ q ∈ Finset.range sp.total,
        v p * matrixOf power scaled sp c p q * v q =
      ∑ i ∈ Finset.range sp.s.nPts, sp.s.det i * sp.s.weights i * power (c sp.s.x i)
        (fieldAt scaled sp c v i) (fieldAt scaled sp c v i) := by
  have e : ∀ p ∈ Finset.range sp.total, ∑ q ∈ Finset.range sp.total,
      v p * matrixOf power scaled sp c p q * v q =
      ∑ i ∈ Finset.range sp.s.nPts, v p * (sp.s.det i * sp.s.weights i * power (c sp.s.x i)
        (fieldAt scaled sp c v i) (dofFields scaled sp (c sp.s.x i) i p)) := by
    intro p _
    rw [← Finset.mul_sum, ← matrixOf_mul h, Finset.mul_sum]
    exact Finset.sum_congr rfl fun q _ => mul_assoc _ _ _
  rw [Finset.sum_congr rfl e, Finset.sum_comm]
  refine Finset.sum_congr rfl fun i _ => ?_
  rw [hs _ (fieldAt scaled sp c v i)]
  conv_rhs => rw [fieldAt, (h _).combine, Finset.mul_sum]
  refine Finset.sum_congr rfl fun p _ => ?_
  rw [hs _ (fieldAt scaled sp c v i)]
  unfold fieldAt
  ring

theorem matrixOf_symm {power : Coeffs K → Fields K → Fields K → K}
    (hs : ∀ c s t, power c s t = power c t s) (scaled : Bool) (sp : Spaces K X)
    (c : X → Nat → Coeffs K) (p q : Nat) :
    matrixOf power scaled sp c p q = matrixOf power scaled sp c q p :=
  Finset.sum_congr rfl fun i _ => by rw [hs]

end

section
variable {K X : Type} [Field K]

theorem two_mul_sum_eq (n : Nat) (f g : Nat → K) :
    2 * ∑ k ∈ Finset.range n, f k * g k = ∑ k ∈ Finset.range n, (f k * g k + f k * g k) := by
  rw [Finset.mul_sum]
  exact Finset.sum_congr rfl fun k _ => by ring

/-- Displacements and rotations have no stress. -/
theorem no_stress_power (scaled : Bool) (sp : Spaces K X) (c : Coeffs K) (i : Nat)
    {p q : Nat} (hp : sp.nS + sp.nM ≤ p) (hq : sp.nS + sp.nM ≤ q) :
    dualPower scaled sp.s.dim c (dofFields scaled sp c i q) (dofFields scaled sp c i p) = 0 := by
  have z : ∀ x, sp.nS + sp.nM ≤ x → (dofFields scaled sp c i x).sig = (fun _ _ => 0) ∧
      (dofFields scaled sp c i x).dsig = (fun _ => 0) ∧
      (dofFields scaled sp c i x).mom = (fun _ _ => 0) ∧
      (dofFields scaled sp c i x).dmom = (fun _ => 0) := by
    intro x hx
    have h1 : 0 + sp.s.tab.nPhi * sp.sComp ≤ x := by
      have : sp.nS = sp.s.tab.nPhi * sp.sComp := rfl
      omega
    have h2 : sp.nS + sp.m.nPhi * sp.mComp ≤ x := hx
    refine ⟨?_, ?_, ?_, ?_⟩
    · funext k l; dsimp only [dofFields]; exact comp_out (.inr h1)
    · funext k; dsimp only [dofFields]; exact comp_out (.inr h1)
    · funext k l; dsimp only [dofFields]; exact comp_out (.inr h2)
    · funext k; dsimp only [dofFields]; exact comp_out (.inr h2)
  obtain ⟨a1, a2, a3, a4⟩ := z p hp
  obtain ⟨b1, b2, b3, b4⟩ := z q hq
  unfold dualPower lawPower
  rw [a1, a2, a3, a4, b1, b2, b4, zero_contract, zero_contract, zero_contract, couplePower_zero]
  simp

/-- Without their coefficients there are no displacements and rotations. -/
theorem no_motion (scaled : Bool) (sp : Spaces K X) (c : X → Nat → Coeffs K)
    (v : Nat → K) (hv : ∀ p, sp.nS + sp.nM ≤ p → v p = 0) (i : Nat) :
    (∀ k, (fieldAt scaled sp c v i).disp k = 0) ∧ ∀ k, (fieldAt scaled sp c v i).rot k = 0 := by
  constructor
  · intro k
    dsimp only [fieldAt, combine]
    refine Finset.sum_eq_zero fun p _ => ?_
    rcases Nat.lt_or_ge p (sp.nS + sp.nM) with hp | hp
    · have e : (dofFields scaled sp (c sp.s.x i) i p).disp k = 0 := by
        dsimp only [dofFields]; exact comp_out (.inl hp)
      rw [e, mul_zero]
    · rw [hv p hp, zero_mul]
  · intro k
    dsimp only [fieldAt, combine]
    refine Finset.sum_eq_zero fun p _ => ?_
    rcases Nat.lt_or_ge p (sp.nS + sp.nM) with hp | hp
    · have e : (dofFields scaled sp (c sp.s.x i) i p).rot k = 0 := by
        dsimp only [dofFields]; exact comp_out (.inl (by omega))
      rw [e, mul_zero]
    · rw [hv p hp, zero_mul]

end

/-! ### Refusals -/

section
variable {K X R : Type} [Field K] [CommRing R] [Algebra K R]

/-- Only `ValueError` is raised. -/
structure OnlyValue {α : Type} (x : Res α) : Prop where
  out : ∀ e, x = .error e → e = .valueError

theorem OnlyValue.ok {α : Type} (a : α) : OnlyValue (.ok a : Res α) :=
  ⟨fun _ h => by cases h⟩

theorem OnlyValue.value {α : Type} : OnlyValue (.error .valueError : Res α) :=
  ⟨fun _ h => by cases h; rfl⟩

theorem OnlyValue.bind {α β : Type} {x : Res α} {f : α → Res β} (hx : OnlyValue x)
    (hf : ∀ a, x = .ok a → OnlyValue (f a)) : OnlyValue (x >>= f) := by
  refine ⟨fun e h => ?_⟩
  cases x with
  | error e' => exact hx.out e (by cases h; rfl)
  | ok a => exact (hf a rfl).out e h

theorem OnlyValue.ite {α : Type} {p : Prop} [Decidable p] {x y : Res α} (hx : OnlyValue x)
    (hy : OnlyValue y) : OnlyValue (if p then x else y) := by
  split
  · exact hx
  · exact hy

theorem OnlyValue.foldlM {σ ι : Type} {f : σ → ι → Res σ} (h : ∀ s i, OnlyValue (f s i)) (l : List ι) :
    ∀ s, OnlyValue (l.foldlM f s) := by
  induction l with
  | nil => exact fun s => .ok s
  | cons a l ih =>
    intro s
    rw [List.foldlM_cons]
    exact .bind (h s a) fun s' _ => ih s'

theorem OnlyValue.mapM {α ι : Type} {f : ι → Res α} (h : ∀ i, OnlyValue (f i)) (l : List ι) :
    OnlyValue (l.mapM f) := by
  induction l with
  | nil => exact .ok []
  | cons a l ih =>
    rw [List.mapM_cons]
    exact .bind (h a) fun b _ => .bind ih fun c _ => .ok _

theorem OnlyValue.error {α : Type} {x : Res α} (h : OnlyValue x) (hn : ∀ a, x ≠ .ok a) :
    x = .error .valueError := by
  cases x with
  | error e => rw [h.out e rfl]
  | ok a => exact absurd rfl (hn a)

theorem bind_inv {α β : Type} {x : Res α} {f : α → Res β} {b : β} (h : x >>= f = .ok b) :
    ∃ a, x = .ok a ∧ f a = .ok b := by
  cases x with
  | error e => cases h
  | ok a => exact ⟨a, rfl, h⟩

theorem matmul_shape {a b c : Arr R} (h : matmul a b = .ok c) : c.rows = a.rows ∧ c.cols = b.cols := by
  unfold matmul at h
  split at h
  · cases h
  · cases h; exact ⟨rfl, rfl⟩

theorem sub_shape {a b c : Arr R} (h : a.sub b = .ok c) : c.rows = a.rows ∧ c.cols = a.cols := by
  unfold Arr.sub at h
  split at h
  · cases h
  · cases h; exact ⟨rfl, rfl⟩

theorem add_shape {a b c : Arr R} (h : Cosserat.add a b = .ok c) :
    c.rows = a.rows ∧ c.cols = a.cols := by
  unfold Cosserat.add at h
  split at h
  · cases h
  · cases h; exact ⟨rfl, rfl⟩

theorem fieldGradient_shape {total b n comps m : Nat} {g : Arr K} {alpha : Nat → R} {u : Arr R}
    (h : fieldGradient total b n comps m g alpha = .ok u) : u.rows = m ∧ u.cols = g.cols := by
  unfold fieldGradient at h
  obtain ⟨r, _, h2⟩ := bind_inv h
  cases h2
  exact ⟨rfl, rfl⟩

theorem compliance_shape {dim : Nat} {mu lam kappa : K} {s a : Arr R}
    (h : compliance dim mu lam kappa s = .ok a) : a.rows = s.rows := by
  unfold compliance at h
  obtain ⟨d, _, h2⟩ := bind_inv h
  cases h2
  rfl

theorem coupleCompliance_shape {scaled : Bool} {dim : Nat} {c : Coeffs K} {s a : Arr R}
    (h : coupleCompliance scaled dim c s = .ok a) : a.rows = s.rows := by
  unfold coupleCompliance at h
  dsimp only at h
  split at h
  · cases h; rfl
  · obtain ⟨d, h1, h2⟩ := bind_inv h
    cases h2
    exact (compliance_shape h1 :)

/-- The numbers of degrees of freedom that the code expects. -/
def Expected (sp : Spaces K X) : Prop :=
  sp.nS = sp.s.tab.nPhi * (if sp.s.dim = 2 then 2 else 3) ∧
    sp.nM = sp.m.nPhi * (if sp.s.dim = 2 then 1 else 3) ∧
    sp.nU = sp.u.nPhi * (if sp.s.dim = 2 then 2 else 3) ∧
    sp.nT = sp.t.nPhi * (if sp.s.dim = 2 then 1 else 3)

theorem pointFields_shape {scaled : Bool} {sp : Spaces K X} {c : Coeffs K} {alpha : Nat → R} {i : Nat}
    {p : Point R} (h : pointFields scaled sp c alpha i = .ok p) :
    p.aS.rows = (if sp.s.dim = 2 then 2 else 3) ∧ p.aM.rows = (if sp.s.dim = 2 then 1 else 3) ∧
      p.dS.cols = (if sp.s.dim = 2 then 2 else 3) ∧ p.dM.cols = (if sp.s.dim = 2 then 1 else 3) ∧
      p.u.cols = (if sp.s.dim = 2 then 2 else 3) ∧ p.t.cols = (if sp.s.dim = 2 then 1 else 3) := by
  unfold pointFields at h
  obtain ⟨sh, h1, h⟩ := bind_inv h
  obtain ⟨uh, h2, h⟩ := bind_inv h
  obtain ⟨mh, h3, h⟩ := bind_inv h
  obtain ⟨th, h4, h⟩ := bind_inv h
  obtain ⟨aS, h5, h⟩ := bind_inv h
  obtain ⟨aM, h6, h⟩ := bind_inv h
  obtain ⟨dS, h7, h⟩ := bind_inv h
  obtain ⟨dM, h8, h⟩ := bind_inv h
  cases h
  exact ⟨(compliance_shape h5).trans (fieldGradient_shape h1).1,
    (coupleCompliance_shape h6).trans (fieldGradient_shape h3).1, (fieldGradient_shape h7).1,
    (fieldGradient_shape h8).1, (fieldGradient_shape h2).1, (fieldGradient_shape h4).1⟩

omit [Field K] [CommRing R] [Algebra K R] in
theorem stack_shape {sp : Spaces K X} {e1 e2 e3 e4 : Arr R} {v : Vec R}
    (h : stack sp e1 e2 e3 e4 = .ok v) : e1.rows * e1.cols = sp.nS ∧ e2.rows * e2.cols = sp.nM ∧
      e3.rows * e3.cols = sp.nU ∧ e4.rows * e4.cols = sp.nT := by
  unfold stack at h
  split at h
  · cases h
  · next hn =>
    simp only [not_or, not_not] at hn
    exact hn

theorem integrand_shape {scaled : Bool} {sp : Spaces K X} {c : Coeffs K} {alpha : Nat → R} {i : Nat}
    {v : Vec R} (h : integrand scaled sp c alpha i = .ok v) : Expected sp := by
  unfold integrand at h
  obtain ⟨p, h0, h⟩ := bind_inv h
  obtain ⟨a1, h1, h⟩ := bind_inv h
  obtain ⟨a2, h2, h⟩ := bind_inv h
  obtain ⟨a3, h3, h⟩ := bind_inv h
  obtain ⟨a, h4, h⟩ := bind_inv h
  obtain ⟨e1, h5, h⟩ := bind_inv h
  obtain ⟨b1, h6, h⟩ := bind_inv h
  obtain ⟨b2, h7, h⟩ := bind_inv h
  obtain ⟨e2, h8, h⟩ := bind_inv h
  obtain ⟨e3, h9, h⟩ := bind_inv h
  obtain ⟨d1, h10, h⟩ := bind_inv h
  obtain ⟨d2, h11, h⟩ := bind_inv h
  obtain ⟨e4, h12, h⟩ := bind_inv h
  obtain ⟨s1, s2, s3, s4, s5, s6⟩ := pointFields_shape h0
  obtain ⟨k1, k2, k3, k4⟩ := stack_shape h
  refine ⟨?_, ?_, ?_, ?_⟩
  · rw [← k1, (sub_shape h5).1, (sub_shape h5).2, (add_shape h4).1, (add_shape h4).2,
      (matmul_shape h1).1, (matmul_shape h1).2, ← s1]
    rfl
  · rw [← k2, (add_shape h8).1, (add_shape h8).2, (matmul_shape h6).1, (matmul_shape h6).2, ← s2]
    rfl
  · rw [← k3, (matmul_shape h9).1, (matmul_shape h9).2, s3]
    rfl
  · rw [← k4, (sub_shape h12).1, (sub_shape h12).2, (matmul_shape h10).1, (matmul_shape h10).2, s4]
    rfl

theorem rieszIntegrand_shape {scaled : Bool} {sp : Spaces K X} {c : Coeffs K} {alpha : Nat → R}
    {i : Nat} {v : Vec R} (h : rieszIntegrand scaled sp c alpha i = .ok v) : Expected sp := by
  unfold rieszIntegrand at h
  obtain ⟨p, h0, h⟩ := bind_inv h
  obtain ⟨a1, h1, h⟩ := bind_inv h
  obtain ⟨a2, h2, h⟩ := bind_inv h
  obtain ⟨e1, h4, h⟩ := bind_inv h
  obtain ⟨b1, h6, h⟩ := bind_inv h
  obtain ⟨b2, h7, h⟩ := bind_inv h
  obtain ⟨e2, h8, h⟩ := bind_inv h
  obtain ⟨e3, h9, h⟩ := bind_inv h
  obtain ⟨e4, h10, h⟩ := bind_inv h
  obtain ⟨s1, s2, s3, s4, s5, s6⟩ := pointFields_shape h0
  obtain ⟨k1, k2, k3, k4⟩ := stack_shape h
  refine ⟨?_, ?_, ?_, ?_⟩
  · rw [← k1, (add_shape h4).1, (add_shape h4).2, (matmul_shape h1).1, (matmul_shape h1).2, ← s1]
    rfl
  · rw [← k2, (add_shape h8).1, (add_shape h8).2, (matmul_shape h6).1, (matmul_shape h6).2, ← s2]
    rfl
  · rw [← k3, (matmul_shape h9).1, (matmul_shape h9).2, s5]
    rfl
  · rw [← k4, (matmul_shape h10).1, (matmul_shape h10).2, s6]
    rfl

theorem matmul_value (a b : Arr R) : OnlyValue (matmul a b) := .ite .value (.ok _)
theorem sub_value (a b : Arr R) : OnlyValue (a.sub b) := .ite .value (.ok _)
theorem add_value (a b : Arr R) : OnlyValue (Cosserat.add a b) := .ite .value (.ok _)
theorem addAt_value (r : Vec R) (idx : List Nat) (v : Vec R) : OnlyValue (r.addAt idx v) :=
  .ite .value (.ok _)
theorem addScaled_value (r : Vec R) (c : R) (v : Vec R) : OnlyValue (Vec.addScaled r c v) :=
  .ite .value (.ok _)
theorem fieldGradient_value (total b n comps m : Nat) (g : Arr K) (alpha : Nat → R) :
    OnlyValue (fieldGradient total b n comps m g alpha) :=
  .bind (.mapM (fun _ => matmul_value _ _) _) fun _ _ => .ok _
theorem compliance_value (dim : Nat) (mu lam kappa : K) (s : Arr R) :
    OnlyValue (compliance dim mu lam kappa s) :=
  .bind (.ite (.ok _) (.ite (.ok _) .value)) fun _ _ => .ok _
theorem coupleCompliance_value (scaled : Bool) (dim : Nat) (c : Coeffs K) (s : Arr R) :
    OnlyValue (coupleCompliance scaled dim c s) :=
  .ite (.bind (.ok _) fun _ _ => .ok _) (.bind (compliance_value ..) fun _ _ => .ok _)
omit [Field K] [CommRing R] [Algebra K R] in
theorem stack_value (sp : Spaces K X) (e1 e2 e3 e4 : Arr R) : OnlyValue (stack sp e1 e2 e3 e4) :=
  .ite .value (.ok _)

theorem pointFields_value (scaled : Bool) (sp : Spaces K X) (c : Coeffs K) (alpha : Nat → R) (i : Nat) :
    OnlyValue (pointFields scaled sp c alpha i) :=
  .bind (fieldGradient_value ..) fun _ _ => .bind (fieldGradient_value ..) fun _ _ =>
  .bind (fieldGradient_value ..) fun _ _ => .bind (fieldGradient_value ..) fun _ _ =>
  .bind (compliance_value ..) fun _ _ => .bind (coupleCompliance_value ..) fun _ _ =>
  .bind (fieldGradient_value ..) fun _ _ => .bind (fieldGradient_value ..) fun _ _ => .ok _

theorem integrand_value (scaled : Bool) (sp : Spaces K X) (c : Coeffs K) (alpha : Nat → R) (i : Nat) :
    OnlyValue (integrand scaled sp c alpha i) :=
  .bind (pointFields_value ..) fun _ _ => .bind (matmul_value ..) fun _ _ =>
  .bind (matmul_value ..) fun _ _ => .bind (matmul_value ..) fun _ _ =>
  .bind (add_value ..) fun _ _ => .bind (sub_value ..) fun _ _ =>
  .bind (matmul_value ..) fun _ _ => .bind (matmul_value ..) fun _ _ =>
  .bind (add_value ..) fun _ _ => .bind (matmul_value ..) fun _ _ =>
  .bind (matmul_value ..) fun _ _ => .bind (matmul_value ..) fun _ _ =>
  .bind (sub_value ..) fun _ _ => stack_value ..

theorem rieszIntegrand_value (scaled : Bool) (sp : Spaces K X) (c : Coeffs K) (alpha : Nat → R)
    (i : Nat) : OnlyValue (rieszIntegrand scaled sp c alpha i) :=
  .bind (pointFields_value ..) fun _ _ => .bind (matmul_value ..) fun _ _ =>
  .bind (matmul_value ..) fun _ _ => .bind (add_value ..) fun _ _ =>
  .bind (matmul_value ..) fun _ _ => .bind (matmul_value ..) fun _ _ =>
  .bind (add_value ..) fun _ _ => .bind (matmul_value ..) fun _ _ =>
  .bind (matmul_value ..) fun _ _ => stack_value ..

theorem loop_inv {σ : Type} {n : Nat} {f : σ → Nat → Res σ} {r s : σ} (hn : 0 < n)
    (h : (List.range n).foldlM f r = .ok s) : ∃ r', f r 0 = .ok r' := by
  obtain ⟨k, rfl⟩ := Nat.exists_eq_succ_of_ne_zero (Nat.pos_iff_ne_zero.1 hn)
  rw [List.range_succ_eq_map, List.foldlM_cons] at h
  obtain ⟨r', h1, _⟩ := bind_inv h
  exact ⟨r', h1⟩

theorem form_refused (scaled : Bool) {sp : Spaces K X} (h : ¬ Expected sp) (hn : 0 < sp.s.nPts)
    (rhs : X → Nat → Nat → K) (c : X → Nat → Coeffs K) (alpha : Nat → R) :
    form scaled sp rhs c alpha = .error .valueError := by
  refine OnlyValue.error ?_ ?_
  · refine .bind (.bind (.foldlM (fun _ _ => addAt_value ..) _ _) fun _ _ =>
      .foldlM (fun _ _ => addAt_value ..) _ _) fun _ _ => .foldlM (fun _ _ => ?_) _ _
    exact .bind (integrand_value ..) fun _ _ => addScaled_value ..
  · intro v hv
    obtain ⟨r, _, h2⟩ := bind_inv hv
    obtain ⟨r', h3⟩ := loop_inv hn h2
    obtain ⟨w, h4, _⟩ := bind_inv h3
    exact h (integrand_shape h4)

theorem rieszForm_refused (scaled : Bool) {sp : Spaces K X} (h : ¬ Expected sp) (hn : 0 < sp.s.nPts)
    (c : X → Nat → Coeffs K) (alpha : Nat → R) :
    rieszForm scaled sp c alpha = .error .valueError := by
  refine OnlyValue.error ?_ ?_
  · refine .foldlM (fun _ _ => ?_) _ _
    exact .bind (rieszIntegrand_value ..) fun _ _ => addScaled_value ..
  · intro v hv
    obtain ⟨r', h3⟩ := loop_inv hn hv
    obtain ⟨w, h4, _⟩ := bind_inv h3
    exact h (rieszIntegrand_shape h4)

end

end Verif.Dual
