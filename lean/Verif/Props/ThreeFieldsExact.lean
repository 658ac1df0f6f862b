/-
Property theorems C126: the exact solution of the stationary advection and diffusion
(examples/geothermal_flow/three_fields_advection_diffusion.py).
-/
import Verif.Spec.ThreeFieldsExact
import Mathlib.Analysis.SpecialFunctions.ExpDeriv
import Mathlib.Analysis.Calculus.Deriv.Add
import Mathlib.Analysis.Calculus.Deriv.Mul
import Mathlib.Tactic.Ring
import Mathlib.Tactic.FieldSimp
import Mathlib.Tactic.NormNum
import Mathlib.Tactic.Linarith
import Mathlib.Tactic.LinearCombination

namespace Verif.ThreeFields

/-- The flux of the exact solution -/
noncomputable def total (p : Params) : ℝ :=
  p.velocity * p.kappa * (p.cR * (p.betaR - p.gammaR) * p.betaL -
    p.cL * (p.betaL - p.gammaL) * Real.exp (p.velocity / p.kappa) * p.betaR) / den p

theorem xiMap_same (a x y z : ℝ) : xiMap a a x y z = a := by rw [xiMap]; ring

theorem hasDerivAt_exp (p : Params) (x : ℝ) :
    HasDerivAt (fun s => Real.exp ((s * p.velocity) / p.kappa))
      (Real.exp ((x * p.velocity) / p.kappa) * (p.velocity / p.kappa)) x := by
  have h : HasDerivAt (fun s : ℝ => (s * p.velocity) / p.kappa) (p.velocity / p.kappa) x := by
    have := ((hasDerivAt_id x).mul_const p.velocity).div_const p.kappa
    exact this.congr_deriv (by simp)
  exact h.exp

theorem num_eq (p : Params) (x : ℝ) :
    num p x = (p.cR * (p.betaR - p.gammaR) * (p.kappa * p.velocity + p.kappa * (p.betaL - p.velocity)) -
        p.cL * (p.betaL - p.gammaL) * Real.exp (p.velocity / p.kappa) * (p.betaR * p.kappa)) +
      Real.exp ((x * p.velocity) / p.kappa) * (p.kappa * (p.cL * (p.betaL - p.gammaL) * (p.betaR - p.velocity) -
        p.cR * (p.betaR - p.gammaR) * (p.betaL - p.velocity))) := by
  rw [num]; ring

theorem hasDerivAt_u (p : Params) (hk : p.kappa ≠ 0) (x y z : ℝ) :
    HasDerivAt (fun s => uExact p s y z)
      (Real.exp ((x * p.velocity) / p.kappa) * (p.velocity * (p.cL * (p.betaL - p.gammaL) * (p.betaR - p.velocity) -
        p.cR * (p.betaR - p.gammaR) * (p.betaL - p.velocity))) / den p) x := by
  have h1 := (hasDerivAt_exp p x).mul_const (p.kappa * (p.cL * (p.betaL - p.gammaL) * (p.betaR - p.velocity) -
        p.cR * (p.betaR - p.gammaR) * (p.betaL - p.velocity)))
  have h2 := (HasDerivAt.const_add (p.cR * (p.betaR - p.gammaR) * (p.kappa * p.velocity + p.kappa * (p.betaL - p.velocity)) -
        p.cL * (p.betaL - p.gammaL) * Real.exp (p.velocity / p.kappa) * (p.betaR * p.kappa)) h1).div_const (den p)
  have he : (fun s => uExact p s y z) = fun s => ((p.cR * (p.betaR - p.gammaR) * (p.kappa * p.velocity + p.kappa * (p.betaL - p.velocity)) -
        p.cL * (p.betaL - p.gammaL) * Real.exp (p.velocity / p.kappa) * (p.betaR * p.kappa)) +
      Real.exp ((s * p.velocity) / p.kappa) * (p.kappa * (p.cL * (p.betaL - p.gammaL) * (p.betaR - p.velocity) -
        p.cR * (p.betaR - p.gammaR) * (p.betaL - p.velocity)))) / den p := by
    funext s
    rw [uExact, num_eq]
  rw [he]
  refine h2.congr_deriv ?_
  congr 1
  field_simp

theorem flux_total (p : Params) (x y z : ℝ) : qExact p x y z + mExact p x y z = total p := by
  rw [qExact, mExact, total, num_eq]
  ring

theorem exact_one {p : Params} {n : Nat} {k : Case} (h : exactCase p n = .ok k) :
    n = 1 ∧ k = ⟨uExact p, qExact p, mExact p, fun _ _ _ => 0⟩ := by
  unfold exactCase at h
  split at h
  · exact ⟨rfl, (Except.ok.inj h).symm⟩
  · exact absurd h (by simp)

/-- The exact functions solve the equations wherever the denominator does not vanish. -/
theorem C126_solves {p : Params} {n : Nat} {k : Case} (h : exactCase p n = .ok k) (hk : p.kappa ≠ 0)
    (_hd : den p ≠ 0) (x y z : ℝ) : Solves p k x y z := by
  obtain ⟨-, rfl⟩ := exact_one h
  refine ⟨⟨_, hasDerivAt_u p hk x y z, ?_⟩, ?_, ?_⟩
  · show qExact p x y z = _
    rw [qExact, kappaFn, xiMap_same]
    ring
  · show mExact p x y z = _
    rw [mExact, velocityFn, xiMap_same]
    rfl
  · show HasDerivAt (fun s => qExact p s y z + mExact p s y z) 0 x
    simp only [flux_total]
    exact hasDerivAt_const x (total p)

theorem params_den : den params < 0 := by
  have h1 : (1 : ℝ) < Real.exp (params.velocity / params.kappa) :=
    Real.one_lt_exp_iff.2 (div_pos (by norm_num [params]) Real.pi_pos)
  have hd : den params = Real.pi * 10 ^ 12 * (10 ^ 12 - 100) * (1 - Real.exp (params.velocity / params.kappa)) := by
    rw [den]
    generalize Real.exp (params.velocity / params.kappa) = t
    simp only [params]
    ring
  rw [hd]
  have h2 : 0 < Real.pi * 10 ^ 12 * (10 ^ 12 - 100) := by
    have h3 : (0 : ℝ) < 10 ^ 12 - 100 := by norm_num
    have := Real.pi_pos
    positivity
  exact mul_neg_of_pos_of_neg h2 (by linarith)

theorem params_total : total params ≠ 0 := by
  have h1 : (1 : ℝ) < Real.exp (params.velocity / params.kappa) :=
    Real.one_lt_exp_iff.2 (div_pos (by norm_num [params]) Real.pi_pos)
  rw [total]
  refine div_ne_zero ?_ params_den.ne
  revert h1
  generalize Real.exp (params.velocity / params.kappa) = t
  intro h1
  have := Real.pi_pos
  have he : params.velocity * params.kappa * (params.cR * (params.betaR - params.gammaR) * params.betaL -
      params.cL * (params.betaL - params.gammaL) * t * params.betaR) = Real.pi * (100 * 10 ^ 24) * (1 - 5 * t) := by
    simp only [params]
    ring
  rw [he]
  exact mul_ne_zero (by positivity) (by linarith)

/-- The other dimensions are refused with a `ValueError`. -/
theorem C126_dimension (p : Params) (n : Nat) :
    ((∃ k, exactCase p n = .ok k) ↔ n = 1) ∧ (n ≠ 1 → exactCase p n = .error .valueError) := by
  refine ⟨⟨?_, ?_⟩, ?_⟩
  · rintro ⟨k, h⟩
    exact (exact_one h).1
  · rintro rfl
    exact ⟨_, rfl⟩
  · intro h
    match n, h with
    | 0, _ => rfl
    | 1, h => exact absurd rfl h
    | _ + 2, _ => rfl

/-- At both ends the exact functions satisfy `β u = (q + m) + (β - γ) c`, with the flux to the right. -/
theorem C126_ends {p : Params} {n : Nat} {k : Case} (h : exactCase p n = .ok k) (hk : p.kappa ≠ 0) (hd : den p ≠ 0)
    (x y z : ℝ) (hx : x = 0 ∨ x = 1) :
    betaFn p x y z * k.u x y z =
      (k.q x y z + k.m x y z) + (betaFn p x y z - gammaFn p x y z) * cFn p x y z := by
  obtain ⟨-, rfl⟩ := exact_one h
  show betaFn p x y z * uExact p x y z = (qExact p x y z + mExact p x y z) + _
  rw [flux_total]
  have hu : uExact p x y z * den p = num p x := by rw [uExact]; field_simp
  have ht : total p * den p = p.velocity * p.kappa * (p.cR * (p.betaR - p.gammaR) * p.betaL -
      p.cL * (p.betaL - p.gammaL) * Real.exp (p.velocity / p.kappa) * p.betaR) := by
    rw [total]; field_simp
  apply mul_right_cancel₀ hd
  rcases hx with rfl | rfl
  · have e0 : (0 : ℝ) * p.velocity / p.kappa = 0 := by simp
    simp only [betaFn, gammaFn, cFn, xiMap]
    rw [num_eq, e0, Real.exp_zero] at hu
    have hdd : den p = den p := rfl
    conv_rhs at hdd => rw [den]
    linear_combination p.betaL * hu - ht - (p.betaL - p.gammaL) * p.cL * hdd
  · have e1 : (1 : ℝ) * p.velocity / p.kappa = p.velocity / p.kappa := by rw [one_mul]
    simp only [betaFn, gammaFn, cFn, xiMap]
    rw [num_eq, e1] at hu
    have hdd : den p = den p := rfl
    conv_rhs at hdd => rw [den]
    linear_combination p.betaR * hu - ht - (p.betaR - p.gammaR) * p.cR * hdd

/-- At the right end the exact functions satisfy the condition imposed by the Robin form. -/
theorem C126_right {p : Params} {n : Nat} {k : Case} (h : exactCase p n = .ok k) (hk : p.kappa ≠ 0) (hd : den p ≠ 0)
    (hb : p.betaR ≠ 0) (y z : ℝ) : RobinHolds p k 1 1 y z := by
  have h1 := C126_ends h hk hd 1 y z (Or.inr rfl)
  have hbv : betaFn p 1 y z = p.betaR := by simp [betaFn, xiMap]
  rw [hbv] at h1
  rw [RobinHolds, robinValue, hbv]
  field_simp
  linear_combination h1

/-- At the left end they satisfy it only where the flux vanishes. -/
theorem C126_left {p : Params} {n : Nat} {k : Case} (h : exactCase p n = .ok k) (hk : p.kappa ≠ 0) (hd : den p ≠ 0)
    (hb : p.betaL ≠ 0) (y z : ℝ) : RobinHolds p k (-1) 0 y z ↔ total p = 0 := by
  have h1 := C126_ends h hk hd 0 y z (Or.inl rfl)
  have hbv : betaFn p 0 y z = p.betaL := by simp [betaFn, xiMap]
  have hf : k.q 0 y z + k.m 0 y z = total p := by
    obtain ⟨-, rfl⟩ := exact_one h
    exact flux_total p 0 y z
  rw [hbv] at h1
  rw [RobinHolds, robinValue, hbv]
  constructor
  · intro h2
    field_simp at h2
    linear_combination (1 / 2) * h2 - (1 / 2) * h1 - hf
  · intro h2
    field_simp
    linear_combination h1 + 2 * hf + 2 * h2

/-- The data of the example have a flux, so the exact functions do not satisfy the condition of the Robin form. -/
theorem C126_left_violated : ∃ k, exactCase params 1 = .ok k ∧ ¬ RobinHolds params k (-1) 0 0 0 :=
  ⟨_, rfl, fun h => params_total ((C126_left (n := 1) rfl Real.pi_ne_zero params_den.ne (by norm_num [params]) 0 0).1 h)⟩

/-- The equation of the diffusive flux with the exact functions: what remains is the defect at the left end. -/
theorem C126_weak {p : Params} {n : Nat} {k : Case} (h : exactCase p n = .ok k) (hk : p.kappa ≠ 0) (hd : den p ≠ 0)
    (hl : p.betaL ≠ 0) (hr : p.betaR ≠ 0) {w dw : ℝ → ℝ} (hw : ∀ x, HasDerivAt w (dw x) x) (hc : Continuous dw) :
    fluxEquation p k w dw = 2 * total p / p.betaL * w 0 := by
  have hright := C126_right h hk hd hr 0 0
  have hends := C126_ends h hk hd 0 0 0 (Or.inl rfl)
  obtain ⟨-, rfl⟩ := exact_one h
  have hu : Continuous fun x => uExact p x 0 0 :=
    continuous_iff_continuousAt.2 fun x => (hasDerivAt_u p hk x 0 0).continuousAt
  have hwc : Continuous w := continuous_iff_continuousAt.2 fun x => (hw x).continuousAt
  have hq : Continuous fun x => qExact p x 0 0 := by
    unfold qExact
    fun_prop
  have hder : ∀ x, HasDerivAt (fun s => -(uExact p s 0 0 * w s))
      ((1 / kappaFn p x 0 0 * qExact p x 0 0) * w x - uExact p x 0 0 * dw x) x := by
    intro x
    have h1 := HasDerivAt.neg (HasDerivAt.mul (hasDerivAt_u p hk x 0 0) (hw x))
    refine h1.congr_deriv ?_
    rw [qExact, kappaFn, xiMap_same]
    field_simp
    ring
  have hint := intervalIntegral.integral_eq_sub_of_hasDerivAt (a := 0) (b := 1) (fun x _ => hder x)
    (Continuous.intervalIntegrable (by
      simp only [kappaFn, xiMap_same]
      fun_prop) 0 1)
  rw [fluxEquation]
  show (∫ x in (0 : ℝ)..1, (1 / kappaFn p x 0 0 * qExact p x 0 0) * w x - uExact p x 0 0 * dw x) + _ = _
  rw [hint]
  have hone : uExact p 1 0 0 = robinValue (betaFn p 1 0 0) (gammaFn p 1 0 0) (cFn p 1 0 0) (qExact p 1 0 0)
      (mExact p 1 0 0) := by
    have := hright
    rw [RobinHolds, one_mul, one_mul] at this
    exact this
  have hft := flux_total p 0 0 0
  have hbv : betaFn p 0 0 0 = p.betaL := by simp [betaFn, xiMap]
  have hzero : robinValue (betaFn p 0 0 0) (gammaFn p 0 0 0) (cFn p 0 0 0) (-qExact p 0 0 0) (-mExact p 0 0 0) =
      uExact p 0 0 0 - 2 * total p / p.betaL := by
    rw [hbv] at hends
    change p.betaL * uExact p 0 0 0 = (qExact p 0 0 0 + mExact p 0 0 0) + _ at hends
    rw [robinValue, hbv]
    field_simp
    linear_combination -hends - 2 * hft
  show -(uExact p 1 0 0 * w 1) - -(uExact p 0 0 0 * w 0) + (robinValue _ _ _ (qExact p 1 0 0) (mExact p 1 0 0) * w 1 +
    robinValue _ _ _ (-qExact p 0 0 0) (-mExact p 0 0 0) * -w 0) = _
  rw [hzero, ← hone]
  ring

/-- With the data of the example the defect is small: the end value that the Robin form asks for differs from the exact
one by less than `2 · 10⁻⁹`. -/
theorem C126_defect : |2 * total params / params.betaL| < 2 / 10 ^ 9 := by
  have h1 : (2 : ℝ) < Real.exp (params.velocity / params.kappa) := by
    have h2 := Real.add_one_lt_exp (x := params.velocity / params.kappa)
      (div_pos (by norm_num [params]) Real.pi_pos).ne'
    have h3 : 1 < params.velocity / params.kappa := by
      rw [lt_div_iff₀ (show 0 < params.kappa from Real.pi_pos)]
      have := Real.pi_lt_four
      simp only [params]
      linarith
    linarith
  have hpi := Real.pi_pos
  have hd : den params = Real.pi * 10 ^ 12 * (10 ^ 12 - 100) * (1 - Real.exp (params.velocity / params.kappa)) := by
    rw [den]
    generalize Real.exp (params.velocity / params.kappa) = t
    simp only [params]
    ring
  rw [total, hd]
  revert h1
  generalize Real.exp (params.velocity / params.kappa) = t
  intro h1
  have he : 2 * (params.velocity * params.kappa * (params.cR * (params.betaR - params.gammaR) * params.betaL -
      params.cL * (params.betaL - params.gammaL) * t * params.betaR) /
      (Real.pi * 10 ^ 12 * (10 ^ 12 - 100) * (1 - t))) / params.betaL =
      200 * (5 * t - 1) / ((10 ^ 12 - 100) * (t - 1)) := by
    simp only [params]
    have h2 : (1 : ℝ) - t ≠ 0 := by linarith
    have h3 : t - 1 ≠ 0 := by linarith
    field_simp
    ring
  rw [he, abs_of_pos (by apply div_pos <;> nlinarith), div_lt_div_iff₀ (by nlinarith) (by norm_num)]
  nlinarith

/-- Without velocity numerator and denominator vanish everywhere. -/
theorem C126_still_violated (p : Params) (hv : p.velocity = 0) : den p = 0 ∧ ∀ x, num p x = 0 := by
  constructor
  · rw [den, hv, zero_div, Real.exp_zero]
    ring
  · intro x
    simp only [num, hv, mul_zero, zero_div, Real.exp_zero]
    ring

theorem profile {p : Params} {k : Case} (hk : p.kappa ≠ 0) (hs : ∀ x y z, Solves p k x y z)
    (hf : ∀ x y z, k.f x y z = 0) (y z : ℝ) :
    ∃ j : ℝ, (∀ x, k.q x y z + k.m x y z = j) ∧
      ∀ x, p.velocity * k.u x y z - j = (p.velocity * k.u 0 y z - j) * Real.exp ((x * p.velocity) / p.kappa) := by
  have hb : ∀ x, HasDerivAt (fun s => k.q s y z + k.m s y z) 0 x := fun x => by
    have := (hs x y z).balance
    rwa [hf] at this
  have hj : ∀ x, k.q x y z + k.m x y z = k.q 0 y z + k.m 0 y z := fun x =>
    is_const_of_deriv_eq_zero (fun x => (hb x).differentiableAt) (fun x => (hb x).deriv) x 0
  refine ⟨k.q 0 y z + k.m 0 y z, hj, fun x => ?_⟩
  have hg : ∀ x, HasDerivAt (fun s => (p.velocity * k.u s y z - (k.q 0 y z + k.m 0 y z)) *
      Real.exp ((s * -p.velocity) / p.kappa)) 0 x := by
    intro x
    obtain ⟨d, h1, h2⟩ := (hs x y z).flux
    have h3 := (hs x y z).advection
    have h4 := hj x
    rw [kappaFn, xiMap_same] at h2
    rw [velocityFn, xiMap_same] at h3
    have h5 := hasDerivAt_exp { p with velocity := -p.velocity } x
    have h6 := HasDerivAt.mul (HasDerivAt.sub_const (k.q 0 y z + k.m 0 y z) (HasDerivAt.const_mul p.velocity h1)) h5
    refine h6.congr_deriv ?_
    show p.velocity * d * Real.exp ((x * -p.velocity) / p.kappa) +
      (p.velocity * k.u x y z - (k.q 0 y z + k.m 0 y z)) *
        (Real.exp ((x * -p.velocity) / p.kappa) * (-p.velocity / p.kappa)) = 0
    have h7 : d = (p.velocity * k.u x y z - (k.q 0 y z + k.m 0 y z)) / p.kappa := by
      rw [eq_div_iff hk, ← h4, h2, h3]
      ring
    rw [h7]
    ring
  have hc := is_const_of_deriv_eq_zero (fun x => (hg x).differentiableAt) (fun x => (hg x).deriv) x 0
  rw [zero_mul, zero_div, Real.exp_zero, mul_one] at hc
  rw [← hc, mul_assoc, ← Real.exp_add, show x * -p.velocity / p.kappa + x * p.velocity / p.kappa = 0 by ring,
    Real.exp_zero, mul_one]

/-- The exact functions are the only solution with their end conditions. -/
theorem C126_unique {p : Params} (hk : p.kappa ≠ 0) (hd : den p ≠ 0) (hl : p.betaL ≠ 0)
    {k k' : Case} (h : exactCase p 1 = .ok k) (hs : ∀ x y z, Solves p k' x y z) (hf : ∀ x y z, k'.f x y z = 0)
    (he : ∀ x y z, x = 0 ∨ x = 1 → betaFn p x y z * k'.u x y z =
      (k'.q x y z + k'.m x y z) + (betaFn p x y z - gammaFn p x y z) * cFn p x y z) (x y z : ℝ) :
    k'.u x y z = k.u x y z ∧ k'.q x y z = k.q x y z ∧ k'.m x y z = k.m x y z := by
  have hs' : ∀ x y z, Solves p k x y z := C126_solves h hk hd
  have hf' : ∀ x y z, k.f x y z = 0 := by
    obtain ⟨-, rfl⟩ := exact_one h
    exact fun _ _ _ => rfl
  have he' := C126_ends h hk hd
  have hv : p.velocity ≠ 0 := fun h0 => hd (C126_still_violated p h0).1
  obtain ⟨j, h1, h2⟩ := profile hk hs hf y z
  obtain ⟨j', h1', h2'⟩ := profile hk hs' hf' y z
  have a0 := he 0 y z (Or.inl rfl)
  have a1 := he 1 y z (Or.inr rfl)
  have b0 := he' 0 y z (Or.inl rfl)
  have b1 := he' 1 y z (Or.inr rfl)
  have l0 : betaFn p 0 y z = p.betaL := by simp [betaFn, xiMap]
  have l1 : betaFn p 1 y z = p.betaR := by simp [betaFn, xiMap]
  rw [h1, l0] at a0
  rw [h1, l1] at a1
  rw [h1', l0] at b0
  rw [h1', l1] at b1
  have c := h2 1
  have c' := h2' 1
  rw [one_mul] at c c'
  have hjj : j = j' := by
    have hz : (j - j') * den p = 0 := by
      rw [den]
      linear_combination (p.kappa * p.betaL * p.betaR) * (c' - c) + (p.kappa * p.betaL * p.velocity) * (a1 - b1) -
        (p.kappa * p.betaR * p.velocity * Real.exp (p.velocity / p.kappa)) * (a0 - b0)
    rcases mul_eq_zero.1 hz with h3 | h3
    · exact sub_eq_zero.1 h3
    · exact absurd h3 hd
  subst hjj
  have hu0 : k'.u 0 y z = k.u 0 y z := mul_left_cancel₀ hl (a0.trans b0.symm)
  have hu : ∀ x, k'.u x y z = k.u x y z := fun x => by
    have := h2 x
    rw [hu0, ← h2' x] at this
    exact mul_left_cancel₀ hv (sub_left_inj.1 this)
  have hm : k'.m x y z = k.m x y z := by rw [(hs x y z).advection, (hs' x y z).advection, hu]
  refine ⟨hu x, ?_, hm⟩
  have := (h1 x).trans (h1' x).symm
  rw [hm] at this
  exact add_right_cancel this

/-- The hypotheses hold for the data of the example. -/
example : params.kappa ≠ 0 ∧ den params ≠ 0 ∧ params.betaL ≠ 0 ∧ params.betaR ≠ 0 :=
  ⟨Real.pi_ne_zero, params_den.ne, by norm_num [params], by norm_num [params]⟩

#print axioms C126_solves
#print axioms C126_dimension
#print axioms C126_ends
#print axioms C126_right
#print axioms C126_left
#print axioms C126_left_violated
#print axioms C126_weak
#print axioms C126_defect
#print axioms C126_still_violated
#print axioms C126_unique

end Verif.ThreeFields
