/-
C142: what the drivers hand to the weak forms and to their own functions.
-/
import Verif.Lemmas.Trace
import Verif.Props.Dual
import Verif.Props.DualBoundary
import Verif.Spec.DriverData

namespace Verif.DriverData

open MeshGraph Trace

theorem get?_mem {V : Type} : ∀ {d : Dict String V} {k : String} {v : V}, d.get? k = some v → (k, v) ∈ d
  | [], _, _, h => by simp [Dict.get?] at h
  | (k', v') :: t, k, v, h => by
      rw [Dict.get?] at h
      by_cases e : k' = k
      · rw [if_pos e] at h
        cases h
        subst e
        exact List.mem_cons_self
      · rw [if_neg e] at h
        exact List.mem_cons_of_mem _ (get?_mem h)

theorem get?_key {V : Type} : ∀ {d : Dict String V} {k : String}, k ∈ d.map Prod.fst → ∃ v, d.get? k = some v
  | [], _, h => by simp at h
  | (k', v') :: t, k, h => by
      rw [Dict.get?]
      by_cases e : k' = k
      · exact ⟨v', if_pos e⟩
      · rw [if_neg e]
        rw [List.map_cons, List.mem_cons] at h
        rcases h with h | h
        · exact absurd h.symm e
        · exact get?_key h

theorem get?_none {V : Type} : ∀ {d : Dict String V} {k : String}, k ∉ d.map Prod.fst → d.get? k = none
  | [], _, _ => rfl
  | (k', v') :: t, k, h => by
      rw [List.map_cons, List.mem_cons, not_or] at h
      rw [Dict.get?, if_neg fun e => h.1 e.symm]
      exact get?_none h.2

theorem readAll_ok {V : Type} {d : Dict String V} : ∀ {ks : List String}, (∀ k ∈ ks, k ∈ d.map Prod.fst) →
    ∃ vs, readAll d ks = .ok vs ∧ List.Forall₂ (fun k v => (k, v) ∈ d) ks vs
  | [], _ => ⟨[], rfl, .nil⟩
  | k :: ks, h => by
      obtain ⟨v, hv⟩ := get?_key (h k List.mem_cons_self)
      obtain ⟨vs, e, f⟩ := readAll_ok fun j hj => h j (List.mem_cons_of_mem _ hj)
      refine ⟨v :: vs, ?_, .cons (get?_mem hv) f⟩
      rw [readAll] at e ⊢
      rw [mapRes, Dict.getItem_of_get? hv, e]
      rfl

theorem readAll_missing {V : Type} {d : Dict String V} : ∀ {ks : List String}, (∃ k ∈ ks, k ∉ d.map Prod.fst) →
    readAll d ks = .error .keyError
  | [], ⟨_, h, _⟩ => by simp at h
  | k :: ks, ⟨j, hj, hn⟩ => by
      rw [readAll, mapRes]
      by_cases hk : k ∈ d.map Prod.fst
      · obtain ⟨v, hv⟩ := get?_key hk
        have e : readAll d ks = .error .keyError := by
          refine readAll_missing ⟨j, ?_, hn⟩
          rcases List.mem_cons.1 hj with rfl | h
          · exact absurd hk hn
          · exact h
        rw [readAll] at e
        rw [Dict.getItem_of_get? hv, e]
        rfl
      · rw [Dict.getItem, get?_none hk]
        rfl

/-- Every weak form of the drivers finds the functions that it reads, and gets the one with the name it asks for:
whatever the functions are. -/
theorem C142_forms_partial : ∀ u ∈ uses, ∀ (V : Type) (fs : Dict String V), fs.map Prod.fst = u.given →
    ∃ ks vs, formReads u.form = some ks ∧ readForm u.form fs = .ok vs ∧ Found fs ks vs := by
  have key : ∀ u ∈ uses, u.given.Nodup ∧ ∃ ks, formReads u.form = some ks ∧ ∀ k ∈ ks, k ∈ u.given := by
    have : ∀ u ∈ uses, u.given.Nodup ∧ ((formReads u.form).elim false fun ks => ks.all (· ∈ u.given)) = true := by
      decide +kernel
    intro u hu
    obtain ⟨h1, h2⟩ := this u hu
    refine ⟨h1, ?_⟩
    cases e : formReads u.form with
    | none => rw [e] at h2; exact absurd h2 (by simp)
    | some ks =>
      rw [e] at h2
      exact ⟨ks, rfl, fun k hk => by simpa using List.all_eq_true.1 h2 k hk⟩
  intro u hu V fs hf
  obtain ⟨hn, ks, hk, hs⟩ := key u hu
  obtain ⟨vs, e, f⟩ := readAll_ok (d := fs) (ks := ks) fun k h => by rw [hf]; exact hs k h
  exact ⟨ks, vs, hk, by rw [readForm, hk]; exact e, by rw [hf]; exact hn, f⟩

example : ∃ ks vs, formReads "LEPrimalWeakForm" = some ks ∧
    readForm "LEPrimalWeakForm" [("rhs", 5), ("lambda", 7), ("mu", 9)] = .ok vs ∧
    Found [("rhs", 5), ("lambda", 7), ("mu", 9)] ks vs :=
  C142_forms_partial ⟨"cauchy_elasticity/cg_elasticity_example_1", 88, "LEPrimalWeakForm", ["rhs", "lambda", "mu"]⟩
    (List.mem_cons_self) Nat _ rfl

/-- The other ones do not: three forms of one driver ask for the coefficients under new names, the mixed form of the
torsion test does, and the boundary form of the Cosserat problem with fractures asks for `t` and is given `r`. -/
theorem C142_forms_violated : ∀ u ∈ wrongUses, ∀ (V : Type) (fs : Dict String V), fs.map Prod.fst = u.given →
    readForm u.form fs = .error .keyError := by
  have key : ∀ u ∈ wrongUses, ((formReads u.form).elim false fun ks => ks.any (· ∉ u.given)) = true := by
    decide +kernel
  intro u hu V fs hf
  have h2 := key u hu
  cases e : formReads u.form with
  | none => rw [e] at h2; exact absurd h2 (by simp)
  | some ks =>
    rw [e] at h2
    obtain ⟨k, hk, hn⟩ := List.any_eq_true.1 h2
    rw [readForm, e]
    exact readAll_missing ⟨k, hk, by rw [hf]; simpa using hn⟩

/-- The forms of the driver for the third problem themselves: no element and no facet can be evaluated with the
functions that it sets, whatever these are. -/
theorem C142_scaled_violated {K X : Type} [Field K] {spaces : Dict String (Laplace.FSpace (Laplace.Elem K X))} {iel : Nat}
    {sp : Dual.Spaces K X} (h : Dual.readSpaces spaces iel = .ok sp) (rhs : X → Nat → Nat → K) (alpha : Nat → K)
    (side : Dual.Side K) (s m : Dual.Trace K) (sComp mComp : Nat) (uD tD : Nat → Nat → K) :
    Dual.evaluateVectorized true (some spaces)
      (some ⟨some rhs, none, none, none, none, none, none, none, none⟩) iel alpha = .error .keyError ∧
    Dual.evaluateRieszVectorized true (some spaces)
      (some ⟨some rhs, none, none, none, none, none, none, none, none⟩) iel alpha = .error .keyError ∧
    Dual.lceDirichlet true side s m sComp mComp (some uD) (some tD) none none = .error .keyError := by
  obtain ⟨-, h2, -, h4⟩ := (Dual.C78_unset_refused true (some spaces)
    (some ⟨some rhs, none, none, none, none, none, none, none, none⟩) iel alpha).2.2.1 spaces _ sp rfl rfl h (.inl rfl)
  exact ⟨h2, h4, (Dual.C80_unset_refused side s m sComp mComp (some uD) (some tD) none none).2.1 true
    (.inr (.inr ⟨rfl, .inl rfl⟩))⟩

/-- Every function of a driver finds the parameters that it reads in every case of the material data, and gets the
value that the case has for the name. -/
theorem C142_material_partial : ∀ d ∈ drivers, ∀ c ∈ d.cases, ∀ r ∈ d.reads,
    ∃ vs, readAll c r.2 = .ok vs ∧ Found c r.2 vs := by
  have key : ∀ d ∈ drivers, ∀ c ∈ d.cases, (c.map Prod.fst).Nodup ∧ ∀ r ∈ d.reads, ∀ k ∈ r.2, k ∈ c.map Prod.fst := by
    decide +kernel
  intro d hd c hc r hr
  obtain ⟨vs, e, f⟩ := readAll_ok (d := c) (ks := r.2) fun k hk => (key d hd c hc).2 r hr k hk
  exact ⟨vs, e, (key d hd c hc).1, f⟩

example : readAll [("lambda", (1 : ℚ)), ("mu", 1), ("kappa", 1000000)] ["kappa", "mu"] = .ok [1000000, 1] := rfl

/-- The second Cosserat driver has the seven new parameters, its functions read the four old ones: all of them raise
in every case. -/
theorem C142_example_two_violated : ∀ c ∈ exampleTwo.cases, ∀ r ∈ exampleTwo.reads,
    readAll c r.2 = .error .keyError := by
  have key : ∀ c ∈ exampleTwo.cases, ∀ r ∈ exampleTwo.reads, ∃ k ∈ r.2, k ∉ c.map Prod.fst := by decide +kernel
  exact fun c hc r hr => readAll_missing (key c hc r hr)

/-- Moreover its approximation stops at the first exact function, which has no place for the material data as a whole;
the six other calls fail in the same way, and the material functions do not exist. -/
theorem C142_example_two_calls_violated :
    exampleTwoApproximation = .error .typeError ∧
    (∀ n ∈ exampleTwoCalls, n ≠ "get_material_functions" → callModule n 2 = .error .typeError) ∧
    callModule "get_material_functions" 2 = .error .attributeError := by
  refine ⟨rfl, ?_, rfl⟩
  intro n hn hne
  simp only [exampleTwoCalls, List.mem_cons, List.not_mem_nil, or_false] at hn
  rcases hn with rfl | rfl | rfl | rfl | rfl | rfl | rfl | rfl
  all_goals first | rfl | exact absurd rfl hne

/-- A call with positional arguments goes through when all required parameters get one and none is left over. -/
theorem C142_call (required optional : List String) (given : Nat) :
    callPositional required optional given = .ok () ↔
      required.length ≤ given ∧ given ≤ required.length + optional.length := by
  unfold callPositional
  by_cases h : given < required.length ∨ required.length + optional.length < given
  · rw [if_pos h]
    exact ⟨fun e => by simp at e, fun e => by omega⟩
  · rw [if_neg h]
    exact ⟨fun _ => by omega, fun _ => rfl⟩

example : callModule "stress" 5 = .ok () ∧ callModule "stress" 4 = .ok () ∧ callModule "stress" 6 = .error .typeError :=
  ⟨rfl, rfl, rfl⟩

/-- All parameters of all cases are positive, every driver has a case, and no case occurs twice in a driver. -/
theorem C142_cases : ∀ d ∈ exampleTwo :: drivers,
    d.cases ≠ [] ∧ d.cases.Nodup ∧ ∀ c ∈ d.cases, ∀ p ∈ c, 0 < p.2 := by
  decide +kernel

/-- A driver that varies one parameter varies it alone: the drivers with several cases vary `lambda`, or they vary
`kappa`, and the parameter that they vary is one that the names of their files contain. -/
theorem C142_varied : ∀ d ∈ drivers, 1 < d.cases.length →
    ∃ k ∈ ["lambda", "kappa"], (d.cases.map fun c => c.get? k).Nodup ∧
      (∀ c ∈ d.cases, ∀ c' ∈ d.cases, ∀ j ∈ c.map Prod.fst, j ≠ k → c.get? j = c'.get? j) ∧
      ("compose_file_name", [k]) ∈ d.reads := by
  decide +kernel

/-- The three values of `kappa` of a driver are a small number, one, and the inverse of the small number. -/
theorem C142_kappa : ∀ d ∈ drivers, ∀ a b c, d.cases.map (fun m => m.get? "kappa") = [some a, some b, some c] →
    a * c = 1 ∧ b = 1 ∧ a < 1 := by
  have key : ∀ d ∈ drivers, ((d.cases.map fun m => m.get? "kappa") matches [some _, some _, some _]) = true →
      (d.cases.map fun m => (m.get? "kappa").getD 0) = [1 / 1000000, 1, 1000000] ∨
      (d.cases.map fun m => (m.get? "kappa").getD 0) = [1 / 10000, 1, 10000] := by decide +kernel
  intro d hd a b c h
  have h1 := key d hd (by rw [h])
  have h2 : (d.cases.map fun m => (m.get? "kappa").getD 0) = [a, b, c] := by
    have := congrArg (List.map fun o : Option ℚ => o.getD 0) h
    rw [List.map_map] at this
    exact this
  rw [h2] at h1
  rcases h1 with h1 | h1
  · obtain ⟨rfl, rfl, rfl⟩ : a = 1 / 1000000 ∧ b = 1 ∧ c = 1000000 := by simpa using h1
    exact ⟨by decide +kernel, rfl, by decide +kernel⟩
  · obtain ⟨rfl, rfl, rfl⟩ : a = 1 / 10000 ∧ b = 1 ∧ c = 10000 := by simpa using h1
    exact ⟨by decide +kernel, rfl, by decide +kernel⟩

/-- The second example has the same coefficients for stresses and couple stresses, and differs in `lambda` only. -/
theorem C142_example_two_alike : ∀ c ∈ exampleTwo.cases, c.get? "kappa_s" = c.get? "kappa_o" ∧
    c.get? "mu_s" = c.get? "mu_o" ∧ c.get? "lambda_s" ≠ c.get? "lambda_o" := by decide +kernel

#print axioms C142_forms_partial
#print axioms C142_forms_violated
#print axioms C142_scaled_violated
#print axioms C142_material_partial
#print axioms C142_example_two_violated
#print axioms C142_example_two_calls_violated
#print axioms C142_call
#print axioms C142_cases
#print axioms C142_varied

#print axioms C142_kappa
#print axioms C142_example_two_alike

end Verif.DriverData
