/-
Property theorems C134: the assembly of the example drivers
(examples/cauchy_elasticity/mfe_elasticity_example_1.py:128-219 and its variants).
-/
import Verif.Lemmas.DriverAssembly
import Mathlib.Tactic.NormNum

namespace Verif.DriverAssembly
open Space Assembly

theorem assemble_adds (sym bcMatrix : Bool) (cs bs : List (Contribution ℝ)) (s : Sys ℝ)
    (hs : s.res.length = s.jac.n)
    (hf : ∀ c ∈ cs ++ bs, c.dest.Nodup ∧ c.Fits s.jac.n) :
    ∃ s', assemble sym bcMatrix (cs.map outcome) (bs.map outcome) s = (s', none) ∧
      AddsKept sym s s' (cs ++ bs) (cs ++ if bcMatrix = true then bs else []) := by
  obtain ⟨s1, h1, a1⟩ := forEach_adds (f := scatterForm sym) s.jac.n
    (fun c s hn hs hf => scatterForm_ok sym c s hn hs hf) cs s rfl hs
    (fun c hc => hf c (by simp [hc]))
  obtain ⟨s2, h2, a2⟩ := forEach_adds (f := scatterBc sym bcMatrix) s.jac.n
    (fun c s hn hs hf => scatterBc_ok sym bcMatrix c s hn hs hf) bs s1 a1.n
    (by rw [a1.length, hs]) (fun c hc => hf c (by simp [hc]))
  refine ⟨s2, ?_, ?_⟩
  · unfold assemble Step.andThen
    rw [h1]
    exact h2
  · have := a1.trans a2
    have e1 : ∀ l : List (Contribution ℝ), l.flatMap (fun c => [c]) = l := by
      intro l; induction l with
      | nil => rfl
      | cons a t ih => rw [List.flatMap_cons, ih]; rfl
    have e2 : bs.flatMap (fun c => if bcMatrix = true then [c] else []) =
        if bcMatrix = true then bs else [] := by
      cases bcMatrix with
      | false => simp
      | true => simpa using e1 bs
    rw [e1, e1, e2] at this
    exact this

/-- C134: the residual is the sum of the contributions of all elements and of the boundary. -/
theorem C134_residual (sym bcMatrix : Bool) (cs bs : List (Contribution ℝ)) (s : Sys ℝ)
    (hs : s.res.length = s.jac.n)
    (hf : ∀ c ∈ cs ++ bs, c.dest.Nodup ∧ c.Fits s.jac.n) :
    ∃ s', assemble sym bcMatrix (cs.map outcome) (bs.map outcome) s = (s', none) ∧
      ∀ (i : Nat) x, s.res[i]? = some x →
        s'.res[i]? = some (x + ((cs ++ bs).map (·.resAt i)).sum) := by
  obtain ⟨s', h, a⟩ := assemble_adds sym bcMatrix cs bs s hs hf
  exact ⟨s', h, a.res⟩

/-- C134: every entry of the matrix, or of its upper triangle, is the sum of the contributions up
to about 1e-8 for each element that contributes. -/
theorem C134_matrix (sym bcMatrix : Bool) (cs bs : List (Contribution ℝ)) (s : Sys ℝ)
    (hs : s.res.length = s.jac.n)
    (hf : ∀ c ∈ cs ++ bs, c.dest.Nodup ∧ c.Fits s.jac.n) :
    ∃ s', assemble sym bcMatrix (cs.map outcome) (bs.map outcome) s = (s', none) ∧
      ∀ i j, sym = false ∨ i ≤ j →
        |s'.jac.val i j - (s.jac.val i j +
          ((cs ++ if bcMatrix = true then bs else []).map (·.jacAt i j)).sum)| ≤
        (((cs ++ if bcMatrix = true then bs else []).map fun c => touches c i j).sum : ℕ) * lost := by
  obtain ⟨s', h, a⟩ := assemble_adds sym bcMatrix cs bs s hs hf
  refine ⟨s', h, fun i j hij => ?_⟩
  rw [a.jac]
  have hms : ∀ c ∈ cs ++ (if bcMatrix = true then bs else []), c.Fits s.jac.n := by
    intro c hc
    cases bcMatrix with
    | false => exact (hf c (by simp at hc; simp [hc])).2
    | true => exact (hf c (by simpa using hc)).2
  generalize (cs ++ if bcMatrix = true then bs else []) = ms at hms
  have h1 := list_bound (fun c => keptAt sym c i j) (fun c => c.jacAt i j)
    (fun c => (touches c i j : ℝ) * lost) ms (fun c hc => kept_bound c _ (hms c hc) sym i j hij)
  have h2 : (ms.map fun c => (touches c i j : ℝ) * lost).sum =
      ((ms.map fun c => touches c i j).sum : ℕ) * lost := by
    clear h1 hms
    induction ms with
    | nil => simp
    | cons c t ih => simp only [List.map_cons, List.sum_cons, ih]; push_cast; ring
  rw [h2] at h1
  convert h1 using 2
  ring

/-- C134: nothing is lost when no nonzero entry of an element is as small as that. -/
theorem C134_exact (sym bcMatrix : Bool) (cs bs : List (Contribution ℝ)) (s : Sys ℝ)
    (hs : s.res.length = s.jac.n)
    (hf : ∀ c ∈ cs ++ bs, c.dest.Nodup ∧ c.Fits s.jac.n) (hz : ∀ c ∈ cs ++ bs, Sizable c) :
    ∃ s', assemble sym bcMatrix (cs.map outcome) (bs.map outcome) s = (s', none) ∧
      ∀ i j, sym = false ∨ i ≤ j → s'.jac.val i j = s.jac.val i j +
          ((cs ++ if bcMatrix = true then bs else []).map (·.jacAt i j)).sum := by
  obtain ⟨s', h, a⟩ := assemble_adds sym bcMatrix cs bs s hs hf
  refine ⟨s', h, fun i j hij => ?_⟩
  rw [a.jac]
  congr 2
  apply List.map_congr_left
  intro c hc
  refine kept_exact c sym i j hij (hz c ?_)
  cases bcMatrix with
  | false => simp at hc; simp [hc]
  | true => simpa using hc

/-- C134: in the symmetric mode nothing is written below the diagonal, and with symmetric element
matrices the upper triangle determines the matrix assembled in the other mode. -/
theorem C134_mirror (bcMatrix : Bool) (cs bs : List (Contribution ℝ)) (s : Sys ℝ)
    (hs : s.res.length = s.jac.n)
    (hf : ∀ c ∈ cs ++ bs, c.dest.Nodup ∧ c.Fits s.jac.n) (hy : ∀ c ∈ cs ++ bs, IsSymmetric c)
    (h0 : ∀ i j, s.jac.val i j = 0) :
    ∃ su sf, assemble true bcMatrix (cs.map outcome) (bs.map outcome) s = (su, none) ∧
      assemble false bcMatrix (cs.map outcome) (bs.map outcome) s = (sf, none) ∧
      su.res = sf.res ∧ (∀ i j, j < i → su.jac.val i j = 0) ∧
      ∀ i j, sf.jac.val i j = su.jac.val (min i j) (max i j) := by
  obtain ⟨su, h1, a1⟩ := assemble_adds true bcMatrix cs bs s hs hf
  obtain ⟨sf, h2, a2⟩ := assemble_adds false bcMatrix cs bs s hs hf
  have hms : ∀ c ∈ cs ++ (if bcMatrix = true then bs else []), c.Fits s.jac.n ∧ IsSymmetric c := by
    intro c hc
    cases bcMatrix with
    | false => simp at hc; exact ⟨(hf c (by simp [hc])).2, hy c (by simp [hc])⟩
    | true => exact ⟨(hf c (by simpa using hc)).2, hy c (by simpa using hc)⟩
  refine ⟨su, sf, h1, h2, ?_, ?_, ?_⟩
  · apply List.ext_getElem?
    intro i
    by_cases hi : i < s.res.length
    · rw [a1.res i _ (List.getElem?_eq_getElem hi), a2.res i _ (List.getElem?_eq_getElem hi)]
    · rw [List.getElem?_eq_none (by rw [a1.length]; omega),
        List.getElem?_eq_none (by rw [a2.length]; omega)]
  · intro i j hji
    rw [a1.jac, h0, zero_add]
    apply List.sum_eq_zero
    intro x hx
    obtain ⟨c, _, rfl⟩ := List.mem_map.1 hx
    rw [kept_upper, if_neg (by omega)]
  · intro i j
    rw [a1.jac, a2.jac, h0, h0]
    congr 2
    apply List.map_congr_left
    intro c hc
    rw [kept_upper, if_pos (by omega)]
    rcases Nat.le_total i j with h | h
    · rw [min_eq_left h, max_eq_right h]
    · rw [min_eq_right h, max_eq_left h, kept_symm c _ (hms c hc).1 (hms c hc).2]

/-- C134: the matrix of the preconditioner is assembled in the same way, its residual is not
touched. -/
theorem C134_riesz (sym : Bool) : ∀ (cs : List (Contribution ℝ)) (s : Sys ℝ),
    (∀ c ∈ cs, c.Fits s.jac.n) →
    ∃ s', assembleRiesz sym (cs.map outcome) s = (s', none) ∧ s'.res = s.res ∧ s'.jac.n = s.jac.n ∧
      ∀ i j, sym = false ∨ i ≤ j →
        |s'.jac.val i j - (s.jac.val i j + (cs.map (·.jacAt i j)).sum)| ≤
        ((cs.map fun c => touches c i j).sum : ℕ) * lost
  | [], s, _ => ⟨s, rfl, rfl, rfl, by simp⟩
  | c :: cs, s, hf => by
    have h1 := scatterMatrix_ok sym c s (hf c (by simp))
    obtain ⟨s', h2, h3, h4, h5⟩ := C134_riesz sym cs
      { s with jac := ⟨s.jac.n, fun i j => s.jac.val i j + keptAt sym c i j⟩ }
      (fun d hd => hf d (by simp [hd]))
    refine ⟨s', ?_, h3, h4, fun i j hij => ?_⟩
    · unfold assembleRiesz at h2 ⊢
      rw [List.map_cons]
      have e : scatterRiesz sym (outcome c) s =
          ({ s with jac := ⟨s.jac.n, fun i j => s.jac.val i j + keptAt sym c i j⟩ }, none) := h1
      simp only [forEach]
      rw [e]
      exact h2
    · have b1 := h5 i j hij
      have b2 := kept_bound c _ (hf c (by simp)) sym i j hij
      simp only [List.map_cons, List.sum_cons]
      rw [Nat.cast_add, add_mul]
      simp only at b1
      rw [abs_le] at b1 b2 ⊢
      constructor <;> linarith

/-- C134: the first exception of an element ends the assembly; what was added before stays. -/
theorem C134_errors (sym bcMatrix : Bool) (cs : List (Contribution ℝ)) (e : Err)
    (rest bcs : List (Res (List Nat × List ℝ × List (List ℝ)))) (s : Sys ℝ)
    (hs : s.res.length = s.jac.n) (hf : ∀ c ∈ cs, c.dest.Nodup ∧ c.Fits s.jac.n) :
    ∃ s', assemble sym bcMatrix (cs.map outcome ++ .error e :: rest) bcs s = (s', some e) ∧
      assemble sym bcMatrix (cs.map outcome) [] s = (s', none) := by
  obtain ⟨s1, h1, -⟩ := forEach_adds (f := scatterForm sym) s.jac.n
    (fun c s hn hs hf => scatterForm_ok sym c s hn hs hf) cs s rfl hs hf
  refine ⟨s1, ?_, ?_⟩
  · unfold assemble Step.andThen
    rw [forEach_append, h1]
    rfl
  · unfold assemble Step.andThen
    rw [h1]
    rfl

/-- C134: a residual of the wrong length raises ValueError and a destination that is not there
IndexError, before anything is added. -/
theorem C134_shapes (sym : Bool) (dest : List Nat) (r : List ℝ) (jac : List (List ℝ)) (s : Sys ℝ) :
    ((∀ x ∈ dest, x < s.res.length) → r.length ≠ dest.length → r.length ≠ 1 →
      scatterForm sym (.ok (dest, r, jac)) s = (s, some .valueError)) ∧
    ((∃ x ∈ dest, s.res.length ≤ x) →
      scatterForm sym (.ok (dest, r, jac)) s = (s, some .indexError)) := by
  constructor
  · intro hlt h1 h2
    obtain ⟨cur, hcur⟩ := Trace.fancy_total (a := s.res) (idx := dest) hlt
    have hg : gather s.res dest = .ok cur := Trace.fancy_iff.2 hcur
    have ha : addFancy s.res dest r = .error .valueError := by
      unfold addFancy
      rw [hg]
      simp only [Res.bind_ok]
      rw [if_neg h1]
      match r, h2 with
      | [], _ => rfl
      | [v], h2 => exact absurd rfl h2
      | _ :: _ :: _, _ => rfl
    simp only [scatterForm, withRes_ok, Step.andThen, scatterResidual, ha]
  · rintro ⟨x, hx, hle⟩
    have hg : gather s.res dest = .error .indexError := by
      unfold gather
      induction dest with
      | nil => simp at hx
      | cons j t ih =>
        by_cases hj : j < s.res.length
        · have hm : x ∈ t := by
            rcases List.mem_cons.1 hx with h | h
            · omega
            · exact h
          have hg : getIdx s.res j = .ok s.res[j] := getIdx_of (List.getElem?_eq_getElem hj)
          show (do let b ← getIdx s.res j; let bs ← MeshGraph.mapRes (getIdx s.res) t
                   pure (b :: bs)) = _
          rw [hg, ih hm]
          rfl
        · have hg : getIdx s.res j = .error .indexError := by
            simp [getIdx, List.getElem?_eq_none (Nat.le_of_not_lt hj)]
          show (do let b ← getIdx s.res j; let bs ← MeshGraph.mapRes (getIdx s.res) t
                   pure (b :: bs)) = _
          rw [hg]
          rfl
    have ha : addFancy s.res dest r = .error .indexError := by
      unfold addFancy
      rw [hg]
      rfl
    simp only [scatterForm, withRes_ok, Step.andThen, scatterResidual, ha]

/-- An element with two degrees of freedom, and a point of the boundary -/
noncomputable def exampleElement : Contribution ℝ := ⟨[0, 1], [-1, 2], [[2, -1], [-1, 2]]⟩
noncomputable def exampleBoundary : Contribution ℝ := ⟨[1], [3], [[5]]⟩

theorem lost_lt : lost < 1 := by unfold lost; norm_num

example : (∀ c ∈ [exampleElement] ++ [exampleBoundary], c.dest.Nodup ∧ c.Fits 2) ∧
    (∀ c ∈ [exampleElement] ++ [exampleBoundary], Sizable c ∧ IsSymmetric c) := by
  have hl := lost_lt
  constructor
  · intro c hc
    simp only [List.cons_append, List.nil_append, List.mem_cons, List.not_mem_nil, or_false] at hc
    rcases hc with rfl | rfl
    · exact ⟨by simp [exampleElement], by simp [exampleElement], rfl, rfl,
        by simp [exampleElement]⟩
    · exact ⟨by simp [exampleBoundary], by simp [exampleBoundary], rfl, rfl,
        by simp [exampleBoundary]⟩
  · intro c hc
    simp only [List.cons_append, List.nil_append, List.mem_cons, List.not_mem_nil, or_false] at hc
    rcases hc with rfl | rfl
    · refine ⟨?_, ?_⟩
      · intro r hr x hx
        simp only [exampleElement, List.mem_cons, List.not_mem_nil, or_false] at hr
        right
        rcases hr with rfl | rfl <;> simp only [List.mem_cons, List.not_mem_nil, or_false] at hx <;>
          rcases hx with rfl | rfl <;> norm_num <;> linarith
      · intro a b ra rb x y h1 h2 h3 h4
        match a, b with
        | 0, 0 => simp [exampleElement] at h1 h3; subst h1; subst h3; rw [h2] at h4; exact Option.some.inj h4
        | 0, 1 => simp [exampleElement] at h1 h3; subst h1; subst h3; simp at h2 h4; linarith
        | 1, 0 => simp [exampleElement] at h1 h3; subst h1; subst h3; simp at h2 h4; linarith
        | 1, 1 => simp [exampleElement] at h1 h3; subst h1; subst h3; rw [h2] at h4; exact Option.some.inj h4
        | a + 2, _ => simp [exampleElement] at h1
        | 0, b + 2 => simp [exampleElement] at h3
        | 1, b + 2 => simp [exampleElement] at h3
    · refine ⟨?_, ?_⟩
      · intro r hr x hx
        simp only [exampleBoundary, List.mem_cons, List.not_mem_nil, or_false] at hr
        subst hr
        simp only [List.mem_cons, List.not_mem_nil, or_false] at hx
        subst hx
        right; norm_num; linarith
      · intro a b ra rb x y h1 h2 h3 h4
        match a, b with
        | 0, 0 => simp [exampleBoundary] at h1 h3; subst h1; subst h3; rw [h2] at h4; exact Option.some.inj h4
        | a + 1, _ => simp [exampleBoundary] at h1
        | 0, b + 1 => simp [exampleBoundary] at h3

/-- C134: elements with entries up to about 1e-8 do not contribute to the matrix at all, be it
that the mesh is fine or that the unit of stress is small; a solvable system becomes one without
solutions. -/
theorem C134_small_violated :
    (∀ (sym bcMatrix : Bool) (cs bs : List (Contribution ℝ)) (s : Sys ℝ),
      s.res.length = s.jac.n → (∀ c ∈ cs ++ bs, c.dest.Nodup ∧ c.Fits s.jac.n) →
      (∀ c ∈ cs ++ bs, ∀ r ∈ c.jac, ∀ x ∈ r, |x| ≤ 1 / 10 ^ 8 - 1 / 10 ^ 16) →
      ∃ s', assemble sym bcMatrix (cs.map outcome) (bs.map outcome) s = (s', none) ∧
        ∀ i j, s'.jac.val i j = s.jac.val i j) ∧
    ∃ c : Contribution ℝ, c.Fits 1 ∧ (∃ x : ℝ, c.jacAt 0 0 * x = -c.resAt 0) ∧
      ∃ s', assemble false false [outcome c] [] ⟨[0], ⟨1, fun _ _ => 0⟩⟩ = (s', none) ∧
        s'.res = [-1] ∧ ¬ ∃ x : ℝ, s'.jac.val 0 0 * x = 1 := by
  have zero : ∀ (sym bcMatrix : Bool) (cs bs : List (Contribution ℝ)) (s : Sys ℝ),
      s.res.length = s.jac.n → (∀ c ∈ cs ++ bs, c.dest.Nodup ∧ c.Fits s.jac.n) →
      (∀ c ∈ cs ++ bs, ∀ r ∈ c.jac, ∀ x ∈ r, |x| ≤ 1 / 10 ^ 8 - 1 / 10 ^ 16) →
      ∃ s', assemble sym bcMatrix (cs.map outcome) (bs.map outcome) s = (s', none) ∧
        (∀ (i : Nat) x, s.res[i]? = some x →
          s'.res[i]? = some (x + ((cs ++ bs).map (·.resAt i)).sum)) ∧
        s'.res.length = s.res.length ∧
        ∀ i j, s'.jac.val i j = s.jac.val i j := by
    intro sym bcMatrix cs bs s hs hf hz
    obtain ⟨s', h, a⟩ := assemble_adds sym bcMatrix cs bs s hs hf
    refine ⟨s', h, a.res, a.length, fun i j => ?_⟩
    rw [a.jac]
    have : ((cs ++ if bcMatrix = true then bs else []).map fun c => keptAt sym c i j).sum = 0 := by
      apply List.sum_eq_zero
      intro y hy
      obtain ⟨c, hc, rfl⟩ := List.mem_map.1 hy
      have hc' : c ∈ cs ++ bs := by
        cases bcMatrix with
        | false => simp at hc; simp [hc]
        | true => simpa using hc
      unfold keptAt
      apply List.sum_eq_zero
      intro y hy
      obtain ⟨⟨d, row⟩, hr, rfl⟩ := List.mem_map.1 hy
      apply List.sum_eq_zero
      intro y hy
      obtain ⟨⟨e, v⟩, hv, rfl⟩ := List.mem_map.1 hy
      have hd : Dropped v := by
        have h1 := hz c hc' row (List.of_mem_zip hr).2 v (List.of_mem_zip hv).2
        unfold Dropped
        have hp : |(1 / 10 ^ 16 : ℝ)| = 1 / 10 ^ 16 := abs_of_pos (by positivity)
        rw [hp]
        have h2 : |v - 1 / 10 ^ 16| ≤ |v| + |(1 / 10 ^ 16 : ℝ)| := abs_sub _ _
        rw [hp] at h2
        have h3 : (0 : ℝ) ≤ 1 / 10 ^ 5 * (1 / 10 ^ 16) := by positivity
        linarith
      have : clip sym d e v = 0 := by unfold clip; rw [if_pos (Or.inl hd)]
      simp [this]
    rw [this, add_zero]
  constructor
  · intro sym bcMatrix cs bs s hs hf hz
    obtain ⟨s', h1, -, -, h2⟩ := zero sym bcMatrix cs bs s hs hf hz
    exact ⟨s', h1, h2⟩
  · have hfit : (⟨[0], [-1], [[1 / 10 ^ 9]]⟩ : Contribution ℝ).Fits 1 :=
      ⟨by simp, rfl, rfl, by simp⟩
    refine ⟨⟨[0], [-1], [[1 / 10 ^ 9]]⟩, hfit, ⟨10 ^ 9, ?_⟩, ?_⟩
    · simp [Contribution.jacAt, Contribution.resAt]
    · obtain ⟨s', h1, h2, h3, h4⟩ := zero false false [⟨[0], [-1], [[1 / 10 ^ 9]]⟩] []
        ⟨[0], ⟨1, fun _ _ => 0⟩⟩ rfl (by
          intro c hc
          simp only [List.append_nil, List.mem_cons, List.not_mem_nil, or_false] at hc
          subst hc
          exact ⟨by simp, hfit⟩) (by
          intro c hc r hr x hx
          simp only [List.append_nil, List.mem_cons, List.not_mem_nil, or_false] at hc
          subst hc
          simp only [List.mem_cons, List.not_mem_nil, or_false] at hr
          subst hr
          simp only [List.mem_cons, List.not_mem_nil, or_false] at hx
          subst hx
          rw [abs_of_pos (by positivity)]
          norm_num)
      refine ⟨s', h1, ?_, ?_⟩
      · have h0 := h2 0 0 rfl
        have hr : (⟨[0], [-1], [[1 / 10 ^ 9]]⟩ : Contribution ℝ).resAt 0 = -1 := by
          simp [Contribution.resAt]
        simp only [List.append_nil, List.map_cons, List.map_nil, List.sum_cons, List.sum_nil, hr] at h0
        match hs : s'.res, h3 with
        | [y], _ =>
          rw [hs] at h0
          simp only [List.getElem?_cons_zero, Option.some.injEq] at h0
          rw [h0]; norm_num
      · rintro ⟨x, hx⟩
        rw [h4] at hx
        simp at hx

/-- C134: with a repeated destination only one of the contributions to the residual counts,
the matrix gets all of them. -/
theorem C134_repeat_violated :
    ∃ (dest : List Nat) (r : List ℝ), r.length = dest.length ∧
      addFancy [0] dest r = .ok [2] ∧ (⟨dest, r, []⟩ : Contribution ℝ).resAt 0 = 3 := by
  refine ⟨[0, 0], [1, 2], rfl, ?_, ?_⟩
  · have hg : gather [(0 : ℝ)] [0, 0] = .ok [0, 0] := rfl
    unfold addFancy
    rw [hg]
    simp [Res.bind_ok]
  · norm_num [Contribution.resAt]

/-- C134: the entries that are dropped form a closed interval, almost symmetric about zero. -/
theorem C134_threshold (x : ℝ) : Dropped x ↔
    -(1 / 10 ^ 8) + 1 / 10 ^ 16 - 1 / 10 ^ 21 ≤ x ∧ x ≤ 1 / 10 ^ 8 + 1 / 10 ^ 16 + 1 / 10 ^ 21 := by
  have hp : |(1 / 10 ^ 16 : ℝ)| = 1 / 10 ^ 16 := abs_of_pos (by positivity)
  unfold Dropped
  rw [hp, abs_le]
  constructor
  · rintro ⟨h1, h2⟩
    constructor <;> norm_num at h1 h2 ⊢ <;> linarith
  · rintro ⟨h1, h2⟩
    constructor <;> norm_num at h1 h2 ⊢ <;> linarith

#print axioms C134_residual
#print axioms C134_matrix
#print axioms C134_exact
#print axioms C134_mirror
#print axioms C134_riesz
#print axioms C134_errors
#print axioms C134_shapes
#print axioms C134_small_violated
#print axioms C134_repeat_violated

#print axioms C134_threshold

end Verif.DriverAssembly
