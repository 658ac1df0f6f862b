/-
C146: the plotting scripts of the degenerate scenarios.
-/
import Mathlib.Tactic.Linarith
import Mathlib.Tactic.Ring
import Mathlib.Tactic.NormNum
import Verif.Lemmas.Prelude
import Verif.Props.FileNames
import Verif.Props.MergedTables
import Verif.Spec.ScenarioPlots

namespace Verif.ScenarioPlots
open FileNames (Plain chunks chunks_inj plain_cons plain_nil nat_text nat_inj append_right_inj' not_mem_append)
open MergedTables

theorem materials_two (sc : Scenario) : ∃ ms, sc.materials 2 = .ok ms ∧ ms = (masterChoice sc).materials := by
  cases sc
  · exact ⟨_, rfl, rfl⟩
  · exact ⟨_, rfl, rfl⟩

/-- The cases: for the method, each of the chosen materials with each level. -/
theorem C146_cases (sc : Scenario) {ch : Choice} (h2 : ch.dim = 2) {cases : List (Case × Nat)}
    (h : iterCases sc ch = .ok cases) (c : Case) (l : Nat) :
    (c, l) ∈ cases ↔ c.method = "mixed_rt" ∧ c.dim = 2 ∧ c.domain = ch.domain ∧ c.mPar ∈ (masterChoice sc).materials ∧
      c.mPar ∈ ch.materials ∧ l ∈ ch.levels := by
  obtain ⟨ms, hm, rfl⟩ := materials_two sc
  unfold iterCases at h
  rw [h2, hm, Res.bind_ok] at h
  cases h
  obtain ⟨m, d, dom, mat⟩ := c
  simp only [methods, List.flatMap_cons, List.flatMap_nil, List.append_nil, List.mem_flatMap, List.mem_filter,
    List.mem_map, decide_eq_true_eq, Prod.mk.injEq, Case.mk.injEq]
  constructor
  · rintro ⟨a, ⟨h1, h2⟩, b, hb, ⟨rfl, rfl, rfl, rfl⟩, rfl⟩
    exact ⟨rfl, rfl, rfl, h1, h2, hb⟩
  · rintro ⟨rfl, rfl, rfl, h1, h2, hl⟩
    exact ⟨_, ⟨h1, h2⟩, _, hl, ⟨rfl, rfl, rfl, rfl⟩, rfl⟩

/-- Every mesh file and every table that is asked for was written by the driver, if the levels are among those that were
computed; nothing is skipped. -/
theorem C146_found (str : ℚ → String) (sc : Scenario) {ch : Choice} (h2 : ch.dim = 2) (hd : ch.domain = "fitted")
    {nRef : Nat} (hl : ∀ l ∈ ch.levels, l < nRef) {folder : String} {files : List (String × String)}
    (hf : driverFiles str sc folder nRef = .ok files) {cases : List (Case × Nat)} (h : iterCases sc ch = .ok cases) :
    ∀ p ∈ cases, vtkFile str folder p.1 p.2 ∈ files ∧
      ∀ kind suffix, sc.suffix kind = .ok suffix → (folder, caseName str p.1 ++ suffix) ∈ files := by
  rintro ⟨c, l⟩ hp
  obtain ⟨h3, h4, h5, h6, -, h7⟩ := (C146_cases sc h2 h c l).1 hp
  obtain ⟨ms, hm, rfl⟩ := materials_two sc
  unfold driverFiles at hf
  rw [hm, Res.bind_ok] at hf
  cases hf
  have hc : c = ⟨"mixed_rt", 2, "fitted", c.mPar⟩ := by
    obtain ⟨m, d, dom, mat⟩ := c
    simp only at h3 h4 h5
    rw [h3, h4, h5, hd]
  simp only [methods, List.flatMap_cons, List.flatMap_nil, List.append_nil, List.mem_flatMap, List.mem_append,
    List.mem_map, List.mem_range]
  refine ⟨⟨c.mPar, h6, .inl ⟨l, hl l h7, ?_⟩⟩, ?_⟩
  · rw [vtkFile, ← hc, Prod.mk.injEq]
    exact ⟨rfl, String.toList_inj.1 (by simp [String.toList_append])⟩
  · intro kind suffix hs
    refine ⟨c.mPar, h6, .inr ⟨suffix, ?_, by rw [← hc]⟩⟩
    cases sc <;> cases kind <;> cases hs <;> simp [Scenario.tables]

/-- With the options of the master script: 80 pictures of fields of each kind, and 20 drawings of rates. -/
theorem C146_counts (str : ℚ → String) (sc : Scenario) (folder : String) (format : String) (flat : Bool) :
    ∃ files figs convs, driverFiles str sc folder 7 = .ok files ∧
      fieldPlots str sc (masterChoice sc) files folder format flat = .ok figs ∧ figs.length = 80 ∧
      convergencePlots str sc (masterChoice sc) files folder format .normal = .ok convs ∧ convs.length = 20 := by
  obtain ⟨ms, hm, hms⟩ := materials_two sc
  obtain ⟨files, hf⟩ : ∃ files, driverFiles str sc folder 7 = .ok files := by
    unfold driverFiles
    rw [hm, Res.bind_ok]
    exact ⟨_, rfl⟩
  obtain ⟨cases, hc, hlen⟩ : ∃ cases, iterCases sc (masterChoice sc) = .ok cases ∧ cases.length = 20 := by
    cases sc
    · exact ⟨_, rfl, by decide +kernel⟩
    · exact ⟨_, rfl, by decide +kernel⟩
  have hall := C146_found str sc (ch := masterChoice sc) (by cases sc <;> rfl) (by cases sc <;> rfl) (nRef := 7)
    (by cases sc <;> decide) hf hc
  obtain ⟨labels, hlab⟩ : ∃ l, sc.labels .normal = .ok l := by cases sc <;> exact ⟨_, rfl⟩
  obtain ⟨suffix, hsuf⟩ : ∃ l, sc.suffix .normal = .ok l := by cases sc <;> exact ⟨_, rfl⟩
  refine ⟨files, cases.flatMap fun p =>
      sc.fields.map fun f => caseName str p.1 ++ "l_" ++ toString p.2 ++ "_" ++ f ++ sc.ending flat format,
    cases.map fun p =>
      ((folder, caseName str p.1 ++ suffix), caseName str p.1 ++ Kind.normal.text ++ "_convergence." ++ format),
    hf, ?_, ?_, ?_, ?_⟩
  · unfold fieldPlots
    rw [hc, Res.bind_ok, List.filter_eq_self.2]
    · rfl
    · intro p hp
      exact decide_eq_true (hall p hp).1
  · rw [List.length_flatMap]
    have hconst : ∀ p : Case × Nat, (sc.fields.map fun f => caseName str p.1 ++ "l_" ++ toString p.2 ++ "_" ++ f ++
        sc.ending flat format).length = 4 := by
      intro p
      rw [List.length_map]
      cases sc <;> rfl
    simp only [hconst, List.map_const', List.sum_replicate, hlen]
    rfl
  · unfold convergencePlots
    rw [hlab, Res.bind_ok, hsuf, Res.bind_ok, hc, Res.bind_ok, List.filter_eq_self.2]
    · rfl
    · intro p hp
      exact decide_eq_true ((hall p hp).2 .normal suffix hsuf)
  · rw [List.length_map, hlen]

/-- Pictures of different materials, levels or fields have different names; a field has a name of two parts. -/
theorem C146_distinct {str : ℚ → String} (hs : Plain str) {m dom a b a' b' e : String} {d : Nat} {v w : ℚ} {l l' : Nat}
    (ha : '_' ∉ a.toList) (hb : '_' ∉ b.toList) (ha' : '_' ∉ a'.toList) (hb' : '_' ∉ b'.toList)
    (h : caseName str ⟨m, d, dom, v⟩ ++ "l_" ++ toString l ++ "_" ++ (a ++ "_" ++ b) ++ e =
      caseName str ⟨m, d, dom, w⟩ ++ "l_" ++ toString l' ++ "_" ++ (a' ++ "_" ++ b') ++ e) :
    v = w ∧ l = l' ∧ a = a' ∧ b = b' := by
  have h := append_right_inj' h
  have key : ∀ (v : ℚ) (l : Nat) (a b : String),
      caseName str ⟨m, d, dom, v⟩ ++ "l_" ++ toString l ++ "_" ++ (a ++ "_" ++ b) =
        chunks (m ++ "_" ++ toString d ++ "d_" ++ dom ++ "_material_parameter") [str v, "l", toString l, a, b] :=
    fun v l a b => String.toList_inj.1 (by simp [chunks, caseName, String.toList_append])
  rw [key, key] at h
  have p : ∀ (v : ℚ) (l : Nat) (a b : String), '_' ∉ a.toList → '_' ∉ b.toList →
      ∀ x ∈ [str v, "l", toString l, a, b], '_' ∉ x.toList := fun v l a b ha hb =>
    plain_cons (hs.2 v) (plain_cons (by decide) (plain_cons (nat_text l) (plain_cons ha (plain_cons hb plain_nil))))
  have e := chunks_inj (by rfl) (p v l a b ha hb) (p w l' a' b' ha' hb') h
  simp only [List.cons.injEq, and_true, true_and] at e
  exact ⟨hs.1 _ _ e.1, nat_inj e.2.1, e.2.2.1, e.2.2.2⟩

/-- The fields of both scripts have names of two parts without further underscores. -/
theorem C146_fields (sc : Scenario) : ∀ f ∈ sc.fields, ∃ a b : String, f = a ++ "_" ++ b ∧ '_' ∉ a.toList ∧
    '_' ∉ b.toList := by
  intro f hf
  cases sc
  · simp only [Scenario.fields, List.mem_cons, List.not_mem_nil, or_false] at hf
    rcases hf with rfl | rfl | rfl | rfl
    · exact ⟨"p", "h", rfl, by decide, by decide⟩
    · exact ⟨"p", "e", rfl, by decide, by decide⟩
    · exact ⟨"u", "h", rfl, by decide, by decide⟩
    · exact ⟨"u", "e", rfl, by decide, by decide⟩
  · simp only [Scenario.fields, List.mem_cons, List.not_mem_nil, or_false] at hf
    rcases hf with rfl | rfl | rfl | rfl
    · exact ⟨"qh", "ph", rfl, by decide, by decide⟩
    · exact ⟨"qe", "pe", rfl, by decide, by decide⟩
    · exact ⟨"ve", "ue", rfl, by decide, by decide⟩
    · exact ⟨"vh", "uh", rfl, by decide, by decide⟩

/-- The header is skipped, no row of numbers is. -/
theorem C146_load {α : Type} (header : α) (rows : List α) : load (header :: rows) = rows := rfl

/-- First scenario: the curves drawn from the table are those that their labels say. -/
theorem C146_curves_one {levels : List Numbers} (h0 : levels ≠ []) :
    ∃ T labels, tableOf scenarioOneRow 4 levels = .ok T ∧ Scenario.one.labels .normal = .ok labels ∧
      T.length = levels.length ∧
      ∀ (i : Nat) n, levels[i]? = some n → ∃ r, T[i]? = some r ∧ curveRow labels r = .ok (curves labels n) := by
  obtain ⟨T, h1, h2, h3⟩ := C139_scenario_one h0
  refine ⟨T, _, h1, rfl, h2, fun i n hn => ⟨_, h3 i n hn, ?_⟩⟩
  cases i <;> rfl

/-- Second scenario: the same for both tables. -/
theorem C146_curves_two {levels : List Numbers} (h0 : levels ≠ []) :
    ∃ T normal enhanced, tableOf scenarioTwoRow 7 levels = .ok T ∧ Scenario.two.labels .normal = .ok normal ∧
      Scenario.two.labels .enhanced = .ok enhanced ∧ T.length = levels.length ∧
      ∀ (i : Nat) n, levels[i]? = some n → ∃ r, T[i]? = some r ∧ curveRow normal (allBut 4 r) = .ok (curves normal n) ∧
        ∃ r', lastAnd 4 r = .ok r' ∧ curveRow enhanced r' = .ok (curves enhanced n) := by
  obtain ⟨T, h1, h2, h3⟩ := C139_scenario_two h0
  refine ⟨T, _, _, h1, rfl, rfl, h2, fun i n hn => ?_⟩
  obtain ⟨r, e1, e2, e3⟩ := h3 i n hn
  refine ⟨r, e1, ?_, _, e3, ?_⟩
  · rw [e2]
    cases i <;> rfl
  · cases i <;> rfl

/-- The triangle hangs on the last step but one (of seven sizes: the fifth and the sixth); of two sizes on the only
one.  The indices are always in range. -/
theorem C146_anchor {n : Nat} (h : 2 ≤ n) (idx : Int) :
    1 ≤ anchor idx n ∧ anchor idx n ≤ n - 1 ∧ anchor (-2) 7 = 5 ∧ anchor (-2) 2 = 1 ∧
      (3 ≤ n → anchor (-2) n = n - 2) := by
  refine ⟨?_, ?_, by decide, by decide, ?_⟩
  · exact le_max_left _ _
  · exact max_le (by omega) (min_le_right _ _)
  · intro h3
    show max 1 (min (if (0 : Int) ≤ -2 then -2 else (n : Int) + -2) ((n : Int) - 1)) = _
    rw [if_neg (by omega)]
    omega

/-- The reference curve is the lowest at the anchor, the first of them if there are several. -/
theorem C146_lowest {l : List ℝ} (h : l ≠ []) : ∃ x, l[argmin l]? = some x ∧ (∀ y ∈ l, x ≤ y) ∧
    ∀ (j : Nat) y, j < argmin l → l[j]? = some y → x < y := by
  induction l with
  | nil => exact absurd rfl h
  | cons a t ih =>
    cases t with
    | nil => exact ⟨a, rfl, by simp, fun j y hj => absurd hj (Nat.not_lt_zero _)⟩
    | cons b t =>
      by_cases hc : ∀ c ∈ b :: t, a ≤ c
      · have e : argmin (a :: b :: t) = 0 := by rw [argmin.eq_def]; exact if_pos hc
        rw [e]
        refine ⟨a, rfl, ?_, fun j y hj => absurd hj (Nat.not_lt_zero _)⟩
        intro y hy
        rcases List.mem_cons.1 hy with rfl | hy
        · exact le_refl _
        · exact hc y hy
      · have e : argmin (a :: b :: t) = argmin (b :: t) + 1 := by rw [argmin.eq_def]; exact if_neg hc
        rw [e]
        obtain ⟨x, hx, hmin, hfirst⟩ := ih (by simp)
        have hxa : x < a := by
          push Not at hc
          obtain ⟨c, hcm, hca⟩ := hc
          exact lt_of_le_of_lt (hmin c hcm) hca
        refine ⟨x, by rw [List.getElem?_cons_succ]; exact hx, ?_, ?_⟩
        · intro y hy
          rcases List.mem_cons.1 hy with rfl | hy
          · exact hxa.le
          · exact hmin y hy
        · intro j y hj hy
          cases j with
          | zero => simp at hy; rw [← hy]; exact hxa
          | succ j => exact hfirst j y (by omega) (by rw [List.getElem?_cons_succ] at hy; exact hy)

/-- There is no triangle exactly if a size or an error is not positive or the sizes are as good as equal. -/
theorem C146_no_triangle (x0 x1 y0 y1 r : ℝ) : triangle x0 x1 y0 y1 r = none ↔
    (x0 ≤ 0 ∨ x1 ≤ 0 ∨ y0 ≤ 0 ∨ y1 ≤ 0) ∨ |log10 x1 - log10 x0| ≤ 1 / 10 ^ 8 := by
  unfold triangle
  by_cases h : min (min x0 x1) (min y0 y1) ≤ 0
  · rw [if_pos h]
    simp only [min_le_iff] at h
    simp only [true_iff]
    left
    rcases h with (h | h) | h | h <;> simp [h]
  · rw [if_neg h]
    have h' := h
    simp only [min_le_iff] at h
    push Not at h
    by_cases hd : |log10 x1 - log10 x0| ≤ 1 / 10 ^ 8
    · simp only [if_pos hd]
      exact ⟨fun _ => .inr hd, fun _ => trivial⟩
    · simp only [hd, if_false, or_false]
      simp only [reduceCtorEq, false_iff]
      push Not
      exact ⟨h.1.1, h.1.2, h.2.1, h.2.2⟩

theorem log10_pow (x : ℝ) : log10 ((10 : ℝ) ^ x) = x := Real.logb_rpow (by norm_num) (by norm_num)

/-- The triangle: first and second corner at the first size, the third at the second; its right angle is at the second
corner; its long side has the rate as slope. -/
theorem C146_triangle {x0 x1 y0 y1 r : ℝ} {A B C : ℝ × ℝ} (h : triangle x0 x1 y0 y1 r = some (A, B, C)) :
    A.1 = x0 ∧ B.1 = x0 ∧ C.1 = x1 ∧ B.2 = C.2 ∧ slope A C = r := by
  have hn : triangle x0 x1 y0 y1 r ≠ none := by rw [h]; simp
  rw [Ne, C146_no_triangle] at hn
  push Not at hn
  obtain ⟨⟨p0, p1, -, -⟩, hd⟩ := hn
  unfold triangle at h
  split at h
  · cases h
  · simp only at h
    rw [if_neg (not_le.2 hd)] at h
    simp only [Option.some.injEq, Prod.mk.injEq] at h
    obtain ⟨rfl, rfl, rfl⟩ := h
    have hne : log10 x0 - log10 x1 ≠ 0 := by
      intro h0
      rw [show log10 x1 - log10 x0 = 0 by linarith, abs_zero] at hd
      norm_num at hd
    have e : ∀ x : ℝ, 0 < x → (10 : ℝ) ^ log10 x = x := fun x hx =>
      Real.rpow_logb (by norm_num) (by norm_num) hx
    refine ⟨e _ p0, e _ p0, e _ p1, rfl, ?_⟩
    unfold slope
    simp only [log10_pow]
    rw [div_eq_iff hne]
    ring

/-- While the error falls: the first corner is below the reference curve (by half a step), and the third is below it
exactly if the observed rate is less than half an order above the expected one. -/
theorem C146_below {x0 x1 y0 y1 r : ℝ} (hx : x1 < x0) (hy : y1 ≤ y0) {A B C : ℝ × ℝ}
    (h : triangle x0 x1 y0 y1 r = some (A, B, C)) :
    A.2 < y0 ∧ (C.2 < y1 ↔ (log10 y0 - log10 y1) / (log10 x0 - log10 x1) < r + 1 / 2) := by
  have hn : triangle x0 x1 y0 y1 r ≠ none := by rw [h]; simp
  rw [Ne, C146_no_triangle] at hn
  push Not at hn
  obtain ⟨⟨p0, p1, q0, q1⟩, hd⟩ := hn
  have hlt : log10 x1 < log10 x0 := Real.logb_lt_logb (by norm_num) p1 hx
  unfold triangle at h
  split at h
  · cases h
  · simp only at h
    rw [if_neg (not_le.2 hd)] at h
    simp only [Option.some.injEq, Prod.mk.injEq] at h
    obtain ⟨rfl, rfl, rfl⟩ := h
    rw [max_eq_left hy, abs_of_neg (by linarith)]
    refine ⟨?_, ?_⟩
    · refine (Real.lt_logb_iff_rpow_lt (by norm_num) q0).1 ?_
      show log10 y0 - _ < log10 y0
      linarith
    · rw [div_lt_iff₀ (by linarith)]
      refine (Real.lt_logb_iff_rpow_lt (by norm_num : (1 : ℝ) < 10) q1).symm.trans ?_
      show log10 y0 + r * (log10 x1 - log10 x0) - -(log10 x1 - log10 x0) / 2 < log10 y1 ↔ _
      constructor <;> intro h <;> nlinarith

/-- As many colours as curves. -/
theorem C146_palette {α : Type} {base : List α} (h : base ≠ []) (n : Nat) : (palette base n).length = n := by
  have hb : 0 < base.length := List.length_pos_of_ne_nil h
  unfold palette
  split
  · rw [List.length_take]
    omega
  · rw [List.length_take, List.length_flatten, List.map_replicate, List.sum_replicate, smul_eq_mul]
    apply min_eq_left
    have := Nat.div_add_mod (n + base.length - 1) base.length
    have := Nat.mod_lt (n + base.length - 1) hb
    rw [mul_comm]
    omega

/-- The bar is never wider than the window, and has a width. -/
theorem C146_bar (width : ℝ) (window : Int) : 0 < barWidth width window ∧ barWidth width window ≤ 1 := by
  unfold barWidth
  by_cases h : width ≤ 0
  · rw [if_pos h]
    norm_num
  · rw [if_neg h]
    push Not at h
    by_cases h1 : width ≤ 1
    · rw [if_pos h1]
      exact ⟨h, h1⟩
    · rw [if_neg h1]
      have hw : (0 : ℝ) < (max window 1 : Int) := by exact_mod_cast lt_of_lt_of_le zero_lt_one (le_max_right window 1)
      exact ⟨lt_min (by norm_num) (div_pos h hw), le_trans (min_le_left _ _) (by norm_num)⟩

/-- Without levels there are no pictures of the rates, although these do not depend on a level; with several the same
picture is drawn once for each. -/
theorem C146_levels_violated (str : ℚ → String) (sc : Scenario) (errors format : String) :
    (∃ files, driverFiles str sc errors 7 = .ok files ∧
      convergencePlots str sc ⟨(masterChoice sc).materials, [], "fitted", 2⟩ files errors format .normal = .ok []) ∧
    (∃ files convs, driverFiles str sc errors 7 = .ok files ∧
      convergencePlots str sc (masterChoice sc) files errors format .normal = .ok convs ∧
      ¬ convs.Nodup) := by
  obtain ⟨files, figs, convs, h1, -, -, h4, h5⟩ := C146_counts str sc errors format false
  refine ⟨⟨files, h1, ?_⟩, files, convs, h1, h4, ?_⟩
  · have hc : iterCases sc ⟨(masterChoice sc).materials, [], "fitted", 2⟩ = .ok [] := by
      obtain ⟨ms, hm, -⟩ := materials_two sc
      unfold iterCases
      rw [hm, Res.bind_ok]
      simp [methods, pure, Except.pure]
    obtain ⟨suffix, hsuf⟩ : ∃ l, sc.suffix .normal = .ok l := by cases sc <;> exact ⟨_, rfl⟩
    obtain ⟨labels, hlab⟩ : ∃ l, sc.labels .normal = .ok l := by cases sc <;> exact ⟨_, rfl⟩
    unfold convergencePlots
    rw [hlab, Res.bind_ok, hsuf, Res.bind_ok, hc, Res.bind_ok]
    rfl
  · intro hnd
    obtain ⟨cases, hc⟩ : ∃ cases, iterCases sc (masterChoice sc) = .ok cases := by cases sc <;> exact ⟨_, rfl⟩
    obtain ⟨suffix, hsuf⟩ : ∃ l, sc.suffix .normal = .ok l := by cases sc <;> exact ⟨_, rfl⟩
    obtain ⟨labels, hlab⟩ : ∃ l, sc.labels .normal = .ok l := by cases sc <;> exact ⟨_, rfl⟩
    unfold convergencePlots at h4
    rw [hlab, Res.bind_ok, hsuf, Res.bind_ok, hc, Res.bind_ok] at h4
    cases h4
    -- the pictures are a function of the material, of which there are four
    have hsub : ∀ x ∈ (cases.filter fun p => (errors, caseName str p.1 ++ suffix) ∈ files).map (fun p =>
        ((errors, caseName str p.1 ++ suffix), caseName str p.1 ++ Kind.normal.text ++ "_convergence." ++ format)),
        x ∈ (masterChoice sc).materials.map fun v => ((errors, caseName str ⟨"mixed_rt", 2, "fitted", v⟩ ++ suffix),
          caseName str ⟨"mixed_rt", 2, "fitted", v⟩ ++ Kind.normal.text ++ "_convergence." ++ format) := by
      intro x hx
      obtain ⟨⟨c, l⟩, hcl, rfl⟩ := List.mem_map.1 hx
      have hm := (C146_cases sc (ch := masterChoice sc) (by cases sc <;> rfl) hc c l).1 (List.mem_filter.1 hcl).1
      have hcc : c = ⟨"mixed_rt", 2, "fitted", c.mPar⟩ := by
        obtain ⟨m, d, dom, mat⟩ := c
        simp only at hm
        rw [hm.1, hm.2.1, hm.2.2.1]
        cases sc <;> rfl
      exact List.mem_map.2 ⟨c.mPar, hm.2.2.2.1, by rw [← hcc]⟩
    have := (List.Nodup.subperm hnd hsub).length_le
    rw [h5, List.length_map] at this
    revert this
    cases sc <;> decide

/-- The option for one dimension finds no case: the materials there are none of the default ones. -/
theorem C146_dim_violated (sc : Scenario) (levels : List Nat) :
    iterCases sc ⟨(masterChoice sc).materials, levels, "fitted", 1⟩ = .ok [] := by
  cases sc
  · have : ([1 / 2, -1 / 2, -1, -3 / 2] : List ℚ).filter (fun mat => mat ∈ (masterChoice .one).materials) = [] := by
      decide +kernel
    show Except.ok (methods.flatMap fun m => (([1 / 2, -1 / 2, -1, -3 / 2] : List ℚ).filter
      fun mat => mat ∈ (masterChoice .one).materials).flatMap _) = _
    rw [this]
    rfl
  · have : ([1 / 2, -1 / 2, -1, -3 / 2] : List ℚ).filter (fun mat => mat ∈ (masterChoice .two).materials) = [] := by
      decide +kernel
    show Except.ok (methods.flatMap fun m => (([1 / 2, -1 / 2, -1, -3 / 2] : List ℚ).filter
      fun mat => mat ∈ (masterChoice .two).materials).flatMap _) = _
    rw [this]
    rfl

/-- A dimension without materials is refused. -/
theorem C146_refused (sc : Scenario) {ch : Choice} (h : ch.dim ≠ 1) (h' : ch.dim ≠ 2) :
    iterCases sc ch = .error .valueError ∧ Scenario.one.labels .enhanced = .error .keyError := by
  unfold iterCases
  cases sc <;> simp [Scenario.materials, materialsOne, materialsTwo, h, h', bind, Except.bind, Scenario.labels]

/-- A triangle for sizes 1/10 and 1/100. -/
example : ∃ A B C, triangle (1 / 10) (1 / 100) 3 2 1 = some (A, B, C) ∧ A.1 = 1 / 10 ∧ C.1 = 1 / 100 := by
  have h1 : log10 (1 / 10) = -1 := by
    rw [log10, one_div, Real.logb_inv, Real.logb_self_eq_one (by norm_num)]
  have h2 : log10 (1 / 100) = -2 := by
    rw [log10, show (1 / 100 : ℝ) = (10 : ℝ) ^ (-2 : ℝ) by
      rw [Real.rpow_neg (by norm_num), show (2 : ℝ) = ((2 : ℕ) : ℝ) by norm_num, Real.rpow_natCast]; norm_num]
    exact log10_pow _
  cases h : triangle (1 / 10) (1 / 100) 3 2 1 with
  | none =>
    rw [C146_no_triangle, h1, h2] at h
    norm_num at h
  | some t =>
    obtain ⟨A, B, C⟩ := t
    obtain ⟨a, -, c, -, -⟩ := C146_triangle h
    exact ⟨A, B, C, rfl, a, c⟩

/-- More curves than colours. -/
example : palette ["a", "b", "c"] 5 = ["a", "b", "c", "a", "b"] := rfl

/-- The names of the pictures end in the kind of convergence. -/
theorem C146_kinds (front format : String) :
    front ++ Kind.normal.text ++ "_convergence." ++ format = front ++ ("normal_convergence." ++ format) ∧
    front ++ Kind.enhanced.text ++ "_convergence." ++ format = front ++ ("enhanced_convergence." ++ format) := by
  constructor <;> simp only [Kind.text, String.append_assoc] <;> rw [← String.append_assoc (s₃ := format)] <;> rfl

#print axioms C146_cases

#print axioms C146_found
#print axioms C146_counts
#print axioms C146_distinct
#print axioms C146_fields
#print axioms C146_load
#print axioms C146_curves_one
#print axioms C146_curves_two
#print axioms C146_anchor
#print axioms C146_lowest
#print axioms C146_no_triangle
#print axioms C146_triangle
#print axioms C146_below
#print axioms C146_palette
#print axioms C146_bar
#print axioms C146_levels_violated
#print axioms C146_dim_violated
#print axioms C146_refused

#print axioms C146_kinds

end Verif.ScenarioPlots
