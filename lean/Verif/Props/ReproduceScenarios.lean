/-
C145: the script that reproduces the scenarios.
-/
import Mathlib.Tactic.Linarith
import Verif.Lemmas.Prelude
import Verif.Spec.ReproduceScenarios

namespace Verif.ReproduceScenarios
variable {σ : Type}

theorem command_none (p : Programs) (script : String) (x : Bool) :
    command p script none x = command p script (some []) x := rfl

theorem part_snd (sys : System σ) (p : Programs) (script : String) (e : Option (List String)) (x : Bool)
    (folder : String) (s : σ) : (part sys p script e x folder s).2 = (sys.exec (command p script e x) s).2 := by
  unfold part runScript
  by_cases h : (sys.exec (command p script e x) s).1 = 0
  · simp only [if_pos h, if_true]
  · simp only [if_neg h]
    rfl

theorem part_fst (sys : System σ) (p : Programs) (script : String) (e : Option (List String)) (x : Bool)
    (folder : String) (s : σ) : (part sys p script e x folder s).1 = true ↔
      (sys.exec (command p script e x) s).1 = 0 ∧
        ∃ n, sys.items folder (sys.exec (command p script e x) s).2 = some (n + 1) := by
  unfold part runScript
  by_cases h : (sys.exec (command p script e x) s).1 = 0
  · simp only [if_pos h, if_true, checkFolder]
    cases hi : sys.items folder (sys.exec (command p script e x) s).2 with
    | none => simp
    | some n => cases n <;> simp [h]
  · simp only [if_neg h]
    simp [h]

theorem computations_fst (sys : System σ) (p : Programs) (s : σ) :
    (runComputations sys p s).1 = true ↔ AllGood sys p computations s := by
  unfold runComputations
  rw [Bool.and_eq_true, part_fst, part_fst, part_snd]
  simp only [command_none, computations, AllGood, Job.Good, and_true]

theorem computations_snd (sys : System σ) (p : Programs) (s : σ) :
    (runComputations sys p s).2 = after sys p computations s := by
  unfold runComputations
  simp only [part_snd, command_none, computations, after]

theorem plots_fst (sys : System σ) (p : Programs) (s : σ) :
    (runPlots sys p s).1 = true ↔ AllGood sys p plots s := by
  unfold runPlots
  rw [Bool.and_eq_true, part_fst, part_fst, part_snd]
  simp only [plots, AllGood, Job.Good, and_true]

theorem plots_snd (sys : System σ) (p : Programs) (s : σ) :
    (runPlots sys p s).2 = after sys p plots s := by
  unfold runPlots
  simp only [part_snd, plots, after]

theorem allGood_append (sys : System σ) (p : Programs) (js ks : List Job) (s : σ) :
    AllGood sys p (js ++ ks) s ↔ AllGood sys p js s ∧ AllGood sys p ks (after sys p js s) := by
  induction js generalizing s with
  | nil => simp [AllGood, after]
  | cons j js ih => simp only [List.cons_append, AllGood, after, ih, and_assoc]

theorem after_append (sys : System σ) (p : Programs) (js ks : List Job) (s : σ) :
    after sys p (js ++ ks) s = after sys p ks (after sys p js s) := by
  induction js generalizing s with
  | nil => rfl
  | cons j js ih => exact ih _

/-- The code of the process is 0 exactly if every job that the flags ask for ends with 0 and leaves a folder with
something in it; otherwise it is 1. -/
theorem C145_exit (sys : System σ) (p : Programs) {argv : List String} {a b : Bool} (h : parseFlags argv = .ok (a, b))
    (s : σ) : ((main sys p argv s).1 = 0 ↔ AllGood sys p (plan a b) s) ∧
      ((main sys p argv s).1 = 1 ↔ ¬ AllGood sys p (plan a b) s) := by
  have key : ((main sys p argv s).1 = 0 ↔ AllGood sys p (plan a b) s) ∧
      ((main sys p argv s).1 = 0 ∨ (main sys p argv s).1 = 1) := by
    unfold main
    rw [h]
    simp only [plan]
    cases a with
    | true =>
      cases b with
      | true => simp [AllGood]
      | false =>
        simp only [Bool.not_true, Bool.false_eq_true, if_false, Bool.not_false, Bool.and_self, if_true, List.nil_append]
        have := plots_fst sys p s
        cases hp : (runPlots sys p s).1 with
        | true => rw [hp] at this; simp [← this]
        | false => rw [hp] at this; simp [← this]
    | false =>
      have hc := computations_fst sys p s
      have hs := computations_snd sys p s
      cases b with
      | true =>
        simp only [Bool.not_false, if_true, Bool.not_true, Bool.false_and, Bool.false_eq_true, if_false,
          List.append_nil]
        cases hp : (runComputations sys p s).1 with
        | true => rw [hp] at hc; simp [← hc]
        | false => rw [hp] at hc; simp [← hc]
      | false =>
        simp only [Bool.not_false, if_true, Bool.true_and, Bool.false_eq_true, if_false]
        rw [allGood_append, ← hs, ← hc, ← plots_fst]
        cases hp : (runComputations sys p s).1 with
        | true =>
          simp only [if_true, true_and]
          cases hq : (runPlots sys p (runComputations sys p s).2).1 <;> simp
        | false => simp [hp]
  refine ⟨key.1, ?_⟩
  rw [← key.1]
  rcases key.2 with h | h <;> rw [h] <;> decide

/-- No flag, or one of the two; anything else ends with the code 2 and runs nothing. -/
theorem C145_flags (sys : System σ) (p : Programs) (s : σ) :
    parseFlags [] = .ok (false, false) ∧ parseFlags ["--plots-only"] = .ok (true, false) ∧
    parseFlags ["--compute-only"] = .ok (false, true) ∧
    (∀ argv a b, parseFlags argv = .ok (a, b) → ¬ (a = true ∧ b = true)) ∧
    (∀ argv, (∃ t ∈ argv, t ≠ "--plots-only" ∧ t ≠ "--compute-only") ∨
      ("--plots-only" ∈ argv ∧ "--compute-only" ∈ argv) → main sys p argv s = (2, s)) := by
  have hcases : ∀ argv, (parseFlags argv = .error 2) ∨ ∃ a b, parseFlags argv = .ok (a, b) ∧
      (a = true ↔ "--plots-only" ∈ argv) ∧ (b = true ↔ "--compute-only" ∈ argv) ∧ ¬ (a = true ∧ b = true) ∧
      ∀ t ∈ argv, t = "--plots-only" ∨ t = "--compute-only" := by
    intro argv
    induction argv with
    | nil => exact .inr ⟨false, false, rfl, by simp, by simp, by simp, by simp⟩
    | cons t ts ih =>
      rw [parseFlags]
      rcases ih with h | ⟨a, b, h, ha, hb, hab, ht⟩
      · left; rw [h]; rfl
      · rw [h]
        simp only [bind, Except.bind]
        by_cases h1 : t = "--plots-only"
        · rw [if_pos h1]
          cases b with
          | true => left; rfl
          | false =>
            right
            refine ⟨true, false, rfl, by simp [h1], ?_, by simp, ?_⟩
            · rw [hb, List.mem_cons]
              have : "--compute-only" ≠ t := by rw [h1]; decide
              simp [this]
            · intro t' ht'
              rcases List.mem_cons.1 ht' with rfl | ht'
              · exact .inl h1
              · exact ht _ ht'
        · rw [if_neg h1]
          by_cases h2 : t = "--compute-only"
          · rw [if_pos h2]
            cases a with
            | true => left; rfl
            | false =>
              right
              refine ⟨false, true, rfl, ?_, by simp [h2], by simp, ?_⟩
              · rw [ha, List.mem_cons]
                have : "--plots-only" ≠ t := by rw [h2]; decide
                simp [this]
              · intro t' ht'
                rcases List.mem_cons.1 ht' with rfl | ht'
                · exact .inr h2
                · exact ht _ ht'
          · left; rw [if_neg h2]
  refine ⟨rfl, rfl, rfl, ?_, ?_⟩
  · intro argv a b h
    rcases hcases argv with h' | ⟨a', b', h', -, -, hn, -⟩
    · rw [h] at h'; cases h'
    · rw [h] at h'; cases h'; exact hn
  · intro argv hbad
    rcases hcases argv with h' | ⟨a', b', h', ha, hb, hn, ht⟩
    · unfold main; rw [h']
    · exfalso
      rcases hbad with ⟨t, htm, h1, h2⟩ | ⟨h1, h2⟩
      · rcases ht t htm with h | h
        · exact h1 h
        · exact h2 h
      · exact hn ⟨ha.2 h1, hb.2 h2⟩

theorem after_noting (sys : System σ) (p : Programs) (js : List Job) (s : σ × List (List String)) :
    after sys.noting p js s = (after sys p js s.1, s.2 ++ commands p js) := by
  induction js generalizing s with
  | nil => simp [after, commands]
  | cons j js ih =>
    rw [after, ih]
    simp [System.noting, after, commands]

/-- Both computations are started even if the first fails; the pictures only if both succeeded (or are all that is asked
for); then both of them. -/
theorem C145_order (sys : System σ) (p : Programs) (s : σ × List (List String)) :
    ((main sys.noting p ["--compute-only"] s).2.2 = s.2 ++ commands p computations) ∧
    ((main sys.noting p ["--plots-only"] s).2.2 = s.2 ++ commands p plots) ∧
    (AllGood sys.noting p computations s →
      (main sys.noting p [] s).2.2 = s.2 ++ commands p (computations ++ plots)) ∧
    (¬ AllGood sys.noting p computations s → (main sys.noting p [] s).2.2 = s.2 ++ commands p computations) := by
  refine ⟨?_, ?_, ?_, ?_⟩
  · show (runComputations sys.noting p s).2.2 = _
    rw [computations_snd, after_noting]
  · show (runPlots sys.noting p s).2.2 = _
    rw [plots_snd, after_noting]
  · intro h
    have := (computations_fst sys.noting p s).2 h
    show ((if (runComputations sys.noting p s).1 = true then runPlots sys.noting p (runComputations sys.noting p s).2
      else runComputations sys.noting p s).2).2 = _
    rw [if_pos this, plots_snd, computations_snd, after_noting, after_noting]
    simp [commands]
  · intro h
    have : ¬ (runComputations sys.noting p s).1 = true := fun hc => h ((computations_fst sys.noting p s).1 hc)
    show ((if (runComputations sys.noting p s).1 = true then runPlots sys.noting p (runComputations sys.noting p s).2
      else runComputations sys.noting p s).2).2 = _
    rw [if_neg this, computations_snd, after_noting]

/-- The commands: `uv run` if there is uv, the same interpreter otherwise; a virtual display only for the pictures. -/
theorem C145_command (u x py script : String) (args : List String) :
    command ⟨none, none, py⟩ script (some args) true = py :: script :: args ∧
    command ⟨some u, none, py⟩ script (some args) true = u :: "run" :: script :: args ∧
    command ⟨none, some x, py⟩ script (some args) true = x :: "--auto-servernum" :: py :: script :: args ∧
    command ⟨some u, some x, py⟩ script (some args) true = x :: "--auto-servernum" :: u :: "run" :: script :: args ∧
    command ⟨some u, some x, py⟩ script none false = [u, "run", script] ∧
    command ⟨none, some x, py⟩ script none false = [py, script] :=
  ⟨rfl, rfl, rfl, rfl, rfl, rfl⟩

/-- The plotting scripts accept what they are given; they read from the folder that was checked after the computation,
write into the folder that is checked after them, and ask only for levels that were computed (0 to 6). -/
theorem C145_arguments : ∃ one two, parse optionsOne plotArgsOne = .ok one ∧ parse optionsTwo plotArgsTwo = .ok two ∧
    one = [("--vtks", ["output_scenario_1"]), ("--errors", ["output_scenario_1"]), ("--figures", ["figures_scenario_1"]),
      ("--plot-fields", []), ("--plot-fields-2d", []), ("--plot-normal", []), ("--levels", ["2", "3", "4", "5", "6"]),
      ("--field-resolution", ["1600", "1600"]), ("--color-bar-width", ["0.04"]), ("--camera-zoom", ["1.1"])] ∧
    two = [("--vtks", ["output_scenario_2"]), ("--errors", ["output_scenario_2"]), ("--figures", ["figures_scenario_2"]),
      ("--plot-fields", []), ("--plot-fields-2d", []), ("--plot-normal", []), ("--plot-enhanced", []),
      ("--levels", ["2", "3", "4", "5", "6"]),
      ("--field-resolution", ["1600", "1600"]), ("--color-bar-width", ["0.04"]), ("--camera-zoom", ["1.1"])] ∧
    (∀ o ∈ one ++ two, o.1 = "--levels" → ∀ l ∈ o.2, l ∈ ["0", "1", "2", "3", "4", "5", "6"]) ∧
    (plots.map Job.folder = ["figures_scenario_1", "figures_scenario_2"]) ∧
    (computations.map Job.folder = ["output_scenario_1", "output_scenario_2"]) :=
  ⟨_, _, rfl, rfl, rfl, rfl, by decide, rfl, rfl⟩

/-- The first script has no picture of enhanced rates and refuses the option for it. -/
theorem C145_options : parse optionsOne plotArgsTwo = .error 2 := rfl

/-- `find_repo_root` gives the nearest of the folder and its parents with a repository, or the folder itself. -/
theorem C145_root (hasGit : List String → Bool) (start : List String) :
    (∀ n ≤ start.length, hasGit (start.take (start.length - n)) = true →
      (∀ m < n, hasGit (start.take (start.length - m)) = false) →
        findRoot hasGit start = start.take (start.length - n)) ∧
    ((∀ n ≤ start.length, hasGit (start.take (start.length - n)) = false) → findRoot hasGit start = start) := by
  constructor
  · intro n hn hg hm
    have hf : (withParents start).find? hasGit = some (start.take (start.length - n)) := by
      rw [List.find?_eq_some_iff_getElem]
      refine ⟨hg, n, by simp [withParents]; omega, ?_, ?_⟩
      · simp [withParents]
      · intro j hj
        simp only [withParents, List.getElem_map, List.getElem_range, hm j hj, Bool.not_false]
    rw [findRoot, hf]
  · intro h
    have hf : (withParents start).find? hasGit = none := by
      rw [List.find?_eq_none]
      intro x hx
      obtain ⟨n, hn, rfl⟩ := List.mem_map.1 hx
      rw [h n (by have := List.mem_range.1 hn; omega)]
      decide
    rw [findRoot, hf]

/-- A folder that has to exist is found or refused; the working directory comes first, then the repository, then the
folder of the script. -/
theorem C145_resolve (there : List String → Bool) (cwd root script raw : List String) :
    (∀ c, resolve there cwd root script false raw false = some c → there c = true) ∧
    (resolve there cwd root script false raw false = none ↔
      there (cwd ++ raw) = false ∧ there (root ++ raw) = false ∧ there (script ++ raw) = false) ∧
    (∀ m, there (cwd ++ raw) = true → resolve there cwd root script false raw m = some (cwd ++ raw)) ∧
    (∀ m, there (cwd ++ raw) = false → there (root ++ raw) = true →
      resolve there cwd root script false raw m = some (root ++ raw)) ∧
    (∀ m, resolve there cwd root script true raw m = if there raw || m then some raw else none) := by
  refine ⟨?_, ?_, ?_, ?_, fun _ => rfl⟩
  · intro c h
    unfold resolve at h
    cases h1 : there (cwd ++ raw) <;> cases h2 : there (root ++ raw) <;> cases h3 : there (script ++ raw) <;>
      simp [h1, h2, h3] at h <;> subst h <;> assumption
  · unfold resolve
    cases h1 : there (cwd ++ raw) <;> cases h2 : there (root ++ raw) <;> cases h3 : there (script ++ raw) <;>
      simp [h1, h2, h3]
  · intro m h
    simp [resolve, h]
  · intro m h h'
    simp [resolve, h, h']

/-- Started by the master script (in the folder of the script), the pictures go where they are looked for, unless the
repository has a folder of that name and the examples have not. -/
theorem C145_figures (there : List String → Bool) (root script raw : List String) (h : there (root ++ raw) = false) :
    resolve there script root script false raw true = some (script ++ raw) := by
  unfold resolve
  cases h1 : there (script ++ raw) <;> simp [h, h1]

/-- By itself a plotting script has the default folder `examples/degenerate_elliptic_scalar/figures_scenario_1`, which is
meant from the root of the repository.  As long as it does not exist, the pictures go into a folder of that name below
the folder of the script, from wherever the script is started. -/
theorem C145_default_figures_violated (there : List String → Bool) (cwd root : List String)
    (script : List String) (hs : script = root ++ ["examples", "degenerate_elliptic_scalar"])
    (raw : List String) (hr : raw = ["examples", "degenerate_elliptic_scalar", "figures_scenario_1"])
    (hc : cwd = root ∨ cwd = script)
    (h1 : there (root ++ raw) = false) (h2 : there (script ++ raw) = false) :
    resolve there cwd root script false raw true = some (root ++ ["examples", "degenerate_elliptic_scalar",
      "examples", "degenerate_elliptic_scalar", "figures_scenario_1"]) ∧
    resolve there cwd root script false raw true ≠ some (script ++ ["figures_scenario_1"]) := by
  have e : resolve there cwd root script false raw true = some (script ++ raw) := by
    unfold resolve
    rcases hc with rfl | rfl <;> simp [h1, h2]
  rw [e, hs, hr]
  refine ⟨by simp, ?_⟩
  intro h
  simp at h

/-- A run that leaves everything as it was succeeds if the folders are there from before: success does not show that
anything was written. -/
theorem C145_stale_violated (p : Programs) : main (σ := Unit) ⟨fun _ s => (0, s), fun _ _ => some 1⟩ p [] () = (0, ()) :=
  rfl

/-- A system where the second computation fails: the code is 1, and no picture is drawn. -/
example : (main (σ := List (List String)) ⟨fun c s => (if c = ["python", "darcy_elliptic_degenerate_scenario_2.py"] then 1 else 0,
    s ++ [c]), fun _ _ => some 3⟩ ⟨none, none, "python"⟩ [] []) =
    (1, [["python", "darcy_elliptic_degenerate_scenario_1.py"], ["python", "darcy_elliptic_degenerate_scenario_2.py"]]) :=
  rfl

/-- Both flags. -/
example (sys : System σ) (p : Programs) (s : σ) : main sys p ["--plots-only", "--compute-only"] s = (2, s) :=
  (C145_flags sys p s).2.2.2.2 _ (.inr ⟨by simp, by simp⟩)

example : findRoot (fun d => d = ["home", "nfempy"]) ["home", "nfempy", "examples", "degenerate_elliptic_scalar"] =
    ["home", "nfempy"] := rfl

#print axioms C145_exit

#print axioms C145_flags
#print axioms C145_order
#print axioms C145_command
#print axioms C145_arguments
#print axioms C145_options
#print axioms C145_root
#print axioms C145_resolve
#print axioms C145_figures
#print axioms C145_default_figures_violated
#print axioms C145_stale_violated

end Verif.ReproduceScenarios
