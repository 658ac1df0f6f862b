/-
C158: the files of the driver of the degenerate flow model and those that its plots read.
-/
import Verif.Model.ArbogastPlots
import Verif.Lemmas.Prelude

namespace Verif.ArbogastPlots

/-- C158.  A folder goes before the name, with a slash. -/
theorem C158_folder (str : ℚ → String) (method : String) (dim : Nat) (domain : String) (m : ℚ) (f : String) :
    caseName str method dim domain m (some f) = f ++ "/" ++ caseName str method dim domain m none := by
  simp only [caseName, String.append_assoc]

/-- C158.  The driver runs three pairs of a method and a dimension, each on two domains with one material. -/
theorem C158_cases : (cases (methods 0) [1, 2]).toOption = some
    [⟨"mixed_rt", 1, "fitted", 1 / 2⟩, ⟨"mixed_rt", 1, "unfitted", 1 / 2⟩, ⟨"mixed_rt", 2, "fitted", 2⟩,
      ⟨"mixed_rt", 2, "unfitted", 2⟩, ⟨"mixed_bdm", 2, "fitted", 2⟩, ⟨"mixed_bdm", 2, "unfitted", 2⟩] := by
  decide +kernel

/-- C158.  Other dimensions are refused, unless all methods are skipped. -/
theorem C158_rejects {dim : Nat} (h1 : dim ≠ 1) (h2 : dim ≠ 2) (m : String) (ms : List String) :
    cases (m :: ms) [dim] = .error .valueError := by
  simp [cases, materials, h1, h2, bind, Except.bind]

/-- C158.  With the driver's folder, a level below five and the suffix of a picture, the file that a plot reads is one
that the driver writes for the case. -/
theorem C158_read (str : ℚ → String) (folder : String) (f : Filters) (c : Case) {p : String} (hp : p ∈ pictures)
    (hs : f.suffix = "_" ++ p) (hl : f.l < 5) : readName str folder f c ∈ caseFiles str 5 folder c := by
  simp only [caseFiles, List.mem_append, List.mem_flatMap, List.mem_map, List.mem_range]
  refine Or.inl ⟨f.l, hl, p, hp, ?_⟩
  simp only [readName, hs, String.append_assoc]

example : "physical_two_fields.vtk" ∈ pictures ∧ filters2d.suffix = "_" ++ "physical_two_fields.vtk" ∧ filters2d.l < 5 := by
  decide +kernel

/-- C158, disagreement.  The script draws nothing: the driver's only plane material has the parameter 2, and the filter
asks for 1. -/
theorem C158_nothing_violated : (drawn (methods 0) scriptDims filters2d).toOption = some ([], []) := by
  decide +kernel

/-- C158.  A plane case is drawn for both domains as soon as the filter holds the driver's parameter. -/
theorem C158_would : (drawn (methods 0) scriptDims { filters2d with parameter := [2] }).toOption =
    some ([⟨"mixed_rt", 2, "fitted", 2⟩, ⟨"mixed_rt", 2, "unfitted", 2⟩], []) := by
  decide +kernel

/-- C158, disagreement.  The methods are used up by one call, so that a second call (the one that is commented out)
draws nothing, whatever its dimensions and filters. -/
theorem C158_second_violated {ms : List String} {dims : List Nat} {f : Filters} {r : List Case × List String}
    (h : drawn ms dims f = .ok r) (dims' : List Nat) (f' : Filters) : drawn r.2 dims' f' = .ok ([], []) := by
  unfold drawn at h
  obtain ⟨cs, -, h2⟩ := Res.bind_eq_ok.1 h
  cases h2
  rfl

example : ∃ r, drawn (methods 0) scriptDims { filters2d with parameter := [2] } = .ok r ∧ r.1.length = 2 :=
  ⟨_, rfl, by decide +kernel⟩

/-- The part of a name before the parameter -/
def front (folder : String) (c : Case) : String :=
  folder ++ "/" ++ c.method ++ "_" ++ toString c.dimension ++ "d_" ++ c.domain ++ "_" ++ "material_parameter_"

theorem caseName_front (str : ℚ → String) (folder : String) (c : Case) :
    caseName str c.method c.dimension c.domain c.material (some folder) = front folder c ++ (str c.material ++ "_") := by
  simp only [caseName, front, String.append_assoc]

theorem mem_caseFiles {str : ℚ → String} {n : Nat} {folder : String} {c : Case} {x : String}
    (h : x ∈ caseFiles str n folder c) : ∃ y, x = front folder c ++ y := by
  simp only [caseFiles, List.mem_append, List.mem_flatMap, List.mem_map, List.mem_range, List.mem_cons,
    List.not_mem_nil, or_false] at h
  rcases h with ⟨l, -, p, -, rfl⟩ | rfl | rfl <;>
  · rw [caseName_front]
    exact ⟨_, by simp only [String.append_assoc]; rfl⟩

/-- The cases of the driver -/
def driverCases : List Case :=
  [⟨"mixed_rt", 1, "fitted", 1 / 2⟩, ⟨"mixed_rt", 1, "unfitted", 1 / 2⟩, ⟨"mixed_rt", 2, "fitted", 2⟩,
    ⟨"mixed_rt", 2, "unfitted", 2⟩, ⟨"mixed_bdm", 2, "fitted", 2⟩, ⟨"mixed_bdm", 2, "unfitted", 2⟩]

theorem written_eq (str : ℚ → String) :
    written str = .ok (driverCases.flatMap (caseFiles str 5 "output_arbogast_taicher")) := by
  have h := C158_cases
  unfold written
  cases hc : cases (methods 0) [1, 2] with
  | error e => rw [hc] at h; simp [Except.toOption] at h
  | ok cs =>
    rw [hc] at h
    simp only [Except.toOption, Option.some.injEq] at h
    subst h
    rfl

theorem clash {p q x y : String} (h : p ++ x = q ++ y) : p.toList <+: q.toList ∨ q.toList <+: p.toList := by
  have h' := congrArg String.toList h
  simp only [String.toList_append] at h'
  exact List.prefix_or_prefix_of_prefix ⟨_, rfl⟩ ⟨_, h'.symm⟩

/-- C158, disagreement.  The script looks in the folder `output`; no file that the driver writes is there, whatever the
filters and the case, and however floats are printed. -/
theorem C158_missing_violated (str : ℚ → String) (f : Filters) (c : Case) {files : List String}
    (h : written str = .ok files) : readName str sourceFolder f c ∉ files := by
  rw [written_eq] at h
  cases h
  intro hm
  obtain ⟨d, hd, hx⟩ := List.mem_flatMap.1 hm
  obtain ⟨y, hy⟩ := mem_caseFiles hx
  have e1 : readName str sourceFolder f c = "output/" ++ (c.method ++ "_" ++ toString c.dimension ++ "d_" ++ c.domain ++
      "_" ++ "material_parameter_" ++ str c.material ++ "_" ++ ("l_" ++ toString f.l ++ f.suffix)) := by
    have e : ("output/" : String) = "output" ++ "/" := by decide +kernel
    simp only [readName, caseName, sourceFolder, e, String.append_assoc]
  have e2 : front "output_arbogast_taicher" d = "output_" ++ ("arbogast_taicher" ++ "/" ++ d.method ++ "_" ++
      toString d.dimension ++ "d_" ++ d.domain ++ "_" ++ "material_parameter_") := by
    have e : ("output_arbogast_taicher" : String) = "output_" ++ "arbogast_taicher" := by decide +kernel
    simp only [front, e, String.append_assoc]
  rw [e1, e2] at hy
  rcases clash (hy.trans String.append_assoc) with h | h
  · exact absurd h (by decide +kernel)
  · exact absurd h (by decide +kernel)

example (str : ℚ → String) : ∃ files, written str = .ok files := ⟨_, written_eq str⟩

/-- C158.  From the driver's folder and with the driver's parameter in the filter, every file that is read exists. -/
theorem C158_found (str : ℚ → String) : ∃ files r,
    written str = .ok files ∧ drawn (methods 0) scriptDims { filters2d with parameter := [2] } = .ok r ∧
      r.1 ≠ [] ∧ ∀ c ∈ r.1, readName str "output_arbogast_taicher" filters2d c ∈ files := by
  have hw := C158_would
  cases hd : drawn (methods 0) scriptDims { filters2d with parameter := [2] } with
  | error e => rw [hd] at hw; simp [Except.toOption] at hw
  | ok r =>
    rw [hd] at hw
    simp only [Except.toOption, Option.some.injEq] at hw
    subst hw
    refine ⟨_, _, written_eq str, rfl, by simp, fun c hc => ?_⟩
    refine List.mem_flatMap.2 ⟨c, ?_, C158_read str _ filters2d c (p := "physical_two_fields.vtk") (by decide +kernel)
      (by decide +kernel) (by decide +kernel)⟩
    revert c
    decide +kernel

/-- C158.  No file of the driver is written twice, however floats are printed: 6 cases with 22 files each. -/
theorem C158_distinct (str : ℚ → String) {files : List String} (h : written str = .ok files) :
    files.Nodup ∧ files.length = 132 := by
  rw [written_eq] at h
  cases h
  constructor
  · rw [List.nodup_flatMap]
    constructor
    · intro c _
      have hn : (((List.range 5).flatMap fun l => pictures.map fun p => "l_" ++ toString l ++ "_" ++ p) ++
          ["normal_conv_data.txt", "enhanced_conv_data.txt"]).Nodup := by decide +kernel
      have he : caseFiles str 5 "output_arbogast_taicher" c =
          (((List.range 5).flatMap fun l => pictures.map fun p => "l_" ++ toString l ++ "_" ++ p) ++
            ["normal_conv_data.txt", "enhanced_conv_data.txt"]).map
            (caseName str c.method c.dimension c.domain c.material (some "output_arbogast_taicher") ++ ·) := by
        simp only [caseFiles, List.map_append, List.map_flatMap, List.map_map, Function.comp_def, String.append_assoc,
          List.map_cons, List.map_nil]
      rw [he]
      refine hn.map fun a b hab => ?_
      have := congrArg String.toList hab
      simp only [String.toList_append, List.append_cancel_left_eq] at this
      exact String.toList_inj.1 this
    · have hp : driverCases.Pairwise fun c d =>
          ¬ ((front "output_arbogast_taicher" c).toList <+: (front "output_arbogast_taicher" d).toList) ∧
          ¬ ((front "output_arbogast_taicher" d).toList <+: (front "output_arbogast_taicher" c).toList) := by
        decide +kernel
      refine hp.imp fun {c d} hcd => ?_
      intro x hx hy
      obtain ⟨a, ha⟩ := mem_caseFiles hx
      obtain ⟨b, hb⟩ := mem_caseFiles hy
      rcases clash (ha.symm.trans hb) with h | h
      · exact hcd.1 h
      · exact hcd.2 h
  · simp [driverCases, caseFiles, pictures]

/-- C158, disagreement.  The name of a figure tells neither the level nor the suffix, so that figures of two levels go
to one file. -/
theorem C158_figure_violated (str : ℚ → String) (folder format : String) (f : Filters) (c : Case) (l : Nat)
    (suffix : String) :
    figureName str folder format { f with l := l, suffix := suffix } c = figureName str folder format f c := rfl

#print axioms C158_folder

#print axioms C158_cases
#print axioms C158_rejects
#print axioms C158_read
#print axioms C158_nothing_violated
#print axioms C158_would
#print axioms C158_second_violated
#print axioms C158_missing_violated
#print axioms C158_found
#print axioms C158_distinct
#print axioms C158_figure_violated

end Verif.ArbogastPlots
