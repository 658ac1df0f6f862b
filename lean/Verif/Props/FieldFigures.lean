/-
Property theorems C164: the scripts that draw fields read the files that the drivers write.
-/
import Verif.Model.FieldFigures
import Mathlib.Tactic.IntervalCases
import Mathlib.Tactic.NormNum
import Mathlib.Tactic.Linarith

namespace Verif.FieldFigures
open Verif.ErrorPlots Verif.Strong.Cosserat3

theorem readOne_eq (dir : List File) (ending filter : String) :
    readOne dir ending filter = match dir.filter fun f => globbed ending f.1 && inName filter f.1 with
      | [f] => .ok f
      | [] => .error .assertion
      | _ :: _ :: _ => .error .assertion := by
  rw [readOne, List.filter_filter]
  simp only [Bool.and_comm]
  generalize dir.filter _ = l
  rcases l with _ | ⟨a, _ | _⟩ <;> rfl

/-- The order of the file system is of no importance. -/
theorem readOne_perm {dir files others : List File} {ending filter : String} {f : File}
    (hp : dir.Perm (files ++ others)) (hf : files.filter (fun f => globbed ending f.1 && inName filter f.1) = [f])
    (ho : ∀ f ∈ others, (globbed ending f.1 && inName filter f.1) = false) :
    readOne dir ending filter = .ok f := by
  have h1 := hp.filter fun f => globbed ending f.1 && inName filter f.1
  rw [List.filter_append, hf] at h1
  have h2 : others.filter (fun f => globbed ending f.1 && inName filter f.1) = [] := by
    rw [List.filter_eq_nil_iff]
    intro n hn
    rw [ho n hn]; simp
  rw [h2, List.append_nil, List.perm_singleton] at h1
  rw [readOne_eq, h1]

theorem written {dims : List Nat} {f : File} (hf : f ∈ exampleThree dims) : f ∈ exampleThree [3, 2, 1, 0] := by
  simp only [exampleThree, List.mem_append] at hf ⊢
  refine hf.imp_left (Or.imp_left fun h => ?_)
  simp only [geometryFiles, List.mem_map, List.mem_filter] at h ⊢
  obtain ⟨d, ⟨h1, -⟩, h2⟩ := h
  exact ⟨d, ⟨h1, by simpa using h1⟩, h2⟩

/-- A file of the geometry is written for a dimension exactly if there are cells of it. -/
theorem C164_geometry (dims : List Nat) (d : Nat) (hd : d ≤ 3) :
    ("geometric_mesh_" ++ toString d ++ "d.vtk", []) ∈ geometryFiles dims ↔ d ∈ dims := by
  simp only [geometryFiles, List.mem_map, List.mem_filter, decide_eq_true_eq]
  constructor
  · rintro ⟨e, ⟨he, hm⟩, h⟩
    have : e = d := by
      have h' : "geometric_mesh_" ++ toString e ++ "d.vtk" = "geometric_mesh_" ++ toString d ++ "d.vtk" := congrArg Prod.fst h
      clear h hm
      revert h'
      have he3 : e ≤ 3 := by simp at he; omega
      interval_cases e <;> interval_cases d <;> decide
    exact this ▸ hm
  · intro h
    refine ⟨d, ⟨?_, h⟩, rfl⟩
    interval_cases d <;> simp

/-- The figure of the couple stress draws the couple stress of the second method of order one on the triangles of the mesh,
whatever the order of the directory and whatever other files there are, if these do not match. -/
theorem C164_couple {dir others : List File} (hp : dir.Perm (exampleThree [3, 2] ++ others))
    (ho : ∀ f ∈ others, (globbed "_four_fields_scaled_ex_3.vtk" f.1 && inName "wc_bdm_k1_3d" f.1) = false ∧
      globbed "geometric_mesh_2d.vtk" f.1 = false) :
    coupleStress dir = .ok ("wc_bdm_k1_3d_four_fields_scaled_ex_3.vtk", "geometric_mesh_2d.vtk", ["m_h"]) := by
  have h1 : readOne dir "_four_fields_scaled_ex_3.vtk" "wc_bdm_k1_3d"
      = .ok ("wc_bdm_k1_3d_four_fields_scaled_ex_3.vtk", pointData ["s", "m", "u", "t"]) :=
    readOne_perm hp (by decide +kernel) fun f hf => (ho f hf).1
  have h2 : readOne dir "geometric_mesh_2d.vtk" "geometric_mesh_2d.vtk" = .ok ("geometric_mesh_2d.vtk", []) :=
    readOne_perm hp (by decide +kernel) fun f hf => by rw [(ho f hf).2]; rfl
  rw [coupleStress, h1, h2]
  rfl

example : ∃ dir others : List File, others ≠ [] ∧ dir.Perm (exampleThree [3, 2] ++ others) ∧
    ∀ f ∈ others, (globbed "_four_fields_scaled_ex_3.vtk" f.1 && inName "wc_bdm_k1_3d" f.1) = false ∧
      globbed "geometric_mesh_2d.vtk" f.1 = false :=
  ⟨("notes.txt", []) :: exampleThree [3, 2], [("notes.txt", [])], by simp, (List.perm_append_comm (l₁ := [_])), by decide +kernel⟩

/-- Without triangles in the mesh it is not drawn. -/
theorem C164_couple_triangles : (coupleStress (exampleThree [3])) = .error .assertion := by
  have h1 : readOne (exampleThree [3]) "_four_fields_scaled_ex_3.vtk" "wc_bdm_k1_3d"
      = .ok ("wc_bdm_k1_3d_four_fields_scaled_ex_3.vtk", pointData ["s", "m", "u", "t"]) :=
    readOne_perm (others := []) (by rw [List.append_nil]) (by decide +kernel) (by simp)
  have h2 : (exampleThree [3]).filter (fun f => globbed "geometric_mesh_2d.vtk" f.1 && inName "geometric_mesh_2d.vtk" f.1)
      = [] := by decide +kernel
  rw [coupleStress, h1, readOne_eq, h2]
  rfl

/-- No file of the example has the ending that the figure of the length scale looks for, nor its filter in its name: the
script ends in `AssertionError`. -/
theorem C164_epsilon_violated {dir : List File} {dims : List Nat} (hd : ∀ f ∈ dir, f ∈ exampleThree dims) :
    epsilonFigure dir = .error .assertion := by
  have h0 : ∀ f ∈ exampleThree [3, 2, 1, 0], globbed "_gamma_scale_ex_3.vtk" f.1 = false := by decide +kernel
  have h : dir.filter (fun f => globbed "_gamma_scale_ex_3.vtk" f.1 && inName "wc_bdm_k1_d3" f.1) = [] := by
    rw [List.filter_eq_nil_iff]
    intro f hf
    rw [h0 f (written (hd f hf))]; simp
  rw [epsilonFigure, epsilonWith, readOne_eq, h]
  rfl

/-- The filter alone is enough for that, and with both names of the driver the field is missing. -/
theorem C164_epsilon_names_violated {dir : List File} (hp : dir.Perm (exampleThree [3, 2])) :
    epsilonWith "_lc_scale_ex_3.vtk" "wc_bdm_k1_d3" dir = .error .assertion ∧
    epsilonWith "_gamma_scale_ex_3.vtk" "wc_bdm_k1_3d" dir = .error .assertion ∧
    epsilonWith "_lc_scale_ex_3.vtk" "wc_bdm_k1_3d" dir = .error .key := by
  have key : ∀ e f : String, (exampleThree [3, 2]).filter (fun g => globbed e g.1 && inName f g.1) = [] →
      epsilonWith e f dir = .error .assertion := by
    intro e f h
    have h1 := hp.filter fun g => globbed e g.1 && inName f g.1
    rw [h, List.perm_nil] at h1
    rw [epsilonWith, readOne_eq, h1]
    rfl
  have hp' : dir.Perm (exampleThree [3, 2] ++ []) := by rwa [List.append_nil]
  refine ⟨key _ _ (by decide +kernel), key _ _ (by decide +kernel), ?_⟩
  have h1 : readOne dir "_lc_scale_ex_3.vtk" "wc_bdm_k1_3d" = .ok ("wc_bdm_k1_3d_lc_scale_ex_3.vtk", ["l_e", "grad_l_e"]) :=
    readOne_perm hp' (by decide +kernel) (by simp)
  have h2 : readOne dir "geometric_mesh_2d.vtk" "geometric_mesh_2d.vtk" = .ok ("geometric_mesh_2d.vtk", []) :=
    readOne_perm hp' (by decide +kernel) (by simp)
  rw [epsilonWith, h1, h2]
  rfl

/-- The figure of the four fields reads a file of a method that the example does not have. -/
theorem C164_fields_violated {dir : List File} {dims : List Nat} (hd : ∀ f ∈ dir, f ∈ exampleThree dims) :
    fourFields dir = .error .fileNotFound := by
  have h0 : ∀ f ∈ exampleThree [3, 2, 1, 0], (f.1 == "m2_dnc_k2_d3_four_fields_scaled_ex_3.vtk") = false := by decide +kernel
  have h : dir.find? (fun f => f.1 == "m2_dnc_k2_d3_four_fields_scaled_ex_3.vtk") = none := by
    rw [List.find?_eq_none]
    intro f hf
    rw [h0 f (written (hd f hf))]; simp
  rw [fourFields, read, h]
  rfl

/-- The same script draws the four fields if it is given a file with them under the name it reads. -/
theorem C164_fields_given :
    fourFields (("m2_dnc_k2_d3_four_fields_scaled_ex_3.vtk", pointData ["s", "m", "u", "t"]) :: geometryFiles [3, 2])
      = .ok ("m2_dnc_k2_d3_four_fields_scaled_ex_3.vtk", "geometric_mesh_2d.vtk", ["s_h", "m_h", "u_h", "t_h"]) := by
  rfl

/-- The driver of the problem of Oden runs in dimension one and writes no triangles: no figure is drawn. -/
theorem C164_oden_violated : odenFigures (odenFiles [1, 0]) = .error .fileNotFound := by
  rfl

/-- In dimension two the three figures are drawn: both fluxes, the exact flux, both fluxes along a line. -/
theorem C164_oden : odenFigures (odenFiles [2, 1, 0]) = .ok
    (("rates_hdiv_model_problem.vtk", "geometric_mesh_2d.vtk", ["q_h", "q_e"]),
     ("rates_hdiv_model_problem.vtk", "geometric_mesh_2d.vtk", ["q_e"]),
     ("rates_hdiv_model_problem.vtk", ["q_h", "q_e"])) := by
  rfl

/-- The function of figure 6 is the length scale of the example on the side `z = 0`, and the length scale in dimension two. -/
theorem C164_ell (x y : ℝ) : epsilon x y = gammaEval3 x y 0 ∧ ∀ z, epsilon x y = gammaEval2 x y z := by
  refine ⟨?_, fun z => rfl⟩
  rw [epsilon, gammaEval3]
  congr 1
  rcases le_total 0 (max (3 * x) (3 * y)) with h | h
  · rw [mul_zero, max_eq_left h]
  · rw [mul_zero, max_eq_right h, max_eq_left (by linarith), max_eq_left (by linarith)]

/-- It is zero exactly on the square below one third and one exactly outside the square below two thirds. -/
theorem C164_regions (x y : ℝ) :
    (epsilon x y = 0 ↔ x ≤ 1 / 3 ∧ y ≤ 1 / 3) ∧ (epsilon x y = 1 ↔ 2 / 3 ≤ x ∨ 2 / 3 ≤ y) := by
  rw [epsilon]
  constructor
  · constructor
    · intro h
      have h' : max 0 (max (3 * x) (3 * y) - 1) ≤ 0 := by
        rcases min_choice 1 (max 0 (max (3 * x) (3 * y) - 1)) with e | e
        · rw [e] at h; norm_num at h
        · rw [e] at h; exact h.le
      have h1 := (le_max_right 0 (max (3 * x) (3 * y) - 1)).trans h'
      have h2 := le_max_left (3 * x) (3 * y)
      have h3 := le_max_right (3 * x) (3 * y)
      constructor <;> linarith
    · rintro ⟨h1, h2⟩
      have h3 : max (3 * x) (3 * y) ≤ 1 := max_le (by linarith) (by linarith)
      rw [max_eq_left (by linarith), min_eq_right zero_le_one]
  · rw [min_eq_left_iff, le_max_iff]
    constructor
    · rintro (h | h)
      · norm_num at h
      · rcases le_max_iff.1 (show (2 : ℝ) ≤ max (3 * x) (3 * y) by linarith) with g | g
        · left; linarith
        · right; linarith
    · rintro (h | h)
      · right; have := le_max_left (3 * x) (3 * y); linarith
      · right; have := le_max_right (3 * x) (3 * y); linarith

/-- The labels `ℓ = 1` and `ℓ = 0` are where these values are. -/
theorem C164_labels : epsilon (3 / 4) (3 / 4) = 1 ∧ epsilon (3 / 20) (3 / 20) = 0 :=
  ⟨(C164_regions _ _).2.2 (by norm_num), (C164_regions _ _).1.2 (by norm_num)⟩

/-- Between the squares it is `3 x₁ - 1` or `3 x₂ - 1`: the labels `ℓ = x₁` and `ℓ = x₂` hold on the line at one half only.
The second label stands on that line, the first does not. -/
theorem C164_labels_violated :
    (∀ x y : ℝ, 1 / 3 ≤ x → x ≤ 2 / 3 → y ≤ x → epsilon x y = 3 * x - 1 ∧ (epsilon x y = x ↔ x = 1 / 2)) ∧
    (∀ x y : ℝ, 1 / 3 ≤ y → y ≤ 2 / 3 → x ≤ y → epsilon x y = 3 * y - 1 ∧ (epsilon x y = y ↔ y = 1 / 2)) ∧
    epsilon (9 / 20) (3 / 20) ≠ 9 / 20 ∧ epsilon (3 / 20) (1 / 2) = 1 / 2 := by
  have h1 : ∀ x y : ℝ, 1 / 3 ≤ x → x ≤ 2 / 3 → y ≤ x → epsilon x y = 3 * x - 1 := by
    intro x y a b c
    rw [epsilon, max_eq_left (show 3 * y ≤ 3 * x by linarith), max_eq_right (by linarith), min_eq_right (by linarith)]
  have h2 : ∀ x y : ℝ, 1 / 3 ≤ y → y ≤ 2 / 3 → x ≤ y → epsilon x y = 3 * y - 1 := by
    intro x y a b c
    rw [epsilon, max_eq_right (show 3 * x ≤ 3 * y by linarith), max_eq_right (by linarith), min_eq_right (by linarith)]
  refine ⟨fun x y a b c => ⟨h1 x y a b c, ?_⟩, fun x y a b c => ⟨h2 x y a b c, ?_⟩, ?_, ?_⟩
  · rw [h1 x y a b c]; constructor <;> intro h <;> linarith
  · rw [h2 x y a b c]; constructor <;> intro h <;> linarith
  · rw [h1 _ _ (by norm_num) (by norm_num) (by norm_num)]; norm_num
  · rw [h2 _ _ (by norm_num) (by norm_num) (by norm_num)]; norm_num

#print axioms C164_couple

#print axioms C164_geometry
#print axioms C164_couple_triangles
#print axioms C164_epsilon_violated
#print axioms C164_epsilon_names_violated
#print axioms C164_fields_violated
#print axioms C164_fields_given
#print axioms C164_oden_violated
#print axioms C164_oden
#print axioms C164_ell
#print axioms C164_regions
#print axioms C164_labels
#print axioms C164_labels_violated

end Verif.FieldFigures
