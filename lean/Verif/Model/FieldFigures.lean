/-
Model of the scripts that draw fields on meshes: which files they read and which fields they take, and the function that
figure 6 draws.

* examples/cosserat_elasticity/graphical_example_3_couple_stress.py:11-99, graphical_example_3_epsilon.py:8-93,
  graphical_example_3.py:7-176, graphical_example_3_epsilon_jan.py:7-37
* examples/oden_problem/figure_constructor.py:13-184
* the files that are read: mfe_cosserat_elasticity_example_3.py:348-359, 483-627, 641-678 (moved by compute_results.sh:4-10),
  oden_rates_primal_dual_ad.py:476-487, 521-590, src/mesh/mesh.py:427-637 `write_vtk`,
  src/postprocess/solution_post_processor.py:165-240, 340-404, 406-431

Simplifications
* A directory is a list of files in the order of the file system; a file is a name with the names of its point data.  A file
  written again keeps its place.  Clipping, colours, views and the files of the figures are left out.
* `pyvista.read` of a name that is not in the directory raises `FileNotFoundError`.
-/
import Verif.Model.ErrorPlots
import Verif.Model.StrongCosserat3

namespace Verif.FieldFigures
open Verif.ErrorPlots

/-- What a script raises -/
inductive Stop where
  | fileNotFound
  | assertion
  | key
  deriving DecidableEq

abbrev Run (α : Type) := Except Stop α

/-- A file: its name and the names of its point data -/
abbrev File := String × List String

/-- `pyvista.read(name)` -/
def read (dir : List File) (name : String) : Run File :=
  match dir.find? fun f => f.1 == name with
  | some f => .ok f
  | none => .error .fileNotFound

/-- graphical_example_3_couple_stress.py:24-32: the one file with the ending and the filter -/
def readOne (dir : List File) (ending filter : String) : Run File :=
  match (dir.filter fun f => globbed ending f.1).filter fun f => inName filter f.1 with
  | [f] => .ok f
  | [] => .error .assertion
  | _ :: _ :: _ => .error .assertion

/-- `solution.point_data[name]` -/
def field (f : File) (name : String) : Run Unit :=
  if name ∈ f.2 then .ok () else .error .key

/-- A drawn figure: the files of the solution and of the mesh, and the field -/
abbrev Drawn := String × String × List String

/-- graphical_example_3_couple_stress.py:11-90 in the folder `output_example_3` -/
def coupleStress (dir : List File) : Run Drawn := do
  let solution ← readOne dir "_four_fields_scaled_ex_3.vtk" "wc_bdm_k1_3d"
  let geometry ← readOne dir "geometric_mesh_2d.vtk" "geometric_mesh_2d.vtk"
  field solution "m_h"
  return (solution.1, geometry.1, ["m_h"])

/-- graphical_example_3_epsilon.py:8-83; the ending is the one of line 20 and the filter the one of line 16 -/
def epsilonWith (ending filter : String) (dir : List File) : Run Drawn := do
  let solution ← readOne dir ending filter
  let geometry ← readOne dir "geometric_mesh_2d.vtk" "geometric_mesh_2d.vtk"
  field solution "gamma_e"
  return (solution.1, geometry.1, ["gamma_e"])

def epsilonFigure : List File → Run Drawn := epsilonWith "_gamma_scale_ex_3.vtk" "wc_bdm_k1_d3"

/-- graphical_example_3.py:7-167 in the folder of the script -/
def fourFields (dir : List File) : Run Drawn := do
  let solution ← read dir "m2_dnc_k2_d3_four_fields_scaled_ex_3.vtk"
  let geometry ← read dir "geometric_mesh_2d.vtk"
  field solution "s_h"
  field solution "m_h"
  field solution "u_h"
  field solution "t_h"
  return (solution.1, geometry.1, ["s_h", "m_h", "u_h", "t_h"])

/-- figure_constructor.py:13-78 `paint_on_canvas_plane` -/
def odenPlane (dir : List File) : Run Drawn := do
  let solution ← read dir "rates_hdiv_model_problem.vtk"
  let geometry ← read dir "geometric_mesh_2d.vtk"
  field solution "q_h"
  field solution "q_e"
  return (solution.1, geometry.1, ["q_h", "q_e"])

/-- figure_constructor.py:81-131 `paint_on_canvas_warp_scalar` -/
def odenWarp (dir : List File) : Run Drawn := do
  let solution ← read dir "rates_hdiv_model_problem.vtk"
  field solution "q_e"
  let geometry ← read dir "geometric_mesh_2d.vtk"
  return (solution.1, geometry.1, ["q_e"])

/-- figure_constructor.py:136-167 `plot_over_line` -/
def odenLine (dir : List File) : Run (String × List String) := do
  let solution ← read dir "rates_hdiv_model_problem.vtk"
  field solution "q_h"
  field solution "q_e"
  return (solution.1, ["q_h", "q_e"])

/-- figure_constructor.py:170-184 -/
def odenFigures (dir : List File) : Run (Drawn × Drawn × (String × List String)) := do
  let a ← odenPlane dir
  let b ← odenWarp dir
  let c ← odenLine dir
  return (a, b, c)

/-- mesh.py:427-637 `write_vtk()`: one file for each dimension with cells that have an identifier and a material; `dims` are
the dimensions of these cells. -/
def geometryFiles (dims : List Nat) : List File :=
  ([3, 2, 1, 0].filter fun d => d ∈ dims).map fun d => ("geometric_mesh_" ++ toString d ++ "d.vtk", [])

/-- solution_post_processor.py:221-222: the point data of the fields -/
def pointData (fields : List String) : List String := fields.flatMap fun n => [n ++ "_h", n ++ "_e"]

/-- mfe_cosserat_elasticity_example_3.py:349-359 for one method -/
def fieldFiles (method k : String) : List File :=
  [(method ++ "_k" ++ k ++ "_" ++ "3" ++ "d" ++ "_four_fields_scaled_ex_3.vtk", pointData ["s", "m", "u", "t"]),
   (method ++ "_k" ++ k ++ "_" ++ "3" ++ "d" ++ "_lc_scale_ex_3.vtk", ["l_e", "grad_l_e"])]

/-- mfe_cosserat_elasticity_example_3.py:483-516: degrees of freedom and residuals of the four levels -/
def levelFiles (method k : String) : List File :=
  ["0", "1", "2", "3"].flatMap fun l => ["_alpha_ex_3.npy", "_res_history_ex_3.txt"].map fun suffix =>
    (method ++ "_k" ++ k ++ "_l" ++ l ++ "_" ++ "3" ++ "d" ++ suffix, [])

/-- The files of the third example of elasticity, on meshes with cells of the dimensions `dims` -/
def exampleThree (dims : List Nat) : List File :=
  geometryFiles dims ++
  (["0", "1"].flatMap fun k => ["wc_rt", "wc_bdm"].flatMap fun m => levelFiles m k ++ fieldFiles m k) ++
  cosseratFilesThree.map fun n => (n, [])

/-- The files of the driver of the problem of Oden; `dimension` is 1 in `main` (542). -/
def odenFiles (dims : List Nat) : List File :=
  ("gmesh.msh", []) :: geometryFiles dims ++
  [("rates_hdiv_model_problem.vtk", pointData ["q", "u"]),
   ("rates_hdiv_model_problem_l2_error.vtk", ["q_error", "u_error"]),
   ("rates_data_oden.txt", []), ("error_data_oden.txt", [])]

/-- graphical_example_3_epsilon_jan.py:8-22 -/
noncomputable def epsilon (x y : ℝ) : ℝ := min 1 (max 0 (max (3 * x) (3 * y) - 1))

end Verif.FieldFigures
