/-
Model of the names of the files that examples/degenerate_elliptic_scalar/degenerate_mixed_flow_model.py writes
(`method_definition` 72-86, the pictures of `two_fields_formulation` 330-356, `material_data_definition` 417-433,
`compose_case_name` 436-467, `main` 470-566) and that plotting_for_Arbogast_problem.py (92-256) reads and draws.

Simplifications
* A method is its name, a domain its key; a material is its parameter, a rational number.
* `str` of a float is a parameter.
* Making a missing folder and the file of the mesh are left out; reading or drawing a file is its name.
-/
import Verif.Prelude
import Mathlib.Data.Rat.Init

namespace Verif.ArbogastPlots

/-- degenerate_mixed_flow_model.py:85-86; the order changes the spaces only -/
def methods (_kOrder : Nat) : List String := ["mixed_rt", "mixed_bdm"]

/-- degenerate_mixed_flow_model.py:417-433: of the four cases only the first is returned -/
def materials (dim : Nat) : Res (List ℚ) :=
  if dim = 1 then .ok ([1 / 2, -1 / 2, -1, -3 / 2].take 1)
  else if dim = 2 then .ok ([2, 1, 1 / 4, 1 / 8].take 1)
  else .error .valueError

/-- degenerate_mixed_flow_model.py:436-467 `compose_case_name` -/
def caseName (str : ℚ → String) (method : String) (dimension : Nat) (domain : String) (material : ℚ)
    (folder : Option String) : String :=
  match folder with
  | none => method ++ "_" ++ toString dimension ++ "d_" ++ domain ++ "_" ++ "material_parameter_" ++ str material ++ "_"
  | some f =>
    f ++ "/" ++ method ++ "_" ++ toString dimension ++ "d_" ++ domain ++ "_" ++ "material_parameter_" ++ str material ++ "_"

/-- A computation: method, dimension, domain and material -/
structure Case where
  method : String
  dimension : Nat
  domain : String
  material : ℚ
  deriving DecidableEq

/-- The loops of degenerate_mixed_flow_model.py:481-494 and of plotting_for_Arbogast_problem.py:102-116, 151-165: all
cases but BDM elements on a line.  `create_domain` refuses other dimensions than 1 and 2. -/
def cases (ms : List String) : List Nat → Res (List Case)
  | dims => ms.foldlM (fun acc method => dims.foldlM (fun acc dim =>
      if dim = 1 ∧ method = "mixed_bdm" then .ok acc
      else do
        let mats ← materials dim
        pure (acc ++ ["fitted", "unfitted"].flatMap fun domain => mats.map fun m => ⟨method, dim, domain, m⟩)) acc) []

/-- The pictures of one level: degenerate_mixed_flow_model.py:333-349 -/
def pictures : List String :=
  ["two_fields.vtk", "two_fields_l2_error.vtk", "physical_two_fields.vtk", "physical_two_fields_l2_error.vtk"]

/-- The files of a case: degenerate_mixed_flow_model.py:498-512, 553-566 -/
def caseFiles (str : ℚ → String) (nRef : Nat) (folder : String) (c : Case) : List String :=
  let name := caseName str c.method c.dimension c.domain c.material (some folder)
  ((List.range nRef).flatMap fun l => pictures.map fun p => name ++ "l_" ++ toString l ++ "_" ++ p) ++
    [name ++ "normal_conv_data.txt", name ++ "enhanced_conv_data.txt"]

/-- degenerate_mixed_flow_model.py:470-566: the files that `main` writes -/
def written (str : ℚ → String) : Res (List String) := do
  let cs ← cases (methods 0) [1, 2]
  pure (cs.flatMap (caseFiles str 5 "output_arbogast_taicher"))

/-- The filters of plotting_for_Arbogast_problem.py:218-225 that pick the files and name the figure -/
structure Filters where
  method : List String
  l : Nat
  suffix : String
  domainType : List String
  parameter : List ℚ
  scalarName : String

/-- plotting_for_Arbogast_problem.py:92-122, 141-171: the cases that are drawn, and what is left of the methods, which
are a `zip` and so are used up by the loop -/
def drawn (ms : List String) (dims : List Nat) (f : Filters) : Res (List Case × List String) := do
  let cs ← cases (ms.filter fun m => m ∈ f.method) dims
  pure (cs.filter fun c => decide (c.domain ∈ f.domainType) && decide (c.material ∈ f.parameter), [])

/-- plotting_for_Arbogast_problem.py:118-122, 167-171: the file that is read for a case -/
def readName (str : ℚ → String) (folder : String) (f : Filters) (c : Case) : String :=
  caseName str c.method c.dimension c.domain c.material (some folder) ++ ("l_" ++ toString f.l ++ f.suffix)

/-- plotting_for_Arbogast_problem.py:131-138: the figure that is written for a case -/
def figureName (str : ℚ → String) (folder : String) (format : String) (f : Filters) (c : Case) : String :=
  caseName str c.method c.dimension c.domain c.material (some folder) ++ (f.scalarName ++ "_magnitude." ++ format)

/-- plotting_for_Arbogast_problem.py:197, 200, 218-225: the folder, the dimensions and the filters of the script -/
def sourceFolder : String := "output"
def scriptDims : List Nat := [2]
def filters2d : Filters := ⟨["mixed_rt"], 4, "_physical_two_fields.vtk", ["fitted", "unfitted"], [1], "p_e"⟩

end Verif.ArbogastPlots
