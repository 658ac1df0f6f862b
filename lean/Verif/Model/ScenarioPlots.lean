/-
Model of the plotting scripts of the degenerate scenarios and of the files they read:
* examples/degenerate_elliptic_scalar/plotting_for_darcy_darcy_scenario_1.py: `get_palette` (41-52),
  `normalized_color_bar_width` (106-113), the columns, the anchor and the reference curve of `plot_loglog_convergence`
  (311-343), `draw_data_triangle` (371-396), `iter_cases` (419-427), `build_case_basename` (430-432),
  `generate_field_plots` (435-456), `generate_field_plots_2d` (459-480), `generate_convergence_plots` (483-520)
* plotting_for_darcy_darcy_scenario_2.py: the same functions where they differ (533-549, 552-569, 572-613)
* darcy_elliptic_degenerate_scenario_1.py: `material_data_definition` (342-357), `compose_case_name` (360-389), the files
  of `main` (394-475); darcy_elliptic_degenerate_scenario_2.py: 490-505, 508-539, 542-640

Simplifications
* `str` of a parameter of the material is a parameter.  A path is a folder and a name.
* Every mesh file that is there can be read and has the fields.  What is drawn is left out, apart from the columns of the
  tables and the triangle.  Real numbers instead of floating point.
-/
import Verif.Model.MergedTables
import Mathlib.Analysis.SpecialFunctions.Log.Base
import Mathlib.Analysis.SpecialFunctions.Pow.Real

namespace Verif.ScenarioPlots

/-- What a file name is made of -/
structure Case where
  method : String
  dim : Nat
  domain : String
  mPar : ℚ
  deriving DecidableEq

/-- darcy_elliptic_degenerate_scenario_1.py:342-357 -/
def materialsOne (dim : Nat) : Res (List ℚ) :=
  if dim = 1 then .ok [1 / 2, -1 / 2, -1, -3 / 2]
  else if dim = 2 then .ok [2, 4, 6, 8]
  else .error .valueError

/-- darcy_elliptic_degenerate_scenario_2.py:490-505 -/
def materialsTwo (dim : Nat) : Res (List ℚ) :=
  if dim = 1 then .ok [1 / 2, -1 / 2, -1, -3 / 2]
  else if dim = 2 then .ok [2, 1, 1 / 4, 1 / 8]
  else .error .valueError

/-- darcy_elliptic_degenerate_scenario_1.py:95-98 -/
def methods : List String := ["mixed_rt"]

/-- darcy_elliptic_degenerate_scenario_1.py:360-389 `compose_case_name`, the part behind the folder -/
def caseName (str : ℚ → String) (c : Case) : String :=
  c.method ++ "_" ++ toString c.dim ++ "d_" ++ c.domain ++ "_" ++ "material_parameter_" ++ str c.mPar ++ "_"

/-- Files of a run -/
inductive Kind where
  | normal
  | enhanced
  deriving DecidableEq

/-- A script has two versions -/
inductive Scenario where
  | one
  | two
  deriving DecidableEq

def Scenario.materials : Scenario → Nat → Res (List ℚ)
  | .one => materialsOne
  | .two => materialsTwo

/-- Suffixes of the tables that the drivers write: scenario_1.py:469-475, scenario_2.py:627-640 -/
def Scenario.tables : Scenario → List String
  | .one => ["conv_data.txt"]
  | .two => ["normal_conv_data.txt", "enhanced_conv_data.txt"]

/-- scenario_1.py:394-426, 469 and 281: the files of `main`, for `n_ref` levels -/
def driverFiles (str : ℚ → String) (sc : Scenario) (folder : String) (nRef : Nat) : Res (List (String × String)) := do
  let mats ← sc.materials 2
  pure (methods.flatMap fun m => mats.flatMap fun mat =>
    let name := caseName str ⟨m, 2, "fitted", mat⟩
    (List.range nRef).map (fun l => (folder, name ++ "l_" ++ toString l ++ "_" ++ "two_fields.vtk")) ++
      sc.tables.map fun t => (folder, name ++ t))

/-- The options that choose the cases -/
structure Choice where
  materials : List ℚ
  levels : List Nat
  domain : String
  dim : Nat

/-- plotting_for_darcy_darcy_scenario_1.py:419-427 `iter_cases` -/
def iterCases (sc : Scenario) (ch : Choice) : Res (List (Case × Nat)) := do
  let mats ← sc.materials ch.dim
  pure (methods.flatMap fun m => (mats.filter fun mat => mat ∈ ch.materials).flatMap fun mat =>
    ch.levels.map fun l => (⟨m, ch.dim, ch.domain, mat⟩, l))

/-- line 440 -/
def vtkFile (str : ℚ → String) (folder : String) (c : Case) (l : Nat) : String × String :=
  (folder, caseName str c ++ ("l_" ++ toString l ++ "_two_fields.vtk"))

/-- plotting_for_darcy_darcy_scenario_1.py:596-599, scenario_2.py:696-701 -/
def Scenario.fields : Scenario → List String
  | .one => ["p_h", "p_e", "u_h", "u_e"]
  | .two => ["qh_ph", "qe_pe", "ve_ue", "vh_uh"]

/-- scenario_1.py:451, 475; scenario_2.py:548, 568 -/
def Scenario.ending (sc : Scenario) (flat : Bool) (format : String) : String :=
  (match sc with | .one => "" | .two => "_pair") ++ (if flat then "_2d" else "") ++ "." ++ format

/-- 435-456, 459-480: names of the pictures, in order; cases whose file is missing are skipped -/
def fieldPlots (str : ℚ → String) (sc : Scenario) (ch : Choice) (files : List (String × String)) (vtks format : String)
    (flat : Bool) : Res (List String) := do
  let cases ← iterCases sc ch
  pure ((cases.filter fun p => vtkFile str vtks p.1 p.2 ∈ files).flatMap fun p =>
    sc.fields.map fun f => caseName str p.1 ++ "l_" ++ toString p.2 ++ "_" ++ f ++ sc.ending flat format)

/-- 488-493 of the first script, 577-584 of the second: labels of the curves; the first has no enhanced table
(`KeyError`) -/
def Scenario.labels : Scenario → Kind → Res (List String)
  | .one, .normal => .ok ["p", "u", "proj p"]
  | .one, .enhanced => .error .keyError
  | .two, .normal => .ok ["q", "v", "p", "u"]
  | .two, .enhanced => .ok ["proj q", "proj p"]

def Scenario.suffix : Scenario → Kind → Res String
  | .one, .normal => .ok "conv_data.txt"
  | .one, .enhanced => .error .keyError
  | .two, .normal => .ok "normal_conv_data.txt"
  | .two, .enhanced => .ok "enhanced_conv_data.txt"

def Kind.text : Kind → String
  | .normal => "normal"
  | .enhanced => "enhanced"

/-- 503 of the first script, 594 of the second -/
def Scenario.rate : Scenario → Kind → Nat
  | .one, _ => 1
  | .two, .normal => 1
  | .two, .enhanced => 2

/-- 495-502: the tables that are read and the pictures that are drawn, one pair for each case and level -/
def convergencePlots (str : ℚ → String) (sc : Scenario) (ch : Choice) (files : List (String × String))
    (errors format : String) (kind : Kind) : Res (List ((String × String) × String)) := do
  let _ ← sc.labels kind
  let suffix ← sc.suffix kind
  let cases ← iterCases sc ch
  pure ((cases.filter fun p => (errors, caseName str p.1 ++ suffix) ∈ files).map fun p =>
    ((errors, caseName str p.1 ++ suffix), caseName str p.1 ++ kind.text ++ "_convergence." ++ format))

/-! ### The curves -/

/-- `row[1::2]` -/
def everyOther {α : Type} : List α → List α
  | [] => []
  | [_] => []
  | _ :: b :: t => b :: everyOther t

/-- 279-282 `np.loadtxt(path, skiprows=1)`: the first line is the header -/
def load {α : Type} (lines : List α) : List α := lines.drop 1

/-- 311-325: size, and the labelled errors of a row -/
def curveRow (labels : List String) (row : List (Option ℝ)) : Res (Option ℝ × List (String × Option ℝ)) := do
  let h ← getIdx row 0
  pure (h, labels.zip (everyOther row))

/-- 329-331: the anchor for `n ≥ 2` sizes -/
def anchor (idx : Int) (n : Nat) : Int :=
  let a := if 0 ≤ idx then idx else n + idx
  max 1 (min a (n - 1))

open Classical in
/-- `np.argmin`: the first of the smallest -/
noncomputable def argmin : List ℝ → Nat
  | [] => 0
  | [_] => 0
  | a :: t => if ∀ b ∈ t, a ≤ b then 0 else argmin t + 1

/-- log10 -/
noncomputable def log10 (x : ℝ) : ℝ := Real.logb 10 x

open Classical in
/-- 371-387 `draw_data_triangle`: the corners; `none` without a triangle -/
noncomputable def triangle (x0 x1 yPrev yCurr rate : ℝ) : Option ((ℝ × ℝ) × (ℝ × ℝ) × (ℝ × ℝ)) :=
  if min (min x0 x1) (min yPrev yCurr) ≤ 0 then none
  else
    let y0 := log10 (max yPrev yCurr)
    let dx := log10 x1 - log10 x0
    let shift := |dx| / 2
    if |dx| ≤ 1 / 10 ^ 8 then none
    else
      let e := rate * dx
      some (((10 : ℝ) ^ log10 x0, (10 : ℝ) ^ (y0 - shift)), ((10 : ℝ) ^ log10 x0, (10 : ℝ) ^ (y0 + e - shift)),
        ((10 : ℝ) ^ log10 x1, (10 : ℝ) ^ (y0 + e - shift)))

/-! ### Decoration -/

/-- 41-47: `n` colours from a palette that is not empty -/
def palette {α : Type} (base : List α) (n : Nat) : List α :=
  if n ≤ base.length then base.take n
  else
    let repeats := (n + base.length - 1) / base.length
    ((List.replicate repeats base).flatten).take n

open Classical in
/-- 106-113 `normalized_color_bar_width` -/
noncomputable def barWidth (width : ℝ) (window : Int) : ℝ :=
  if width ≤ 0 then 2 / 100
  else if width ≤ 1 then width
  else min (4 / 10) (width / (max window 1 : Int))

end Verif.ScenarioPlots
