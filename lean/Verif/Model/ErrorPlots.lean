/-
Model of the scripts that plot the tables of errors of the drivers of elasticity: which file every curve is read from,
which columns it shows, and the legends.

* examples/cauchy_elasticity/error_plots.py: the maps of `painter`, `painter_ex_1`, `painter_ex_2` (155-265, 362-402),
  `filter_composer` (220-225), `color_canvas_with_variable_lambda` (267-325), `build_inset_var_lambda` (336-359), the same
  with kappa, `render_figures_example_1`, `render_figures_example_2` (497-536)
* examples/cosserat_ecmor/error_plots.py: the same functions and `painter_ex_3` (503-617), the figures (620-706)
* examples/cosserat_elasticity/cosserat_error_plots.py: `painter` (125-259), `painter_ex_1` (262-395), `painter_ex_2`
  (398-513), `painter_ex_3` (516-633), the figures (636-785)
* the files of the drivers: cauchy_elasticity/mfe_elasticity_example_1.py:640-680 (and the cg_ and th_ drivers, and the
  second examples), cosserat_ecmor/mfe_elasticity_example_1.py:635-676, 867-902, the other drivers of that folder,
  cosserat_elasticity/mfe_cosserat_elasticity_example_3.py:583-627, mfe_cosserat_elasticity_example_1.py:1080-1121

Simplifications
* The scripts look in folders that the drivers do not write; the files are moved by hand.  A directory is a list of names
  with tables, in the order of the file system.  Every file that is looked at is a table with rows of one length.
* `str` of the numbers in the scripts is given as text.  Limits and sizes of the pictures are left out.
* A dictionary lookup that fails is `KeyError` whatever the order of the lookups.
-/
import Verif.Model.Assembly
import Verif.Model.Rates

namespace Verif.ErrorPlots
open MeshGraph Trace Assembly

/-- The maps of a `painter` -/
structure Painter where
  ending : String
  filter : String → String → String
  titles : Dict String String
  colors : Dict String String
  /-- label of a value of the parameter; `none`: the script has no parameter -/
  label : String → Res (Option String)
  /-- line style for a method and a value -/
  style : String → String → Res String
  columns : Dict String (List Nat)
  size : String → Res Nat

/-- `pat in name` -/
def inName (pat name : String) : Bool := containsSub pat.toList name.toList

/-- `Path().glob("…/*" + ending)` -/
def globbed (ending name : String) : Bool := ending.toList.isSuffixOf name.toList

variable {V : Type}

/-- A directory -/
abbrev Dir (V : Type) := List (String × List (List V))

/-- error_plots.py:269, 281-292: the one file whose name has the filter in it -/
def select (p : Painter) (dir : Dir V) (method value : String) : Res (List (List V)) :=
  let fileNames := dir.filter fun f => globbed p.ending f.1
  let result := fileNames.filter fun f => inName (p.filter method value) f.1
  match result with
  | [f] => .ok f.2
  | [] => .error .assertionError
  | _ :: _ :: _ => .error .assertionError

/-- `np.genfromtxt`, then `rdata[:, …]`: a single row (or none) becomes an array with one axis, which has too few indices
(`IndexError`) -/
def twoAxes (rows : List (List V)) : Res (List (List V)) :=
  match rows with
  | [] => .error .indexError
  | [_] => .error .indexError
  | a :: b :: t => .ok (a :: b :: t)

/-- lines 301-308: mesh sizes and sums of the columns -/
def points [Zero V] [Add V] (rows : List (List V)) (h : Nat) (idxs : List Nat) : Res (List (V × V)) := do
  let rdata ← twoAxes rows
  mapRes (fun row => do
    let hv ← getIdx row h
    let es ← fancy row idxs
    pure (hv, es.sum)) rdata

/-- What `plt.loglog` is given, with the labels -/
structure Curve (V : Type) where
  title : String
  parameter : Option String
  style : String
  color : String
  data : List (V × V)

/-- lines 276-312: one turn of the loops -/
def curve [Zero V] [Add V] (p : Painter) (dir : Dir V) (kind method value : String) : Res (Curve V) := do
  let rows ← select p dir method value
  let title ← p.titles.getItem method
  let parameter ← p.label value
  let style ← p.style method value
  let color ← p.colors.getItem method
  let idxs ← p.columns.getItem (method ++ "_" ++ kind)
  let h ← p.size method
  let data ← points rows h idxs
  pure ⟨title, parameter, style, color, data⟩

/-- lines 274-312: all curves -/
def curves [Zero V] [Add V] (p : Painter) (dir : Dir V) (kind : String) (methods values : List String) :
    Res (List (Curve V)) :=
  mapRes (fun mv => curve p dir kind mv.1 mv.2) (methods.flatMap fun m => values.map fun v => (m, v))

/-- lines 311-325: the entries of the legend: label with colour, then label with line style -/
def legend (cs : List (Curve V)) : Dict String String × Dict String String :=
  cs.foldl (fun l c => (l.1.set c.title c.color,
    match c.parameter with | some q => l.2.set q c.style | none => l.2)) ([], [])

/-- lines 336-358: the data of the triangle -/
def inset [Zero V] [Add V] (p : Painter) (dir : Dir V) (kind method value : String) : Res (List (V × V)) := do
  let rows ← select p dir method value
  let idxs ← p.columns.getItem (method ++ "_" ++ kind)
  let h ← p.size method
  points rows h idxs

/-- A call of the canvas and of the inset, as in the functions `render_figures_example_*` -/
structure Figure where
  painter : Painter
  kind : String
  methods : List String
  values : List String
  insets : List (String × String)

/-- lines 497-514: canvas, then triangles -/
def render [Zero V] [Add V] (f : Figure) (dir : Dir V) : Res (List (Curve V) × List (List (V × V))) := do
  let cs ← curves f.painter dir f.kind f.methods f.values
  let ts ← mapRes (fun mv => inset f.painter dir f.kind mv.1 mv.2) f.insets
  pure (cs, ts)

/-- label of a value: `r"$" + mat_label + " = " + map[str(value)] + "$"` -/
def valueLabel (letter : String) (map : Dict String String) (value : String) : Res (Option String) := do
  let t ← map.getItem value
  pure (some ("$" ++ letter ++ " = " ++ t ++ "$"))

/-! The painters -/

def cauchyTitles : Dict String String :=
  [("three_field_MFEM", "Three-field"), ("TH_FEM", "Two-field"), ("1_FEM", "One-field"), ("2_FEM", "One-field")]

def cauchyColors : Dict String String :=
  [("three_field_MFEM", "tab:blue"), ("TH_FEM", "tab:green"), ("1_FEM", "tab:red"), ("2_FEM", "tab:red")]

def lambdaValues : Dict String String :=
  [("1.0", "10^{0}"), ("100.0", "10^{2}"), ("10000.0", "10^{4}"), ("100000000.0", "10^{8}")]

def lambdaStyles : Dict String String :=
  [("1.0", "-"), ("100.0", "dashed"), ("10000.0", "dashdot"), ("100000000.0", "dotted")]

/-- cauchy_elasticity/error_plots.py:233-265 -/
def cauchyOne : Painter where
  ending := "_error.txt"
  filter m v := m ++ "_lambda_" ++ v
  titles := cauchyTitles
  colors := cauchyColors
  label := valueLabel "\\lambda" lambdaValues
  style _ v := lambdaStyles.getItem v
  columns := [("three_field_MFEM_u", [3]), ("TH_FEM_u", [3]), ("1_FEM_u", [3])]
  size m := Dict.getItem [("three_field_MFEM", 2), ("TH_FEM", 2), ("1_FEM", 2)] m

/-- cauchy_elasticity/error_plots.py:362-402 -/
def cauchyTwo : Painter where
  ending := "_error.txt"
  filter m v := m ++ "_kappa_" ++ v
  titles := cauchyTitles
  colors := cauchyColors
  label := valueLabel "\\kappa" [("1e-06", "10^{-6}"), ("1.0", "10^{0}"), ("1000000.0", "10^{6}")]
  style _ v := Dict.getItem [("1e-06", "-"), ("1.0", "dashed"), ("1000000.0", "dashdot")] v
  columns := [("three_field_MFEM_u", [3]), ("TH_FEM_u", [3]), ("2_FEM_u", [3])]
  size m := Dict.getItem [("three_field_MFEM", 2), ("TH_FEM", 2), ("2_FEM", 2)] m

def ecmorTitles : Dict String String :=
  [("three_field_MFEM", "MFEM"), ("four_field_MFEM", "MFEM"), ("TPSA", "TPSA"), ("MPSA", "MPSA")]

def ecmorColors : Dict String String :=
  [("three_field_MFEM", "tab:blue"), ("four_field_MFEM", "tab:orange"), ("TPSA", "tab:green"), ("MPSA", "tab:red")]

def ecmorColumns : Dict String (List Nat) :=
  [("three_field_MFEM_u", [8]), ("TPSA_u", [5]), ("MPSA_u", [5]), ("three_field_MFEM_sigma", [5]), ("TPSA_sigma", [4]),
    ("MPSA_sigma", [4])]

def ecmorSize : Dict String Nat := [("three_field_MFEM", 2), ("TPSA", 1), ("MPSA", 1)]

/-- cosserat_ecmor/error_plots.py:233-268 -/
def ecmorOne : Painter where
  ending := "_error.txt"
  filter m v := m ++ "_lambda_" ++ v
  titles := ecmorTitles
  colors := ecmorColors
  label := valueLabel "\\lambda" lambdaValues
  style _ v := lambdaStyles.getItem v
  columns := ecmorColumns
  size m := ecmorSize.getItem m

/-- cosserat_ecmor/error_plots.py:365-406 -/
def ecmorTwo : Painter where
  ending := "_error.txt"
  filter m v := m ++ "_kappa_" ++ v
  titles := ecmorTitles
  colors := ecmorColors
  label := valueLabel "\\kappa" [("0.0001", "10^{-4}"), ("1.0", "10^{0}"), ("10000.0", "10^{4}")]
  style _ v := Dict.getItem [("0.0001", "-"), ("1.0", "dashed"), ("10000.0", "dashdot")] v
  columns := ecmorColumns
  size m := ecmorSize.getItem m

/-- cosserat_ecmor/error_plots.py:503-539 -/
def ecmorThree : Painter where
  ending := "_error.txt"
  filter m _ := m
  titles := ecmorTitles
  colors := ecmorColors
  label _ := .ok none
  style m _ := Dict.getItem [("four_field_MFEM", "-"), ("TPSA", "dashed")] m
  columns := [("four_field_MFEM_u", [11]), ("TPSA_u", [6]), ("four_field_MFEM_sigma", [5]), ("TPSA_sigma", [4])]
  size m := Dict.getItem [("four_field_MFEM", 2), ("TPSA", 1)] m

def cosseratTitles : Dict String String :=
  [("sc_rt", "SC-RT"), ("sc_bdm", "SC-BDM"), ("wc_rt", "WC-RT"), ("wc_bdm", "WC-BDM")]

def cosseratColors : Dict String String :=
  [("sc_rt", "tab:blue"), ("sc_bdm", "tab:orange"), ("wc_rt", "tab:green"), ("wc_bdm", "tab:red")]

/-- cosserat_error_plots.py:265-276, 539-550: the same in the first and third example -/
def cosseratColumns : Dict String (List Nat) :=
  [("sc_rt_normal", [3, 4, 9, 10]), ("sc_rt_super", [4, 6, 11]), ("sc_bdm_normal", [3, 4, 9, 10]),
    ("sc_bdm_super", [4, 5, 10, 11]), ("wc_rt_normal", [3, 4, 9, 10]), ("wc_rt_super", [11]),
    ("wc_bdm_normal", [3, 4, 9, 10]), ("wc_bdm_super", [11])]

/-- cosserat_error_plots.py:516-550; `k` is the value -/
def cosseratThree (d : Nat) : Painter where
  ending := "_error_ex_3.txt"
  filter m k := m ++ ("_k" ++ k) ++ ("_" ++ toString d ++ "d")
  titles := cosseratTitles
  colors := cosseratColors
  label k := .ok (some ("$ k = " ++ k ++ "$"))
  style _ k := Dict.getItem [("0", "-"), ("1", "dashed")] k
  columns := cosseratColumns
  size _ := .ok 2

/-- cosserat_error_plots.py:223-246, 648-660: `l` is the value, the other entries are those of the base material -/
def cosseratFilter (k d : Nat) (method l : String) : String :=
  method ++ "_lambda_s_" ++ "1.0" ++ "_mu_s_" ++ "1.0" ++ "_kappa_s_" ++ "0.1" ++ "_lambda_o_" ++ "1.0" ++ "_mu_p_" ++ "1.0"
    ++ "_kappa_o_" ++ "0.1" ++ "_lc_" ++ l ++ "_k" ++ toString k ++ "_" ++ toString d ++ "d"

/-- cosserat_error_plots.py:262-290 and the maps of `painter` -/
def cosseratOne (k d : Nat) : Painter where
  ending := "_error_ex_1.txt"
  filter := cosseratFilter k d
  titles := cosseratTitles
  colors := cosseratColors
  label := valueLabel "\\ell"
    [("0.0001", "10^{-4}"), ("0.01", "10^{-2}"), ("1.0", "10^{0}"), ("100.0", "10^{2}"), ("10000.0", "10^{4}")]
  style _ v := Dict.getItem
    [("0.0001", "dashdot"), ("0.01", "dashed"), ("1.0", "-"), ("100.0", "dashed"), ("10000.0", "dashdot")] v
  columns := cosseratColumns
  size _ := .ok 2

/-! The figures -/

/-- cauchy_elasticity/error_plots.py:497-514 -/
def cauchyFigureOne : Figure :=
  ⟨cauchyOne, "u", ["three_field_MFEM", "TH_FEM", "1_FEM"], ["1.0", "100.0", "10000.0", "100000000.0"],
    [("three_field_MFEM", "1.0")]⟩

/-- cauchy_elasticity/error_plots.py:518-536 -/
def cauchyFigureTwo : Figure :=
  ⟨cauchyTwo, "u", ["three_field_MFEM", "TH_FEM", "2_FEM"], ["1.0", "1000000.0"], [("three_field_MFEM", "1.0")]⟩

/-- cosserat_ecmor/error_plots.py:620-649 -/
def ecmorFiguresOne : List Figure :=
  [⟨ecmorOne, "u", ["three_field_MFEM", "TPSA", "MPSA"], ["1.0", "100.0", "10000.0", "100000000.0"], [("MPSA", "10000.0")]⟩,
    ⟨ecmorOne, "sigma", ["three_field_MFEM", "TPSA", "MPSA"], ["1.0", "100.0", "10000.0", "100000000.0"],
      [("three_field_MFEM", "10000.0")]⟩]

/-- cosserat_ecmor/error_plots.py:652-681 -/
def ecmorFiguresTwo : List Figure :=
  ["u", "sigma"].map fun kind =>
    ⟨ecmorTwo, kind, ["three_field_MFEM", "TPSA", "MPSA"], ["0.0001", "1.0", "10000.0"], [("three_field_MFEM", "0.0001")]⟩

/-- cosserat_ecmor/error_plots.py:684-706 -/
def ecmorFiguresThree : List Figure :=
  ["u", "sigma"].map fun kind => ⟨ecmorThree, kind, ["four_field_MFEM", "TPSA"], [""], [("four_field_MFEM", "")]⟩

/-- cosserat_error_plots.py:759-785 with `d = 3` (789-792) -/
def cosseratFiguresThree : List Figure :=
  ["normal", "super"].map fun kind =>
    ⟨cosseratThree 3, kind, ["wc_rt", "wc_bdm"], ["0", "1"], [("wc_bdm", "0"), ("wc_bdm", "1")]⟩

/-- cosserat_error_plots.py:636-695 -/
def cosseratFiguresOne (d : Nat) : List Figure :=
  [⟨cosseratOne 0 d, "normal", ["wc_rt", "wc_bdm"], ["1.0", "0.01", "0.0001"], [("wc_bdm", "0.0001")]⟩,
    ⟨cosseratOne 0 d, "super", ["wc_rt", "wc_bdm"], ["1.0", "0.01", "0.0001"], [("wc_bdm", "0.01")]⟩]

/-- A call with keywords: every keyword is a parameter and every parameter is given, otherwise `TypeError` -/
def callKeywords (parameters keywords : List String) : Res Unit :=
  if keywords.all (· ∈ parameters) && parameters.all (· ∈ keywords) then .ok () else .error .typeError

/-- parameters of `filter_composer`: cosserat_error_plots.py:223 -/
def filterParameters : List String := ["method", "material_data", "k", "d"]

/-- keywords of the calls: 307-309 in the first example, 433-435 in the second -/
def keywordsOne : List String := ["method", "material_data", "k", "d"]
def keywordsTwo : List String := ["method", "m_lambda", "m_eps", "k", "d"]

/-- cosserat_error_plots.py:431-435: the loops up to the filter, in the second example -/
def canvasTwo (methods values : List String) : Res Unit := do
  let _ ← mapRes (fun _ => callKeywords filterParameters keywordsTwo)
    (methods.flatMap fun m => values.map fun v => (m, v))
  pure ()

/-! The files of the drivers -/

/-- the tables of a mixed method: mfe_elasticity_example_1.py:643-676 -/
def mixedTables : List String :=
  ["_error.txt", "_rates.txt", "_solution_norms.txt", "_error_rounded.txt", "_rates_rounded.txt",
    "_solution_norms_rounded.txt"]

/-- the tables of the other methods: cg_elasticity_example_1.py:322-347 -/
def plainTables : List String := ["_error.txt", "_rates.txt", "_error_rounded.txt", "_rates_rounded.txt"]

/-- cauchy_elasticity, first example: three drivers -/
def cauchyFilesOne : List String :=
  ["1.0", "100.0", "10000.0", "100000000.0"].flatMap fun v =>
    mixedTables.map ("ex_1_" ++ "three_field_MFEM" ++ "_lambda_" ++ v ++ ·) ++
      plainTables.map ("ex_1_" ++ "TH_FEM" ++ "_lambda_" ++ v ++ ·) ++
      plainTables.map ("ex_1_" ++ "FEM" ++ "_lambda_" ++ v ++ ·)

/-- cauchy_elasticity, second example -/
def cauchyFilesTwo : List String :=
  ["1e-06", "1.0", "1000000.0"].flatMap fun v =>
    mixedTables.map ("ex_2_" ++ "three_field_MFEM" ++ "_kappa_" ++ v ++ ·) ++
      plainTables.map ("ex_2_" ++ "TH_FEM" ++ "_kappa_" ++ v ++ ·) ++
      plainTables.map ("ex_2_" ++ "FEM" ++ "_kappa_" ++ v ++ ·)

/-- cosserat_ecmor, first and second example -/
def ecmorFiles (front context : String) (values : List String) : List String :=
  values.flatMap fun v =>
    mixedTables.map (front ++ "three_field_MFEM" ++ context ++ v ++ ·) ++
      plainTables.map (front ++ "TPSA" ++ context ++ v ++ ·) ++ plainTables.map (front ++ "MPSA" ++ context ++ v ++ ·)

/-- cosserat_ecmor, third example -/
def ecmorFilesThree : List String :=
  mixedTables.map ("ex_3_" ++ "four_field_MFEM" ++ ·) ++ plainTables.map ("ex_3_" ++ "TPSA" ++ ·)

/-- mfe_cosserat_elasticity_example_3.py:585-627 -/
def cosseratTables (example_ : String) : List String :=
  (["_error_ex_", "_rates_ex_", "_solution_norms_ex_"].map fun t => t ++ example_ ++ ".txt") ++
    (["_error_ex_", "_rates_ex_", "_solution_norms_ex_"].map fun t => t ++ example_ ++ "_rounded.txt")

/-- cosserat_elasticity, third example: `method[0] + "_k" + str(k_order) + "_" + str(dimension)`, then "d_error…" -/
def cosseratFilesThree : List String :=
  ["0", "1"].flatMap fun k => ["wc_rt", "wc_bdm"].flatMap fun m =>
    (cosseratTables "3").map (m ++ "_k" ++ k ++ "_" ++ "3" ++ "d" ++ ·)

/-- cosserat_elasticity, first example: one method, one material (1157-1159, 1194-1195) -/
def cosseratFilesOne : List String :=
  (cosseratTables "1").map (cosseratFilter 0 3 "wc_rt" "0.0001" ++ ·)

end Verif.ErrorPlots
