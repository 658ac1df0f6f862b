/-
Model of the script that reproduces the degenerate scenarios,
examples/degenerate_elliptic_scalar/darcy_elliptic_degenerate_reproduce_scenarios.py: `run_script` (123-161),
`check_folder` (164-175), `run_computations` (182-194), `run_plots` (197-240), `parse_args` (247-264), `main` (271-309);
of the options of the two plotting scripts (plotting_for_darcy_darcy_scenario_1.py:523-586,
plotting_for_darcy_darcy_scenario_2.py:616-664) and of the way they find their folders (`find_repo_root`, 54-58,
`resolve_cli_path`, 399-416 of the first script; the same in the second).

Simplifications
* What is outside the scripts is a state; a subprocess gives a code and a new state, a folder has a number of entries
  or does not exist.  The programs that `shutil.which` finds can be started.  Output and times are left out.
* Of argparse: options in full, values that do not begin with two dashes, whole and decimal numbers without sign.
* A path is its list of names; `resolve` keeps it (no symbolic links).
-/
import Verif.Prelude

namespace Verif.ReproduceScenarios

/-- What is outside: running a command and looking into a folder of SCRIPT_DIR -/
structure System (σ : Type) where
  exec : List String → σ → Int × σ
  items : String → σ → Option Nat

/-- Lines 72-73 and `sys.executable` -/
structure Programs where
  uv : Option String
  xvfb : Option String
  python : String

variable {σ : Type}

/-- Lines 140-146 -/
def command (p : Programs) (script : String) (extra : Option (List String)) (useXvfb : Bool) : List String :=
  let cmd := match p.uv with
    | some uv => [uv, "run", script] ++ extra.getD []
    | none => [p.python, script] ++ extra.getD []
  match useXvfb, p.xvfb with
  | true, some x => [x, "--auto-servernum"] ++ cmd
  | true, none => cmd
  | false, _ => cmd

/-- Lines 123-161 `run_script` -/
def runScript (sys : System σ) (p : Programs) (script : String) (extra : Option (List String)) (useXvfb : Bool)
    (s : σ) : Bool × σ :=
  let r := sys.exec (command p script extra useXvfb) s
  if r.1 = 0 then (true, r.2) else (false, r.2)

/-- Lines 164-175 `check_folder` -/
def checkFolder (sys : System σ) (folder : String) (s : σ) : Bool :=
  match sys.items folder s with
  | none => false
  | some 0 => false
  | some (_ + 1) => true

/-- Lines 185-187, 190-192 and the two halves of `run_plots` -/
def part (sys : System σ) (p : Programs) (script : String) (extra : Option (List String)) (useXvfb : Bool)
    (folder : String) (s : σ) : Bool × σ :=
  let r := runScript sys p script extra useXvfb s
  if r.1 then (checkFolder sys folder r.2, r.2) else (false, r.2)

/-- Lines 182-194 `run_computations` -/
def runComputations (sys : System σ) (p : Programs) (s : σ) : Bool × σ :=
  let a := part sys p "darcy_elliptic_degenerate_scenario_1.py" none false "output_scenario_1" s
  let b := part sys p "darcy_elliptic_degenerate_scenario_2.py" none false "output_scenario_2" a.2
  (a.1 && b.1, b.2)

/-- Lines 202-213 -/
def plotArgsOne : List String :=
  ["--vtks", "output_scenario_1", "--errors", "output_scenario_1", "--figures", "figures_scenario_1",
    "--plot-fields", "--plot-fields-2d", "--plot-normal", "--levels", "2", "3", "4", "5", "6",
    "--field-resolution", "1600", "1600", "--color-bar-width", "0.04", "--camera-zoom", "1.1"]

/-- Lines 222-234 -/
def plotArgsTwo : List String :=
  ["--vtks", "output_scenario_2", "--errors", "output_scenario_2", "--figures", "figures_scenario_2",
    "--plot-fields", "--plot-fields-2d", "--plot-normal", "--plot-enhanced", "--levels", "2", "3", "4", "5", "6",
    "--field-resolution", "1600", "1600", "--color-bar-width", "0.04", "--camera-zoom", "1.1"]

/-- Lines 197-240 `run_plots` -/
def runPlots (sys : System σ) (p : Programs) (s : σ) : Bool × σ :=
  let a := part sys p "plotting_for_darcy_darcy_scenario_1.py" (some plotArgsOne) true "figures_scenario_1" s
  let b := part sys p "plotting_for_darcy_darcy_scenario_2.py" (some plotArgsTwo) true "figures_scenario_2" a.2
  (a.1 && b.1, b.2)

/-- Lines 247-264 `parse_args`: the two flags exclude each other; argparse ends with the code 2 -/
def parseFlags : List String → Except Int (Bool × Bool)
  | [] => .ok (false, false)
  | t :: ts => do
    let r ← parseFlags ts
    if t = "--plots-only" then (if r.2 then .error 2 else .ok (true, r.2))
    else if t = "--compute-only" then (if r.1 then .error 2 else .ok (r.1, true))
    else .error 2

/-- Lines 271-309 `main`: the code of the process -/
def main (sys : System σ) (p : Programs) (argv : List String) (s : σ) : Int × σ :=
  match parseFlags argv with
  | .error code => (code, s)
  | .ok (plotsOnly, computeOnly) =>
    let a := if !plotsOnly then runComputations sys p s else (true, s)
    let b := if !computeOnly && a.1 then runPlots sys p a.2 else a
    (if !b.1 then 1 else 0, b.2)

/-! ### The options of the plotting scripts -/

inductive Kind where
  | text
  | whole
  | decimal
  deriving DecidableEq

inductive Count where
  | flag
  | one
  | two
  | many
  deriving DecidableEq

/-- `parser.add_argument` -/
structure Opt where
  name : String
  count : Count
  kind : Kind

/-- plotting_for_darcy_darcy_scenario_1.py:525-585 -/
def optionsOne : List Opt :=
  [⟨"--vtks", .one, .text⟩, ⟨"--errors", .one, .text⟩, ⟨"--figures", .one, .text⟩, ⟨"--formats", .one, .text⟩,
    ⟨"--materials", .many, .whole⟩, ⟨"--levels", .many, .whole⟩, ⟨"--domain", .one, .text⟩, ⟨"--dim", .one, .whole⟩,
    ⟨"--plot-fields", .flag, .text⟩, ⟨"--plot-fields-2d", .flag, .text⟩, ⟨"--plot-normal", .flag, .text⟩,
    ⟨"--y-range-normal", .two, .decimal⟩, ⟨"--camera-azimuth", .one, .decimal⟩,
    ⟨"--camera-elevation", .one, .decimal⟩, ⟨"--camera-zoom", .one, .decimal⟩, ⟨"--field-resolution", .two, .whole⟩,
    ⟨"--color-bar-width", .one, .decimal⟩, ⟨"--color-bar-position-x", .one, .decimal⟩,
    ⟨"--color-bar-position-y", .one, .decimal⟩, ⟨"--color-bar-length", .one, .decimal⟩,
    ⟨"--color-bar-height", .one, .decimal⟩, ⟨"--verbose", .flag, .text⟩]

/-- plotting_for_darcy_darcy_scenario_2.py:618-663 -/
def optionsTwo : List Opt :=
  [⟨"--vtks", .one, .text⟩, ⟨"--errors", .one, .text⟩, ⟨"--figures", .one, .text⟩, ⟨"--formats", .one, .text⟩,
    ⟨"--materials", .many, .decimal⟩, ⟨"--levels", .many, .whole⟩, ⟨"--domain", .one, .text⟩,
    ⟨"--dim", .one, .whole⟩, ⟨"--plot-fields", .flag, .text⟩, ⟨"--plot-fields-2d", .flag, .text⟩,
    ⟨"--plot-normal", .flag, .text⟩, ⟨"--plot-enhanced", .flag, .text⟩, ⟨"--y-range-normal", .two, .decimal⟩,
    ⟨"--y-range-enhanced", .two, .decimal⟩, ⟨"--camera-azimuth", .one, .decimal⟩,
    ⟨"--camera-elevation", .one, .decimal⟩, ⟨"--camera-zoom", .one, .decimal⟩, ⟨"--field-resolution", .two, .whole⟩,
    ⟨"--color-bar-width", .one, .decimal⟩, ⟨"--verbose", .flag, .text⟩]

def isOption (t : String) : Bool := t.toList.take 2 = ['-', '-']

/-- Values before the first option, and every option with its values -/
def groups (tokens : List String) : List String × List (String × List String) :=
  tokens.foldr (fun t r => if isOption t then ([], (t, r.1) :: r.2) else (t :: r.1, r.2)) ([], [])

def Kind.accepts : Kind → String → Bool
  | .text, _ => true
  | .whole, t => !t.toList.isEmpty && t.toList.all Char.isDigit
  | .decimal, t =>
    let digits := t.toList.filter (· ≠ '.')
    !digits.isEmpty && digits.all Char.isDigit && decide (t.toList.length ≤ digits.length + 1)

def Count.accepts : Count → Nat → Bool
  | .flag, n => n = 0
  | .one, n => n = 1
  | .two, n => n = 2
  | .many, _ => true

/-- `parser.parse_args()`: the options with their values, or the code 2 -/
def parse (opts : List Opt) (tokens : List String) : Except Int (List (String × List String)) :=
  let g := groups tokens
  if !g.1.isEmpty then .error 2
  else if g.2.all fun o => match opts.find? fun x => x.name = o.1 with
      | none => false
      | some x => x.count.accepts o.2.length && o.2.all x.kind.accepts
  then .ok g.2 else .error 2

/-! ### The folders of the plotting scripts -/

/-- `[start] + list(start.parents)`; a path is the list of its names -/
def withParents (start : List String) : List (List String) :=
  (List.range (start.length + 1)).map fun n => start.take (start.length - n)

/-- plotting_for_darcy_darcy_scenario_1.py:54-58 `find_repo_root` -/
def findRoot (hasGit : List String → Bool) (start : List String) : List String :=
  match (withParents start).find? hasGit with
  | some c => c
  | none => start

/-- plotting_for_darcy_darcy_scenario_1.py:399-416 `resolve_cli_path`; `none` is `FileNotFoundError` -/
def resolve (there : List String → Bool) (cwd root script : List String) (absolute : Bool) (raw : List String)
    (allowMissing : Bool) : Option (List String) :=
  if absolute then (if there raw || allowMissing then some raw else none)
  else match [cwd ++ raw, root ++ raw, script ++ raw].find? there with
    | some c => some c
    | none => if allowMissing then some (script ++ raw) else none

end Verif.ReproduceScenarios
