/-
Specification for the script that reproduces the scenarios: a plan of jobs, and what it means that all of them succeed.
-/
import Verif.Model.ReproduceScenarios

namespace Verif.ReproduceScenarios

/-- A script with its arguments and the folder that it has to fill. -/
structure Job where
  script : String
  args : List String
  picture : Bool
  folder : String

def computations : List Job :=
  [⟨"darcy_elliptic_degenerate_scenario_1.py", [], false, "output_scenario_1"⟩,
    ⟨"darcy_elliptic_degenerate_scenario_2.py", [], false, "output_scenario_2"⟩]

def plots : List Job :=
  [⟨"plotting_for_darcy_darcy_scenario_1.py", plotArgsOne, true, "figures_scenario_1"⟩,
    ⟨"plotting_for_darcy_darcy_scenario_2.py", plotArgsTwo, true, "figures_scenario_2"⟩]

/-- What the flags ask for. -/
def plan (plotsOnly computeOnly : Bool) : List Job :=
  (if plotsOnly then [] else computations) ++ (if computeOnly then [] else plots)

variable {σ : Type}

/-- Code 0 and a folder that is not empty. -/
def Job.Good (sys : System σ) (p : Programs) (j : Job) (s : σ) : Prop :=
  (sys.exec (command p j.script (some j.args) j.picture) s).1 = 0 ∧
    ∃ n, sys.items j.folder (sys.exec (command p j.script (some j.args) j.picture) s).2 = some (n + 1)

/-- All jobs succeed, one after the other. -/
def AllGood (sys : System σ) (p : Programs) : List Job → σ → Prop
  | [], _ => True
  | j :: js, s => j.Good sys p s ∧ AllGood sys p js (sys.exec (command p j.script (some j.args) j.picture) s).2

/-- The state after all jobs, whatever their results. -/
def after (sys : System σ) (p : Programs) : List Job → σ → σ
  | [], s => s
  | j :: js, s => after sys p js (sys.exec (command p j.script (some j.args) j.picture) s).2

/-- A system that also notes the commands. -/
def System.noting (sys : System σ) : System (σ × List (List String)) :=
  ⟨fun c s => ((sys.exec c s.1).1, (sys.exec c s.1).2, s.2 ++ [c]), fun f s => sys.items f s.1⟩

def commands (p : Programs) (js : List Job) : List (List String) :=
  js.map fun j => command p j.script (some j.args) j.picture

end Verif.ReproduceScenarios
