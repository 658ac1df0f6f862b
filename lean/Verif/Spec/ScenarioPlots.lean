/-
Specification for the plotting scripts of the degenerate scenarios.
-/
import Verif.Model.ScenarioPlots
import Verif.Spec.MergedTables

namespace Verif.ScenarioPlots
open MergedTables

/-- Curves as they should be: the mesh size, and under each label the number that the label names. -/
noncomputable def curves (labels : List String) (n : Numbers) : Option ℝ × List (String × Option ℝ) :=
  (some n.h, labels.map fun l => (l, some (value n l)))

/-- Slope between two points in a picture with logarithmic axes. -/
noncomputable def slope (p q : ℝ × ℝ) : ℝ := (log10 p.2 - log10 q.2) / (log10 p.1 - log10 q.1)

/-- The options that the master script gives, with the defaults for the others. -/
def masterChoice : Scenario → Choice
  | .one => ⟨[2, 4, 6, 8], [2, 3, 4, 5, 6], "fitted", 2⟩
  | .two => ⟨[2, 1, 1 / 4, 1 / 8], [2, 3, 4, 5, 6], "fitted", 2⟩

end Verif.ScenarioPlots
