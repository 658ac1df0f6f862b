/- What the columns of a table should contain: what the header says. -/
import Verif.Model.MergedTables

namespace Verif.MergedTables
open Rates

/-- The number that a name stands for -/
def value (n : Numbers) : String → ℝ
  | "h" => n.h
  | "proj q" => n.proj .scaled .scaled "q"
  | "proj p" => n.proj .physical .physical "p"
  | name => n.error name

/-- The rate of a name from the level before to level `i`; there is none at the first level. -/
noncomputable def rateAt (levels : List Numbers) (i : Nat) (name : String) : Option ℝ :=
  match i with
  | 0 => none
  | k + 1 =>
    match levels[k]?, levels[k + 1]? with
    | some b, some e => rate b.h e.h (value b name) (value e name)
    | _, _ => none

/-- A row under a header: a name stands for its value, `rate` for the rate of the name before. -/
def cells (value : String → ℝ) (rate : String → Option ℝ) : String → List String → List (Option ℝ)
  | _, [] => []
  | before, name :: names =>
    if name = "rate" then rate before :: cells value rate before names
    else some (value name) :: cells value rate name names

/-- The row of level `i` under a header -/
noncomputable def rowUnder (levels : List Numbers) (i : Nat) (n : Numbers) (header : List String) :
    List (Option ℝ) :=
  cells (value n) (rateAt levels i) "" header

end Verif.MergedTables
