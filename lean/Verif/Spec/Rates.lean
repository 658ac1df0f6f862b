/- What convergence tables should contain. -/
import Verif.Model.Rates
import Mathlib.Analysis.SpecialFunctions.Pow.Real

namespace Verif.Rates

/-- The slope between two points of a doubly logarithmic plot -/
noncomputable def slope (hb he eb ee : ℝ) : ℝ :=
  (Real.log ee - Real.log eb) / (Real.log he - Real.log hb)

/-- Row `i` of the rates has, for every error, the slope between the levels `i` and `i + 1`. -/
def AreSlopes (levels : List Level) (r : List (List (Option ℝ))) : Prop :=
  r.length = levels.length - 1 ∧
  ∀ (i : Nat) l l', levels[i]? = some l → levels[i + 1]? = some l' →
    ∃ row, r[i]? = some row ∧ row.length = l.errors.length ∧
      ∀ (c : Nat) e e', l.errors[c]? = some e → l'.errors[c]? = some e' →
        row[c]? = some (some (slope l.h l'.h e e'))

/-- Positive mesh sizes that differ from one level to the next, and positive errors, always the
same number of them -/
def Regular (n : Nat) (levels : List Level) : Prop :=
  (∀ l ∈ levels, 0 < l.h ∧ l.errors.length = n ∧ ∀ e ∈ l.errors, 0 < e) ∧
  ∀ (i : Nat) l l', levels[i]? = some l → levels[i + 1]? = some l' → l.h ≠ l'.h

end Verif.Rates
