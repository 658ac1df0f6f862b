/- What the drivers should assemble. -/
import Verif.Model.DriverAssembly
import Verif.Spec.Assembly

namespace Verif.DriverAssembly
open Space Assembly

/-- The outcome of an element without exceptions -/
def outcome (c : Contribution ℝ) : Res (List Nat × List ℝ × List (List ℝ)) :=
  .ok (c.dest, c.res, c.jac)

/-- The largest entry that may get lost -/
noncomputable def lost : ℝ := 1 / 10 ^ 8 + 1 / 10 ^ 5 * (1 / 10 ^ 16) + 1 / 10 ^ 16

/-- In how many ways an element contributes to an entry: once, if it has both destinations. -/
def touches (c : Contribution ℝ) (i j : Nat) : Nat := c.dest.count i * c.dest.count j

/-- No entry of the element is small unless it is zero. -/
def Sizable (c : Contribution ℝ) : Prop :=
  ∀ r ∈ c.jac, ∀ x ∈ r, x = 0 ∨ lost < |x|

/-- The element matrix is symmetric. -/
def IsSymmetric (c : Contribution ℝ) : Prop :=
  ∀ (a b : Nat) ra rb x y, c.jac[a]? = some ra → ra[b]? = some x → c.jac[b]? = some rb →
    rb[a]? = some y → x = y

end Verif.DriverAssembly
