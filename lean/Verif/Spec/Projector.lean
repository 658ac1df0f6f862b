/-
Specification vocabulary for C24: the assembled mass matrix.
-/
import Verif.Model.Projector
import Verif.Spec.Assembly

namespace Verif.Projector
open Space Assembly

variable {K : Type} [Field K] [LinearOrder K]

/-- The entries the projection treats as zero: those within `1e-8 + 1e-21` of `1e-16`. -/
def Negligible (v : K) : Prop := |v - 1 / 10 ^ 16| ≤ 1 / 10 ^ 8 + 1 / 10 ^ 21

instance (v : K) : Decidable (Negligible v) := by unfold Negligible; infer_instance

/-- The contribution with the negligible entries dropped. -/
def pruned (c : Contribution K) : Contribution K :=
  { c with jac := c.jac.map fun row => row.map fun v => if Negligible v then 0 else v }

/-- The contributions of the elements `0 .. n-1` of the space, with shift 0. -/
def ElementsGive (p : Product) (eval : Eval K) (n : Nat) (cs : List (Contribution K)) : Prop :=
  cs.length = n ∧ ∀ (i : Nat) c, cs[i]? = some c →
    ({ p with dofShift := 0 } : Product).destinationIndexes i none = .ok c.dest ∧
    eval i (List.replicate c.dest.length 0) = .ok (c.res, c.jac)

end Verif.Projector
