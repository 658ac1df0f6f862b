/- What the transfer of finite volume solutions should do. -/
import Verif.Model.FvTransfer

namespace Verif.FvTransfer
open Trace
variable {K : Type}

/-- `p` sorts `l`. -/
def IsArgsort (l : List Int) (p : List Nat) : Prop :=
  p.Perm (List.range l.length) ∧ (p.filterMap fun i => l[i]?).Pairwise (· ≤ ·)

/-- The strings of numbers: at most one point and one `e`, and one of them is there. -/
def Numeral (s : List Char) : Prop :=
  s.count '.' ≤ 1 ∧ s.count 'e' ≤ 1 ∧ ('.' ∈ s ∨ 'e' ∈ s)

/-- Row `i` of the result is the row of the face `perm i` of the finite volume mesh times the
sign with which the normals of this face in both meshes agree, `sign i`. -/
def SignedRows [Mul K] (v out : List K) (signs : List K) (perm : List Nat) : Prop :=
  ∀ (i j : Nat) (s : K), perm[i]? = some j → signs[i]? = some s →
    ∀ c < 2, ∀ a, v[2 * j + c]? = some a → out[2 * i + c]? = some (a * s)

/-- Twice the cosine of the angle at `p` times the lengths of the sides has a sign. -/
def cornerDot (p q r : Pt ℝ) : ℝ :=
  (q 0 - p 0) * (r 0 - p 0) + (q 1 - p 1) * (r 1 - p 1) + (q 2 - p 2) * (r 2 - p 2)

/-- One of the angles is obtuse. -/
def HasObtuseAngle (p q r : Pt ℝ) : Prop :=
  cornerDot p q r < 0 ∨ cornerDot q r p < 0 ∨ cornerDot r p q < 0

end Verif.FvTransfer
