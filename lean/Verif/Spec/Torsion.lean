/- What the torsion test should compute. -/
import Verif.Model.Torsion
import Verif.Spec.DriverSpaces
import Verif.Spec.DualBoundary

namespace Verif.Torsion
open MeshGraph Space Dual DriverSpaces

/-- The part of the surface of the cylinder with a tag: the end that is turned, the end that is held, and the side. -/
def partOf (m : Option Int) : Option Part :=
  if m = some 7 then some .top else if m = some 6 then some .bottom
  else if m = some 2 ∨ m = some 3 ∨ m = some 4 ∨ m = some 5 then some .lateral else none

section
variable {K : Type} [Field K]

/-- Entry `(c, e)` of the field on the face: row `c` has the coefficients `c`, `c + 3`, `c + 6`, ... -/
def tensor (f : Face K) (i c e : Nat) : K :=
  ∑ a ∈ Finset.range f.tr.dofs.length, f.alpha.getD (a * 3 + c) 0 * f.tr.tab.val 0 i (f.tr.dofs.getD a 0) e

/-- Component `c` of the traction: the field applied to the normal -/
def tractionAt (f : Face K) (i c : Nat) : K := ∑ e ∈ Finset.range 3, tensor f i c e * f.side.normal e

/-- The integral over the face -/
def integral (f : Face K) (g : Nat → K) : K := ∑ i ∈ Finset.range f.side.nPts, f.side.det i * f.side.weights i * g i

/-- The moment of the traction about the third axis -/
def torque (f : Face K) : K := integral f fun i => f.x i 0 * tractionAt f i 1 - f.x i 1 * tractionAt f i 0

/-- The couple about the third axis -/
def couple (f : Face K) : K := integral f fun i => tractionAt f i 2

/-- A face of the turned end, in space, with three coefficients for every function of the face. -/
structure OnTop (f : Face K) : Prop where
  neighbour : f.hasNeighbour = true
  tag : f.materialId = some 7
  dim : f.side.dim = 3
  some : f.tr.dofs ≠ []
  dofs : ∀ d ∈ f.tr.dofs, d < f.tr.tab.nPhi
  val : 3 ≤ f.tr.tab.nVal
  alpha : f.alpha.length = f.tr.dofs.length * 3

/-- The normal is the third axis. -/
def Upwards (f : Face K) : Prop := f.side.normal 0 = 0 ∧ f.side.normal 1 = 0 ∧ f.side.normal 2 = 1

end

end Verif.Torsion
