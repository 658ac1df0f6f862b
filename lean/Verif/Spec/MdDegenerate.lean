/-
Specification vocabulary for C113: the functions of the exact solution, and the data they are made for.
-/
import Verif.Model.MdDegenerate
import Verif.Spec.MdLift

namespace Verif.Strong.MdDegenerate
open MdLift

/-- The functions of the file -/
noncomputable def code (m : Material) : Code where
  porosity := porosity m
  gradPorosity := gradPorosity m
  kappa := kappa m
  dPhi := dPhi m
  gradDPhi := gradDPhi m
  pExact := pExact m
  uExact := uExact m
  qExact := qExact m
  vExact := vExact m
  rhs := rhs m

/-- Positive data, and an exponent without resonance: `β` is no root of the characteristic polynomial `s² + 3 s - 1`. -/
structure Positive (m : Material) : Prop where
  kappa0 : 0 < m.kappa0
  kappa1 : 0 < m.kappa1
  mu : 0 < m.mu
  delta : 0 < m.delta
  beta : -1 + m.beta * (3 + m.beta) ≠ 0

end Verif.Strong.MdDegenerate
