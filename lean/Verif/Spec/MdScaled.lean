/-
Specification vocabulary for C112: the functions of the exact solution, and the data they are made for.
-/
import Verif.Model.MdScaled
import Verif.Spec.MdLift

namespace Verif.Strong.MdScaled
open MdLift

/-- The functions of the file -/
noncomputable def code (m : Material) : Code where
  porosity := porosity m
  gradPorosity := gradPorosity m
  kappa := kappa m
  dPhi := dPhi m
  gradDPhi := gradDPhi m
  pExact := pExact m
  uExact := uExact m
  qExact := qExact m
  vExact := vExact m
  rhs := rhs m

/-- Positive data -/
structure Positive (m : Material) : Prop where
  rho1 : 0 < m.rho1
  rho2 : 0 ≤ m.rho2
  kappa0 : 0 < m.kappa0
  kappa1 : 0 < m.kappa1
  mu : 0 < m.mu
  delta : 0 < m.delta

end Verif.Strong.MdScaled
