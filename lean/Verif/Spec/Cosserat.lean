/-
Specification vocabulary for C73: linear Cosserat elasticity on one element, by quadrature.
-/
import Verif.Model.Cosserat
import Verif.Spec.Elasticity

namespace Verif.Cosserat
open Assembly L2Form Laplace Elasticity

variable {K X : Type} [Field K]

/-- Number of components of the rotation in dimension `m`. -/
def spins (m : Nat) : Nat := if m = 2 then 1 else 3

/-- The skew tensor of the rotation vector `w`. -/
def axial (m : Nat) (w : Nat → K) (k l : Nat) : K :=
  if m = 2 then (if k = 0 ∧ l = 1 then -w 0 else if k = 1 ∧ l = 0 then w 0 else 0)
  else if k = 0 ∧ l = 1 then -w 2 else if k = 1 ∧ l = 0 then w 2
  else if k = 0 ∧ l = 2 then w 1 else if k = 2 ∧ l = 0 then -w 1
  else if k = 1 ∧ l = 2 then -w 0 else if k = 2 ∧ l = 1 then w 0 else 0

/-- `2μ sym g : sym h + 2κ skew g : skew h + λ tr g tr h` -/
def power (m : Nat) (c : Coeffs K) (g h : Nat → Nat → K) : K :=
  2 * c.mu * contract m (sym g) (sym h) + 2 * c.kappa * contract m (skew g) (skew h) +
    c.lam * (tr m g * tr m h)

/-- Number of degrees of freedom of the displacement. -/
def uDofs (m : Nat) (u : PElem K X) : Nat := u.tab.nPhi * m

/-- Number of degrees of freedom. -/
def dofs (m : Nat) (u : PElem K X) (t : Tab K) : Nat := uDofs m u + t.nPhi * spins m

/-- Strain `∇u + Θ` of the degree of freedom `p`. -/
def strainOf (m : Nat) (u : PElem K X) (t : Tab K) (i p : Nat) : Nat → Nat → K :=
  if p < uDofs m u then basisGrad m u i p
  else axial m fun c => if (p - uDofs m u) % spins m = c then
    t.val 0 i ((p - uDofs m u) / spins m) 0 else 0

/-- Gradient of the rotation of the degree of freedom `p`: component `c`, direction `l`. -/
def curvatureOf (m : Nat) (u : PElem K X) (t : Tab K) (i p c l : Nat) : K :=
  if p < uDofs m u then 0
  else basisGrad (spins m) { u with tab := t } i (p - uDofs m u) c l

/-- `∇θ : ∇η` for rotations of `spins m` components. -/
def contractSpin (m : Nat) (g h : Nat → Nat → K) : K :=
  ∑ c ∈ Finset.range (spins m), ∑ l ∈ Finset.range m, g c l * h c l

/-- The bilinear form of Cosserat elasticity on the degrees of freedom `p` and `q`. -/
def cosseratMatrix (m : Nat) (u : PElem K X) (t : Tab K) (c : X → Nat → Coeffs K) (p q : Nat) : K :=
  ∑ i ∈ Finset.range u.nPts, u.det i * u.weights i *
    (power m (c u.x i) (strainOf m u t i p) (strainOf m u t i q) +
      (c u.x i).gamma * contractSpin m (curvatureOf m u t i p) (curvatureOf m u t i q))

/-- The loads: forces on the displacements, then couples on the rotations. -/
def load (m : Nat) (u : PElem K X) (t : Tab K) (rhs : X → Nat → Nat → K) (p : Nat) : K :=
  if p < uDofs m u then bodyLoad m u rhs p
  else ∑ i ∈ Finset.range u.nPts, u.det i * u.weights i *
    t.val 0 i ((p - uDofs m u) / spins m) 0 * rhs u.x ((p - uDofs m u) % spins m + m) i

/-- Strain of a field with the coefficients `v`. -/
def fieldStrain (m : Nat) (u : PElem K X) (t : Tab K) (v : Nat → K) (i k l : Nat) : K :=
  ∑ p ∈ Finset.range (dofs m u t), v p * strainOf m u t i p k l

/-- Curvature of a field with the coefficients `v`. -/
def fieldCurvature (m : Nat) (u : PElem K X) (t : Tab K) (v : Nat → K) (i c l : Nat) : K :=
  ∑ p ∈ Finset.range (dofs m u t), v p * curvatureOf m u t i p c l

end Verif.Cosserat
