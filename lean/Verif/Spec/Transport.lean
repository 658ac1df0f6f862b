/-
Specification vocabulary for C120: an implicit Euler step of diffusion of a pressure and of diffusion and reaction
of a concentration, by quadrature on one element.
-/
import Verif.Model.Transport

namespace Verif.Transport
open Assembly L2Form Laplace

variable {K X : Type} [Field K]

/-- The values of all fields in a point: fluxes and their divergences, pressure and concentration -/
structure Fields (K : Type) where
  mp : Nat → K
  divMp : K
  mc : Nat → K
  divMc : K
  p : K
  c : K

/-- Divergence of the basis function `a` of a flux -/
def divOf (s : Spaces K X) (t : Tab K) (i a : Nat) : K :=
  (∑ k ∈ Finset.range s.mp.dim, t.val (k + 1) i a k) / s.mp.det i

/-- The number of degrees of freedom -/
def size (s : Spaces K X) : Nat := s.mp.tab.nPhi + s.mc.nPhi + s.p.nPhi + s.c.nPhi

/-- The basis function of the degree of freedom `a`: first `mp`, then `mc`, `p` and `c` -/
def basis (s : Spaces K X) (i a : Nat) : Fields K :=
  if a < s.mp.tab.nPhi then ⟨fun d => s.mp.tab.val 0 i a d, divOf s s.mp.tab i a, fun _ => 0, 0, 0, 0⟩
  else if a < s.mp.tab.nPhi + s.mc.nPhi then
    ⟨fun _ => 0, 0, fun d => s.mc.val 0 i (a - s.mp.tab.nPhi) d, divOf s s.mc i (a - s.mp.tab.nPhi), 0, 0⟩
  else if a < s.mp.tab.nPhi + s.mc.nPhi + s.p.nPhi then
    ⟨fun _ => 0, 0, fun _ => 0, 0, s.p.val 0 i (a - (s.mp.tab.nPhi + s.mc.nPhi)) 0, 0⟩
  else ⟨fun _ => 0, 0, fun _ => 0, 0, 0, s.c.val 0 i (a - (s.mp.tab.nPhi + s.mc.nPhi + s.p.nPhi)) 0⟩

/-- The fields with the degrees of freedom `alpha` -/
def state (s : Spaces K X) (alpha : Nat → K) (i : Nat) : Fields K where
  mp d := ∑ b ∈ Finset.range (size s), alpha b * (basis s i b).mp d
  divMp := ∑ b ∈ Finset.range (size s), alpha b * (basis s i b).divMp
  mc d := ∑ b ∈ Finset.range (size s), alpha b * (basis s i b).mc d
  divMc := ∑ b ∈ Finset.range (size s), alpha b * (basis s i b).divMc
  p := ∑ b ∈ Finset.range (size s), alpha b * (basis s i b).p
  c := ∑ b ∈ Finset.range (size s), alpha b * (basis s i b).c

/-- The equations in a point, tested with `z`: `κ⁻¹ mp + ∇p = 0`, `δ⁻¹ mc + ∇c = 0` (in weak form), and
`∂p/∂t + div mp = f`, `∂c/∂t + div mc + 1 + η c² = r` with the difference quotient of one time step -/
def weak (dim : Nat) (co : Coeffs K) (dt f r : K) (w w0 z : Fields K) : K :=
  (∑ d ∈ Finset.range dim, w.mp d / co.kappa * z.mp d - w.p * z.divMp) +
  (∑ d ∈ Finset.range dim, w.mc d / co.delta * z.mc d - w.c * z.divMc) +
  ((w.p - w0.p) / dt + w.divMp - f) * z.p +
  ((w.c - w0.c) / dt + w.divMc + (1 + co.eta * w.c ^ 2) - r) * z.c

/-- The linear part of the change of `weak` in the direction `v` -/
def weakDer (dim : Nat) (co : Coeffs K) (dt : K) (w v z : Fields K) : K :=
  (∑ d ∈ Finset.range dim, v.mp d / co.kappa * z.mp d - v.p * z.divMp) +
  (∑ d ∈ Finset.range dim, v.mc d / co.delta * z.mc d - v.c * z.divMc) +
  (v.p / dt + v.divMp) * z.p + (v.c / dt + v.divMc + 2 * co.eta * w.c * v.c) * z.c

/-- The residual of the test function `a` -/
def residual (s : Spaces K X) (rhsF rhsR : X → K → Nat → Nat → K) (co : X → Nat → Coeffs K) (dt : K)
    (alpha old : Nat → K) (t : K) (a : Nat) : K :=
  ∑ i ∈ Finset.range s.mp.nPts, s.mp.det i * s.mp.weights i *
    weak s.mp.dim (co s.mp.x i) dt (rhsF s.mp.x t 0 i) (rhsR s.mp.x t 0 i) (state s alpha i) (state s old i) (basis s i a)

/-- The derivative of the residual of the test function `a` by the degree of freedom `b` -/
def jacobian (s : Spaces K X) (co : X → Nat → Coeffs K) (dt : K) (alpha : Nat → K) (a b : Nat) : K :=
  ∑ i ∈ Finset.range s.mp.nPts, s.mp.det i * s.mp.weights i *
    weakDer s.mp.dim (co s.mp.x i) dt (state s alpha i) (basis s i b) (basis s i a)

/-- The shapes of the arrays fit: vector valued fluxes, scalar pressure and concentration, one component each. -/
structure Shapes (s : Spaces K X) : Prop where
  dim : 0 < s.mp.dim
  mpValues : s.mp.dim ≤ s.mp.tab.nVal
  mpDer : s.mp.dim ≤ s.mp.tab.nDer
  mcValues : s.mp.dim ≤ s.mc.nVal
  mcDer : s.mp.dim ≤ s.mc.nDer
  pScalar : s.p.nVal = 1
  cScalar : s.c.nVal = 1
  mpOne : s.mpComp = 1
  mcOne : s.mcComp = 1
  pOne : s.pComp = 1
  cOne : s.cComp = 1

end Verif.Transport
