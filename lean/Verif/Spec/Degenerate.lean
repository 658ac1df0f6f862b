/-
Specification vocabulary for C75, C76 and C77: mixed problems for a flux and a pressure whose
coefficients may degenerate, on one element, by quadrature.
-/
import Verif.Model.Degenerate
import Verif.Spec.Laplace

namespace Verif.Degenerate
open Assembly L2Form Laplace

/-- Values of a pair of fields in a point: flux, its (scaled) divergence, pressure. -/
structure Fields (K : Type) where
  vel : Nat → K
  dv : K
  pres : K

variable {K X : Type} [Field K]

/-- `m u · v - p div v + q div u + c p q` for `s = (u, p)` and `t = (v, q)`. -/
def pairing (dim : Nat) (m c : K) (s t : Fields K) : K :=
  m * ∑ d ∈ Finset.range dim, s.vel d * t.vel d - s.pres * t.dv + s.dv * t.pres + c * (s.pres * t.pres)

/-- The fields of the degree of freedom `a`; `div i a` is the divergence of the flux function `a`. -/
def dofFields (v : Elem K X) (q : Tab K) (div : Nat → Nat → K) (i a : Nat) : Fields K :=
  if a < v.tab.nPhi then ⟨fun d => v.tab.val 0 i a d, div i a, 0⟩
  else ⟨fun _ => 0, 0, q.val 0 i (a - v.tab.nPhi) 0⟩

/-- The matrix: row of the test function `a`, column of the trial function `b`. -/
def systemMatrix (v : Elem K X) (q : Tab K) (m c : Nat → K) (div : Nat → Nat → K) (a b : Nat) : K :=
  ∑ i ∈ Finset.range v.nPts, v.det i * v.weights i *
    pairing v.dim (m i) (c i) (dofFields v q div i b) (dofFields v q div i a)

/-- The fields with the coefficients `x`. -/
def combine (n : Nat) (x : Nat → K) (f : Nat → Fields K) : Fields K :=
  ⟨fun d => ∑ b ∈ Finset.range n, x b * (f b).vel d, ∑ b ∈ Finset.range n, x b * (f b).dv,
    ∑ b ∈ Finset.range n, x b * (f b).pres⟩

/-- `∫ s f w`, with a factor `s`. -/
def sourceTerm (v : Elem K X) (q : Tab K) (factor : Nat → K) (rhs : X → Nat → Nat → K) (a : Nat) : K :=
  if a < v.tab.nPhi then 0 else
    ∑ i ∈ Finset.range v.nPts, v.det i * v.weights i *
      (factor i * rhs v.x 0 i * q.val 0 i (a - v.tab.nPhi) 0)

/-- `div(δψ_a) / √φ`, by the product rule, and zero where the porosity vanishes. -/
def scaledDiv [LinearOrder K] (root : K → K) (v : Elem K X) (phi delta : X → Nat → K)
    (grad : X → Nat → Nat → K) (i a : Nat) : K :=
  if 1 / 10 ^ 8 < phi v.x i then
    (delta v.x i * divAt v i a + ∑ d ∈ Finset.range v.dim, grad v.x d i * v.tab.val 0 i a d) /
      root (phi v.x i)
  else 0

/-- The physical fields `u = δ v`, `p = q / √φ` of the scaled fields `(v, q)`; where the porosity is
not positive the code takes the scaled fields themselves. -/
def physical [LinearOrder K] (root : K → K) (phi delta : K) (s : Fields K) : Fields K :=
  if 0 < phi then ⟨fun d => delta * s.vel d, 0, s.pres / root phi⟩ else ⟨s.vel, 0, s.pres⟩

/-- `∫ u · v + p q` -/
def l2Matrix (v : Elem K X) (q : Tab K) : Nat → Nat → K :=
  systemMatrix v q (fun _ => 1) (fun _ => 1) (fun _ _ => 0)

/-- `∫ u · ψ_a + p w_a` for the physical fields of the scaled ones with the coefficients `x`. -/
def physicalMoment [LinearOrder K] (root : K → K) (v : Elem K X) (q : Tab K) (phi delta : X → Nat → K)
    (x : Nat → K) (a : Nat) : K :=
  ∑ i ∈ Finset.range v.nPts, v.det i * v.weights i *
    pairing v.dim 1 1 (physical root (phi v.x i) (delta v.x i)
      (combine (v.tab.nPhi + q.nPhi) x (dofFields v q (fun _ _ => 0) i)))
      (dofFields v q (fun _ _ => 0) i a)

end Verif.Degenerate
