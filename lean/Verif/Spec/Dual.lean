/-
Specification vocabulary for C78 to C81: the mixed problem of Cosserat elasticity for stress, couple
stress, displacement and rotation, and the inner product of its spaces, on one element, by quadrature.
-/
import Verif.Model.Dual
import Verif.Spec.Cosserat

namespace Verif.Dual
open Assembly L2Form Laplace Elasticity Cosserat

/-- Values of the four fields in a point, and the divergences of the first two. -/
structure Fields (K : Type) where
  sig : Nat → Nat → K
  dsig : Nat → K
  mom : Nat → Nat → K
  dmom : Nat → K
  disp : Nat → K
  rot : Nat → K

variable {K X : Type} [Field K]

/-- The inverse of `e ↦ 2μ sym e + λ tr(e) I + 2κ skew e` on tensors of size `m`. -/
def strain (m : Nat) (mu lam kappa : K) (s : Nat → Nat → K) (k l : Nat) : K :=
  (sym s k l - lam / (2 * mu + (m : K) * lam) * tr m s * (if k = l then 1 else 0)) / (2 * mu) +
    skew s k l / (2 * kappa)

/-- `a : b` for couple stresses of `spins m` rows and `m` columns, with the law of the curvature. -/
def couplePower (m : Nat) (c : Coeffs K) (a b : Nat → Nat → K) : K :=
  if m = 2 then contractSpin m a b / (c.muO + c.kapO)
  else contract m (strain m c.muO c.lamO c.kapO a) b

/-- `Aσ : σ' + Bω : ω'`; the unscaled form divides the couple stress by the length. -/
def lawPower (scaled : Bool) (m : Nat) (c : Coeffs K) (s t : Fields K) : K :=
  contract m (strain m c.muS c.lamS c.kapS s.sig) t.sig +
    (if scaled then 1 else 1 / c.len) * couplePower m c s.mom t.mom

/-- The mixed form: `Aσ : σ' + Bω : ω' + u · div σ' + u' · div σ + θ · div ω' + θ' · div ω
- Θ : σ' - Θ' : σ`. -/
def dualPower (scaled : Bool) (m : Nat) (c : Coeffs K) (s t : Fields K) : K :=
  lawPower scaled m c s t +
    ∑ k ∈ Finset.range m, (s.disp k * t.dsig k + t.disp k * s.dsig k) +
    ∑ k ∈ Finset.range (spins m), (s.rot k * t.dmom k + t.rot k * s.dmom k) -
    contract m (axial m s.rot) t.sig - contract m (axial m t.rot) s.sig

/-- The inner product: `Aσ : σ' + Bω : ω' + div σ · div σ' + div ω · div ω' + u · u' + θ · θ'`. -/
def rieszPower (scaled : Bool) (m : Nat) (c : Coeffs K) (s t : Fields K) : K :=
  lawPower scaled m c s t +
    ∑ k ∈ Finset.range m, (s.dsig k * t.dsig k + s.disp k * t.disp k) +
    ∑ k ∈ Finset.range (spins m), (s.dmom k * t.dmom k + s.rot k * t.rot k)

/-- Component `k` of the degree of freedom `p`, for a field of `comps` components that starts at `b`
and has the basis functions `f`. -/
def comp (b nPhi comps : Nat) (f : Nat → K) (p k : Nat) : K :=
  if b ≤ p ∧ p < b + nPhi * comps ∧ (p - b) % comps = k then f ((p - b) / comps) else 0

/-- Divergence of the basis function `a`; the derivatives are those on the reference cell. -/
def tabDiv (t : Tab K) (dim : Nat) (det : K) (i a : Nat) : K :=
  (∑ k ∈ Finset.range dim, t.val (k + 1) i a k) / det

/-- Divergence of the couple stress, `div ω` or `div(l ω)`. -/
def coupleDiv (scaled : Bool) (t : Tab K) (dim : Nat) (det : K) (c : Coeffs K) (i a : Nat) : K :=
  if scaled then c.len * tabDiv t dim det i a + ∑ d ∈ Finset.range dim, c.gradLen d * t.val 0 i a d
  else tabDiv t dim det i a

/-- The fields of the degree of freedom `p`. -/
def dofFields (scaled : Bool) (sp : Spaces K X) (c : Coeffs K) (i p : Nat) : Fields K where
  sig k l := comp 0 sp.s.tab.nPhi sp.sComp (fun a => sp.s.tab.val 0 i a l) p k
  dsig := comp 0 sp.s.tab.nPhi sp.sComp (fun a => tabDiv sp.s.tab sp.s.dim (sp.s.det i) i a) p
  mom k l := comp sp.nS sp.m.nPhi sp.mComp (fun a => sp.m.val 0 i a l) p k
  dmom := comp sp.nS sp.m.nPhi sp.mComp
    (fun a => coupleDiv scaled sp.m sp.s.dim (sp.s.det i) c i a) p
  disp := comp (sp.nS + sp.nM) sp.u.nPhi sp.uComp (fun a => sp.u.val 0 i a 0) p
  rot := comp (sp.nS + sp.nM + sp.nU) sp.t.nPhi sp.tComp (fun a => sp.t.val 0 i a 0) p

/-- The matrix of a form: row of the test function `p`, column of the trial function `q`. -/
def matrixOf (power : Coeffs K → Fields K → Fields K → K) (scaled : Bool) (sp : Spaces K X)
    (c : X → Nat → Coeffs K) (p q : Nat) : K :=
  ∑ i ∈ Finset.range sp.s.nPts, sp.s.det i * sp.s.weights i * power (c sp.s.x i)
    (dofFields scaled sp (c sp.s.x i) i q) (dofFields scaled sp (c sp.s.x i) i p)

/-- The matrix of the mixed problem. -/
def dualMatrix (scaled : Bool) (sp : Spaces K X) : (X → Nat → Coeffs K) → Nat → Nat → K :=
  matrixOf (dualPower scaled sp.s.dim) scaled sp

/-- The matrix of the inner product. -/
def rieszMatrix (scaled : Bool) (sp : Spaces K X) : (X → Nat → Coeffs K) → Nat → Nat → K :=
  matrixOf (rieszPower scaled sp.s.dim) scaled sp

/-- The loads: forces on the displacements, couples on the rotations. -/
def load (scaled : Bool) (sp : Spaces K X) (rhs : X → Nat → Nat → K) (c : X → Nat → Coeffs K)
    (p : Nat) : K :=
  ∑ i ∈ Finset.range sp.s.nPts, sp.s.det i * sp.s.weights i *
    (∑ k ∈ Finset.range sp.s.dim, (dofFields scaled sp (c sp.s.x i) i p).disp k * rhs sp.s.x k i +
      ∑ k ∈ Finset.range (spins sp.s.dim),
        (dofFields scaled sp (c sp.s.x i) i p).rot k * rhs sp.s.x (k + sp.s.dim) i)

/-- The fields with the coefficients `v`. -/
def combine (n : Nat) (v : Nat → K) (f : Nat → Fields K) : Fields K where
  sig k l := ∑ p ∈ Finset.range n, v p * (f p).sig k l
  dsig k := ∑ p ∈ Finset.range n, v p * (f p).dsig k
  mom k l := ∑ p ∈ Finset.range n, v p * (f p).mom k l
  dmom k := ∑ p ∈ Finset.range n, v p * (f p).dmom k
  disp k := ∑ p ∈ Finset.range n, v p * (f p).disp k
  rot k := ∑ p ∈ Finset.range n, v p * (f p).rot k

/-- The shapes of the arrays fit: two or three dimensions, vector valued stresses with all
derivatives, as many components as there should be. -/
structure Fits (sp : Spaces K X) : Prop where
  dim : sp.s.dim = 2 ∨ sp.s.dim = 3
  sVal : sp.s.dim ≤ sp.s.tab.nVal
  sDer : sp.s.dim ≤ sp.s.tab.nDer
  mVal : sp.s.dim ≤ sp.m.nVal
  mDer : sp.s.dim ≤ sp.m.nDer
  sComp : sp.sComp = sp.s.dim
  mComp : sp.mComp = spins sp.s.dim
  uComp : sp.uComp = sp.s.dim
  tComp : sp.tComp = spins sp.s.dim

end Verif.Dual
