/-
Model of the dual forms of Cosserat elasticity, in exact arithmetic: `LCEDualWeakForm`
(src/weak_forms/lce_dual_weak_form.py), `LCEScaledDualWeakForm`
(src/weak_forms/lce_scaled_dual_weak_form.py), `LCERieszMapWeakForm` (lce_riesz_map_weak_form.py) and
`LCEScaledRieszMapWeakForm` (lce_scaled_riesz_map_weak_form.py), each with `evaluate_form`, by automatic
differentiation, and `evaluate_form_vectorized`, which writes the matrix.

The conventions are those of Model/Laplace.lean and Model/Cosserat.lean.  The cells have dimension 2
or 3.  Displacements and rotations have scalar basis functions.  The tabulations of stress and couple
stress have the same number of derivatives.  The gradient of `l` has a component in every direction of
the cell.  A block is never broadcast.  The two files of a pair differ in the length scale only;
`scaled` tells them apart.
-/
import Verif.Model.Cosserat

namespace Verif.Dual
open Assembly L2Form Laplace Elasticity

/-- `self.functions`: `rhs(x)[c][i]`, the coefficients in the point `i`, and `grad_l(x)[d, i]`. -/
structure Data (K X : Type) where
  rhs : Option (X → Nat → Nat → K)
  lamS : Option (X → Nat → K)
  muS : Option (X → Nat → K)
  kapS : Option (X → Nat → K)
  lamO : Option (X → Nat → K)
  muO : Option (X → Nat → K)
  kapO : Option (X → Nat → K)
  len : Option (X → Nat → K)
  gradLen : Option (X → Nat → Nat → K)

/-- The coefficients in one point. -/
structure Coeffs (K : Type) where
  lamS : K
  muS : K
  kapS : K
  lamO : K
  muO : K
  kapO : K
  len : K
  gradLen : Nat → K

/-- The tabulations of the four fields, and their numbers of components. -/
structure Spaces (K X : Type) where
  s : Elem K X
  m : Tab K
  u : Tab K
  t : Tab K
  sComp : Nat
  mComp : Nat
  uComp : Nat
  tComp : Nat

section
variable {K X R : Type} [Field K] [CommRing R] [Algebra K R]

/-- `n_s_dof`, ... -/
def Spaces.nS (sp : Spaces K X) : Nat := sp.s.tab.nPhi * sp.sComp
def Spaces.nM (sp : Spaces K X) : Nat := sp.m.nPhi * sp.mComp
def Spaces.nU (sp : Spaces K X) : Nat := sp.u.nPhi * sp.uComp
def Spaces.nT (sp : Spaces K X) : Nat := sp.t.nPhi * sp.tComp

/-- `n_dof` -/
def Spaces.total (sp : Spaces K X) : Nat := sp.nS + sp.nM + sp.nU + sp.nT

/-- The values of scalar basis functions: `tab[0, i, :, 0:dim]` of one column -/
def scalarValues (t : Tab K) (i : Nat) : Arr K := ⟨t.nPhi, 1, fun a _ => t.val 0 i a 0⟩

/-- lce_dual_weak_form.py:152-168 (and 301-319): `A_sh`; also 322-337 for the couple stress. -/
def compliance (dim : Nat) (mu lam kappa : K) (s : Arr R) : Res (Arr R) := do
  let sy : Arr R := symmetricPart (K := K) s
  let sk : Arr R := Cosserat.skewPart (K := K) s
  let d ← addIdentity sy dim (- (algebraMap K R (lam / (2 * mu + (dim : K) * lam)) * trace s))
  pure ⟨s.rows, s.cols, fun k l => algebraMap K R (1 / (2 * mu)) * d.val k l +
    algebraMap K R (1 / (2 * kappa)) * sk.val k l⟩

/-- The factor of `A_mh`: lce_dual_weak_form.py:171 and 338; absent in the scaled form. -/
def coupleFactor (scaled : Bool) (c : Coeffs K) : K := if scaled then 1 else 1 / c.len

/-- lce_dual_weak_form.py:170-171 and 322-338: `A_mh` -/
def coupleCompliance (scaled : Bool) (dim : Nat) (c : Coeffs K) (m : Arr R) : Res (Arr R) := do
  let a ← if dim = 2 then pure (m.scale (algebraMap K R (1 / (c.muO + c.kapO))))
    else compliance dim c.muO c.lamO c.kapO m
  pure (a.scale (algebraMap K R (coupleFactor scaled c)))

/-- lce_dual_weak_form.py:178-181: `div_v`; lce_scaled_dual_weak_form.py:185-202: `div_v_s` -/
def coupleDivergence (scaled : Bool) (t : Tab K) (dim i : Nat) (det : K) (c : Coeffs K) : Arr K :=
  ⟨1, t.nPhi, fun _ a => if scaled then
    c.len * (t.divergence dim i det).val 0 a +
      ∑ d ∈ Finset.range (min dim t.nVal), c.gradLen d * t.val 0 i a d
    else (t.divergence dim i det).val 0 a⟩

/-- lce_dual_weak_form.py:193 and 376-384: `S_cross` -/
def cross (m : Nat) (s : Arr R) : Arr R :=
  if m = 2 then ⟨1, 1, fun _ _ => s.val 1 0 - s.val 0 1⟩
  else ⟨1, 3, fun _ c => match c with
    | 0 => s.val 2 1 - s.val 1 2
    | 1 => s.val 0 2 - s.val 2 0
    | _ => s.val 1 0 - s.val 0 1⟩

/-- The discrete fields in one point: `sh`, `A_sh`, `div_sh`, `A_mh`, `div_mh`, `uh`, `th`. -/
structure Point (R : Type) where
  s : Arr R
  aS : Arr R
  dS : Arr R
  aM : Arr R
  dM : Arr R
  u : Arr R
  t : Arr R

/-- lce_dual_weak_form.py:96-366 -/
def pointFields (scaled : Bool) (sp : Spaces K X) (c : Coeffs K) (alpha : Nat → R) (i : Nat) :
    Res (Point R) := do
  let dim := sp.s.dim
  let m := if dim = 2 then 2 else 3
  let d := if dim = 2 then 1 else 3
  let divS := sp.s.tab.divergence dim i (sp.s.det i)
  let divM := coupleDivergence scaled sp.m dim i (sp.s.det i) c
  let sh ← fieldGradient sp.total 0 sp.nS sp.sComp m (sp.s.tab.values dim i) alpha
  let uh ← fieldGradient sp.total (sp.nS + sp.nM) sp.nU sp.uComp m (scalarValues sp.u i) alpha
  let mh ← fieldGradient sp.total sp.nS sp.nM sp.mComp d (sp.m.values dim i) alpha
  let th ← fieldGradient sp.total (sp.nS + sp.nM + sp.nU) sp.nT sp.tComp d (scalarValues sp.t i) alpha
  let aS ← compliance dim c.muS c.lamS c.kapS sh
  let aM ← coupleCompliance scaled dim c mh
  let dS ← fieldGradient sp.total 0 sp.nS sp.sComp m divS.transpose alpha
  let dM ← fieldGradient sp.total sp.nS sp.nM sp.mComp d divM.transpose alpha
  pure ⟨sh, aS, dS.transpose, aM, dM.transpose, uh.transpose, th.transpose⟩

/-- lce_dual_weak_form.py:397-404: the four equations, one after the other -/
def stack (sp : Spaces K X) (e1 e2 e3 e4 : Arr R) : Res (Vec R) :=
  if e1.rows * e1.cols ≠ sp.nS ∨ e2.rows * e2.cols ≠ sp.nM ∨ e3.rows * e3.cols ≠ sp.nU ∨
    e4.rows * e4.cols ≠ sp.nT then .error .valueError
  else .ok ⟨sp.total, fun a =>
    if a < sp.nS then e1.val (a / e1.cols) (a % e1.cols)
    else if a < sp.nS + sp.nM then e2.val ((a - sp.nS) / e2.cols) ((a - sp.nS) % e2.cols)
    else if a < sp.nS + sp.nM + sp.nU then
      e3.val ((a - (sp.nS + sp.nM)) / e3.cols) ((a - (sp.nS + sp.nM)) % e3.cols)
    else e4.val ((a - (sp.nS + sp.nM + sp.nU)) / e4.cols) ((a - (sp.nS + sp.nM + sp.nU)) % e4.cols)⟩

/-- lce_dual_weak_form.py:386-404: `discrete_integrand` in the point `i` -/
def integrand (scaled : Bool) (sp : Spaces K X) (c : Coeffs K) (alpha : Nat → R) (i : Nat) :
    Res (Vec R) := do
  let dim := sp.s.dim
  let m := if dim = 2 then 2 else 3
  let psi := (sp.s.tab.values dim i).lift R
  let chi := (sp.m.values dim i).lift R
  let divS := (sp.s.tab.divergence dim i (sp.s.det i)).lift R
  let divM := (coupleDivergence scaled sp.m dim i (sp.s.det i) c).lift R
  let p ← pointFields scaled sp c alpha i
  let a1 ← matmul psi p.aS.transpose
  let a2 ← matmul divS.transpose p.u
  let a3 ← matmul psi (Cosserat.thetaOuter m fun k => p.t.val 0 k).transpose
  let a ← Cosserat.add a1 a2
  let e1 ← a.sub a3
  let b1 ← matmul chi p.aM.transpose
  let b2 ← matmul divM.transpose p.t
  let e2 ← Cosserat.add b1 b2
  let e3 ← matmul ((scalarValues sp.u i).lift R) p.dS
  let d1 ← matmul ((scalarValues sp.t i).lift R) p.dM
  let d2 ← matmul ((scalarValues sp.t i).lift R) (cross m p.s)
  let e4 ← d1.sub d2
  stack sp e1 e2 e3 e4

/-- lce_riesz_map_weak_form.py:338-365: `discrete_integrand` of the Riesz map -/
def rieszIntegrand (scaled : Bool) (sp : Spaces K X) (c : Coeffs K) (alpha : Nat → R) (i : Nat) :
    Res (Vec R) := do
  let dim := sp.s.dim
  let psi := (sp.s.tab.values dim i).lift R
  let chi := (sp.m.values dim i).lift R
  let divS := (sp.s.tab.divergence dim i (sp.s.det i)).lift R
  let divM := (coupleDivergence scaled sp.m dim i (sp.s.det i) c).lift R
  let p ← pointFields scaled sp c alpha i
  let a1 ← matmul psi p.aS.transpose
  let a2 ← matmul divS.transpose p.dS
  let e1 ← Cosserat.add a1 a2
  let b1 ← matmul chi p.aM.transpose
  let b2 ← matmul divM.transpose p.dM
  let e2 ← Cosserat.add b1 b2
  let e3 ← matmul ((scalarValues sp.u i).lift R) p.u
  let e4 ← matmul ((scalarValues sp.t i).lift R) p.t
  stack sp e1 e2 e3 e4

/-- The loops of lce_dual_weak_form.py:84-94 and 491-503: `-1.0 * f` on displacements and
rotations. -/
def loads (sp : Spaces K X) (rhs : X → Nat → Nat → K) : Res (Vec R) := do
  let r ← (List.range sp.uComp).foldlM (fun (r : Vec R) c =>
    let b := c + (sp.nS + sp.nM)
    r.addAt (sliceIdx sp.total b (b + sp.nU) sp.uComp) ⟨sp.u.nPhi, fun a => algebraMap K R
      (∑ i ∈ Finset.range sp.s.nPts, -1 * (sp.s.det i * sp.s.weights i * sp.u.val 0 i a 0) *
        rhs sp.s.x c i)⟩) (Vec.zeros sp.total)
  (List.range sp.tComp).foldlM (fun (r : Vec R) c =>
    let b := c + (sp.nS + sp.nM + sp.nU)
    r.addAt (sliceIdx sp.total b (b + sp.nT) sp.tComp) ⟨sp.t.nPhi, fun a => algebraMap K R
      (∑ i ∈ Finset.range sp.s.nPts, -1 * (sp.s.det i * sp.s.weights i * sp.t.val 0 i a 0) *
        rhs sp.s.x (c + sp.uComp) i)⟩) r

/-- lce_dual_weak_form.py:82-405: `el_form` -/
def form (scaled : Bool) (sp : Spaces K X) (rhs : X → Nat → Nat → K) (c : X → Nat → Coeffs K)
    (alpha : Nat → R) : Res (Vec R) := do
  let r ← loads sp rhs
  (List.range sp.s.nPts).foldlM (fun (r : Vec R) i => do
    let v ← integrand scaled sp (c sp.s.x i) alpha i
    Vec.addScaled r (algebraMap K R (sp.s.det i * sp.s.weights i)) v) r

/-- lce_riesz_map_weak_form.py:63-366: `el_form` -/
def rieszForm (scaled : Bool) (sp : Spaces K X) (c : X → Nat → Coeffs K) (alpha : Nat → R) :
    Res (Vec R) :=
  (List.range sp.s.nPts).foldlM (fun (r : Vec R) i => do
    let v ← rieszIntegrand scaled sp (c sp.s.x i) alpha i
    Vec.addScaled r (algebraMap K R (sp.s.det i * sp.s.weights i)) v) (Vec.zeros sp.total)

/-! ### The vectorized forms -/

/-- `j[rows, cols] += f` with slices, for a block of shape `(nr, nc)` -/
def addRect (j : Mat K) (rows cols : List Nat) (nr nc : Nat) (f : Nat → Nat → K) : Res (Mat K) :=
  if rows.length ≠ nr ∨ cols.length ≠ nc then .error .valueError
  else .ok ⟨j.n, fun a b => j.val a b +
    if a ∈ rows ∧ b ∈ cols then f (rows.idxOf a) (cols.idxOf b) else 0⟩

/-- lce_dual_weak_form.py:505-508: `outer_fun`; `phi` has the shape `(n, dim)`. -/
def outerFun (dim : Nat) (phi : Nat → Nat → K) (r c : Nat) : K :=
  1 / 2 * (phi (c / dim) (r % dim) * phi (r / dim) (c % dim))

/-- lce_dual_weak_form.py:510-514: `inner_fun` -/
def innerFun (dim : Nat) (phi : Nat → Nat → K) (r c : Nat) : K :=
  1 / 2 * ((∑ k ∈ Finset.range dim, phi (c / dim) k * phi (r / dim) k) *
    if r % dim = c % dim then 1 else 0)

/-- lce_dual_weak_form.py:516-529 and 585-601: the block of a tensor, `w i` are the factors of the
points and `cols` is the number of columns of the values. -/
def tensorBlock (nPts cols dim : Nat) (t : Tab K) (w mu lam kappa : Nat → K) (r c : Nat) : K :=
  (∑ i ∈ Finset.range nPts,
      (innerFun cols (t.val 0 i) r c + outerFun cols (t.val 0 i) r c) * (w i * (1 / (2 * mu i)))) +
    (∑ i ∈ Finset.range nPts,
      (innerFun cols (t.val 0 i) r c - outerFun cols (t.val 0 i) r c) * (w i * (1 / (2 * kappa i)))) +
    ∑ i ∈ Finset.range nPts,
      - (t.val 0 i (r / cols) (r % cols) * t.val 0 i (c / cols) (c % cols)) *
        (w i * (1 / (2 * mu i) * (lam i / (2 * mu i + (dim : K) * lam i))))

/-- Loops like lce_dual_weak_form.py:610-613: the same block for every component of a field that
starts at `b`. -/
def diagonalBlocks (total b nPhi comps : Nat) (f : Nat → Nat → K) (j : Mat K) : Res (Mat K) :=
  (List.range comps).foldlM (fun (j : Mat K) c =>
    let idx := sliceIdx total (c + b) (c + b + nPhi * comps) comps
    addRect j idx idx nPhi nPhi f) j

/-- Loops like lce_dual_weak_form.py:620-630: the block `f` and its transpose, for equal components
of the fields that start at `b` and `b'`. -/
def couplingBlocks (total b nPhi comps b' nPhi' comps' : Nat) (f : Nat → Nat → K) (j : Mat K) :
    Res (Mat K) :=
  (List.range comps).foldlM (fun (j : Mat K) c =>
    (List.range comps').foldlM (fun (j : Mat K) c' => do
      if c ≠ c' then pure j
      else
        let rows := sliceIdx total (c + b) (c + b + nPhi * comps) comps
        let cols := sliceIdx total (c' + b') (c' + b' + nPhi' * comps') comps'
        let j ← addRect j rows cols nPhi nPhi' f
        addRect j cols rows nPhi' nPhi fun x y => f y x) j) j

/-- lce_dual_weak_form.py:561-570: the components of the stress coupled to the rotation `c`, with the
direction and the sign of the operator. -/
def crossTable (dim c : Nat) : Res (List (Nat × Nat × K)) :=
  if dim = 3 then match c with
    | 0 => .ok [(2, 1, 1), (1, 2, -1)]
    | 1 => .ok [(0, 2, 1), (2, 0, -1)]
    | 2 => .ok [(1, 0, 1), (0, 1, -1)]
    | _ => .error .keyError
  else match c with
    | 0 => .ok [(1, 0, 1), (0, 1, -1)]
    | _ => .error .keyError

/-- lce_dual_weak_form.py:531-579: `op d` is `Asx_op`, `Asy_op` or `Asz_op`; the rotations start at
`b`. -/
def rotationBlocks (total dim b nT tComp nS sComp : Nat) (op : Nat → Nat → Nat → K) (j : Mat K) :
    Res (Mat K) :=
  (List.range tComp).foldlM (fun (j : Mat K) c => do
    let table ← crossTable (K := K) dim c
    table.foldlM (fun (j : Mat K) e => do
      let rows := sliceIdx total (c + b) (c + b + nT * tComp) tComp
      let cols := sliceIdx total e.1 (e.1 + nS * sComp) sComp
      let j ← addRect j rows cols nT nS fun x y => -1 * (e.2.2 * op e.2.1 x y)
      addRect j cols rows nS nT fun x y => -1 * (e.2.2 * op e.2.1 y x)) j) j

/-- The blocks of stress and couple stress: lce_dual_weak_form.py:516-529 and 583-613. -/
def massBlocks (scaled : Bool) (sp : Spaces K X) (c : X → Nat → Coeffs K) (j : Mat K) :
    Res (Mat K) := do
  let dim := sp.s.dim
  let w := fun i => sp.s.det i * sp.s.weights i
  let co := fun i => c sp.s.x i
  let sCols := min dim sp.s.tab.nVal
  let mCols := min dim sp.m.nVal
  let idxS := sliceIdx sp.total 0 sp.nS 1
  let j ← addRect j idxS idxS (sp.s.tab.nPhi * sCols) (sp.s.tab.nPhi * sCols)
    (tensorBlock sp.s.nPts sCols dim sp.s.tab w (fun i => (co i).muS) (fun i => (co i).lamS)
      fun i => (co i).kapS)
  if dim = 3 then
    let idxM := sliceIdx sp.total sp.nS (sp.nS + sp.nM) 1
    addRect j idxM idxM (sp.m.nPhi * mCols) (sp.m.nPhi * mCols)
      (tensorBlock sp.s.nPts mCols dim sp.m (fun i => w i * coupleFactor scaled (co i))
        (fun i => (co i).muO) (fun i => (co i).lamO) fun i => (co i).kapO)
  else
    diagonalBlocks sp.total sp.nS sp.m.nPhi sp.mComp (fun a b => ∑ i ∈ Finset.range sp.s.nPts,
      (∑ k ∈ Finset.range mCols, sp.m.val 0 i b k * sp.m.val 0 i a k) *
        (w i * coupleFactor scaled (co i) * (1 / ((co i).muO + (co i).kapO)))) j

/-- `np.trace(grad, axis1=0, axis2=3)` -/
def traceGrad (t : Tab K) (dim i a : Nat) : K :=
  ∑ k ∈ Finset.range (min t.nDer (min dim t.nVal)), t.val (k + 1) i a k

/-- lce_dual_weak_form.py:635 and lce_scaled_dual_weak_form.py:671-686: `div_v_star` -/
def coupleTrace (scaled : Bool) (t : Tab K) (dim i : Nat) (det : K) (c : Coeffs K) (a : Nat) : K :=
  if scaled then (∑ d ∈ Finset.range (min dim t.nVal), c.gradLen d * t.val 0 i a d) * det +
    traceGrad t dim i a * c.len
  else traceGrad t dim i a

/-- lce_dual_weak_form.py:465-648 -/
def vectorized (scaled : Bool) (sp : Spaces K X) (rhs : X → Nat → Nat → K) (c : X → Nat → Coeffs K) :
    Res (Vec K × Mat K) := do
  let dim := sp.s.dim
  let w := fun i => sp.s.det i * sp.s.weights i
  let r ← loads sp rhs
  let j ← massBlocks scaled sp c (zeros2 sp.total)
  let j ← rotationBlocks sp.total dim (sp.nS + sp.nM + sp.nU) sp.t.nPhi sp.tComp sp.s.tab.nPhi
    sp.sComp (fun d a b => ∑ i ∈ Finset.range sp.s.nPts,
      sp.t.val 0 i a 0 * sp.s.tab.val 0 i b d * w i) j
  let j ← couplingBlocks sp.total (sp.nS + sp.nM) sp.u.nPhi sp.uComp 0 sp.s.tab.nPhi sp.sComp
    (fun a b => ∑ i ∈ Finset.range sp.s.nPts,
      sp.s.weights i * sp.u.val 0 i a 0 * traceGrad sp.s.tab dim i b) j
  let j ← couplingBlocks sp.total (sp.nS + sp.nM + sp.nU) sp.t.nPhi sp.tComp sp.nS sp.m.nPhi sp.mComp
    (fun a b => ∑ i ∈ Finset.range sp.s.nPts, sp.s.weights i * sp.t.val 0 i a 0 *
      coupleTrace scaled sp.m dim i (sp.s.det i) (c sp.s.x i) b) j
  pure (r, j)

/-- lce_riesz_map_weak_form.py:519 and lce_scaled_riesz_map_weak_form.py:559-571: `div_v_star` -/
def rieszTrace (scaled : Bool) (t : Tab K) (dim i : Nat) (det : K) (c : Coeffs K) (a : Nat) : K :=
  if scaled then ∑ d ∈ Finset.range (min dim t.nVal), c.gradLen d * t.val 0 i a d +
    traceGrad t dim i a * (c.len / det)
  else traceGrad t dim i a * (1 / det)

/-- lce_riesz_map_weak_form.py:416-546 -/
def rieszVectorized (scaled : Bool) (sp : Spaces K X) (c : X → Nat → Coeffs K) :
    Res (Vec K × Mat K) := do
  let dim := sp.s.dim
  let w := fun i => sp.s.det i * sp.s.weights i
  let j ← massBlocks scaled sp c (zeros2 sp.total)
  let j ← diagonalBlocks sp.total 0 sp.s.tab.nPhi sp.sComp (fun a b => ∑ i ∈ Finset.range sp.s.nPts,
    traceGrad sp.s.tab dim i b * (1 / sp.s.det i) * (traceGrad sp.s.tab dim i a * (1 / sp.s.det i)) *
      w i) j
  let j ← diagonalBlocks sp.total sp.nS sp.m.nPhi sp.mComp (fun a b => ∑ i ∈ Finset.range sp.s.nPts,
    rieszTrace scaled sp.m dim i (sp.s.det i) (c sp.s.x i) b *
      rieszTrace scaled sp.m dim i (sp.s.det i) (c sp.s.x i) a * w i) j
  let j ← diagonalBlocks sp.total (sp.nS + sp.nM) sp.u.nPhi sp.uComp
    (fun a b => ∑ i ∈ Finset.range sp.s.nPts, sp.u.val 0 i b 0 * sp.u.val 0 i a 0 * w i) j
  let j ← diagonalBlocks sp.total (sp.nS + sp.nM + sp.nU) sp.t.nPhi sp.tComp
    (fun a b => ∑ i ∈ Finset.range sp.s.nPts, sp.t.val 0 i b 0 * sp.t.val 0 i a 0 * w i) j
  pure (Vec.zeros sp.total, j)

/-! ### Reading spaces and functions -/

/-- `self.space.discrete_spaces`, element `iel` -/
def readSpaces (spaces : Dict String (FSpace (Elem K X))) (iel : Nat) : Res (Spaces K X) := do
  let ss ← spaces.getItem "s"
  let ms ← spaces.getItem "m"
  let us ← spaces.getItem "u"
  let ts ← spaces.getItem "t"
  let s ← getIdx ss.elements iel
  let m ← getIdx ms.elements iel
  let u ← getIdx us.elements iel
  let t ← getIdx ts.elements iel
  pure ⟨s, m.tab, u.tab, t.tab, ss.nComp, ms.nComp, us.nComp, ts.nComp⟩

/-- The coefficients; the gradient of `l` is read by the scaled forms only. -/
def readCoeffs (scaled : Bool) (fs : Data K X) : Res (X → Nat → Coeffs K) := do
  let lamS ← entry fs.lamS
  let muS ← entry fs.muS
  let kapS ← entry fs.kapS
  let lamO ← entry fs.lamO
  let muO ← entry fs.muO
  let kapO ← entry fs.kapO
  let len ← entry fs.len
  let grad ← if scaled then entry fs.gradLen else pure fun _ _ _ => 0
  pure fun x i => ⟨lamS x i, muS x i, kapS x i, lamO x i, muO x i, kapO x i, len x i,
    fun d => grad x d i⟩

/-- lce_dual_weak_form.py:12-407 `evaluate_form` -/
def evaluateForm (scaled : Bool) (space : Option (Dict String (FSpace (Elem K X))))
    (functions : Option (Data K X)) (iel : Nat) (alpha : Nat → K) : Res (Vec K × Mat K) :=
  match space, functions with
  | some spaces, some fs => do
    let sp ← readSpaces spaces iel
    let rhs ← entry fs.rhs
    let c ← readCoeffs scaled fs
    let r ← form scaled sp rhs c (adVar alpha)
    pure (valDer r)
  | _, _ => .error .valueError

/-- lce_dual_weak_form.py:409-648 `evaluate_form_vectorized` -/
def evaluateVectorized (scaled : Bool) (space : Option (Dict String (FSpace (Elem K X))))
    (functions : Option (Data K X)) (iel : Nat) (_alpha : Nat → K) : Res (Vec K × Mat K) :=
  match space, functions with
  | some spaces, some fs => do
    let sp ← readSpaces spaces iel
    let rhs ← entry fs.rhs
    let c ← readCoeffs scaled fs
    vectorized scaled sp rhs c
  | _, _ => .error .valueError

/-- lce_riesz_map_weak_form.py:10-370 `evaluate_form` -/
def evaluateRiesz (scaled : Bool) (space : Option (Dict String (FSpace (Elem K X))))
    (functions : Option (Data K X)) (iel : Nat) (alpha : Nat → K) : Res (Vec K × Mat K) :=
  match space, functions with
  | some spaces, some fs => do
    let sp ← readSpaces spaces iel
    if scaled then let _ ← entry fs.rhs
    let c ← readCoeffs scaled fs
    let r ← rieszForm scaled sp c (adVar alpha)
    pure (valDer r)
  | _, _ => .error .valueError

/-- lce_riesz_map_weak_form.py:372-546 `evaluate_form_vectorized` -/
def evaluateRieszVectorized (scaled : Bool) (space : Option (Dict String (FSpace (Elem K X))))
    (functions : Option (Data K X)) (iel : Nat) (_alpha : Nat → K) : Res (Vec K × Mat K) :=
  match space, functions with
  | some spaces, some fs => do
    let sp ← readSpaces spaces iel
    let c ← readCoeffs scaled fs
    rieszVectorized scaled sp c
  | _, _ => .error .valueError

end

end Verif.Dual
