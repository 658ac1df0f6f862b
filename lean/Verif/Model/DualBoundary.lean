/-
Model of the boundary terms of the dual forms, in exact arithmetic: `LCEDualWeakFormBCDirichlet` and
`LCEDualWeakFormBCNeumann` (src/weak_forms/lce_dual_weak_form.py:651-871),
`LCEScaledDualWeakFormBCDirichlet` and `LCEDualWeakFormBCNeumann`
(src/weak_forms/lce_scaled_dual_weak_form.py:702-917), `LEDualWeakFormBCDirichlet` and
`LCEDualWeakFormBCNeumann` (src/weak_forms/le_dual_weak_form.py:513-644).

The neighbour of the facet, the trace of its basis, the positions of the degrees of freedom of the
facet, the normal and the values of the data in the quadrature points are parameters.  The trace has a
row for every point.  Stress and couple stress have the same neighbour.  A block is never broadcast.
-/
import Verif.Model.Dual

namespace Verif.Dual
open Assembly L2Form Laplace Elasticity

/-- The facet: its dimension and that of the neighbour, quadrature, determinants and the normal. -/
structure Side (K : Type) where
  facetDim : Nat
  dim : Nat
  nPts : Nat
  weights : Nat → K
  det : Nat → K
  normal : Nat → K

/-- A field on the facet: `n_s_phi` functions on the facet, the basis `s_tr_phi_tab` of the neighbour,
and the positions `dof_s_n_index` of the functions of the facet in it. -/
structure Trace (K : Type) where
  nPhi : Nat
  tab : Tab K
  dofs : List Nat

section
variable {K : Type} [Field K]

/-- `phi = s_tr_phi_tab[0, i, dof_s_n_index, 0:dim] @ n[0:dim]`, lce_dual_weak_form.py:739 -/
def normalPart (dim : Nat) (tr : Trace K) (normal : Nat → K) (i : Nat) : Res (Vec K) :=
  if tr.dofs.any fun d => tr.tab.nPhi ≤ d then .error .indexError
  else if tr.tab.nVal < dim then .error .valueError
  else .ok ⟨tr.dofs.length, fun a =>
    ∑ d ∈ Finset.range dim, tr.tab.val 0 i (tr.dofs.getD a 0) d * normal d⟩

/-- lce_dual_weak_form.py:735-740: `res_block_s` for the data `g i` in the point `i` -/
def loadBlock (side : Side K) (dim : Nat) (tr : Trace K) (g : Nat → K) : Res (Vec K) :=
  (List.range side.nPts).foldlM (fun (b : Vec K) i => do
    let phi ← normalPart dim tr side.normal i
    Vec.addScaled b (- (side.det i * side.weights i * g i)) phi) (Vec.zeros tr.nPhi)

/-- lce_dual_weak_form.py:731-742: the loop over the components of the field that starts at `b` -/
def naturalField (total b comps : Nat) (side : Side K) (dim : Nat) (tr : Trace K)
    (g : Nat → Nat → K) (r : Vec K) : Res (Vec K) :=
  (List.range comps).foldlM (fun (r : Vec K) c => do
    let block ← loadBlock side dim tr fun i => g i c
    r.addAt (sliceIdx total (c + b) (c + b + tr.nPhi * comps) comps) block) r

/-- `jac_block_s += c * np.outer(phi, phi)` -/
def addOuter (j : Mat K) (c : K) (phi : Vec K) : Res (Mat K) :=
  if j.n ≠ phi.n then .error .valueError
  else .ok ⟨j.n, fun a b => j.val a b + c * (phi.val a * phi.val b)⟩

/-- lce_dual_weak_form.py:843-850: `res_block_s` and `jac_block_s` -/
def penaltyBlock (side : Side K) (dim : Nat) (tr : Trace K) (g : Nat → K) : Res (Vec K × Mat K) :=
  (List.range side.nPts).foldlM (fun (st : Vec K × Mat K) i => do
    let phi ← normalPart dim tr side.normal i
    let r ← Vec.addScaled st.1 (- (penalty K * side.det i * side.weights i * g i)) phi
    let j ← addOuter st.2 (penalty K * side.det i * side.weights i) phi
    pure (r, j)) (Vec.zeros tr.nPhi, zeros2 tr.nPhi)

/-- lce_dual_weak_form.py:839-853: the loop over the components of the field that starts at `b` -/
def essentialField (total b comps : Nat) (side : Side K) (dim : Nat) (tr : Trace K)
    (g : Nat → Nat → K) (st : Vec K × Mat K) : Res (Vec K × Mat K) :=
  (List.range comps).foldlM (fun (st : Vec K × Mat K) c => do
    let block ← penaltyBlock side dim tr fun i => g i c
    let idx := sliceIdx total (c + b) (c + b + tr.nPhi * comps) comps
    let r ← st.1.addAt idx block.1
    let j ← addBlock st.2 idx block.2
    pure (r, j)) st

/-- `dim` in the second loop; the first one assigns it, when it has a component. -/
def secondDim (side : Side K) (sComp : Nat) : Nat := if sComp = 0 then side.facetDim else side.dim

/-- lce_dual_weak_form.py:651-756 and lce_scaled_dual_weak_form.py:702-811
`LCE(Scaled)DualWeakFormBCDirichlet.evaluate_form`; the scaled form reads `l` and `grad_l` too. -/
def lceDirichlet (scaled : Bool) (side : Side K) (s m : Trace K) (sComp mComp : Nat)
    (uD tD : Option (Nat → Nat → K)) (len : Option (Nat → K)) (gradLen : Option Unit) :
    Res (Vec K × Mat K) := do
  let u ← entry uD
  let t ← entry tD
  let scale ← if scaled then do
      let l ← entry len
      let _ ← entry gradLen
      pure fun i => l i + 1 / 10 ^ 16
    else pure fun _ => 1
  let nS := s.nPhi * sComp
  let n := nS + m.nPhi * mComp
  let r ← naturalField n 0 sComp side side.dim s u (Vec.zeros n)
  let r ← naturalField n nS mComp side (secondDim side sComp) m (fun i c => t i c * scale i) r
  pure (r, zeros2 n)

/-- le_dual_weak_form.py:513-578 `LEDualWeakFormBCDirichlet.evaluate_form` -/
def leDirichlet (side : Side K) (s : Trace K) (sComp : Nat) (uD : Option (Nat → Nat → K)) :
    Res (Vec K × Mat K) := do
  let u ← entry uD
  let n := s.nPhi * sComp
  let r ← naturalField n 0 sComp side side.dim s u (Vec.zeros n)
  pure (r, zeros2 n)

/-- lce_dual_weak_form.py:759-871 `LCEDualWeakFormBCNeumann.evaluate_form` -/
def lceNeumann (side : Side K) (s m : Trace K) (sComp mComp : Nat)
    (sN mN : Option (Nat → Nat → K)) : Res (Vec K × Mat K) := do
  let fs ← entry sN
  let fm ← entry mN
  let nS := s.nPhi * sComp
  let n := nS + m.nPhi * mComp
  let st ← essentialField n 0 sComp side side.dim s fs (Vec.zeros n, zeros2 n)
  essentialField n nS mComp side (secondDim side sComp) m fm st

/-- The parameters of `FiniteElement.evaluate_basis` without `self`, finite_element.py:159 -/
def evaluateBasisParameters : List String := ["points", "jac", "det_jac", "inv_jac"]

/-- A call with positional arguments, for a function without defaults. -/
def checkCall (parameters : List String) (given : Nat) : Res Unit :=
  if given ≠ parameters.length then .error .typeError else .ok ()

/-- lce_scaled_dual_weak_form.py:814-836 and le_dual_weak_form.py:581-598
`LCEDualWeakFormBCNeumann.evaluate_form`, up to the call `evaluate_basis(points)`; `stored` tells
whether a mapping has been stored in `s_data.mapping`, which starts without attributes
(element_data.py:22-36), and `rest` is the remainder of the method. -/
def oldNeumann (sN mN : Option Unit) (stored : Bool) (rest : Res (Vec K × Mat K)) :
    Res (Vec K × Mat K) := do
  let _ ← entry sN
  let _ ← entry mN
  if stored then
    checkCall evaluateBasisParameters 1
    rest
  else .error .attributeError

end

end Verif.Dual
