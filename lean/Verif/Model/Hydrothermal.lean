/-
Model of the forms of examples/geothermal_flow/HydrothermalWeakForms.py and of the data of
examples/geothermal_flow/hydrothermal_system.py.

The integrands are modelled in one quadrature point and for one test function, over an ordered field: a row of the code is
the integrand for each of the basis functions.  Of the arrays with derivatives the values are kept.  The heads of the forms
are in `ThreeFieldsForm`.
-/
import Verif.Model.ThreeFieldsForm
import Mathlib.Algebra.BigOperators.Group.Finset.Basic
import Mathlib.Data.Fintype.BigOperators

namespace Verif.Hydrothermal
open ThreeFields

/-! ### The places of the fields -/

/-- HydrothermalWeakForms.py:70-154: begin and end of the slices, `v` and `u` numbers of degrees of freedom of a flux and
of a scalar -/
def slices (v u : Nat) : List (String × Nat × Nat) :=
  let vd := v + v + v + v
  [("md", 0, v), ("ca", v, v + v), ("qd", v + v, v + v + v), ("qa", v + v + v, vd),
    ("p", vd, vd + u), ("z", vd + u, vd + u + u), ("h", vd + u + u, vd + u + u + u),
    ("t", vd + u + u + u, vd + u + u + u + u), ("sv", vd + u + u + u + u, vd + u + u + u + u + u),
    ("x_H2O_l", vd + u + u + u + u + u, vd + u + u + u + u + u + u),
    ("x_H2O_v", vd + u + u + u + u + u + u, vd + u + u + u + u + u + u + u),
    ("x_NaCl_l", vd + u + u + u + u + u + u + u, vd + u + u + u + u + u + u + u + u),
    ("x_NaCl_v", vd + u + u + u + u + u + u + u + u, vd + u + u + u + u + u + u + u + u + u)]

/-- Line 156 -/
def nDof (v u : Nat) : Nat := (v + v + v + v) + 9 * u

/-- Lines 491-558 and 700-726: the slices of one side in the advection forms, which begin at `shift` -/
def advectionSlices (shift v u : Nat) : List (String × Nat × Nat) :=
  [("md", shift, shift + v), ("ca", shift + v, shift + v + v), ("qd", shift + v + v, shift + v + v + v),
    ("qa", shift + v + v + v, shift + v + v + v + v), ("p", shift + v + v + v + v, shift + v + v + v + v + u),
    ("z", shift + v + v + v + v + u, shift + v + v + v + v + u + u),
    ("h", shift + v + v + v + v + u + u, shift + v + v + v + v + u + u + u)]

/-- Lines 489, 728: `n_dof_p`, `n_dof` -/
def nDofSide (v u : Nat) : Nat := 4 * v + 9 * u

/-! ### The integrands -/

section
variable {K : Type} [Field K]

/-- The scalars in a point -/
structure Scalars (K : Type) where
  p : K
  z : K
  h : K
  t : K
  sv : K
  xWl : K
  xWv : K
  xSl : K
  xSv : K

/-- The fluxes in a point with their divergences -/
structure Fluxes (K : Type) (n : Nat) where
  md : Fin n → K
  qd : Fin n → K
  divMd : K
  divCa : K
  divQd : K
  divQa : K

/-- The coefficients in a point -/
structure Coeffs (K : Type) where
  thermal : K
  kappa : K
  phi : K
  rhoR : K
  cpR : K
  dt : K

/-- Lines 239-240 -/
def rhoL : K := 1000
def rhoV : K := 1
/-- Lines 241-242 -/
def muL : K := 1 / 1000
def muV : K := 1 / 100000

/-- Lines 243-244 -/
def density (sv : K) : K := sv * rhoV + (1 - sv) * rhoL

/-- Lines 249-255: `lambda_m` -/
def mobility (s : Scalars K) : K :=
  (s.xWl * rhoL * (1 - s.sv) / muL + s.xWv * rhoV * s.sv / muV) +
    (s.xSl * rhoL * (1 - s.sv) / muL + s.xSv * rhoV * s.sv / muV)

/-- Lines 257, 275: the row of the mass flux for the test flux `v` with divergence `dv`.  Where the mobility or the
permeability vanishes, numpy returns infinity. -/
def massFluxRow {n : Nat} (c : Coeffs K) (s : Scalars K) (f : Fluxes K n) (v : Fin n → K) (dv : K) : K :=
  ∑ j, (f.md j * (1 / (mobility s * c.kappa))) * v j - s.p * dv

/-- Lines 258, 277: the row of the heat flux -/
def heatFluxRow {n : Nat} (c : Coeffs K) (s : Scalars K) (f : Fluxes K n) (v : Fin n → K) (dv : K) : K :=
  ∑ j, (f.qd j * (1 / c.thermal)) * v j - s.t * dv

/-- Lines 267, 279: the balance of mass; `s` is the new state, `o` the old one -/
def massRow {n : Nat} (c : Coeffs K) (s o : Scalars K) (f : Fluxes K n) (w : K) : K :=
  (f.divMd + 1 / c.dt * c.phi * (density s.sv - density o.sv)) * w

/-- Lines 268, 280: the balance of salt -/
def saltRow {n : Nat} (c : Coeffs K) (s o : Scalars K) (f : Fluxes K n) (w : K) : K :=
  (f.divCa + 1 / c.dt * c.phi * (density s.sv * s.z - density o.sv * o.z)) * w

/-- Lines 270-273 -/
def energy (c : Coeffs K) (s o : Scalars K) : K :=
  1 / c.dt * (c.phi * (density s.sv * s.h - density o.sv * o.h) + (1 - c.phi) * c.rhoR * c.cpR * (s.t - o.t) -
    c.phi * (s.p - o.p))

/-- Line 281: the balance of energy -/
def energyRow {n : Nat} (c : Coeffs K) (s o : Scalars K) (f : Fluxes K n) (w : K) : K :=
  (f.divQd + f.divQa + energy c s o) * w

/-- Lines 282-287: the rows of `t`, `sv` and of the fractions -/
def closureRows (s : Scalars K) (w : K) : List K :=
  [(s.t - 1 / 4 * s.h) * w, (s.sv - 0) * w, (s.xWl - (1 - s.z)) * w, (s.xWv - (1 - s.z)) * w, (s.xSl - s.z) * w,
    (s.xSv - s.z) * w]

variable [LinearOrder K]

/-- Lines 391-401: the factor of the normal trace of the test flux.  The coefficient is a Python float, so a
vanishing one raises. -/
def robin (beta gamma value flux : K) : Res K :=
  if beta = 0 then .error .zeroDivisionError else .ok (1 / beta * (flux + beta * value - gamma))

/-- Lines 610-621: the factors of the normal traces of the test fluxes on both sides: `caP`, `caN`, `qaP`, `qaN` and `mdP`,
`mdN` are the normal fluxes, each with the outward normal of its side -/
def interfaceRows (mdP mdN caP caN qaP qaN zP zN hP hN : K) : List K :=
  let z := upwind mdP zP zN
  let h := upwind mdP hP hN
  [1 / 2 * (caP - z * mdP), 1 / 2 * (caN - z * mdN), 1 / 2 * (qaP - h * mdP), 1 / 2 * (qaN - h * mdN)]

/-- Lines 756-768: on the boundary, with the values `zIn` and `hIn` of the inflow -/
def inflowRows (md ca qa z h zIn hIn : K) : List K :=
  [ca - upwind md z zIn * md, qa - upwind md h hIn * md]

/-! ### The data of the example -/

/-- hydrothermal_system.py:159-169 `xi_eta_map` -/
def xiEtaMap (west east south north x y : K) : K :=
  if isClose x 0 then west
  else if isClose x 10 then east
  else if isClose y 0 then south
  else if isClose y 1 then north
  else 0

/-- hydrothermal_system.py:171-177 `xi_map` -/
def xiMap (west east other x : K) : K :=
  if isClose x 0 then west else if isClose x 10 then east else other

/-- hydrothermal_system.py:189, 195: `p_D`, `t_D` -/
def pD (x y : K) : K := xiEtaMap (11 * 10 ^ 6) (10 ^ 6) 0 0 x y
def tD (x y : K) : K := xiEtaMap (52315 / 100) (47315 / 100) 0 0 x y
/-- hydrothermal_system.py:187-192, 196-198: `beta_md` and `beta_qd` -/
def beta (x y : K) : K := xiEtaMap (10 ^ 16) (10 ^ 16) (1 / 10 ^ 13) (1 / 10 ^ 13) x y
/-- hydrothermal_system.py:200-201: `z_inlet`, `h_inlet` -/
def zInlet (x : K) : K := xiMap 1 0 0 x
def hInlet (x : K) : K := xiMap 2000 0 0 x

/-- hydrothermal_system.py:266-274: the initial scalars -/
def initial : Scalars K where
  p := 10 ^ 6
  z := 0
  h := 47315 / 100 * 4
  t := 47315 / 100
  sv := 0
  xWl := 1
  xWv := 1
  xSl := 0
  xSv := 0

end

/-- The call of a function with two parameters without defaults -/
def callTwo {A R : Type} (f : A → A → Res R) : List A → Res R
  | [a, b] => f a b
  | _ => .error .typeError

/-- hydrothermal_system.py:36-80 `create_product_space`: `space` is what the constructor of the product space and
`make_subspaces_discontinuous` do, `build` is `build_structures` (product_space.py:112), `tags` the dictionary that is
passed to it -/
def createProductSpace {S A : Type} (dim : Nat) (space : Res S) (build : S → A → A → Res S) (tags : A) : Res S :=
  if dim = 1 ∨ dim = 2 ∨ dim = 3 then do
    let s ← space
    callTwo (build s) [tags]
  else .error .valueError

end Verif.Hydrothermal
