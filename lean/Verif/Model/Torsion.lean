/-
Model of examples/cosserat_elasticity/torsion_test/cosserat_torsion_test_primal_dual.py, in exact arithmetic:
the spaces (lines 32-66 and 249-299), the data (78-142 and 312-398), the faces and their forms (186-204 and 436-454),
the moments (486-606) and the table of `main` (646-659).

* The neighbour of a face, the trace of its basis, the positions of the functions of the face, the mapped points and
  the coefficients of the face are parameters, as in Model/DualBoundary.lean.
* `alpha[dest]` is a list; `np.split` makes rows of equal length of it.
* Solving and drawing are left out.
-/
import Mathlib.Analysis.SpecialFunctions.Trigonometric.Basic
import Verif.Model.DualBoundary
import Verif.Model.DriverSpaces

namespace Verif.Torsion
open MeshGraph Space Dual DriverSpaces Laplace L2Form

/-- lines 32-66: the spaces of `torsion_h1_cosserat_elasticity` -/
def primalPlan (k : Int) (mesh : Mesh) : Plan :=
  ⟨[("u", ⟨mesh.dimension, 3, "Lagrange", k + 1, mesh⟩), ("t", ⟨mesh.dimension, 3, "Lagrange", k, mesh⟩)],
    [("u", false), ("t", false)], [("u", tagsOf [1]), ("t", tagsOf [1])],
    [("u", tagsOf [2, 3, 4, 5, 6, 7]), ("t", tagsOf [2, 3, 4, 5, 6, 7])]⟩

/-- lines 249-299: the spaces of `torsion_hdiv_cosserat_elasticity` -/
def dualPlan (k : Int) (mesh : Mesh) : Plan :=
  ⟨[("s", ⟨mesh.dimension, 3, "BDM", k, mesh⟩), ("m", ⟨mesh.dimension, 3, "RT", k, mesh⟩),
      ("u", ⟨mesh.dimension, 3, "Lagrange", k - 1, mesh⟩), ("t", ⟨mesh.dimension, 3, "Lagrange", k - 1, mesh⟩)],
    [("s", false), ("m", false), ("u", true), ("t", true)],
    [("s", tagsOf [1]), ("m", tagsOf [1]), ("u", tagsOf [1]), ("t", tagsOf [1])],
    [("s", tagsOf [2, 3, 4, 5, 6, 7]), ("m", tagsOf [2, 3, 4, 5, 6, 7])]⟩

/-! ### The data -/

section
variable {K X : Type} [Field K]

/-- lines 78-108: the functions that are set for `LCEPrimalWeakForm` -/
def primalData (lam mu lc : K) : Cosserat.Data K X :=
  ⟨some fun _ _ _ => 0, some fun _ _ => lam, some fun _ _ => mu, some fun _ _ => mu, some fun _ _ => mu * lc * lc⟩

/-- lines 312-344: the functions that are set for `LCEDualWeakForm`: `rhs`, `lambda`, `mu`, `kappa` and `gamma`, so
none of the coefficients that the form reads -/
def dualData : Dual.Data K X := ⟨some fun _ _ _ => 0, none, none, none, none, none, none, none, none⟩

end

/-- lines 118 and 354 -/
noncomputable def angle : ℝ := 13 * Real.pi / 180

/-- lines 117-128 and 353-364 `u_exact_rotation` -/
noncomputable def rotationU (x y z : ℝ) : ℝ × ℝ × ℝ :=
  let u0 := (Real.cos angle * x + Real.sin angle * y + 0 * z) - x
  let u1 := (-Real.sin angle * x + Real.cos angle * y + 0 * z) - y
  let u2 := (0 * x + 0 * y + 1 * z) - z
  (z * u0 / 10, z * u1 / 10, z * u2 / 10)

/-- lines 130-132 and 366-368 `t_exact` -/
noncomputable def rotationT (x y z : ℝ) : ℝ × ℝ × ℝ :=
  (angle * (-y * z / 10), angle * (x * z / 10), angle * (z / 10))

/-- lines 111-115 and 347-351 `u_null` and `t_null` -/
noncomputable def nullData (x y z : ℝ) : ℝ × ℝ × ℝ := (0 * x, 0 * y, 0 * z)

/-! ### The faces -/

/-- The boundary forms: `bc_weak_form_top`, `bc_weak_form_bot` and `bc_weak_form_lat` -/
inductive Part
  | top
  | bottom
  | lateral
  deriving DecidableEq

/-- The functions of the two Dirichlet forms, for displacements and rotations -/
noncomputable def Part.data : Part → Option ((ℝ → ℝ → ℝ → ℝ × ℝ × ℝ) × (ℝ → ℝ → ℝ → ℝ × ℝ × ℝ))
  | .top => some (rotationU, rotationT)
  | .bottom => some (nullData, nullData)
  | .lateral => none

/-- lines 187-200 and 437-450: the positions of the faces with one of the tags -/
def facesWith (keep : List Int) (ids : List (Option Int)) : List Nat :=
  ids.zipIdx.filterMap fun p => if p.1 ∈ keep.map some then some p.2 else none

/-- lines 202-204: the calls of `scatter_bc_form` -/
def primalCalls (ids : List (Option Int)) : List (Part × Nat) :=
  (facesWith [7] ids).map (Part.top, ·) ++ (facesWith [6] ids).map (Part.top, ·) ++
    (facesWith [2, 3, 4, 5] ids).map (Part.top, ·)

/-- lines 452-454 -/
def dualCalls (ids : List (Option Int)) : List (Part × Nat) :=
  (facesWith [7] ids).map (Part.top, ·) ++ (facesWith [6] ids).map (Part.bottom, ·) ++
    (facesWith [2, 3, 4, 5] ids).map (Part.lateral, ·)

/-! ### The moments -/

section
variable {K : Type} [Field K]

/-- A face with one of the fields: whether a neighbour is found, the tag, the trace of the neighbour's basis, the
points and the coefficients `alpha[dest]`. -/
structure Face (K : Type) where
  hasNeighbour : Bool
  materialId : Option Int
  side : Side K
  tr : Trace K
  x : Nat → Nat → K
  alpha : List K

/-- `np.array(np.split(alpha_l, n))`: the number of columns and the entries -/
def splitRows (alpha : List K) (n : Nat) : Res (Nat × (Nat → Nat → K)) :=
  if n = 0 then .error .zeroDivisionError
  else if alpha.length % n ≠ 0 then .error .valueError
  else .ok (alpha.length / n, fun a d => alpha.getD (a * (alpha.length / n) + d) 0)

/-- lines 529-531 and 578-579: `s_h` in the point `i` -/
def fieldAt (f : Face K) (cols : Nat) (star : Nat → Nat → K) (i : Nat) : Res (Arr K) :=
  if f.tr.dofs.any fun d => f.tr.tab.nPhi ≤ d then .error .indexError
  else if f.side.dim = 0 then .error .valueError
  else if cols < f.side.dim then .error .indexError
  else .ok ⟨f.side.dim, min f.side.dim f.tr.tab.nVal, fun d e =>
    ∑ a ∈ Finset.range f.tr.dofs.length, f.tr.tab.val 0 i (f.tr.dofs.getD a 0) e * star a d⟩

/-- `s_h[k, l]` -/
def entryAt (s : Arr K) (k l : Nat) : Res K :=
  if k < s.rows ∧ l < s.cols then .ok (s.val k l) else .error .indexError

/-- lines 486-533 `integrate_M_t_strain` -/
def integrateStrain (f : Face K) : Res K :=
  if f.hasNeighbour = false then .error .assertionError
  else if f.materialId ≠ some 7 then .ok 0
  else do
    let st ← splitRows f.alpha f.tr.dofs.length
    (List.range f.side.nPts).foldlM (fun (acc : K) i => do
      let s ← fieldAt f st.1 st.2 i
      let a ← entryAt s 2 1
      let b ← entryAt s 2 0
      pure (acc + f.side.det i * f.side.weights i * (f.x i 0 * a - f.x i 1 * b))) 0

/-- lines 535-581 `integrate_M_t_curvature` -/
def integrateCurvature (f : Face K) : Res K :=
  if f.hasNeighbour = false then .error .assertionError
  else if f.materialId ≠ some 7 then .ok 0
  else do
    let st ← splitRows f.alpha f.tr.dofs.length
    (List.range f.side.nPts).foldlM (fun (acc : K) i => do
      let s ← fieldAt f st.1 st.2 i
      let a ← entryAt s 2 2
      pure (acc + f.side.det i * f.side.weights i * a)) 0

/-- `functools.reduce(lambda x, y: x + y, values)` -/
def reduceSum : List K → Res K
  | [] => .error .typeError
  | v :: rest => .ok (rest.foldl (· + ·) v)

/-- lines 584-606: both moments -/
def moments (s m : List (Face K)) : Res (K × K) := do
  let a ← mapRes integrateStrain s
  let b ← mapRes integrateCurvature m
  let x ← reduceSum a
  let y ← reduceSum b
  pure (x, y)

/-- lines 649-659: the rows of the file, from the values of the length and the moments -/
def diagram (values : List K) (run : K → Res (K × K)) : Res (List (List K)) := do
  let l ← mapRes run values
  pure ((values.zip l).map fun p => [p.1, p.2.1, p.2.2])

end

end Verif.Torsion
