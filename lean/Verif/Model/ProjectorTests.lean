/-
Model of the tests of the projectors (tests/test_projectors/test_projectors.py:13-216), of what they do after the
mesh has been made.

Simplifications
* The mesh and basix are parameters, as in Model/Space.lean; so is what the linear solver of `l2_projector` returns for
  a number of unknowns, and what basix and the geometry give for an element (Model/L2Error.lean).
* Floats are real numbers.
-/
import Verif.Model.Space
import Verif.Model.L2Error

namespace Verif.ProjectorTests
open Verif.Space Verif.MeshGraph Verif.L2Error

/-- What `l2_error` reads of a product space -/
noncomputable def feOf {X : Type} (table : Element → Elem X) (quadrature : List (Option Unit)) (p : Product) : FeSpace X :=
  ⟨quadrature, p.spaces.map fun q =>
    (q.1, ⟨q.2.nComp, decide (effFamily q.2.dimension q.2.generator = .P), q.2.elements.map table⟩), p.spacesDest⟩

/-- product_space.py:33-41: the quadrature rules up to the dimension -/
def rules (dim : Nat) : List (Option Unit) := (List.range 4).map fun d => if d ≤ dim then some () else none

/-- Lines 125, 170, 215: `np.any(np.isclose(np.array(error_val), 0.0, atol=1.0e-13))`; `nan` is close to nothing. -/
def Passes (errors : List (Option ℝ)) : Prop :=
  ∃ x : ℝ, some x ∈ errors ∧ |x - 0| ≤ 1 / 10 ^ 13 + 1 / 10 ^ 5 * |(0 : ℝ)|

/-- The body of the innermost loop of the three tests, lines 102-126, 148-171 and 193-216, with the physical tags of
the field as `tags`: the number of unknowns, and the errors. -/
noncomputable def run {X : Type} (basix : Basix) (table : Element → Elem X) (solve : Product → List ℝ) (name : String)
    (dim : Nat) (family : String) (kOrder : Int) (disc : Bool) (mesh : Mesh) (tags : List (Option Int))
    (f : Exact X) : Res (Nat × List (Option ℝ)) := do
  let p ← Product.new [(name, ⟨dim, 1, family, kOrder, mesh⟩)]
  let p := p.makeDiscontinuous [(name, disc)]
  let p ← p.buildStructures basix [(name, tags)] [(name, [])]
  let errors ← l2Error dim (feOf table (rules dim) p) [(name, f)] (solve p) []
  pure (p.nDof, errors)

/-- One pass of the loops of the vector tests (lines 141-149, 186-194): the order changes with the first family and
stays changed. -/
structure Pass where
  disc : Bool
  family : String
  kOrder : Nat
  dim : Nat
  deriving DecidableEq

/-- The loops over families and dimensions -/
def familyLoop (raised : String) (dims : List Nat) (disc : Bool) : Nat → List String → List Pass × Nat
  | k, [] => ([], k)
  | k, fam :: fams =>
    let k := if fam = raised then k + 1 else k
    let r := familyLoop raised dims disc k fams
    (dims.map (fun d => ⟨disc, fam, k, d⟩) ++ r.1, r.2)

/-- The loop over discontinuity -/
def discLoop (raised : String) (families : List String) (dims : List Nat) : Nat → List Bool → List Pass
  | _, [] => []
  | k, disc :: discs =>
    let r := familyLoop raised dims disc k families
    r.1 ++ discLoop raised families dims r.2 discs

/-- Lines 99-100: the runs of `test_scalar_h1_projector` -/
def scalarPasses (k : Nat) : List Pass := discLoop "" ["Lagrange"] [1, 2, 3] k [true, false]
/-- Lines 141-145: the runs of `test_vector_hdiv_projector` -/
def hdivPasses (k : Nat) : List Pass := discLoop "RT" ["RT", "BDM"] [2, 3] k [true, false]
/-- Lines 186-190: the runs of `test_vector_hcurl_projector` -/
def hcurlPasses (k : Nat) : List Pass := discLoop "N1E" ["N1E", "N2E"] [2, 3] k [false]

/-- The functions of lines 15-29 are sums of, or have as components, such polynomials in one coordinate, up to the
sign: `t` for the order 1, and `(1 - t) t ^ (k - 1)` for the order `k`. -/
def part (k : Nat) (t : ℝ) : ℝ := if k = 1 then t else (1 - t) * t ^ (k - 1)

/-- Lines 15-21 and 23-29 -/
def scalarFunction (k : Nat) (x y _z : ℝ) : ℝ := part k x + part k y
def vectorFunction (k : Nat) (x y z : ℝ) : ℝ × ℝ × ℝ := (part k y, -part k x, -part k z)

end Verif.ProjectorTests
