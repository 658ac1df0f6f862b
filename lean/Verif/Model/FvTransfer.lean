/-
Model of the transfer of finite volume solutions to the spaces of the mixed method,
`ecmor_fv_postprocessing` up to the line after which only errors are computed
(examples/cauchy_elasticity/mfe_elasticity_example_1.py:418-487; the same code in
cauchy_elasticity/mfe_elasticity_example_2.py:439-508, in the two files of the same names under
cauchy_elasticity_stress_constraint and cosserat_ecmor; with four fields and a test for obtuse
triangles in cosserat_ecmor/mfe_cosserat_elasticity_example_3.py:487-580).

Simplifications
* `np.argsort` is a parameter: it is not stable, so any function giving a sorting permutation will
  do (`IsArgsort`).  `hash` of strings, `str` of numbers and `np.around` are parameters.
* The two assertions that compare points are left out, as are the files.
* Real numbers instead of floating point; the normal of a segment without length is `none`.
-/
import Verif.Model.Trace
import Mathlib.Analysis.Real.Sqrt

namespace Verif.FvTransfer
open MeshGraph Trace

variable {K : Type}

/-- mfe_elasticity_example_1.py:430-431: the string which `hashr` takes the hash of -/
def key (str : K → List Char) (x : Pt K) : List Char := str (x 0) ++ str (x 1) ++ str (x 0)

/-- mfe_elasticity_example_1.py:427-438 `compute_permutation` -/
def computePermutation (argsort : List Int → List Nat) (hash : List Char → Int)
    (str : K → List Char) (round : Pt K → Pt K) (origin target : List (Pt K)) : Res (List Nat) :=
  let ho := origin.map fun x => hash (key str (round x))
  let ht := target.map fun x => hash (key str (round x))
  fancy (argsort ho) (argsort ((argsort ht).map Int.ofNat))

/-- `np.linalg.norm` of the difference of two points -/
noncomputable def dist (p q : Pt ℝ) : ℝ :=
  Real.sqrt ((q 0 - p 0) ^ 2 + (q 1 - p 1) ^ 2 + (q 2 - p 2) ^ 2)

open Classical in
/-- mfe_elasticity_example_1.py:440-443 `compute_normal` -/
noncomputable def computeNormal (p q : Pt ℝ) : Option (ℝ × ℝ) :=
  if dist p q = 0 then none
  else some (-((q 1 - p 1) / dist p q), (q 0 - p 0) / dist p q)

/-- `np.split(v, n)` -/
def splitRows (v : List K) (n : Nat) : Res (List (List K)) :=
  if n = 0 then .error .zeroDivisionError
  else if v.length % n ≠ 0 then .error .valueError
  else .ok ((List.range n).map fun i => (v.drop (i * (v.length / n))).take (v.length / n))

/-- The product with `np.vstack((n_sign, n_sign)).T`: rows of two entries, or one that is
broadcast. -/
def scaleRow [Mul K] (row : List K) (s : K) : Res (List K) :=
  match row with
  | [a, b] => .ok [a * s, b * s]
  | [a] => .ok [a * s, a * s]
  | _ => .error .valueError

/-- mfe_elasticity_example_1.py:480-483, 486: the degrees of freedom of the stress -/
def transferS [Mul K] (v : List K) (signs : List K) (facePerm : List Nat) : Res (List K) := do
  let rows ← splitRows v signs.length
  let scaled ← mapRes (fun p : List K × K => scaleRow p.1 p.2) (rows.zip signs)
  let picked ← fancy scaled facePerm
  if picked.flatten.length = v.length then pure picked.flatten else throw .valueError

/-- mfe_elasticity_example_1.py:484, 487: the degrees of freedom of the displacement -/
def transferU (v : List K) (nCells : Nat) (cellPerm : List Nat) : Res (List K) := do
  let rows ← splitRows v nCells
  let picked ← fancy rows cellPerm
  if picked.flatten.length = v.length then pure picked.flatten else throw .valueError

/-- mfe_elasticity_example_1.py:425, 480-487: three fields of `ns`, `nu` and `nt` degrees of freedom -/
def transfer3 [Mul K] [Zero K] (ns nu nt : Nat) (alpha : List K) (signs : List K)
    (facePerm : List Nat) (nCells : Nat) (cellPerm : List Nat) : Res (List K) := do
  let a := alpha ++ List.replicate nt 0
  let s ← transferS (a.take ns) signs facePerm
  let u ← transferU ((a.drop ns).take nu) nCells cellPerm
  pure (s ++ u ++ a.drop (ns + nu))

/-- mfe_cosserat_elasticity_example_3.py:494-501, 573-580: four fields -/
def transfer4 [Mul K] [Zero K] (ns nm nu nt : Nat) (alpha : List K) (signs : List K)
    (facePerm : List Nat) (nCells : Nat) (cellPerm : List Nat) : Res (List K) := do
  let a := alpha.take ns ++ List.replicate nm 0 ++ (alpha.drop ns).take nu ++ List.replicate nt 0
  let s ← transferS (a.take ns) signs facePerm
  let u ← transferU ((a.drop (ns + nm)).take nu) nCells cellPerm
  pure (s ++ (a.drop ns).take nm ++ u ++ a.drop (ns + nm + nu))

/-- `np.isclose(a, b)` -/
def IsClose (a b : ℝ) : Prop := |a - b| ≤ 1 / 10 ^ 8 + 1 / 10 ^ 5 * |b|

/-- The sides of a triangle, sorted -/
noncomputable def sides (p q r : Pt ℝ) : List ℝ :=
  [dist p q, dist q r, dist r p].insertionSort (· ≤ ·)

/-- mfe_cosserat_elasticity_example_3.py:543-551 `obtuse_entity_Q` -/
def Obtuse (p q r : Pt ℝ) : Prop :=
  match sides p q r with
  | [a, b, c] => a ^ 2 + b ^ 2 < c ^ 2 ∧ ¬ IsClose (a ^ 2 + b ^ 2) (c ^ 2)
  | _ => False

end Verif.FvTransfer
