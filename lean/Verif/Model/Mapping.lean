/-
Model of the Jacobian part of `evaluate_mapping` and of `_compute_det_and_pseudo_inverse`
(src/geometry/mapping.py:24-58), in exact arithmetic.

`np.linalg.qr` is a parameter (a reduced QR decomposition, which is not unique).
-/
import Verif.Model.Trace
import Mathlib.LinearAlgebra.Matrix.NonsingularInverse

namespace Verif.Mapping
open MeshBuild Trace

variable {K : Type}

/-- The derivative of the `a`-th degree one Lagrange basis function in direction `k`. -/
def gradShapes [CommRing K] (k a : Nat) : K := if a = 0 then -1 else if a = k + 1 then 1 else 0

/-- mapping.py:49-50: `jac[i, k]`, the derivative of component `i` in direction `k`; it is the same
at every point. -/
def jacobian [CommRing K] (d : Nat) (cellPoints : List (Pt K)) : Matrix (Fin 3) (Fin d) K :=
  fun i k => (List.zipWith (fun a p => gradShapes (k : Nat) a * p i)
    (List.range (d + 1)) cellPoints).sum

/-- `np.sign` -/
def npSign [Field K] [LinearOrder K] (x : K) : K := if 0 < x then 1 else if x < 0 then -1 else 0

section
variable [Field K] [LinearOrder K] {d : Nat}

/-- mapping.py:24-37 `_compute_det_and_pseudo_inverse`; the inverse of a singular matrix raises
`LinAlgError`.  The message for negative determinants is left out. -/
noncomputable def detAndPseudoInverse
    (qr : Matrix (Fin 3) (Fin d) K → Matrix (Fin 3) (Fin d) K × Matrix (Fin d) (Fin d) K)
    (grad : Matrix (Fin 3) (Fin d) K) : Res (K × Matrix (Fin d) (Fin 3) K) :=
  let q := (qr grad).1
  let r := (qr grad).2
  let rSign : Matrix (Fin d) (Fin d) K := Matrix.diagonal fun i => npSign (r i i)
  let q := q * rSign
  let r := rSign * r
  let det := r.det
  if r.det = 0 then .error .linAlgError
  else .ok (det, r⁻¹ * q.transpose)

end

end Verif.Mapping
