/-
Model of the convergence tables of the example drivers: `perform_convergence_postprocessing`
(examples/cauchy_elasticity/mfe_elasticity_example_1.py:593-623, 633-680;
cosserat_elasticity/mfe_cosserat_elasticity_example_1.py:1020-1064;
cauchy_elasticity/th_elasticity_example_1.py:307-332, 348-379 and th_elasticity_example_2.py),
`perform_ecmor_postprocessing` (cauchy_elasticity/mfe_elasticity_example_2.py:723-873; the same in
the stress constraint folder and in three drivers of cosserat_ecmor) and the loops of the other
drivers (oden_problem/oden_rates_primal_dual_ad.py:543-562,
degenerate_elliptic_scalar/darcy_elliptic_degenerate_scenario_1.py:425-447,
md_elliptic_scalar/md_elliptic_scalar.py:512-527).

Simplifications
* Real numbers instead of floating point.  `none` stands for the entries numpy gets from
  logarithms of numbers that are not positive or from a quotient by zero.
* Meshes, solutions and error norms are given: for each level the numbers that are tabulated.
* The texts of the headers are lists of names; files and printing are left out.
-/
import Verif.Model.Trace
import Mathlib.Analysis.SpecialFunctions.Log.Basic

namespace Verif.Rates
open MeshGraph Trace

/-- `np.append(table, np.array([row]), axis=0)` for a table with `n` columns -/
def appendRow {α : Type} (n : Nat) (table : List (List α)) (row : List α) : Res (List (List α)) :=
  if row.length = n then .ok (table ++ [row]) else .error .valueError

/-- The loop over the levels -/
def table {α : Type} (n : Nat) (rows : List (List α)) : Res (List (List α)) :=
  rows.foldlM (appendRow n) []

/-- mfe_elasticity_example_1.py:610 -/
def chunk (nDof nIter h : ℝ) (errors : List ℝ) : List ℝ := [nDof, nIter, h] ++ errors

/-- mfe_elasticity_example_2.py:852: without the number of iterations -/
def chunkFv (nDof h : ℝ) (errors : List ℝ) : List ℝ := [nDof, h] ++ errors

open Classical in
/-- One entry of `(chunk_e - chunk_b) / h_step` -/
noncomputable def rate (hb he eb ee : ℝ) : Option ℝ :=
  if 0 < hb ∧ 0 < he ∧ 0 < eb ∧ 0 < ee ∧ Real.log he - Real.log hb ≠ 0 then
    some ((Real.log ee - Real.log eb) / (Real.log he - Real.log hb))
  else none

/-- mfe_elasticity_example_1.py:619-623: `hcol` is the column of `h_step` -/
noncomputable def rateRow (hcol first nData : Nat) (b e : List ℝ) : Res (List (Option ℝ)) := do
  let hb ← getIdx b hcol
  let he ← getIdx e hcol
  pure ((((b.zip e).map fun p => rate hb he p.1 p.2).take nData).drop first)

/-- mfe_elasticity_example_1.py:617-623 -/
noncomputable def rates (hcol first nData : Nat) (errorData : List (List ℝ)) :
    Res (List (List (Option ℝ))) := do
  let rows ← mapRes (fun i => do
    let b ← getIdx errorData i
    let e ← getIdx errorData (i + 1)
    rateRow hcol first nData b e) (List.range (errorData.length - 1))
  table (nData - first) rows

/-- One level: numbers of degrees of freedom and iterations, mesh size, errors, norms of the
solution -/
structure Level where
  nDof : ℝ
  nIter : ℝ
  h : ℝ
  errors : List ℝ
  norms : List ℝ

/-- mfe_elasticity_example_1.py:593-680: the three tables; `sol_norms` is assigned in the last
pass of the loop. -/
noncomputable def convergence (nData : Nat) (levels : List Level) :
    Res (List (List ℝ) × List (List (Option ℝ)) × List ℝ) := do
  let errorData ← table nData (levels.map fun l => chunk l.nDof l.nIter l.h l.errors)
  let ratesData ← rates 2 3 nData errorData
  match levels.getLast? with
  | some l => pure (errorData, ratesData, l.norms)
  | none => throw .nameError

/-- mfe_elasticity_example_2.py:723-873 -/
noncomputable def ecmor (nData : Nat) (levels : List Level) :
    Res (List (List ℝ) × List (List (Option ℝ))) := do
  let errorData ← table nData (levels.map fun l => chunkFv l.nDof l.h l.errors)
  let ratesData ← rates 2 2 nData errorData
  pure (errorData, ratesData)

/-- oden_rates_primal_dual_ad.py:543-562: the mesh size is the first column -/
noncomputable def plain (nData : Nat) (levels : List Level) :
    Res (List (List ℝ) × List (List (Option ℝ))) := do
  let errorData ← table nData (levels.map fun l => l.h :: l.errors)
  let ratesData ← rates 0 1 nData errorData
  pure (errorData, ratesData)

/-- The names of columns in the headers and of the values in the arrays -/
structure Report where
  errorNames : List String
  rateNames : List String
  normNames : List String
  nData : Nat
  errors : List String
  norms : List String

/-- mfe_elasticity_example_1.py:593, 633-636, 357-365, 405-414 -/
def threeFields : Report where
  errorNames := ["n_dof", "n_iter", "h", "u", "r", "s", "div_s", "s_h_div_norm", "Pu", "Pr"]
  rateNames := ["u", "r", "s", "div_s", "s_h_div_norm", "Pu", "Pr"]
  normNames := ["u", "r", "s", "div_s", "s_h_div_norm", "Pu", "Pr"]
  nData := 10
  errors := ["u", "r", "s", "div_s", "s_h_div_norm", "Pu", "Pr"]
  norms := ["u", "r", "s", "div_s", "s_h_div_norm"]

/-- mfe_cosserat_elasticity_example_1.py:1020, 1075-1078, 214-227, 833-846 -/
def fourFields : Report where
  errorNames := ["n_dof", "n_iter", "h", "u", "r", "s", "o", "div_s", "div_o", "s_h_div_norm",
    "o_h_div_norm", "Pu", "Pr"]
  rateNames := ["u", "r", "s", "o", "div_s", "div_o", "s_h_div_norm", "o_h_div_norm", "Pu", "Pr"]
  normNames := ["u", "r", "s", "o", "div_s", "div_o", "s_h_div_norm", "o_h_div_norm", "Pu", "Pr"]
  nData := 13
  errors := ["u", "r", "s", "o", "div_s", "div_o", "s_h_div_norm", "o_h_div_norm", "Pu", "Pr"]
  norms := ["u", "r", "s", "o", "div_s", "div_o", "s_h_div_norm", "o_h_div_norm"]

/-- th_elasticity_example_1.py:307, 322, 348-349 -/
def taylorHood1 : Report where
  errorNames := ["n_dof", "n_iter", "h", "u_L2_error"]
  rateNames := ["u_convergence_rate"]
  normNames := []
  nData := 5
  errors := ["u", "p"]
  norms := []

/-- th_elasticity_example_2.py:311, 326, 355-356 -/
def taylorHood2 : Report where
  errorNames := ["n_dof", "n_iter", "h", "u_L2_error", "p_L2_error"]
  rateNames := ["u_convergence_rate", "p_convergence_rate"]
  normNames := []
  nData := 5
  errors := ["u", "p"]
  norms := []

end Verif.Rates
