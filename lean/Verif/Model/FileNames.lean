/-
Model of the file names of the drivers of elasticity, and of the files they write and read.

* examples/cauchy_elasticity/mfe_elasticity_example_1.py: `compose_file_name` (706-716; the same in
  the cg_ and th_ drivers and in cauchy_elasticity_stress_constraint), `compose_file_name_fv`
  (719-725), `perform_convergence_approximations` (557-580), the loads of
  `perform_convergence_postprocessing` (600-608), the picture of `three_field_postprocessing`
  (319-329)
* examples/cauchy_elasticity/mfe_elasticity_example_2.py: `compose_file_name` (952-962),
  `compose_file_name_fv` (965-971)
* examples/cosserat_elasticity/mfe_cosserat_elasticity_example_1.py: `compose_file_name` (32-82)
* examples/cosserat_elasticity/mfe_cosserat_elasticity_example_2.py: `compose_file_name` (22-38),
  `material_data_definition` (729-760)
* examples/cosserat_elasticity/mfe_cosserat_elasticity_example_3.py: `compose_file_name` (483-486)
* examples/cosserat_ecmor/mfe_cosserat_elasticity_example_3.py: `compose_file_name` (1037-1040)

Simplifications
* `str` of a parameter of the material is a parameter; `str` of whole numbers is that of Lean.
* `"{:.1e}".format` is a parameter that gives the text of the mantissa and the exponent.
* The directory is a function from names to contents; a missing file is `none`
  (`FileNotFoundError`).  What is stored (vector and residuals) is the result of the solver, a
  parameter; writing and reading keep it unchanged.
-/
import Verif.Prelude

namespace Verif.FileNames

/-- the entries of `configuration` that the file operations use -/
structure Config (V : Type) where
  method : String
  kOrder : Nat
  dim : Nat
  nRef : Nat
  material : Dict String V

variable {V C : Type}

/-- mfe_elasticity_example_1.py:706-716 -/
def cauchyOne (str : V → String) (c : Config V) (l : Nat) (suffix : String) : Res String := do
  let lam ← c.material.getItem "lambda"
  pure ("ex_1_" ++ c.method ++ "_lambda_" ++ str lam ++ "_l_" ++ toString l ++ suffix)

/-- mfe_elasticity_example_2.py:952-962 -/
def cauchyTwo (str : V → String) (c : Config V) (l : Nat) (suffix : String) : Res String := do
  let kappa ← c.material.getItem "kappa"
  pure ("ex_2_" ++ c.method ++ "_kappa_" ++ str kappa ++ "_l_" ++ toString l ++ suffix)

/-- mfe_elasticity_example_1.py:719-725 -/
def fvOne (sci : V → String × Int) (c : Config V) (suffix : String) : Res String := do
  let lam ← c.material.getItem "lambda"
  pure ("ex_1_" ++ c.method ++ "_lambda_" ++ "1e" ++ toString (sci lam).2 ++ suffix)

/-- mfe_elasticity_example_2.py:965-971 -/
def fvTwo (sci : V → String × Int) (c : Config V) (suffix : String) : Res String := do
  let kappa ← c.material.getItem "kappa"
  pure ("ex_2_" ++ c.method ++ "_kappa_" ++ "1e" ++ toString (sci kappa).2 ++ suffix)

/-- mfe_cosserat_elasticity_example_1.py:32-82 -/
def cosseratOne (str : V → String) (c : Config V) (suffix : String) (l : Option Nat) :
    Res String := do
  let lambdaS ← c.material.getItem "lambda_s"
  let muS ← c.material.getItem "mu_s"
  let kappaS ← c.material.getItem "kappa_s"
  let lambdaO ← c.material.getItem "lambda_o"
  let muO ← c.material.getItem "mu_o"
  let kappaO ← c.material.getItem "kappa_o"
  let lc ← c.material.getItem "l"
  match l with
  | none =>
    pure (c.method ++ "_lambda_s_" ++ str lambdaS ++ "_mu_s_" ++ str muS ++ "_kappa_s_"
      ++ str kappaS ++ "_lambda_o_" ++ str lambdaO ++ "_mu_p_" ++ str muO ++ "_kappa_o_"
      ++ str kappaO ++ "_lc_" ++ str lc ++ "_k" ++ toString c.kOrder ++ "_" ++ toString c.dim
      ++ "d" ++ suffix)
  | some l =>
    pure (c.method ++ "_lambda_s_" ++ str lambdaS ++ "_mu_s_" ++ str muS ++ "_kappa_s_"
      ++ str kappaS ++ "_lambda_o_" ++ str lambdaO ++ "_mu_p_" ++ str muO ++ "_kappa_o_"
      ++ str kappaO ++ "_lc_" ++ str lc ++ "_k" ++ toString c.kOrder ++ "_l" ++ toString l
      ++ "_" ++ toString c.dim ++ "d" ++ suffix)

/-- mfe_cosserat_elasticity_example_2.py:22-38 -/
def cosseratTwo (str : V → String) (c : Config V) (l : Nat) (suffix : String) : Res String := do
  let lam ← c.material.getItem "lambda"
  let gamma ← c.material.getItem "gamma"
  pure (c.method ++ "_lambda_" ++ str lam ++ "_gamma_" ++ str gamma ++ "_k"
    ++ toString c.kOrder ++ "_l" ++ toString l ++ "_" ++ toString c.dim ++ "d" ++ suffix)

/-- mfe_cosserat_elasticity_example_2.py:729-760; only the third case is returned -/
def casesTwo (num : String → V) : List (Dict String V) :=
  [[("lambda_s", num "1.0e4"), ("mu_s", num "1.0"), ("kappa_s", num "0.1"),
    ("lambda_o", num "1.0"), ("mu_o", num "1.0"), ("kappa_o", num "0.1"), ("l", num "1.0")]]

/-- mfe_cosserat_elasticity_example_3.py:483-486 -/
def cosseratThree (c : Config V) (l : Nat) (suffix : String) : Res String :=
  pure (c.method ++ "_k" ++ toString c.kOrder ++ "_l" ++ toString l ++ "_" ++ toString c.dim
    ++ "d" ++ suffix)

/-- cosserat_ecmor/mfe_cosserat_elasticity_example_3.py:1037-1040 -/
def ecmorThree (c : Config V) (l : Nat) (suffix : String) : Res String :=
  pure ("ex_3_" ++ c.method ++ "_l" ++ toString l ++ suffix)

/-- a directory: names and contents -/
abbrev Files (C : Type) := String → Option C

/-- `open(name, "wb")`, `np.savetxt`: the old contents are lost -/
def write (fs : Files C) (name : String) (v : C) : Files C :=
  fun s => if s = name then some v else fs s

/-- what the drivers call to name a file: configuration, level, suffix -/
abbrev Naming (V : Type) := Config V → Nat → String → Res String

/-- mfe_elasticity_example_1.py:565-578: one level -/
def level (name : Naming V) (alpha res : String) (solve : Config V → Nat → C × C)
    (c : Config V) (fs : Files C) (l : Nat) : Res (Files C) := do
  let r := solve c l
  let file ← name c l alpha
  let fs := write fs file r.1
  let fileRes ← name c l res
  pure (write fs fileRes r.2)

/-- mfe_elasticity_example_1.py:557-580 -/
def approximations (name : Naming V) (alpha res : String) (solve : Config V → Nat → C × C)
    (fs : Files C) (c : Config V) : Res (Files C) :=
  (List.range c.nRef).foldlM (level name alpha res solve c) fs

/-- mfe_elasticity_example_1.py:728-746: the approximations of all configurations -/
def allApproximations (name : Naming V) (alpha res : String) (solve : Config V → Nat → C × C)
    (fs : Files C) (cs : List (Config V)) : Res (Files C) :=
  cs.foldlM (approximations name alpha res solve) fs

/-- mfe_elasticity_example_1.py:600-602, 607-608 -/
def load (name : Naming V) (suffix : String) (fs : Files C) (c : Config V) (l : Nat) :
    Res (Option C) := do
  let file ← name c l suffix
  pure (fs file)

/-- mfe_elasticity_example_1.py:322-325 -/
def pictureOne (str : V → String) (c : Config V) : Res String := do
  let lam ← c.material.getItem "lambda"
  pure ("ex_1_" ++ c.method ++ "_lambda_" ++ str lam ++ ".vtk")

/-- the pictures that the postprocessing of all levels leaves -/
def pictures (name : Config V → Res String) (draw : Config V → Nat → C) (fs : Files C)
    (c : Config V) : Res (Files C) :=
  (List.range c.nRef).foldlM (fun fs l => do
    let file ← name c
    pure (write fs file (draw c l))) fs

end Verif.FileNames
