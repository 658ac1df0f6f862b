/-
Model of the names of the files of the mixed-dimensional drivers.

* examples/md_degenerate_elliptic_scalar/md_degenerate_elliptic_scalar.py: `compose_case_name` (608-677), the files of
  `md_two_fields_approximation` (563-598) and of `compute_approximations` (710, 752-765, 779-780), the runs of
  `run_case` (784-828) and `run_degenerate_case` (831-879)
* examples/md_elliptic_scalar/md_elliptic_scalar.py: `compose_case_name` (436-480), the files of
  `md_two_fields_approximation` (405-422) and of `compute_approximations` (512, 555-568, 582-583), `main` (587-621)
* `method_definition` (md_elliptic_scalar.py:26-41, the same names in the other driver): the names of the methods

Simplifications
* `str` of a parameter is a parameter; that of the co-dimension is that of Lean.
* The values of a dictionary are no `None`.
* The folder is made when it is missing (`os.makedirs`); this is no part of the name.
* The numbers of the runs are rational (the code has floats).
-/
import Verif.Prelude
import Mathlib.Data.Rat.Init

namespace Verif.CaseNames

/-- the entries of `config` that the names use -/
structure Config (V : Type) where
  kOrder : Nat
  material : Dict String V
  folder : Option String
  meshSizes : List V

variable {V : Type}

/-- md_elliptic_scalar.py:26-41: the names of the methods; the dimension and the order change the spaces only -/
def methodNames (_dimension _kOrder : Nat) : List String := ["mixed_rt"]

/-- md_degenerate_elliptic_scalar.py:640-668, md_elliptic_scalar.py:454-472 -/
def named (str : V → String) (method : String) (coDim : Nat) (values : List V) : String :=
  values.foldl (fun name v => name ++ str v ++ "_")
    (method ++ "_" ++ "c_" ++ toString coDim ++ "_material_parameters_")

/-- md_degenerate_elliptic_scalar.py:670-675 -/
def inFolder (folder : Option String) (name : String) : String :=
  match folder with
  | none => name
  | some f => f ++ "/" ++ name

/-- md_degenerate_elliptic_scalar.py:635-677: for each co-dimension and each method a name -/
def loop (methods : Nat → Nat → List String) (str : V → String) (c : Config V) (values : List V) : List String :=
  [0, 1].flatMap fun coDim => (methods (2 - coDim) c.kOrder).map fun method =>
    inFolder c.folder (named str method coDim values)

/-- md_degenerate_elliptic_scalar.py:608-677: the values of the dictionary are taken in their order, ten of them
without the key `beta` and eleven with it -/
def degenerateNames (methods : Nat → Nat → List String) (str : V → String) (c : Config V) : Res (List String) :=
  match c.material.get? "beta" with
  | none => if c.material.values.length = 10 then .ok (loop methods str c c.material.values) else .error .valueError
  | some _ => if c.material.values.length = 11 then .ok (loop methods str c c.material.values) else .error .valueError

/-- md_elliptic_scalar.py:436-480: the values are taken by their keys -/
def ellipticNames (methods : Nat → Nat → List String) (str : V → String) (c : Config V) : Res (List String) := do
  let c1 ← c.material.getItem "m_c1"
  let c2 ← c.material.getItem "m_c2"
  let k0 ← c.material.getItem "m_kappa_c0"
  let k1 ← c.material.getItem "m_kappa_c1"
  let kn ← c.material.getItem "m_kappa_normal"
  let delta ← c.material.getItem "m_delta"
  pure (loop methods str c [c1, c2, k0, k1, kn, delta])

/-- The suffixes of the pictures of one mesh: md_degenerate_elliptic_scalar.py:568-588, md_elliptic_scalar.py:410-415 -/
def meshSuffixes (str : V → String) (degenerate : Bool) (h : V) : List String :=
  ("mesh_size_" ++ str h ++ "_md_elliptic_two_fields.vtk") ::
    if degenerate then ["mesh_size_" ++ str h ++ "_md_elliptic_physical_two_fields.vtk"] else []

/-- The suffixes of the tables and of the plot: md_degenerate_elliptic_scalar.py:752-765, 779;
md_elliptic_scalar.py:555-568, 582 -/
def tableSuffixes : List String := ["normal_conv_data.txt", "enhanced_conv_data.txt", "l2_error_plot.png"]

/-- The files of a run, given its names; `names[co_dim]` may fail. -/
def files (str : V → String) (degenerate : Bool) (c : Config V) (names : List String) : Res (List String) := do
  let n0 ← getIdx names 0
  let n1 ← getIdx names 1
  pure ([n0, n1].flatMap fun name =>
    ((c.meshSizes.flatMap (meshSuffixes str degenerate)) ++ tableSuffixes).map fun suffix => name ++ suffix)

def meshSizes : List ℚ := [1 / 2, 1 / 4, 1 / 8, 1 / 16, 1 / 32, 1 / 64, 1 / 128]

def deltas : List ℚ := [1 / 10, 1 / 100, 1 / 1000, 1 / 10000, 1 / 100000]

/-- md_degenerate_elliptic_scalar.py:797-808 -/
def plainMaterial (delta : ℚ) : Dict String ℚ :=
  [("rho_1", 1 / 10), ("rho_2", 1 / 50), ("kappa_c0", 1), ("kappa_c1", 1 / delta), ("mu", 1), ("kappa_normal", 1),
   ("delta", delta), ("xi", 1), ("eta", 1), ("chi", 1)]

/-- md_degenerate_elliptic_scalar.py:784-828 -/
def plainRuns : List (Config ℚ) := deltas.map fun delta => ⟨0, plainMaterial delta, some "output", meshSizes⟩

/-- md_degenerate_elliptic_scalar.py:831-879 -/
def degenerateRuns : List (Config ℚ) :=
  [1 / 2, -1 / 2, -1, -3 / 2].flatMap fun beta => deltas.map fun delta =>
    ⟨0, plainMaterial delta ++ [("beta", beta)], some "output", meshSizes⟩

/-- md_elliptic_scalar.py:587-621 -/
def ellipticRuns : List (Config ℚ) := deltas.map fun delta =>
  ⟨0, [("m_c1", 1), ("m_c2", 1), ("m_kappa_c0", 1), ("m_kappa_c1", 1 / delta), ("m_kappa_normal", 1),
    ("m_delta", delta)], some "output", meshSizes⟩

end Verif.CaseNames
