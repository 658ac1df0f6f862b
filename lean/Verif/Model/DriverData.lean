/-
Model of the data that the drivers in examples/ hand on: the functions that are set for the weak forms
(`weak_form.functions = …`) and the keys that the forms read, and the material data of the elasticity drivers
(`material_data_definition`, `mat_data`) and the keys that the functions of the driver read.

Simplifications: a function of the code is an arbitrary value, the keys of a dictionary are listed in the order of
the literal; a form is represented by the keys that its methods read, in the order of their first reading; numbers
are rationals.
-/
import Mathlib.Data.Rat.Defs
import Mathlib.Algebra.Order.Field.Rat
import Verif.Model.MeshGraph

namespace Verif.DriverData

open MeshGraph

/-- `[d[k] for k in keys]` as the successive statements `x = d["k"]` -/
def readAll {V : Type} (d : Dict String V) (ks : List String) : Res (List V) := mapRes d.getItem ks

/-- The keys of `self.functions` that the forms read (src/weak_forms and the forms of the examples); a class
that is not in the list cannot be imported. -/
def formReads : String → Option (List String)
  | "DegenerateEllipticWeakForm" => some ["rhs", "porosity", "d_phi", "grad_d_phi"]
  | "DegenerateEllipticWeakFormBCDirichlet" => some ["q", "d_phi", "porosity"]
  | "LaplaceDualWeakForm" => some ["rhs", "kappa"]
  | "LaplaceDualWeakFormBCDirichlet" => some ["p"]
  | "LaplacePrimalWeakForm" => some ["rhs", "kappa"]
  | "LaplacePrimalWeakFormBCDirichlet" => some ["p"]
  | "LCEDualWeakForm" => some ["rhs", "lambda_s", "mu_s", "kappa_s", "lambda_o", "mu_o", "kappa_o", "l"]
  | "LCEDualWeakFormBCDirichlet" => some ["u", "t"]
  | "LCEDualWeakFormBCNeumann" => some ["s", "m"]
  | "LCEPrimalWeakForm" => some ["rhs", "lambda", "mu", "kappa", "gamma"]
  | "LCEPrimalWeakFormBCDirichlet" => some ["u", "t"]
  | "LCERieszMapWeakForm" => some ["lambda_s", "mu_s", "kappa_s", "lambda_o", "mu_o", "kappa_o", "l"]
  | "LCEScaledDualWeakForm" => some ["rhs", "lambda_s", "mu_s", "kappa_s", "lambda_o", "mu_o", "kappa_o", "l",
    "grad_l"]
  | "LCEScaledDualWeakFormBCDirichlet" => some ["u", "t", "l", "grad_l"]
  | "LCEScaledRieszMapWeakForm" => some ["rhs", "lambda_s", "mu_s", "kappa_s", "lambda_o", "mu_o", "kappa_o", "l",
    "grad_l"]
  | "LEDualWeakForm" => some ["rhs", "lambda", "mu"]
  | "LEDualWeakFormBCDirichlet" => some ["u"]
  | "LEPrimalStressConstraintWeakForm" => some ["s_target", "lambda", "mu"]
  | "LEPrimalWeakForm" => some ["rhs", "lambda", "mu"]
  | "LEPrimalWeakFormBCDirichlet" => some ["u"]
  | "LEPrimalWeakFormBCNeumann" => some ["t"]
  | "LEPrimalWeakFormBCNormalDirichlet" => some ["u"]
  | "LERieszMapWeakForm" => some ["lambda", "mu", "rhs"]
  | "LETaylorHoodWeakForm" => some ["rhs", "lambda", "mu"]
  | "LETaylorHoodWeakFormBCDirichlet" => some ["u"]
  | "ScaledToPhysicalL2Projection" => some ["porosity", "d_phi"]
  | "UnscaledEllipticWeakForm" => some ["rhs", "porosity", "d_phi", "grad_d_phi"]
  | "UnscaledEllipticWeakFormBCDirichlet" => some ["p"]
  | "LMgWeakForm" => some ["d_phi_c0n", "porosity_c0n"]
  | "DiffusionWeakForm" => some ["K_thermal", "rho_r", "cp_r", "kappa", "porosity", "mu", "delta_t"]
  | "DiffusionWeakFormBCRobin" => some ["beta_md", "gamma_md", "p_D", "beta_qd", "gamma_qd", "t_D"]
  | "AdvectionWeakFormBC" => some ["z_inlet", "h_inlet"]
  | "ThreeFieldsDiffusionWeakForm" => some ["rhs", "kappa", "velocity"]
  | "ThreeFieldsDiffusionWeakFormBCRobin" => some ["beta", "gamma", "c", "velocity"]
  | "ThreeFieldsAdvectionWeakForm" => some ["velocity"]
  | "ThreeFieldsAdvectionWeakFormBC" => some ["u", "velocity"]
  | "ContactWeakForm" => some ["cu_normal", "cu_tangential", "cr_normal", "cr_tangential"]
  | "InterfaceCouplingWeakForm" => some ["mu", "kappa_normal", "delta", "d_phi_c0", "porosity_c1"]
  | "CouplingWeakForm" => some ["kappa_normal", "delta"]
  | "OdenDualWeakForm" => some ["rhs"]
  | "OdenDualWeakFormBCDirichlet" => some ["u"]
  | "OdenPrimalWeakForm" => some ["rhs", "kappa"]
  | "OdenPrimalWeakFormBCDirichlet" => some ["u"]
  | "SundusDualWeakForm" => some ["rhs_f", "kappa", "rhs_r", "delta", "eta", "delta_t"]
  | "SundusDualWeakFormBCDirichlet" => some ["p", "c"]
  | "AdvectionWeakForm" => some []
  | _ => none

/-- One statement `form.functions = given`. -/
structure Use where
  driver : String
  line : Nat
  form : String
  given : List String

/-- The statements of the drivers; the entry of a line with `{**f, **g}` lists the merged keys. -/
def uses : List Use := [
  ⟨"cauchy_elasticity/cg_elasticity_example_1", 88, "LEPrimalWeakForm", ["rhs", "lambda", "mu"]⟩,
  ⟨"cauchy_elasticity/cg_elasticity_example_1", 90, "LEPrimalWeakFormBCDirichlet", ["u"]⟩,
  ⟨"cauchy_elasticity/cg_elasticity_example_2", 90, "LEPrimalWeakForm", ["rhs", "lambda", "mu"]⟩,
  ⟨"cauchy_elasticity/cg_elasticity_example_2", 92, "LEPrimalWeakFormBCDirichlet", ["u"]⟩,
  ⟨"cauchy_elasticity/mfe_elasticity_example_1", 121, "LEDualWeakForm", ["rhs", "lambda", "mu"]⟩,
  ⟨"cauchy_elasticity/mfe_elasticity_example_1", 123, "LEDualWeakFormBCDirichlet", ["s", "u", "t"]⟩,
  ⟨"cauchy_elasticity/mfe_elasticity_example_1", 126, "LERieszMapWeakForm", ["rhs", "lambda", "mu"]⟩,
  ⟨"cauchy_elasticity/mfe_elasticity_example_2", 127, "LEDualWeakForm", ["rhs", "lambda", "mu"]⟩,
  ⟨"cauchy_elasticity/mfe_elasticity_example_2", 129, "LEDualWeakFormBCDirichlet", ["s", "u", "t"]⟩,
  ⟨"cauchy_elasticity/mfe_elasticity_example_2", 132, "LERieszMapWeakForm", ["rhs", "lambda", "mu"]⟩,
  ⟨"cauchy_elasticity/th_elasticity_example_1", 95, "LETaylorHoodWeakForm", ["rhs", "lambda", "mu"]⟩,
  ⟨"cauchy_elasticity/th_elasticity_example_1", 97, "LETaylorHoodWeakFormBCDirichlet", ["u", "p"]⟩,
  ⟨"cauchy_elasticity/th_elasticity_example_2", 97, "LETaylorHoodWeakForm", ["rhs", "lambda", "mu"]⟩,
  ⟨"cauchy_elasticity/th_elasticity_example_2", 99, "LETaylorHoodWeakFormBCDirichlet", ["u", "p"]⟩,
  ⟨"cauchy_elasticity_stress_constraint/cg_elasticity_example_1", 99, "LEPrimalWeakForm", ["rhs", "lambda", "mu",
    "s_target"]⟩,
  ⟨"cauchy_elasticity_stress_constraint/cg_elasticity_example_1", 123, "LEPrimalStressConstraintWeakForm", ["rhs",
    "lambda", "mu", "s_target"]⟩,
  ⟨"cauchy_elasticity_stress_constraint/cg_elasticity_example_2", 99, "LEPrimalWeakForm", ["rhs", "lambda", "mu",
    "s_target"]⟩,
  ⟨"cauchy_elasticity_stress_constraint/cg_elasticity_example_2", 123, "LEPrimalStressConstraintWeakForm", ["rhs",
    "lambda", "mu", "s_target"]⟩,
  ⟨"cauchy_elasticity_stress_constraint/mfe_elasticity_example_1", 121, "LEDualWeakForm", ["rhs", "lambda", "mu"]⟩,
  ⟨"cauchy_elasticity_stress_constraint/mfe_elasticity_example_1", 123, "LEDualWeakFormBCDirichlet", ["s", "u",
    "t"]⟩,
  ⟨"cauchy_elasticity_stress_constraint/mfe_elasticity_example_1", 126, "LERieszMapWeakForm", ["rhs", "lambda",
    "mu"]⟩,
  ⟨"cauchy_elasticity_stress_constraint/mfe_elasticity_example_2", 127, "LEDualWeakForm", ["rhs", "lambda", "mu"]⟩,
  ⟨"cauchy_elasticity_stress_constraint/mfe_elasticity_example_2", 129, "LEDualWeakFormBCDirichlet", ["s", "u",
    "t"]⟩,
  ⟨"cauchy_elasticity_stress_constraint/mfe_elasticity_example_2", 132, "LERieszMapWeakForm", ["rhs", "lambda",
    "mu"]⟩,
  ⟨"cauchy_elasticity_stress_constraint/th_elasticity_example_1", 95, "LETaylorHoodWeakForm", ["rhs", "lambda",
    "mu"]⟩,
  ⟨"cauchy_elasticity_stress_constraint/th_elasticity_example_1", 97, "LETaylorHoodWeakFormBCDirichlet", ["u",
    "p"]⟩,
  ⟨"cauchy_elasticity_stress_constraint/th_elasticity_example_2", 97, "LETaylorHoodWeakForm", ["rhs", "lambda",
    "mu"]⟩,
  ⟨"cauchy_elasticity_stress_constraint/th_elasticity_example_2", 99, "LETaylorHoodWeakFormBCDirichlet", ["u",
    "p"]⟩,
  ⟨"cosserat_ecmor/mfe_elasticity_example_1", 116, "LEDualWeakForm", ["rhs", "lambda", "mu"]⟩,
  ⟨"cosserat_ecmor/mfe_elasticity_example_1", 118, "LEDualWeakFormBCDirichlet", ["s", "u", "t"]⟩,
  ⟨"cosserat_ecmor/mfe_elasticity_example_1", 121, "LERieszMapWeakForm", ["rhs", "lambda", "mu"]⟩,
  ⟨"cosserat_ecmor/mfe_elasticity_example_2", 122, "LEDualWeakForm", ["rhs", "lambda", "mu"]⟩,
  ⟨"cosserat_ecmor/mfe_elasticity_example_2", 124, "LEDualWeakFormBCDirichlet", ["s", "u", "t"]⟩,
  ⟨"cosserat_ecmor/mfe_elasticity_example_2", 127, "LERieszMapWeakForm", ["rhs", "lambda", "mu"]⟩,
  ⟨"cosserat_elasticity/mfe_cosserat_elasticity_example_1", 277, "LCEDualWeakForm", ["lambda_s", "mu_s",
    "kappa_s", "lambda_o", "mu_o", "kappa_o", "l", "grad_l", "rhs"]⟩,
  ⟨"cosserat_elasticity/mfe_cosserat_elasticity_example_1", 279, "LCEDualWeakFormBCDirichlet", ["s", "m", "u",
    "t", "div_s", "div_m"]⟩,
  ⟨"cosserat_elasticity/mfe_cosserat_elasticity_example_1", 282, "LCERieszMapWeakForm", ["lambda_s", "mu_s",
    "kappa_s", "lambda_o", "mu_o", "kappa_o", "l", "grad_l", "rhs"]⟩,
  ⟨"cosserat_elasticity/mfe_cosserat_elasticity_example_1", 609, "LCEScaledDualWeakForm", ["lambda_s", "mu_s",
    "kappa_s", "lambda_o", "mu_o", "kappa_o", "l", "grad_l", "rhs"]⟩,
  ⟨"cosserat_elasticity/mfe_cosserat_elasticity_example_1", 611, "LCEScaledDualWeakFormBCDirichlet", ["s", "m",
    "u", "t", "div_s", "div_m", "l", "grad_l"]⟩,
  ⟨"cosserat_elasticity/mfe_cosserat_elasticity_example_1", 614, "LCEScaledRieszMapWeakForm", ["lambda_s", "mu_s",
    "kappa_s", "lambda_o", "mu_o", "kappa_o", "l", "grad_l", "rhs"]⟩,
  ⟨"cosserat_elasticity/mfe_cosserat_elasticity_example_3", 143, "LCEScaledDualWeakForm", ["lambda_s", "mu_s",
    "kappa_s", "lambda_o", "mu_o", "kappa_o", "l", "grad_l", "rhs"]⟩,
  ⟨"cosserat_elasticity/mfe_cosserat_elasticity_example_3", 145, "LCEScaledDualWeakFormBCDirichlet", ["s", "m",
    "u", "t", "div_s", "div_m", "l", "grad_l"]⟩,
  ⟨"cosserat_elasticity/mfe_cosserat_elasticity_example_3", 148, "LCEScaledRieszMapWeakForm", ["lambda_s", "mu_s",
    "kappa_s", "lambda_o", "mu_o", "kappa_o", "l", "grad_l", "rhs"]⟩,
  ⟨"cosserat_elasticity/torsion_test/cosserat_torsion_test_primal_dual", 108, "LCEPrimalWeakForm", ["rhs",
    "lambda", "mu", "kappa", "gamma"]⟩,
  ⟨"cosserat_elasticity/torsion_test/cosserat_torsion_test_primal_dual", 145, "LCEPrimalWeakFormBCDirichlet",
    ["u", "t"]⟩,
  ⟨"cosserat_elasticity/torsion_test/cosserat_torsion_test_primal_dual", 148, "LCEPrimalWeakFormBCDirichlet",
    ["u", "t"]⟩,
  ⟨"cosserat_elasticity/torsion_test/cosserat_torsion_test_primal_dual", 392, "LCEDualWeakFormBCDirichlet", ["u",
    "t"]⟩,
  ⟨"cosserat_elasticity/torsion_test/cosserat_torsion_test_primal_dual", 395, "LCEDualWeakFormBCDirichlet", ["u",
    "t"]⟩,
  ⟨"cosserat_elasticity/torsion_test/cosserat_torsion_test_primal_dual", 398, "LCEDualWeakFormBCNeumann", ["s",
    "m"]⟩,
  ⟨"degenerate_elliptic_scalar/darcy_elliptic_degenerate_scenario_1", 160, "UnscaledEllipticWeakForm", ["rhs",
    "kappa", "porosity", "d_phi", "grad_d_phi"]⟩,
  ⟨"degenerate_elliptic_scalar/darcy_elliptic_degenerate_scenario_1", 164, "UnscaledEllipticWeakFormBCDirichlet",
    ["u", "p", "d_phi", "porosity"]⟩,
  ⟨"degenerate_elliptic_scalar/darcy_elliptic_degenerate_scenario_2", 241, "DegenerateEllipticWeakForm", ["rhs",
    "kappa", "porosity", "d_phi", "grad_d_phi"]⟩,
  ⟨"degenerate_elliptic_scalar/darcy_elliptic_degenerate_scenario_2", 243,
    "DegenerateEllipticWeakFormBCDirichlet", ["v", "q", "u", "p", "d_phi", "porosity"]⟩,
  ⟨"degenerate_elliptic_scalar/darcy_elliptic_degenerate_scenario_2", 246, "UnscaledEllipticWeakForm", ["rhs",
    "kappa", "porosity", "d_phi", "grad_d_phi"]⟩,
  ⟨"degenerate_elliptic_scalar/darcy_elliptic_degenerate_scenario_2", 248, "UnscaledEllipticWeakFormBCDirichlet",
    ["v", "q", "u", "p", "d_phi", "porosity"]⟩,
  ⟨"degenerate_elliptic_scalar/darcy_elliptic_degenerate_scenario_2", 252, "LMgWeakForm", ["porosity_c0n",
    "d_phi_c0n"]⟩,
  ⟨"degenerate_elliptic_scalar/degenerate_mixed_flow_model", 148, "DegenerateEllipticWeakForm", ["rhs", "kappa",
    "porosity", "d_phi", "grad_d_phi"]⟩,
  ⟨"degenerate_elliptic_scalar/degenerate_mixed_flow_model", 150, "DegenerateEllipticWeakFormBCDirichlet", ["v",
    "q", "d_phi", "porosity"]⟩,
  ⟨"degenerate_elliptic_scalar/degenerate_mixed_flow_model", 153, "ScaledToPhysicalL2Projection", ["rhs", "kappa",
    "porosity", "d_phi", "grad_d_phi"]⟩,
  ⟨"geothermal_flow/hydrothermal_system", 215, "DiffusionWeakForm", ["K_thermal", "kappa", "mu", "porosity",
    "rho_r", "cp_r", "delta_t"]⟩,
  ⟨"geothermal_flow/hydrothermal_system", 217, "DiffusionWeakFormBCRobin", ["p_D", "beta_md", "gamma_md", "t_D",
    "beta_qd", "gamma_qd", "z_inlet", "h_inlet"]⟩,
  ⟨"geothermal_flow/hydrothermal_system", 220, "AdvectionWeakForm", ["p_D", "beta_md", "gamma_md", "t_D",
    "beta_qd", "gamma_qd", "z_inlet", "h_inlet"]⟩,
  ⟨"geothermal_flow/hydrothermal_system", 222, "AdvectionWeakFormBC", ["p_D", "beta_md", "gamma_md", "t_D",
    "beta_qd", "gamma_qd", "z_inlet", "h_inlet"]⟩,
  ⟨"geothermal_flow/three_fields_advection_diffusion", 311, "ThreeFieldsDiffusionWeakForm", ["rhs", "kappa",
    "velocity"]⟩,
  ⟨"geothermal_flow/three_fields_advection_diffusion", 313, "ThreeFieldsDiffusionWeakFormBCRobin", ["beta",
    "gamma", "c", "velocity"]⟩,
  ⟨"geothermal_flow/three_fields_advection_diffusion", 316, "ThreeFieldsAdvectionWeakForm", ["beta", "gamma", "c",
    "velocity"]⟩,
  ⟨"geothermal_flow/three_fields_advection_diffusion", 318, "ThreeFieldsAdvectionWeakFormBC", ["u", "q", "m",
    "beta", "gamma", "c", "velocity"]⟩,
  ⟨"md_cosserat_elasticity/md_primal_cosserat", 290, "LCEPrimalWeakForm", ["rhs", "lambda", "mu", "kappa",
    "gamma"]⟩,
  ⟨"md_cosserat_elasticity/md_primal_cosserat", 293, "LCEPrimalWeakForm", ["rhs", "lambda", "mu", "kappa",
    "gamma"]⟩,
  ⟨"md_cosserat_elasticity/md_primal_cosserat", 302, "ContactWeakForm", ["cu_normal", "cu_tangential",
    "cr_normal", "cr_tangential"]⟩,
  ⟨"md_degenerate_elliptic_scalar/md_degenerate_elliptic_scalar", 278, "DegenerateEllipticWeakForm", ["rhs",
    "porosity", "d_phi", "grad_d_phi"]⟩,
  ⟨"md_degenerate_elliptic_scalar/md_degenerate_elliptic_scalar", 281, "DegenerateEllipticWeakForm", ["rhs",
    "porosity", "d_phi", "grad_d_phi"]⟩,
  ⟨"md_degenerate_elliptic_scalar/md_degenerate_elliptic_scalar", 284, "DegenerateEllipticWeakFormBCDirichlet",
    ["v", "q", "rhs", "porosity", "d_phi", "grad_d_phi"]⟩,
  ⟨"md_degenerate_elliptic_scalar/md_degenerate_elliptic_scalar", 287, "DegenerateEllipticWeakFormBCDirichlet",
    ["v", "q", "rhs", "porosity", "d_phi", "grad_d_phi"]⟩,
  ⟨"md_degenerate_elliptic_scalar/md_degenerate_elliptic_scalar", 290, "ScaledToPhysicalL2Projection", ["rhs",
    "porosity", "d_phi", "grad_d_phi"]⟩,
  ⟨"md_degenerate_elliptic_scalar/md_degenerate_elliptic_scalar", 293, "ScaledToPhysicalL2Projection", ["rhs",
    "porosity", "d_phi", "grad_d_phi"]⟩,
  ⟨"md_degenerate_elliptic_scalar/md_degenerate_elliptic_scalar", 314, "InterfaceCouplingWeakForm", ["delta",
    "kappa_normal", "mu", "d_phi_c0", "porosity_c1"]⟩,
  ⟨"md_elliptic_scalar/md_elliptic_scalar", 236, "LaplaceDualWeakForm", ["rhs", "kappa"]⟩,
  ⟨"md_elliptic_scalar/md_elliptic_scalar", 239, "LaplaceDualWeakForm", ["rhs", "kappa"]⟩,
  ⟨"md_elliptic_scalar/md_elliptic_scalar", 242, "LaplaceDualWeakFormBCDirichlet", ["u", "p"]⟩,
  ⟨"md_elliptic_scalar/md_elliptic_scalar", 245, "LaplaceDualWeakFormBCDirichlet", ["u", "p"]⟩,
  ⟨"md_elliptic_scalar/md_elliptic_scalar", 248, "CouplingWeakForm", ["delta", "kappa_normal"]⟩,
  ⟨"oden_problem/oden_rates_primal_dual_ad", 148, "OdenPrimalWeakForm", ["rhs", "kappa"]⟩,
  ⟨"oden_problem/oden_rates_primal_dual_ad", 150, "OdenPrimalWeakFormBCDirichlet", ["u"]⟩,
  ⟨"oden_problem/oden_rates_primal_dual_ad", 399, "OdenDualWeakForm", ["rhs", "kappa"]⟩,
  ⟨"oden_problem/oden_rates_primal_dual_ad", 401, "OdenDualWeakFormBCDirichlet", ["q", "u", "div_q"]⟩,
  ⟨"parabolic_diffusive_problem/mixed_transport_model", 246, "SundusDualWeakForm", ["rhs_f", "rhs_r", "kappa",
    "delta", "eta", "delta_t"]⟩,
  ⟨"parabolic_diffusive_problem/mixed_transport_model", 248, "SundusDualWeakFormBCDirichlet", ["mp", "p", "mc",
    "c"]⟩]

/-- cosserat_ecmor/mfe_cosserat_elasticity_example_3.py:132-158, torsion_test/cosserat_torsion_test_primal_dual.py:335-344,
md_cosserat_elasticity/md_primal_cosserat.py:295-299 -/
def wrongUses : List Use := [
  ⟨"cosserat_ecmor/mfe_cosserat_elasticity_example_3", 153, "LCEScaledDualWeakForm",
    ["rhs", "lambda", "mu", "kappa", "gamma", "grad_gamma"]⟩,
  ⟨"cosserat_ecmor/mfe_cosserat_elasticity_example_3", 155, "LCEScaledDualWeakFormBCDirichlet",
    ["s", "m", "u", "t", "div_s", "div_m", "gamma", "grad_gamma"]⟩,
  ⟨"cosserat_ecmor/mfe_cosserat_elasticity_example_3", 158, "LCEScaledRieszMapWeakForm",
    ["rhs", "lambda", "mu", "kappa", "gamma", "grad_gamma"]⟩,
  ⟨"cosserat_elasticity/torsion_test/cosserat_torsion_test_primal_dual", 344, "LCEDualWeakForm",
    ["rhs", "lambda", "mu", "kappa", "gamma"]⟩,
  ⟨"md_cosserat_elasticity/md_primal_cosserat", 296, "LCEPrimalWeakFormBCDirichlet", ["u", "r"]⟩,
  ⟨"md_cosserat_elasticity/md_primal_cosserat", 299, "LCEPrimalWeakFormBCDirichlet", ["u", "r"]⟩]

/-- What a form does with its functions before anything else: `none` is an import that fails -/
def readForm {V : Type} (form : String) (fs : Dict String V) : Res (List V) :=
  match formReads form with
  | none => .error .nameError
  | some ks => readAll fs ks

/-- A driver: the cases of its material data and, for each of its functions, the keys that it reads. -/
structure Driver where
  name : String
  cases : List (Dict String ℚ)
  reads : List (String × List String)

/-- The drivers with material data, with the functions of their module of exact solutions where these read the
material data. -/
def drivers : List Driver := [
  -- cauchy_elasticity/cg_elasticity_example_1.py:241
  ⟨"cauchy_elasticity/cg_elasticity_example_1",
    [[("lambda", 1), ("mu", 1)],
      [("lambda", 100), ("mu", 1)],
      [("lambda", 10000), ("mu", 1)],
      [("lambda", 100000000), ("mu", 1)]],
    [("primal_approximation", ["lambda", "mu"]), ("primal_postprocessing", ["lambda", "mu"]),
      ("compose_file_name", ["lambda"]), ("perform_convergence_postprocessing", ["lambda"])]⟩,
  -- cauchy_elasticity/cg_elasticity_example_2.py:245
  ⟨"cauchy_elasticity/cg_elasticity_example_2",
    [[("lambda", 1), ("mu", 1), ("kappa", 1 / 1000000)],
      [("lambda", 1), ("mu", 1), ("kappa", 1)],
      [("lambda", 1), ("mu", 1), ("kappa", 1000000)]],
    [("primal_approximation", ["lambda", "mu", "kappa"]), ("primal_postprocessing", ["lambda", "mu", "kappa"]),
      ("compose_file_name", ["kappa"]), ("perform_convergence_postprocessing", ["kappa"])]⟩,
  -- cauchy_elasticity/mfe_elasticity_example_1.py:696
  ⟨"cauchy_elasticity/mfe_elasticity_example_1",
    [[("lambda", 1), ("mu", 1)],
      [("lambda", 100), ("mu", 1)],
      [("lambda", 10000), ("mu", 1)],
      [("lambda", 100000000), ("mu", 1)]],
    [("three_field_approximation", ["lambda", "mu"]), ("three_field_postprocessing", ["lambda", "mu"]),
      ("three_field_solution_norms", ["lambda", "mu"]), ("ecmor_fv_postprocessing", ["lambda", "mu"]),
      ("perform_convergence_postprocessing", ["lambda"]), ("compose_file_name", ["lambda"]),
      ("compose_file_name_fv", ["lambda"])]⟩,
  -- cauchy_elasticity/mfe_elasticity_example_2.py:943
  ⟨"cauchy_elasticity/mfe_elasticity_example_2",
    [[("lambda", 1), ("mu", 1), ("kappa", 1 / 1000000)],
      [("lambda", 1), ("mu", 1), ("kappa", 1)],
      [("lambda", 1), ("mu", 1), ("kappa", 1000000)]],
    [("three_field_approximation", ["lambda", "mu", "kappa"]), ("three_field_postprocessing", ["lambda", "mu",
      "kappa"]), ("three_field_solution_norms", ["lambda", "mu", "kappa"]), ("ecmor_fv_postprocessing", ["lambda",
      "mu", "kappa"]), ("perform_convergence_postprocessing", ["kappa"]), ("perform_ecmor_postprocessing",
      ["kappa"]), ("compose_file_name", ["kappa"]), ("compose_file_name_fv", ["kappa"])]⟩,
  -- cauchy_elasticity/th_elasticity_example_1.py:250
  ⟨"cauchy_elasticity/th_elasticity_example_1",
    [[("lambda", 1), ("mu", 1)],
      [("lambda", 100), ("mu", 1)],
      [("lambda", 10000), ("mu", 1)],
      [("lambda", 100000000), ("mu", 1)]],
    [("mixed_approximation", ["lambda", "mu"]), ("mixed_postprocessing", ["lambda", "mu"]), ("compose_file_name",
      ["lambda"]), ("perform_convergence_postprocessing", ["lambda"])]⟩,
  -- cauchy_elasticity/th_elasticity_example_2.py:254
  ⟨"cauchy_elasticity/th_elasticity_example_2",
    [[("lambda", 1), ("mu", 1), ("kappa", 1 / 1000000)],
      [("lambda", 1), ("mu", 1), ("kappa", 1)],
      [("lambda", 1), ("mu", 1), ("kappa", 1000000)]],
    [("mixed_approximation", ["lambda", "mu", "kappa"]), ("mixed_postprocessing", ["lambda", "mu", "kappa"]),
      ("compose_file_name", ["kappa"]), ("perform_convergence_postprocessing", ["kappa"])]⟩,
  -- cauchy_elasticity_stress_constraint/mfe_elasticity_example_1.py:696
  ⟨"cauchy_elasticity_stress_constraint/mfe_elasticity_example_1",
    [[("lambda", 1), ("mu", 1)],
      [("lambda", 100), ("mu", 1)],
      [("lambda", 10000), ("mu", 1)],
      [("lambda", 100000000), ("mu", 1)]],
    [("three_field_approximation", ["lambda", "mu"]), ("three_field_postprocessing", ["lambda", "mu"]),
      ("three_field_solution_norms", ["lambda", "mu"]), ("ecmor_fv_postprocessing", ["lambda", "mu"]),
      ("perform_convergence_postprocessing", ["lambda"]), ("compose_file_name", ["lambda"]),
      ("compose_file_name_fv", ["lambda"])]⟩,
  -- cauchy_elasticity_stress_constraint/mfe_elasticity_example_2.py:943
  ⟨"cauchy_elasticity_stress_constraint/mfe_elasticity_example_2",
    [[("lambda", 1), ("mu", 1), ("kappa", 1 / 1000000)],
      [("lambda", 1), ("mu", 1), ("kappa", 1)],
      [("lambda", 1), ("mu", 1), ("kappa", 1000000)]],
    [("three_field_approximation", ["lambda", "mu", "kappa"]), ("three_field_postprocessing", ["lambda", "mu",
      "kappa"]), ("three_field_solution_norms", ["lambda", "mu", "kappa"]), ("ecmor_fv_postprocessing", ["lambda",
      "mu", "kappa"]), ("perform_convergence_postprocessing", ["kappa"]), ("perform_ecmor_postprocessing",
      ["kappa"]), ("compose_file_name", ["kappa"]), ("compose_file_name_fv", ["kappa"])]⟩,
  -- cauchy_elasticity_stress_constraint/th_elasticity_example_1.py:250
  ⟨"cauchy_elasticity_stress_constraint/th_elasticity_example_1",
    [[("lambda", 1), ("mu", 1)],
      [("lambda", 100), ("mu", 1)],
      [("lambda", 10000), ("mu", 1)],
      [("lambda", 100000000), ("mu", 1)]],
    [("mixed_approximation", ["lambda", "mu"]), ("mixed_postprocessing", ["lambda", "mu"]), ("compose_file_name",
      ["lambda"]), ("perform_convergence_postprocessing", ["lambda"])]⟩,
  -- cauchy_elasticity_stress_constraint/th_elasticity_example_2.py:254
  ⟨"cauchy_elasticity_stress_constraint/th_elasticity_example_2",
    [[("lambda", 1), ("mu", 1), ("kappa", 1 / 1000000)],
      [("lambda", 1), ("mu", 1), ("kappa", 1)],
      [("lambda", 1), ("mu", 1), ("kappa", 1000000)]],
    [("mixed_approximation", ["lambda", "mu", "kappa"]), ("mixed_postprocessing", ["lambda", "mu", "kappa"]),
      ("compose_file_name", ["kappa"]), ("perform_convergence_postprocessing", ["kappa"])]⟩,
  -- cosserat_ecmor/mfe_elasticity_example_1.py:929
  ⟨"cosserat_ecmor/mfe_elasticity_example_1",
    [[("lambda", 1), ("mu", 1)],
      [("lambda", 100), ("mu", 1)],
      [("lambda", 10000), ("mu", 1)],
      [("lambda", 100000000), ("mu", 1)]],
    [("three_field_approximation", ["lambda", "mu"]), ("three_field_postprocessing", ["lambda", "mu"]),
      ("three_field_solution_norms", ["lambda", "mu"]), ("ecmor_fv_postprocessing", ["lambda", "mu"]),
      ("perform_convergence_postprocessing", ["lambda"]), ("perform_ecmor_postprocessing", ["lambda"]),
      ("compose_file_name", ["lambda"]), ("compose_file_name_fv", ["lambda"])]⟩,
  -- cosserat_ecmor/mfe_elasticity_example_2.py:950
  ⟨"cosserat_ecmor/mfe_elasticity_example_2",
    [[("lambda", 1), ("mu", 1), ("kappa", 1 / 10000)],
      [("lambda", 1), ("mu", 1), ("kappa", 1)],
      [("lambda", 1), ("mu", 1), ("kappa", 10000)]],
    [("three_field_approximation", ["lambda", "mu", "kappa"]), ("three_field_postprocessing", ["lambda", "mu",
      "kappa"]), ("three_field_solution_norms", ["lambda", "mu", "kappa"]), ("ecmor_fv_postprocessing", ["lambda",
      "mu", "kappa"]), ("perform_convergence_postprocessing", ["kappa"]), ("perform_ecmor_postprocessing",
      ["kappa"]), ("compose_file_name", ["kappa"]), ("compose_file_name_fv", ["kappa"])]⟩,
  -- cosserat_elasticity/mfe_cosserat_elasticity_example_1.py:1162
  ⟨"cosserat_elasticity/mfe_cosserat_elasticity_example_1",
    [[("lambda_s", 1), ("mu_s", 1), ("kappa_s", 1 / 10), ("lambda_o", 1), ("mu_o", 1), ("kappa_o", 1 / 10), ("l",
      1 / 10000)]],
    [("compose_file_name", ["lambda_s", "mu_s", "kappa_s", "lambda_o", "mu_o", "kappa_o", "l"]), ("stress",
      ["lambda_s", "mu_s", "kappa_s"]), ("couple_stress", ["lambda_o", "mu_o", "kappa_o", "l"]),
      ("couple_stress_scaled", ["lambda_o", "mu_o", "kappa_o", "l"]), ("rhs", ["lambda_s", "mu_s", "kappa_s",
      "lambda_o", "mu_o", "kappa_o", "l"]), ("rhs_scaled", ["lambda_s", "mu_s", "kappa_s", "lambda_o", "mu_o",
      "kappa_o", "l"]), ("stress_divergence", ["lambda_s", "mu_s", "kappa_s"]), ("couple_stress_divergence",
      ["lambda_o", "mu_o", "kappa_o", "l"]), ("couple_stress_divergence_scaled", ["lambda_o", "mu_o", "kappa_o",
      "l"]), ("get_material_functions", ["lambda_s", "mu_s", "kappa_s", "lambda_o", "mu_o", "kappa_o", "l"])]⟩,
  -- cosserat_elasticity/mfe_cosserat_elasticity_example_3.py:629, strong_solution_cosserat_elasticity_example_3.py
  ⟨"cosserat_elasticity/mfe_cosserat_elasticity_example_3",
    [[("lambda_s", 1), ("mu_s", 1), ("kappa_s", 1 / 10), ("lambda_o", 1), ("mu_o", 1), ("kappa_o", 1 / 10)]],
    [("stress", ["lambda_s", "mu_s", "kappa_s"]), ("couple_stress_scaled", ["lambda_o", "mu_o", "kappa_o"]),
      ("rhs_scaled", ["lambda_s", "mu_s", "kappa_s", "lambda_o", "mu_o", "kappa_o"]), ("stress_divergence",
      ["lambda_s", "mu_s", "kappa_s"]), ("couple_stress_divergence_scaled", ["lambda_o", "mu_o", "kappa_o"]),
      ("get_material_functions", ["lambda_s", "mu_s", "kappa_s", "lambda_o", "mu_o", "kappa_o"])]⟩]

/-- cosserat_elasticity/mfe_cosserat_elasticity_example_2.py:22-32, 325-360, 417-426, 567-635 and 729-760 -/
def exampleTwo : Driver :=
  ⟨"cosserat_elasticity/mfe_cosserat_elasticity_example_2",
    [[("lambda_s", 10000), ("mu_s", 1), ("kappa_s", 1 / 10), ("lambda_o", 1), ("mu_o", 1), ("kappa_o", 1 / 10),
      ("l", 1)]],
    [("compose_file_name", ["lambda", "gamma"]), ("four_field_postprocessing", ["lambda", "mu", "kappa",
      "gamma"]), ("four_field_solution_norms", ["lambda", "mu", "kappa", "gamma"]),
      ("perform_convergence_postprocessing", ["lambda", "gamma"])]⟩

/-- A call with positional arguments only: every parameter without a default needs one, and there is no room for more
than there are parameters. -/
def callPositional (required optional : List String) (given : Nat) : Res Unit :=
  if given < required.length ∨ required.length + optional.length < given then .error .typeError else .ok ()

/-- The functions of strong_solution_cosserat_elasticity_example_2.py, all with the parameters
`(m_lambda, m_mu, m_kappa, m_gamma, dim=2)`. -/
def exampleTwoModule : String → Option (List String × List String)
  | "displacement" | "rotation" | "stress" | "couple_stress" | "rhs" | "stress_divergence"
  | "couple_stress_divergence" => some (["m_lambda", "m_mu", "m_kappa", "m_gamma"], ["dim"])
  | _ => none

/-- `lce.name(material_data, dim)` -/
def callModule (name : String) (given : Nat) : Res Unit :=
  match exampleTwoModule name with
  | none => .error .attributeError
  | some (req, opt) => callPositional req opt given

/-- mfe_cosserat_elasticity_example_2.py:129-137 in `four_field_approximation` -/
def exampleTwoCalls : List String :=
  ["displacement", "rotation", "stress", "couple_stress", "stress_divergence", "couple_stress_divergence", "rhs",
    "get_material_functions"]

/-- The calls in their order; the first one that fails ends the approximation. -/
def exampleTwoApproximation : Res Unit := exampleTwoCalls.forM fun n => callModule n 2

end Verif.DriverData
