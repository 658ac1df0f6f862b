/-
Model of the finite element spaces of the drivers: the methods (`method_definition`) and what the
drivers hand to `ProductSpace` (`create_product_space`, `create_product_spaces`).

* examples/cauchy_elasticity/cg_elasticity_example_1.py:17-43, 232-238 (same code in
  cg_elasticity_example_2.py:17-43, 236-242)
* examples/cauchy_elasticity/th_elasticity_example_1.py:18-49, 240-247 (same code in
  th_elasticity_example_2.py:17-48, 244-251)
* examples/cauchy_elasticity/mfe_elasticity_example_1.py:19-65, 684-693 (same code in
  mfe_elasticity_example_2.py:23-69, 931-940)
* examples/cauchy_elasticity_stress_constraint/cg_elasticity_example_1.py:16-42
* examples/cosserat_elasticity/mfe_cosserat_elasticity_example_1.py:85-145, 1125-1159 (same code in
  mfe_cosserat_elasticity_example_2.py:41-101, 692-726; mfe_cosserat_elasticity_example_3.py:30-90
  with the methods of 641-658)
* examples/cosserat_ecmor/mfe_cosserat_elasticity_example_3.py:30-80, 1024-1034,
  mfe_elasticity_example_1.py:19-60, mfe_elasticity_example_2.py:23-64
* examples/degenerate_elliptic_scalar/degenerate_mixed_flow_model.py:27-69, 72-86,
  darcy_elliptic_degenerate_scenario_1.py:26-74, 77-98,
  darcy_elliptic_degenerate_scenario_2.py:36-141, 144-165
* examples/geothermal_flow/three_fields_advection_diffusion.py:36-91, 94-101
* examples/parabolic_diffusive_problem/mixed_transport_model.py:20-87, 90-101
* examples/md_elliptic_scalar/md_elliptic_scalar.py:26-41, 44-86 (same code in
  md_degenerate_elliptic_scalar.py:32-47, 50-92)
* the integration order: src/spaces/product_space.py:24-32

Simplifications
* Those of `Verif.Model.Space`.
* Names of fields that are parameters (`flux_name`, `potential_name`) are different from each other.
* The methods of the first two Cosserat examples are reduced to the third at the end of
  `method_definition`; all four are kept here, the drivers run the third.
-/
import Verif.Model.Space
import Verif.Model.DomainMarket
import Verif.Model.ExampleDomain
import Verif.Model.Hydrothermal

namespace Verif.DriverSpaces
open Space MeshGraph Hydrothermal

/-- The dictionary of a method: family and order of each field -/
abbrev Method := Dict String (String × Int)

/-- What a driver hands to `ProductSpace`, `make_subspaces_discontinuous` and `build_structures` -/
structure Plan where
  data : Dict String FieldData
  disc : Dict String Bool
  tags : Dict String (List (Option Int))
  bTags : Dict String (List (Option Int))

/-- the last lines of `create_product_space` -/
def Plan.build (basix : Basix) (p : Plan) : Res Product := do
  let s ← Product.new p.data
  (s.makeDiscontinuous p.disc).buildStructures basix p.tags p.bTags

/-- cosserat_ecmor/mfe_elasticity_example_1.py:56-60 and its copies: the boundary tags are the only argument -/
def Plan.buildOne (basix : Basix) (p : Plan) : Res Product := do
  let s ← Product.new p.data
  callTwo ((s.makeDiscontinuous p.disc).buildStructures basix) [p.bTags]

/-- product_space.py:24-32 -/
def integrationOrder (data : Dict String FieldData) : Res Int :=
  match data with
  | [] => .error .valueError
  | p :: rest => .ok (2 * (rest.foldl (fun m q => max m q.2.kOrder) p.2.kOrder) + 1)

/-- The entry of a field: `(dimension, components, method[1][name][0], method[1][name][1], gmesh)` -/
def entry (m : Method) (mesh : Mesh) (dimension : Nat) (name : String) (components : Nat) :
    Res (String × FieldData) := do
  let (family, k) ← m.getItem name
  pure (name, ⟨dimension, components, family, k, mesh⟩)

/-- a list of tags -/
def tagsOf (l : List Int) : List (Option Int) := l.map some

/-! ### Cauchy elasticity -/

/-- cg_elasticity_example_1.py:232-238 -/
def cgMethods (k : Int) : List (String × Method) := ["FEM"].zip [[("u", ("Lagrange", k))]]

/-- cg_elasticity_example_1.py:17-43 -/
def cgPlan (m : Method) (mesh : Mesh) : Res Plan := do
  let u ← entry m mesh mesh.dimension "u" (if mesh.dimension = 2 then 2 else 3)
  pure ⟨[u], [("u", false)], [("u", tagsOf [1, 2, 3, 4])], [("u", tagsOf [5, 6, 7, 8])]⟩

/-- th_elasticity_example_1.py:240-247 -/
def thMethods (k : Int) : List (String × Method) :=
  ["TH_FEM"].zip [[("u", ("Lagrange", k)), ("p", ("Lagrange", k - 2))]]

/-- th_elasticity_example_1.py:18-49 -/
def thPlan (m : Method) (mesh : Mesh) : Res Plan := do
  let u ← entry m mesh mesh.dimension "u" (if mesh.dimension = 2 then 2 else 3)
  let p ← entry m mesh mesh.dimension "p" 1
  pure ⟨[u, p], [("u", false), ("p", true)], [("u", tagsOf [1, 2, 3, 4]), ("p", tagsOf [1, 2, 3, 4])],
    [("u", tagsOf [5, 6, 7, 8])]⟩

/-- cauchy_elasticity_stress_constraint/cg_elasticity_example_1.py:16-42 -/
def layeredPlan (m : Method) (mesh : Mesh) (ids : Dict String (List Int)) : Res Plan := do
  let u ← entry m mesh mesh.dimension "u" (if mesh.dimension = 2 then 2 else 3)
  let under ← ids.getItem "under"
  let reservoir ← ids.getItem "reservoir"
  let over ← ids.getItem "over"
  let bottom ← ids.getItem "bc_bottom"
  let top ← ids.getItem "bc_top"
  let west ← ids.getItem "bc_west"
  let east ← ids.getItem "bc_east"
  pure ⟨[u], [("u", false)], [("u", tagsOf (under ++ reservoir ++ over))],
    [("u", tagsOf (bottom ++ top ++ west ++ east))]⟩

/-- mfe_elasticity_example_1.py:684-693 -/
def threeFieldMethods (k : Int) : List (String × Method) :=
  ["three_field_MFEM"].zip [[("s", ("BDM", k + 1)), ("u", ("Lagrange", k)), ("t", ("Lagrange", k))]]

/-- the fields of mfe_elasticity_example_1.py:19-43 -/
def threeFields (m : Method) (mesh : Mesh) : Res (Dict String FieldData) := do
  let s ← entry m mesh mesh.dimension "s" (if mesh.dimension = 3 then 3 else 2)
  let u ← entry m mesh mesh.dimension "u" (if mesh.dimension = 3 then 3 else 2)
  let t ← entry m mesh mesh.dimension "t" (if mesh.dimension = 3 then 3 else 1)
  pure [s, u, t]

/-- mfe_elasticity_example_1.py:19-65 -/
def threeFieldPlan (m : Method) (mesh : Mesh) : Res Plan := do
  let data ← threeFields m mesh
  pure ⟨data, [("s", false), ("u", true), ("t", true)],
    [("s", tagsOf [1, 2, 3, 4]), ("u", tagsOf [1, 2, 3, 4]), ("t", tagsOf [1, 2, 3, 4])],
    [("s", tagsOf [5, 6, 7, 8])]⟩

/-- cosserat_ecmor/mfe_elasticity_example_1.py:19-60 with the tags of line 52 -/
def ecmorThreePlan (bc : List Int) (m : Method) (mesh : Mesh) : Res Plan := do
  let data ← threeFields m mesh
  pure ⟨data, [("s", false), ("u", true), ("t", true)], [], [("s", tagsOf bc)]⟩

/-! ### Cosserat elasticity -/

/-- mfe_cosserat_elasticity_example_1.py:1126-1153 -/
def cosseratMethods (k : Int) : List (String × Method) :=
  ["sc_rt", "sc_bdm", "wc_rt", "wc_bdm"].zip
    [[("s", ("RT", k + 1)), ("m", ("RT", k + 2)), ("u", ("Lagrange", k)), ("t", ("Lagrange", k + 1))],
      [("s", ("BDM", k + 1)), ("m", ("BDM", k + 2)), ("u", ("Lagrange", k)), ("t", ("Lagrange", k + 1))],
      [("s", ("BDM", k + 1)), ("m", ("RT", k + 1)), ("u", ("Lagrange", k)), ("t", ("Lagrange", k))],
      [("s", ("BDM", k + 1)), ("m", ("BDM", k + 1)), ("u", ("Lagrange", k)), ("t", ("Lagrange", k))]]

/-- mfe_cosserat_elasticity_example_3.py:641-658 -/
def cosseratThreeMethods (k : Int) : List (String × Method) :=
  ["wc_rt", "wc_bdm"].zip
    [[("s", ("BDM", k + 1)), ("m", ("RT", k + 1)), ("u", ("Lagrange", k)), ("t", ("Lagrange", k))],
      [("s", ("BDM", k + 1)), ("m", ("BDM", k + 1)), ("u", ("Lagrange", k)), ("t", ("Lagrange", k))]]

/-- the fields of mfe_cosserat_elasticity_example_1.py:85-113 -/
def fourFields (m : Method) (mesh : Mesh) : Res (Dict String FieldData) := do
  let s ← entry m mesh mesh.dimension "s" (if mesh.dimension = 3 then 3 else 2)
  let c ← entry m mesh mesh.dimension "m" (if mesh.dimension = 3 then 3 else 1)
  let u ← entry m mesh mesh.dimension "u" (if mesh.dimension = 3 then 3 else 2)
  let t ← entry m mesh mesh.dimension "t" (if mesh.dimension = 3 then 3 else 1)
  pure [s, c, u, t]

/-- mfe_cosserat_elasticity_example_1.py:85-145 -/
def fourFieldPlan (m : Method) (mesh : Mesh) : Res Plan := do
  let data ← fourFields m mesh
  let bc : List Int := if mesh.dimension = 3 then [2, 3, 4, 5, 6, 7] else [2, 3, 4, 5]
  pure ⟨data, [("s", false), ("m", false), ("u", true), ("t", true)],
    [("s", tagsOf [1]), ("m", tagsOf [1]), ("u", tagsOf [1]), ("t", tagsOf [1])],
    [("s", tagsOf bc), ("m", tagsOf bc)]⟩

/-- cosserat_ecmor/mfe_cosserat_elasticity_example_3.py:30-80 -/
def ecmorFourPlan (m : Method) (mesh : Mesh) : Res Plan := do
  let data ← fourFields m mesh
  pure ⟨data, [("s", false), ("m", false), ("u", true), ("t", true)], [],
    [("s", tagsOf [9, 10, 11, 12]), ("m", tagsOf [9, 10, 11, 12])]⟩

/-! ### Scalar elliptic problems -/

/-- degenerate_mixed_flow_model.py:72-86 -/
def flowMethods (k : Int) : List (String × Method) :=
  ["mixed_rt", "mixed_bdm"].zip
    [[("v", ("RT", k + 1)), ("q", ("Lagrange", k))], [("v", ("BDM", k + 1)), ("q", ("Lagrange", k))]]

/-- degenerate_mixed_flow_model.py:27-69; darcy_elliptic_degenerate_scenario_1.py:26-74 with the names of the
unscaled fields -/
def flowPlan (m : Method) (mesh : Mesh) (flux potential : String) : Res Plan := do
  let f ← entry m mesh mesh.dimension flux 1
  let p ← entry m mesh mesh.dimension potential 1
  let bc : List Int ←
    if mesh.dimension = 1 then pure [3, 4]
    else if mesh.dimension = 2 then pure [3, 4, 5, 6, 7, 8]
    else throw .valueError
  pure ⟨[f, p], [(flux, false), (potential, true)], [(flux, tagsOf [1, 2]), (potential, tagsOf [1, 2])],
    [(flux, tagsOf bc)]⟩

/-- darcy_elliptic_degenerate_scenario_1.py:77-98: two names, one method -/
def scenarioMethods (k : Int) : List (String × Method) :=
  ["mixed_rt", "mixed_bdm"].zip
    [[("u", ("RT", k + 1)), ("p", ("Lagrange", k)), ("v", ("RT", k + 1)), ("q", ("Lagrange", k)),
      ("l", ("Lagrange", k))]]

/-- darcy_elliptic_degenerate_scenario_2.py:36-141: the scaled fields, the unscaled ones and the multiplier -/
def scenarioTwoPlans (m : Method) (mesh : Mesh) (flux potential fluxScaled potentialScaled : String) :
    Res (Plan × Plan × Plan) := do
  let u ← entry m mesh mesh.dimension flux 1
  let p ← entry m mesh mesh.dimension potential 1
  let v ← entry m mesh mesh.dimension fluxScaled 1
  let q ← entry m mesh mesh.dimension potentialScaled 1
  let l ← entry m mesh (mesh.dimension - 1) "l" 1
  let bc : List Int × List Int ←
    if mesh.dimension = 1 then pure ([3], [4])
    else if mesh.dimension = 2 then pure ([3, 4, 7, 8, 9, 10], [5, 6, 9, 10])
    else throw .valueError
  pure (⟨[v, q], [(fluxScaled, false), (potentialScaled, true)],
      [(fluxScaled, tagsOf [1]), (potentialScaled, tagsOf [1])], [(fluxScaled, tagsOf bc.1)]⟩,
    ⟨[u, p], [(flux, false), (potential, true)], [(flux, tagsOf [2]), (potential, tagsOf [2])],
      [(flux, tagsOf bc.2)]⟩,
    ⟨[l], [("l", true)], [("l", tagsOf [9, 10])], []⟩)

/-- darcy_elliptic_degenerate_scenario_2.py:126-141 -/
def scenarioTwo (basix : Basix) (m : Method) (mesh : Mesh) (flux potential fluxScaled potentialScaled : String) :
    Res (Product × Product × Product) := do
  let (a, b, c) ← scenarioTwoPlans m mesh flux potential fluxScaled potentialScaled
  let s ← a.build basix
  let u ← b.build basix
  let l ← c.build basix
  pure (s, u, l)

/-- the boundary tags of three_fields_advection_diffusion.py:62-72, mixed_transport_model.py:55-65 -/
def boxBoundary (dimension : Nat) : Res (List Int) :=
  if dimension = 1 then pure [2, 3]
  else if dimension = 2 then pure [2, 3, 4, 5]
  else if dimension = 3 then pure [2, 3, 4, 5, 6, 7]
  else throw .valueError

/-- three_fields_advection_diffusion.py:94-101 -/
def advectionMethod (k : Int) : String × Method :=
  ("mixed_rt", [("q", ("RT", k + 1)), ("m", ("RT", k + 1)), ("u", ("Lagrange", k))])

/-- three_fields_advection_diffusion.py:36-91 -/
def advectionPlan (m : Method) (mesh : Mesh) : Res Plan := do
  let q ← entry m mesh mesh.dimension "q" 1
  let f ← entry m mesh mesh.dimension "m" 1
  let u ← entry m mesh mesh.dimension "u" 1
  let bc ← boxBoundary mesh.dimension
  pure ⟨[q, f, u], [("q", false), ("m", false), ("u", true)],
    [("q", tagsOf [1]), ("m", tagsOf [1]), ("u", tagsOf [1])], [("q", tagsOf bc), ("m", tagsOf bc)]⟩

/-- mixed_transport_model.py:90-101 -/
def transportMethods (k : Int) : List (String × Method) :=
  ["mixed_rt"].zip
    [[("mp", ("RT", k + 1)), ("mc", ("RT", k + 1)), ("p", ("Lagrange", k)), ("c", ("Lagrange", k))]]

/-- mixed_transport_model.py:20-87 -/
def transportPlan (m : Method) (mesh : Mesh) : Res Plan := do
  let mp ← entry m mesh mesh.dimension "mp" 1
  let mc ← entry m mesh mesh.dimension "mc" 1
  let p ← entry m mesh mesh.dimension "p" 1
  let c ← entry m mesh mesh.dimension "c" 1
  let bc ← boxBoundary mesh.dimension
  pure ⟨[mp, mc, p, c], [("mp", false), ("mc", false), ("p", true), ("c", true)],
    [("mp", tagsOf [1]), ("mc", tagsOf [1]), ("p", tagsOf [1]), ("c", tagsOf [1])],
    [("mp", tagsOf bc), ("mc", tagsOf bc)]⟩

/-- md_elliptic_scalar.py:26-41 -/
def mdMethods (dimension : Nat) (k : Int) (flux potential : String) : List (String × Method) :=
  ["mixed_rt"].zip
    [if dimension ∈ [1, 2, 3] then [(flux, ("RT", k + 1)), (potential, ("Lagrange", k))]
      else [(potential, ("Lagrange", k))]]

/-- md_elliptic_scalar.py:44-86 -/
def mdPlan (dimension : Nat) (m : Method) (mesh : Mesh) (flux potential : String) : Res Plan := do
  let f ← entry m mesh dimension flux 1
  let p ← entry m mesh dimension potential 1
  let (tags, bc) ←
    if mesh.dimension = 2 then pure (([[], [10], [1]] : List (List Int)), ([[], [3, 5], [2, 3, 4, 5, 50]] : List (List Int)))
    else throw .valueError
  let t ← getIdx tags dimension
  let b ← getIdx bc dimension
  pure ⟨[f, p], [(flux, false), (potential, true)], [(flux, tagsOf t), (potential, tagsOf t)], [(flux, tagsOf b)]⟩

end Verif.DriverSpaces
