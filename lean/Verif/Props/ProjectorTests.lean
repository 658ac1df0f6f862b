/-
C160: the tests of the projectors (tests/test_projectors/test_projectors.py).
-/
import Verif.Model.ProjectorTests
import Verif.Lemmas.Prelude

namespace Verif.ProjectorTests
open Verif.Space Verif.MeshGraph Verif.MeshBuild Verif.Dof Verif.L2Error

theorem select_nothing {cond : Cell → Bool} (hc : ∀ c, cond c = false) : ∀ {cells : Cells} {l : List Cell},
    selectCells cond cells = .ok l → l = []
  | [], l, h => by cases h; rfl
  | none :: _, l, h => by cases h
  | some c :: rest, l, h => by
    rw [selectCells] at h
    obtain ⟨r, hr, h2⟩ := Res.bind_eq_ok.1 h
    rw [hc] at h2
    cases h2
    exact select_nothing hc hr

theorem select_ok {cond : Cell → Bool} (hc : ∀ c, cond c = false) : ∀ {cells : Cells}, none ∉ cells →
    selectCells cond cells = .ok []
  | [], _ => rfl
  | none :: _, h => absurd (List.mem_cons_self) h
  | some c :: rest, h => by
    rw [selectCells, select_ok hc fun hm => h (List.mem_cons_of_mem _ hm), Res.bind_ok, hc]
    rfl

theorem graph_nothing {m : MeshGraph.Mesh} {a b : Nat} {g : DiGraph Node}
    (h : buildGraphOnPhysicalTags m [] a b = .ok g) : g = DiGraph.ofEdges [] := by
  unfold buildGraphOnPhysicalTags at h
  obtain ⟨sel, hs, h⟩ := Res.bind_eq_ok.1 h
  have := select_nothing (by simp) hs
  subst this
  cases h
  rfl

theorem graph_ok {m : MeshGraph.Mesh} (hm : none ∉ m.cells) (a b : Nat) :
    buildGraphOnPhysicalTags m [] a b = .ok (DiGraph.ofEdges []) := by
  unfold buildGraphOnPhysicalTags
  rw [select_ok (by simp) hm]
  rfl

theorem mapRes_const {α β : Type} {f : α → Res β} {b : β} (hf : ∀ a c, f a = .ok c → c = b) :
    ∀ {l : List α} {r : List β}, mapRes f l = .ok r → r = List.replicate l.length b
  | [], r, h => by cases h; rfl
  | a :: l, r, h => by
    rw [mapRes] at h
    obtain ⟨c, hc, h⟩ := Res.bind_eq_ok.1 h
    obtain ⟨cs, hcs, h⟩ := Res.bind_eq_ok.1 h
    cases h
    rw [hf a c hc, mapRes_const hf hcs]
    rfl

theorem mapRes_ok_const {α β : Type} {f : α → Res β} {b : β} (hf : ∀ a, f a = .ok b) :
    ∀ (l : List α), mapRes f l = .ok (List.replicate l.length b)
  | [] => rfl
  | a :: l => by rw [mapRes, hf, Res.bind_ok, mapRes_ok_const hf l]; rfl

/-- A topology of a dimension without entities -/
def bare (t : Topology) : Topology :=
  { t with
    entityMaps := List.replicate (t.dimension + 1) (DiGraph.ofEdges [])
    entityIds := entityIdsOf (List.replicate (t.dimension + 1) (DiGraph.ofEdges [])) }

theorem topology_nothing {t t' : Topology} (h : t.buildDataOnTags [] = .ok t') : t' = bare t := by
  unfold Topology.buildDataOnTags at h
  obtain ⟨maps, hm, h⟩ := Res.bind_eq_ok.1 h
  cases h
  have := mapRes_const (fun a c hc => graph_nothing hc) hm
  rw [List.length_range] at this
  subst this
  rfl

theorem topology_ok {t : Topology} (hm : none ∉ t.mesh.cells) : t.buildDataOnTags [] = .ok (bare t) := by
  unfold Topology.buildDataOnTags
  rw [mapRes_ok_const fun a => graph_ok hm _ _, List.length_range]
  rfl

theorem bare_entities (t : Topology) {d : Nat} (h3 : t.dimension ≤ 3) (hd : d ≤ t.dimension) :
    (bare t).entitiesByDimension d = .ok [] := by
  obtain ⟨m, dim, a, b⟩ := t
  simp only at h3 hd
  unfold Topology.entitiesByDimension
  rw [if_neg (by simp only [bare]; omega)]
  match dim, d, h3, hd with
  | 0, 0, _, _ => rfl
  | 1, 0, _, _ => rfl
  | 1, 1, _, _ => rfl
  | 2, 0, _, _ => rfl
  | 2, 1, _, _ => rfl
  | 2, 2, _, _ => rfl
  | 3, 0, _, _ => rfl
  | 3, 1, _, _ => rfl
  | 3, 2, _, _ => rfl
  | 3, 3, _, _ => rfl

theorem bare_lists (t : Topology) {d : Nat} (h3 : t.dimension ≤ 3) (hd : d ≤ t.dimension) :
    entityIdLists (bare t) d = .ok ([], [], [], []) := by
  have hb := fun k (hk : k ≤ t.dimension) => bare_entities t h3 hk
  match d, hd with
  | 0, _ => rw [entityIdLists, hb 0 (by omega)]; rfl
  | 1, _ => rw [entityIdLists, hb 0 (by omega), Res.bind_ok, hb 1 (by omega)]; rfl
  | 2, _ => rw [entityIdLists, hb 0 (by omega), Res.bind_ok, hb 1 (by omega), Res.bind_ok, hb 2 (by omega)]; rfl
  | 3, _ =>
    rw [entityIdLists, hb 0 (by omega), Res.bind_ok, hb 1 (by omega), Res.bind_ok, hb 2 (by omega), Res.bind_ok,
      hb 3 (by omega)]
    rfl
  | k + 4, hd => omega

theorem scale_zero {n : Nat} : ∀ {ned : List (List Nat)} {d : Nat} {sup : List Nat},
    scaleSupport n d ned [0, 0, 0, 0] = .ok sup → sup = [0, 0, 0, 0]
  | [], _, sup, h => by cases h; rfl
  | x :: xs, d, sup, h => by
    rw [scaleSupport] at h
    obtain ⟨e, -, h⟩ := Res.bind_eq_ok.1 h
    obtain ⟨s, hs, h⟩ := Res.bind_eq_ok.1 h
    have h0 : s = 0 ∧ d < 4 := by
      match d, hs with
      | 0, hs | 1, hs | 2, hs | 3, hs => cases hs; exact ⟨rfl, by decide⟩
    obtain ⟨rfl, hd⟩ := h0
    rw [Nat.zero_mul] at h
    have : [0, 0, 0, 0].set d 0 = [0, 0, 0, 0] := by
      match d, hd with
      | 0, _ | 1, _ | 2, _ | 3, _ => rfl
    rw [this] at h
    exact scale_zero h

theorem scale_ok {n : Nat} : ∀ {ned : List (List Nat)} {d : Nat}, d + ned.length ≤ 4 → [] ∉ ned →
    scaleSupport n d ned [0, 0, 0, 0] = .ok [0, 0, 0, 0]
  | [], _, _, _ => rfl
  | x :: xs, d, hl, hne => by
    have hx : x ≠ [] := fun e => hne (by rw [e]; exact List.mem_cons_self)
    have hd : d < 4 := by simp only [List.length_cons] at hl; omega
    rw [scaleSupport, intMean, if_neg hx, Res.bind_ok]
    have hs : getIdx [0, 0, 0, 0] d = .ok 0 := by
      match d, hd with
      | 0, _ | 1, _ | 2, _ | 3, _ => rfl
    rw [hs, Res.bind_ok, Nat.zero_mul]
    have : [0, 0, 0, 0].set d 0 = [0, 0, 0, 0] := by
      match d, hd with
      | 0, _ | 1, _ | 2, _ | 3, _ => rfl
    rw [this]
    exact scale_ok (by simp only [List.length_cons] at hl; omega) fun hm => hne (List.mem_cons_of_mem _ hm)

/-- A dof map without entities -/
theorem maps_nothing {m m' : DoFMap} {t : Topology} (ht : m.topology = bare t) (h3 : t.dimension ≤ 3)
    (hd : m.dimension ≤ t.dimension) {n s : Nat} (h : m.buildEntityMaps n s = .ok m') : m'.nDof = 0 := by
  unfold DoFMap.buildEntityMaps at h
  rw [ht, bare_lists t h3 hd, Res.bind_ok] at h
  simp only [List.length_nil] at h
  obtain ⟨sup, hs, h⟩ := Res.bind_eq_ok.1 h
  have := scale_zero hs
  subst this
  cases h
  rfl

theorem maps_ok {m : DoFMap} {t : Topology} (ht : m.topology = bare t) (h3 : t.dimension ≤ 3)
    (hd : m.dimension ≤ t.dimension) (hl : m.numEntityDofs.length ≤ 4) (hn : [] ∉ m.numEntityDofs) (n s : Nat) :
    ∃ m', m.buildEntityMaps n s = .ok m' := by
  unfold DoFMap.buildEntityMaps
  rw [ht, bare_lists t h3 hd, Res.bind_ok]
  simp only [List.length_nil]
  rw [scale_ok (by omega) hn]
  exact ⟨_, rfl⟩

theorem space_nothing {basix : Basix} {s s' : Space} (hT : s.topology.dimension = s.dimension)
    (h : s.buildStructures basix [] = .ok s') :
    s'.elements = [] ∧ s'.nComp = s.nComp ∧ ∃ m, s'.dofMap = some m ∧ m.nDof = 0 := by
  unfold Space.buildStructures at h
  obtain ⟨s1, h1, h⟩ := Res.bind_eq_ok.1 h
  unfold Space.buildDofMap at h1
  obtain ⟨t, ht, h1⟩ := Res.bind_eq_ok.1 h1
  obtain ⟨ty, hty, h1⟩ := Res.bind_eq_ok.1 h1
  obtain ⟨ned, -, h1⟩ := Res.bind_eq_ok.1 h1
  obtain ⟨m, hm, h1⟩ := Res.bind_eq_ok.1 h1
  obtain ⟨m', hm', h1⟩ := Res.bind_eq_ok.1 h1
  cases h1
  have e := topology_nothing ht
  subst e
  have h3 : s.dimension ≤ 3 := by
    unfold typeByDimension at hty
    split at hty
    · assumption
    · cases hty
  have hmm : m.topology = bare s.topology ∧ m.dimension = s.dimension := by
    unfold DoFMap.setTopologicalDimension at hm
    split at hm
    · cases hm
    · cases hm; exact ⟨rfl, rfl⟩
  have h0 := maps_nothing hmm.1 (by omega) (by omega) hm'
  unfold Space.buildElements at h
  simp only at h
  rw [bare_entities _ (by omega) (by omega), Res.bind_ok] at h
  cases h
  exact ⟨rfl, rfl, m', rfl, h0⟩

theorem space_ok {basix : Basix} {s : Space} (hT : s.topology.dimension = s.dimension)
    (hM : s.dimension ≤ s.topology.mesh.dimension) (hc : none ∉ s.topology.mesh.cells) (h3 : s.dimension ≤ 3)
    {ned : List (List Nat)} (hb : basix (effFamily s.dimension s.generator) s.dimension s.kOrder s.discontinuous = .ok ned)
    (hl : ned.length ≤ 4) (hn : [] ∉ ned) : ∃ s', s.buildStructures basix [] = .ok s' := by
  unfold Space.buildStructures Space.buildDofMap
  rw [topology_ok hc, Res.bind_ok, typeByDimension, if_pos h3, Res.bind_ok, hb, Res.bind_ok,
    DoFMap.setTopologicalDimension, if_neg (by show ¬ s.topology.mesh.dimension < s.dimension; omega), Res.bind_ok]
  obtain ⟨m', hm'⟩ := maps_ok (m := { DoFMap.new (bare s.topology) ned with dimension := s.dimension })
    (t := s.topology) rfl (by omega) (by show s.dimension ≤ _; omega) hl hn s.nComp 0
  rw [hm', Res.bind_ok]
  unfold Space.buildElements
  simp only [pure, Except.pure, Res.bind_ok]
  rw [bare_entities _ (by omega) (by omega)]
  exact ⟨_, rfl⟩

theorem errors_nothing {X : Type} {dim : Nat} (hd : dim ≤ 3) {name : String} {n : Nat} {l : Bool}
    {dests : Nat → Res (Dict String (List Nat))} (functions : Dict String (Exact X)) (alpha : List ℝ) :
    l2Error dim ⟨rules dim, [(name, ⟨n, l, []⟩)], dests⟩ functions alpha [] = .ok [some 0] := by
  have hr : rule (rules dim) dim = .ok () := by
    match dim, hd with
    | 0, _ | 1, _ | 2, _ | 3, _ => rfl
  unfold l2Error
  simp only
  rw [hr, Res.bind_ok]
  simp [overFields, npSqrt, pure, Except.pure, bind, Except.bind]

/-- The fields after `make_subspaces_discontinuous` -/
theorem new_space {dim : Nat} {family : String} {k : Int} {mesh : MeshGraph.Mesh} {s : Space}
    (h : Space.new dim 1 family k mesh = .ok s) : s.topology.dimension = dim ∧ s.dimension = dim ∧
      s.topology.mesh = mesh ∧ s.kOrder = k ∧ s.discontinuous = false ∧ familyByName family = .ok s.generator := by
  unfold Space.new at h
  obtain ⟨fam, hf, h⟩ := Res.bind_eq_ok.1 h
  obtain ⟨t, ht, h⟩ := Res.bind_eq_ok.1 h
  cases h
  unfold Topology.new at ht
  split at ht
  · cases ht
  · cases ht
    exact ⟨rfl, rfl, rfl, rfl, rfl, hf⟩

/-- C160, disagreement.  The tests give an empty list of physical tags to the field, so that whatever they run to the
end has no unknowns and the error 0: for every function, family, order and mesh, and whatever the projector returns. -/
theorem C160_only {X : Type} {basix : Basix} {table : Element → Elem X} {solve : Product → List ℝ} {name : String}
    {dim : Nat} {family : String} {k : Int} {disc : Bool} {mesh : MeshGraph.Mesh} {f : Exact X}
    {r : Nat × List (Option ℝ)} (h : run basix table solve name dim family k disc mesh [] f = .ok r) :
    r = (0, [some 0]) := by
  unfold run Product.new at h
  rw [if_neg (by simp)] at h
  by_cases h3 : 3 < dim
  · rw [if_pos (by simpa using h3)] at h; cases h
  rw [if_neg (by simpa using h3)] at h
  by_cases h0 : dim = 0
  · rw [if_pos (by simpa using h0)] at h; cases h
  rw [if_neg (by simpa using h0)] at h
  obtain ⟨p, hp, h⟩ := Res.bind_eq_ok.1 h
  obtain ⟨spaces, hs, hp⟩ := Res.bind_eq_ok.1 hp
  cases hp
  rw [newFields] at hs
  obtain ⟨s, hs1, hs⟩ := Res.bind_eq_ok.1 hs
  cases hs
  obtain ⟨q, hq, h⟩ := Res.bind_eq_ok.1 h
  unfold Product.buildStructures at hq
  obtain ⟨sp, hsp, hq⟩ := Res.bind_eq_ok.1 hq
  obtain ⟨dofs, hdofs, hq⟩ := Res.bind_eq_ok.1 hq
  cases hq
  have hn := new_space hs1
  simp only [Product.makeDiscontinuous, List.map_cons, List.map_nil, buildFields] at hsp
  obtain ⟨s1, hb, hsp⟩ := Res.bind_eq_ok.1 hsp
  obtain ⟨s2, hb2, hsp⟩ := Res.bind_eq_ok.1 hsp
  cases hsp
  have ht : (Dict.get? [(name, ([] : List (Option Int)))] name).getD [none] = [] := by simp [Dict.get?]
  have hbt : (Dict.get? [(name, ([] : List (Option Int)))] name).getD [] = [] := by simp [Dict.get?]
  rw [ht] at hb
  rw [hbt] at hb2
  cases hb2
  obtain ⟨q1, q2, m, q3, q4⟩ := space_nothing (by
    split <;> rw [← hn.2.1] at hn <;> exact hn.1) hb
  rw [dofNumbers, Space.getDofMap, q3] at hdofs
  cases hdofs
  obtain ⟨errors, he, h⟩ := Res.bind_eq_ok.1 h
  cases h
  simp only [feOf, List.map_cons, List.map_nil, q1] at he
  rw [errors_nothing (by omega)] at he
  cases he
  simp [Dict.values, q4]

theorem passes_zero : Passes [some 0] := ⟨0, by simp, by norm_num⟩

/-- What the tests ask of the mesh and of basix to run at all: a mesh without empty slots that has the dimension, a
known family, and an element with dofs on entities of at most three dimensions. -/
structure Runs (basix : Basix) (dim : Nat) (family : String) (k : Int) (disc : Bool) (mesh : MeshGraph.Mesh) : Prop where
  size : 1 ≤ dim ∧ dim ≤ 3 ∧ dim ≤ mesh.dimension
  cells : none ∉ mesh.cells
  element : ∃ fam ned, familyByName family = .ok fam ∧ basix (effFamily dim fam) dim k disc = .ok ned ∧
    ned.length ≤ 4 ∧ [] ∉ ned

/-- C160, disagreement.  The tests pass for every function and whatever the projector returns. -/
theorem C160_vacuous_violated {X : Type} {basix : Basix} (table : Element → Elem X) (solve : Product → List ℝ)
    (name : String) {dim : Nat} {family : String} {k : Int} {disc : Bool} {mesh : MeshGraph.Mesh}
    (hr : Runs basix dim family k disc mesh) (f : Exact X) :
    ∃ errors, run basix table solve name dim family k disc mesh [] f = .ok (0, errors) ∧ Passes errors := by
  suffices h : ∃ r, run basix table solve name dim family k disc mesh [] f = .ok r by
    obtain ⟨r, h⟩ := h
    have := C160_only h
    subst this
    exact ⟨_, h, passes_zero⟩
  obtain ⟨⟨d1, d3, dm⟩, hc, fam, ned, hf, hb, hl, hn⟩ := hr
  unfold run Product.new
  rw [if_neg (by simp), if_neg (by simpa using d3), if_neg (by simp; omega)]
  have h1 : newFields [(name, ⟨dim, 1, family, k, mesh⟩)] = .ok [(name, ⟨mesh, ⟨mesh, dim, [], []⟩, dim, 1, fam, k, false, none,
      [], [], [], [], [], []⟩)] := by
    rw [newFields, Space.new, hf, Res.bind_ok, Topology.new, if_neg (by show ¬ mesh.dimension < dim; omega)]
    rfl
  rw [h1]
  simp only [Res.bind_ok, pure, Except.pure, Product.makeDiscontinuous, List.map_cons, List.map_nil]
  have ht : (Dict.get? [(name, ([] : List (Option Int)))] name).getD [none] = [] := by simp [Dict.get?]
  have hbt : (Dict.get? [(name, ([] : List (Option Int)))] name).getD [] = [] := by simp [Dict.get?]
  have hdisc : (Dict.get? [(name, disc)] name).getD false = disc := by simp [Dict.get?]
  rw [hdisc]
  obtain ⟨s, hs, hst, hsc, hsm, hsg, hsk, hsd⟩ : ∃ s : Space, s = (if disc = true then
      { (⟨mesh, ⟨mesh, dim, [], []⟩, dim, 1, fam, k, false, none, [], [], [], [], [], []⟩ : Space) with discontinuous := true }
      else ⟨mesh, ⟨mesh, dim, [], []⟩, dim, 1, fam, k, false, none, [], [], [], [], [], []⟩) ∧ s.topology.dimension = dim ∧
      s.dimension = dim ∧ s.topology.mesh = mesh ∧ s.generator = fam ∧ s.kOrder = k ∧ s.discontinuous = disc := by
    refine ⟨_, rfl, ?_⟩
    cases disc <;> exact ⟨rfl, rfl, rfl, rfl, rfl, rfl⟩
  simp only [] at hs ⊢
  rw [← hs]
  obtain ⟨s', hs'⟩ := space_ok (basix := basix) (s := s) (by omega) (by rw [hsm]; omega) (by rw [hsm]; exact hc)
    (by omega) (by rw [hsc, hsg, hsk, hsd]; exact hb) hl hn
  obtain ⟨q1, -, m, q3, -⟩ := space_nothing (by omega) hs'
  unfold Product.buildStructures
  simp only [buildFields, ht, hbt]
  rw [hs', Res.bind_ok, Space.buildBoundaryStructures, if_pos List.length_nil, Res.bind_ok, Res.bind_ok]
  simp only [pure, Except.pure, Res.bind_ok, dofNumbers, Space.getDofMap, q3, feOf, List.map_cons, List.map_nil, q1]
  rw [errors_nothing d3]
  exact ⟨_, rfl⟩

/-- A mesh of one edge with the physical tag 1, and elements with a dof at each vertex -/
def line : MeshGraph.Mesh :=
  ⟨1, [some ⟨0, 0, none, [0], [[0]]⟩, some ⟨0, 1, none, [1], [[1]]⟩, some ⟨1, 2, some 1, [0, 1], [[0, 1], [2]]⟩]⟩
def linear : Basix := fun _ d _ _ => if d = 0 then .ok [[1]] else .ok [[1, 1], [0]]

example (k : Int) (disc : Bool) : Runs linear 1 "Lagrange" k disc line :=
  ⟨by decide, by decide, .P, [[1, 1], [0]], by decide, rfl, by decide, by decide⟩

/-- C160.  The runs of the scalar test, in order: the order stays. -/
theorem C160_scalar_passes (k : Nat) : scalarPasses k =
    [⟨true, "Lagrange", k, 1⟩, ⟨true, "Lagrange", k, 2⟩, ⟨true, "Lagrange", k, 3⟩,
      ⟨false, "Lagrange", k, 1⟩, ⟨false, "Lagrange", k, 2⟩, ⟨false, "Lagrange", k, 3⟩] := by
  simp [scalarPasses, discLoop, familyLoop]

/-- C160.  The runs of the test of fluxes, in order. -/
theorem C160_hdiv_passes (k : Nat) : hdivPasses k =
    [⟨true, "RT", k + 1, 2⟩, ⟨true, "RT", k + 1, 3⟩, ⟨true, "BDM", k + 1, 2⟩, ⟨true, "BDM", k + 1, 3⟩,
      ⟨false, "RT", k + 2, 2⟩, ⟨false, "RT", k + 2, 3⟩, ⟨false, "BDM", k + 2, 2⟩, ⟨false, "BDM", k + 2, 3⟩] := by
  simp [hdivPasses, discLoop, familyLoop]

/-- C160.  The runs of the test of circulations, in order. -/
theorem C160_hcurl_passes (k : Nat) : hcurlPasses k =
    [⟨false, "N1E", k + 1, 2⟩, ⟨false, "N1E", k + 1, 3⟩, ⟨false, "N2E", k + 1, 2⟩, ⟨false, "N2E", k + 1, 3⟩] := by
  simp [hcurlPasses, discLoop, familyLoop]

/-- C160, disagreement.  The raised order is kept: BDM elements are never run with the order of the function, nor are
continuous fluxes with the order after it. -/
theorem C160_order_violated (k : Nat) :
    (∀ p ∈ hdivPasses k, p.family = "BDM" → p.kOrder ≠ k) ∧ (∀ p ∈ hdivPasses k, p.disc = false → p.kOrder ≠ k + 1) ∧
      (∀ p ∈ hcurlPasses k, p.family = "N2E" → p.kOrder ≠ k) := by
  rw [C160_hdiv_passes, C160_hcurl_passes]
  refine ⟨?_, ?_, ?_⟩ <;> simp

theorem part_zero {k : Nat} (hk : 1 ≤ k) : part k 0 = 0 := by
  unfold part
  split
  · rfl
  · rw [zero_pow (by omega), mul_zero]

/-- C160.  In the plane the functions have no third component, and on the line they depend on the first coordinate
alone. -/
theorem C160_flat {k : Nat} (hk : 1 ≤ k) (x y : ℝ) :
    (vectorFunction k x y 0).2.2 = 0 ∧ scalarFunction k x 0 0 = part k x := by
  simp [vectorFunction, scalarFunction, part_zero hk]

/-- An element of measure 1 with two basis functions, and the function 1 -/
def unitElem : Elem Unit := ⟨⟨1, 1, 2, fun _ => 1, fun _ => 1, fun _ _ _ => 1, ()⟩, 1⟩
def one : Exact Unit := ⟨1, 1, fun _ _ _ _ => 1⟩

/-- C160.  With the physical tag of the mesh instead of an empty list the same test fails for a projector that returns
zeros. -/
theorem C160_tagged : run linear (fun _ => unitElem) (fun p => List.replicate p.nDof 0) "s" 1 "Lagrange" 1 false line
    [some 1] one = .ok (2, [some 1]) ∧ ¬ Passes [some 1] := by
  constructor
  · have key : ∃ p : Product, (do
        let p ← Product.new [("s", ⟨1, 1, "Lagrange", 1, line⟩)]
        let p := p.makeDiscontinuous [("s", false)]
        p.buildStructures linear [("s", [some 1])] [("s", [])]) = .ok p ∧ p.nDof = 2 ∧
        p.spacesDest 0 = .ok [("s", [0, 1])] ∧ ∃ s : Space, p.spaces = [("s", s)] ∧ s.nComp = 1 ∧
          effFamily s.dimension s.generator = .P ∧ s.elements.length = 1 :=
      ⟨_, rfl, rfl, rfl, _, rfl, rfl, rfl, rfl⟩
    obtain ⟨p, hp, hn, hd, s, hs, h1, h2, h3⟩ := key
    obtain ⟨p1, hp1, hp2⟩ := Res.bind_eq_ok.1 hp
    unfold run
    rw [hp1, Res.bind_ok]
    simp only at hp2 ⊢
    rw [hp2, Res.bind_ok]
    have he : s.elements.map (fun _ => unitElem) = [unitElem] := by
      match hl : s.elements, h3 with
      | [x], _ => rfl
    simp only [feOf, hs, List.map_cons, List.map_nil, he, hn, h1]
    have hq : l2Error 1 ⟨rules 1, [("s", ⟨1, true, [unitElem]⟩)], p.spacesDest⟩ [("s", one)] [0, 0] [] = .ok [some 1] := by
      have hr : rule (rules 1) 1 = .ok () := rfl
      unfold l2Error
      simp only
      rw [hr, Res.bind_ok]
      have hc : ((do
          let d ← p.spacesDest 0
          let dest ← d.getItem "s"
          let al ← Trace.fancy ([0, 0] : List ℝ) dest
          let f ← Dict.getItem [("s", one)] "s"
          let fh ← discreteTable 1 ⟨1, true, [unitElem]⟩ unitElem al
          let diff ← bsub (exactTable 1 ⟨1, true, [unitElem]⟩ unitElem f) fh
          pure (sumSq unitElem diff)) : Res ℝ) = .ok 1 := by
        have g1 : Dict.getItem [("s", [0, 1])] "s" = (.ok [0, 1] : Res (List Nat)) := rfl
        have g2 : Trace.fancy ([0, 0] : List ℝ) [0, 1] = .ok [0, 0] := rfl
        have g3 : Dict.getItem [("s", one)] "s" = .ok one := rfl
        rw [hd, Res.bind_ok, g1, Res.bind_ok, g2, Res.bind_ok, g3, Res.bind_ok]
        simp [discreteTable, splitCols, unitElem, bsub, bdim, exactTable, one, sumSq, pure, Except.pure, bpick, Finset.sum_range_succ,
          Res.bind_ok]
      simp only [overFields, List.not_mem_nil, if_false, List.zipIdx_cons, List.zipIdx_nil]
      rw [List.filter_cons_of_pos (by rfl), List.filter_nil, List.foldlM_cons]
      simp only
      rw [hc]
      simp [Res.bind_ok, pure, Except.pure, npSqrt]
    rw [h2]
    show (l2Error 1 ⟨rules 1, [("s", ⟨1, true, [unitElem]⟩)], p.spacesDest⟩ [("s", one)] [0, 0] [] >>= _) = _
    rw [hq]
    rfl
  · rintro ⟨x, hx, h⟩
    simp only [List.mem_singleton, Option.some.injEq] at hx
    subst hx
    norm_num at h

/-- C160, disagreement.  One field whose error is small is enough for the assertion. -/
theorem C160_any_violated (x : Option ℝ) : Passes [x, some 0] := ⟨0, by simp, by norm_num⟩

#print axioms select_ok

#print axioms C160_only
#print axioms C160_vacuous_violated
#print axioms C160_scalar_passes
#print axioms C160_hdiv_passes
#print axioms C160_hcurl_passes
#print axioms C160_order_violated
#print axioms C160_flat
#print axioms C160_tagged
#print axioms C160_any_violated

end Verif.ProjectorTests
