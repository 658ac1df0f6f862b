/-
Property theorems C140: the finite element spaces of the drivers.
-/
import Verif.Spec.DriverSpaces
import Verif.Lemmas.Product
import Verif.Props.Space
import Verif.Props.ExampleDomain

namespace Verif.DriverSpaces
open Space MeshGraph Hydrothermal

/-! ### What is built follows the plan -/

theorem buildStructures_keeps {basix : Basix} {tags : List (Option Int)} {s₀ s : Space}
    (hs1 : s₀.buildStructures basix tags = .ok s) : s.dimension = s₀.dimension ∧ s.nComp = s₀.nComp ∧
      s.generator = s₀.generator ∧ s.kOrder = s₀.kOrder ∧ s.discontinuous = s₀.discontinuous := by
  simp only [Space.buildStructures, Space.buildDofMap, Space.buildElements] at hs1
  obtain ⟨s', hd, he⟩ := Res.bind_eq_ok.1 hs1
  obtain ⟨t, ht, hd⟩ := Res.bind_eq_ok.1 hd
  obtain ⟨ty, hty, hd⟩ := Res.bind_eq_ok.1 hd
  obtain ⟨ned, hned, hd⟩ := Res.bind_eq_ok.1 hd
  obtain ⟨m0, hm0, hd⟩ := Res.bind_eq_ok.1 hd
  obtain ⟨D, hD, hd⟩ := Res.bind_eq_ok.1 hd
  simp only [Res.pure_eq, Except.ok.injEq] at hd
  subst hd
  obtain ⟨ids, hids, he⟩ := Res.bind_eq_ok.1 he
  obtain ⟨els, hels, he⟩ := Res.bind_eq_ok.1 he
  simp only [Res.pure_eq, Except.ok.injEq] at he
  subst he
  exact ⟨rfl, rfl, rfl, rfl, rfl⟩

theorem buildBoundaryStructures_keeps {basix : Basix} {bTags : List (Option Int)} {s₁ s : Space}
    (h2 : s₁.buildBoundaryStructures basix bTags = .ok s) : s.dimension = s₁.dimension ∧ s.nComp = s₁.nComp ∧
      s.generator = s₁.generator ∧ s.kOrder = s₁.kOrder ∧ s.discontinuous = s₁.discontinuous := by
  unfold Space.buildBoundaryStructures at h2
  split at h2
  · simp only [Except.ok.injEq] at h2; subst h2; exact ⟨rfl, rfl, rfl, rfl, rfl⟩
  · simp only [Space.buildBcElements] at h2
    split at h2
    · simp only [throw, throwThe, MonadExceptOf.throw, Res.bind_error] at h2; cases h2
    · simp only [Res.pure_eq] at h2
      obtain ⟨all, hall, h2⟩ := Res.bind_eq_ok.1 h2
      obtain ⟨kp, hkp, h2⟩ := Res.bind_eq_ok.1 h2
      obtain ⟨bels, hbels, h2⟩ := Res.bind_eq_ok.1 h2
      simp only [Except.ok.injEq] at h2
      subst h2; exact ⟨rfl, rfl, rfl, rfl, rfl⟩

theorem space_new_inv {d n : Nat} {family : String} {k : Int} {mesh : Mesh} {s : Space}
    (h : Space.new d n family k mesh = .ok s) : familyByName family = .ok s.generator ∧ s.dimension = d ∧
      s.nComp = n ∧ s.kOrder = k ∧ s.discontinuous = false := by
  simp only [Space.new] at h
  obtain ⟨fam, h1, h⟩ := Res.bind_eq_ok.1 h
  obtain ⟨t, h2, h⟩ := Res.bind_eq_ok.1 h
  simp only [Res.pure_eq, Except.ok.injEq] at h
  subst h
  exact ⟨h1, rfl, rfl, rfl, rfl⟩

theorem get_related {α β : Type} {R : String × α → String × β → Prop} (hR : ∀ p q, R p q → q.1 = p.1)
    {l : Dict String α} {r : Dict String β} (h : List.Forall₂ R l r) {name : String} {a : α}
    (ha : l.get? name = some a) : ∃ b, r.get? name = some b ∧ R (name, a) (name, b) := by
  induction h with
  | nil => simp [Dict.get?] at ha
  | @cons p q l r h1 h2 ih =>
    obtain ⟨n, x⟩ := p
    obtain ⟨n', y⟩ := q
    obtain rfl : n' = n := hR _ _ h1
    by_cases e : n' = name
    · subst e
      simp only [Dict.get?, if_true] at ha ⊢
      obtain rfl := Option.some.inj ha
      exact ⟨y, rfl, h1⟩
    · simp only [Dict.get?, e, if_false] at ha ⊢
      exact ih ha

/-- Whatever a driver hands over, the product space that is built has the fields of the plan in their order, with
family, dimension, components, order and continuity as planned. -/
theorem C140_follows {basix : Basix} {p : Plan} {P : Product} (h : p.build basix = .ok P) :
    Follows p P.spaces := by
  simp only [Plan.build] at h
  obtain ⟨p₀, hnew, hb⟩ := Res.bind_eq_ok.1 h
  obtain ⟨hf, -, -⟩ := Product.new_inv hnew
  have h1 := newFields_inv hf
  simp only [Product.buildStructures] at hb
  obtain ⟨sp, hsp, hb⟩ := Res.bind_eq_ok.1 hb
  obtain ⟨df, hdf, hb⟩ := Res.bind_eq_ok.1 hb
  simp only [Res.pure_eq, Except.ok.injEq] at hb
  have h2 := buildFields_inv hsp
  subst hb
  constructor
  · show sp.map Prod.fst = p.data.map Prod.fst
    rw [forall₂_fst (fun _ _ h => h.1) h2]
    simp only [Product.makeDiscontinuous, List.map_map]
    rw [← forall₂_fst (fun _ _ h => h.1) h1]
    rfl
  · intro name f hname
    obtain ⟨a, ha, -, e⟩ := get_related (fun _ _ h => h.1) h1 hname
    obtain ⟨g1, g2, g3, g4, g5⟩ := space_new_inv e
    have ha' : (p₀.makeDiscontinuous p.disc).spaces.get? name =
        some (if (p.disc.get? name).getD false then { a with discontinuous := true } else a) := by
      have : ∀ l : Dict String Space, l.get? name = some a →
          Dict.get? (l.map fun q => (q.1, if (p.disc.get? q.1).getD false then { q.2 with discontinuous := true } else q.2))
            name = some (if (p.disc.get? name).getD false then { a with discontinuous := true } else a) := by
        intro l
        induction l with
        | nil => intro h; simp [Dict.get?] at h
        | cons q l ih =>
          intro h
          obtain ⟨n, x⟩ := q
          by_cases e : n = name
          · subst e
            simp only [Dict.get?, if_true] at h
            obtain rfl := Option.some.inj h
            simp only [List.map_cons, Dict.get?, if_true]
          · simp only [Dict.get?, e, if_false] at h
            simp only [List.map_cons, Dict.get?, e, if_false]
            exact ih h
      exact this _ ha
    obtain ⟨b, hb', -, s, hs1, hs2⟩ := get_related (fun _ _ h => h.1) h2 ha'
    obtain ⟨k1, k2, k3, k4, k5⟩ := buildStructures_keeps hs1
    obtain ⟨l1, l2, l3, l4, l5⟩ := buildBoundaryStructures_keeps hs2
    refine ⟨b, hb', ?_⟩
    rw [l1, l2, l3, l4, l5, k1, k2, k3, k4, k5]
    split
    · rename_i hd
      exact ⟨g1, g2, g3, g4, by rw [hd]⟩
    · rename_i hd
      exact ⟨g1, g2, g3, g4, by rw [g5]; cases h : (p.disc.get? name).getD false <;> simp_all⟩

/-- The integration order suffices for the products of any two fields and of one of them with an affine function. -/
theorem C140_integration {data : Dict String FieldData} {n : Int} (h : integrationOrder data = .ok n)
    {a b : String × FieldData} (ha : a ∈ data) (hb : b ∈ data) : a.2.kOrder + b.2.kOrder + 1 ≤ n := by
  cases data with
  | nil => cases ha
  | cons p rest =>
    simp only [integrationOrder, Except.ok.injEq] at h
    have key : ∀ (l : Dict String FieldData) (m : Int), m ≤ l.foldl (fun m q => max m q.2.kOrder) m ∧
        ∀ q ∈ l, q.2.kOrder ≤ l.foldl (fun m q => max m q.2.kOrder) m := by
      intro l
      induction l with
      | nil => intro m; exact ⟨le_refl _, fun q hq => by cases hq⟩
      | cons q l ih =>
        intro m
        obtain ⟨i1, i2⟩ := ih (max m q.2.kOrder)
        refine ⟨le_trans (le_max_left _ _) i1, fun r hr => ?_⟩
        rcases List.mem_cons.1 hr with rfl | hr
        · exact le_trans (le_max_right _ _) i1
        · exact i2 r hr
    obtain ⟨k1, k2⟩ := key rest p.2.kOrder
    have bound : ∀ q ∈ p :: rest, q.2.kOrder ≤ rest.foldl (fun m q => max m q.2.kOrder) p.2.kOrder := by
      intro q hq
      rcases List.mem_cons.1 hq with rfl | hq
      · exact k1
      · exact k2 q hq
    have := bound a ha
    have := bound b hb
    omega

theorem C140_integration_empty : integrationOrder [] = .error .valueError := rfl

/-! ### Elasticity -/

theorem div_rt (k : Int) : divergenceOrder .RT (k + 1) = some k := by
  show some (k + 1 - 1) = some k
  congr 1; omega

theorem div_bdm (k : Int) : divergenceOrder .BDM (k + 1) = some k := by
  show some (k + 1 - 1) = some k
  congr 1; omega

theorem rotations_eq {d : Nat} (h : d = 2 ∨ d = 3) : (if d = 3 then 3 else 1) = rotations d := by
  rcases h with rfl | rfl <;> rfl

/-- Three fields: the divergences of the stress are the displacements; rows, displacements and rotations are as many as
the dimension has. -/
theorem C140_three_field (k : Int) {mesh : Mesh} (hd : mesh.dimension = 2 ∨ mesh.dimension = 3) :
    ∀ m ∈ threeFieldMethods k, ∃ p, threeFieldPlan m.2 mesh = .ok p ∧ p.data.keys = ["s", "u", "t"] ∧
      Pair p "s" "u" ∧ p.disc.get? "t" = some true ∧ p.bTags.get? "t" = none ∧
      HasComponents p "s" mesh.dimension ∧ HasComponents p "u" mesh.dimension ∧
      HasComponents p "t" (rotations mesh.dimension) := by
  obtain ⟨d, cells⟩ := mesh
  intro m hm
  obtain rfl := List.mem_singleton.1 hm
  have hr := rotations_eq hd
  rcases hd with rfl | rfl
  all_goals
    exact ⟨_, rfl, rfl, ⟨⟨_, _, _, rfl, rfl, rfl, rfl, div_bdm k, rfl, rfl, rfl⟩, rfl, rfl, ⟨_, rfl, rfl⟩,
      ⟨_, rfl, List.cons_ne_nil _ _⟩, rfl⟩, rfl, rfl, ⟨_, rfl, rfl⟩, ⟨_, rfl, rfl⟩, ⟨_, rfl, hr⟩⟩

/-- Four fields: the divergences of stress and couple stress are displacements and rotations, for each of the four
methods; components as the dimension asks; the sides are those of the box. -/
theorem C140_four_field (k : Int) {mesh : Mesh} (hd : mesh.dimension = 2 ∨ mesh.dimension = 3) :
    ∀ m ∈ cosseratMethods k ++ cosseratThreeMethods k, ∃ p, fourFieldPlan m.2 mesh = .ok p ∧
      p.data.keys = ["s", "m", "u", "t"] ∧ Pair p "s" "u" ∧ Pair p "m" "t" ∧
      HasComponents p "s" mesh.dimension ∧ HasComponents p "u" mesh.dimension ∧
      HasComponents p "m" (rotations mesh.dimension) ∧ HasComponents p "t" (rotations mesh.dimension) ∧
      ∀ f ∈ ["s", "m"], p.tags.get? f = some (tagsOf ((boxTags mesh.dimension).values.take 1)) ∧
        p.bTags.get? f = some (tagsOf ((boxTags mesh.dimension).values.drop 1)) := by
  obtain ⟨d, cells⟩ := mesh
  have e2 : ∀ fam, divergenceOrder fam (k + 1 + 1) = divergenceOrder fam (k + 2) := fun fam => by
    rw [show k + 1 + 1 = k + 2 by omega]
  have d3 := (e2 .RT).symm.trans (div_rt (k + 1))
  have d4 := (e2 .BDM).symm.trans (div_bdm (k + 1))
  have sides : ∀ {Q : String → Prop}, Q "s" → Q "m" → ∀ f ∈ ["s", "m"], Q f := by
    intro Q h1 h2 f hf
    rcases List.mem_cons.1 hf with rfl | hf
    · exact h1
    · obtain rfl := List.mem_singleton.1 hf
      exact h2
  intro m hm
  have hr := rotations_eq hd
  rcases hd with rfl | rfl
  all_goals
    simp only [cosseratMethods, cosseratThreeMethods, List.zip_cons_cons, List.zip_nil_left, List.cons_append,
      List.nil_append, List.mem_cons, List.not_mem_nil, or_false] at hm
    rcases hm with rfl | rfl | rfl | rfl | rfl | rfl
  all_goals
    refine ⟨_, rfl, rfl, ⟨⟨_, _, _, rfl, rfl, rfl, rfl, ?_, rfl, rfl, rfl⟩, rfl, rfl, ⟨_, rfl, rfl⟩,
      ⟨_, rfl, List.cons_ne_nil _ _⟩, rfl⟩, ⟨⟨_, _, _, rfl, rfl, rfl, rfl, ?_, rfl, rfl, rfl⟩, rfl, rfl, ⟨_, rfl, rfl⟩,
      ⟨_, rfl, List.cons_ne_nil _ _⟩, rfl⟩, ⟨_, rfl, rfl⟩, ⟨_, rfl, rfl⟩, ⟨_, rfl, hr⟩, ⟨_, rfl, hr⟩,
      sides ⟨rfl, rfl⟩ ⟨rfl, rfl⟩⟩
  all_goals first
    | exact div_rt k
    | exact div_bdm k
    | exact d3
    | exact d4

/-- One displacement: conforming, with as many components as the dimension. -/
theorem C140_displacement (k : Int) {mesh : Mesh} (hd : mesh.dimension = 2 ∨ mesh.dimension = 3) :
    ∀ m ∈ cgMethods k, ∃ p, cgPlan m.2 mesh = .ok p ∧
      p.data = [("u", ⟨mesh.dimension, mesh.dimension, "Lagrange", k, mesh⟩)] ∧ p.disc.get? "u" = some false ∧
      ∃ t b, p.tags.get? "u" = some t ∧ p.bTags.get? "u" = some b ∧ ∀ x ∈ t, x ∉ b := by
  obtain ⟨d, cells⟩ := mesh
  intro m hm
  obtain rfl := List.mem_singleton.1 hm
  rcases hd with rfl | rfl <;> exact ⟨_, rfl, rfl, rfl, _, _, rfl, rfl, by decide⟩

/-- On lines the displacement gets three components. -/
theorem C140_line_components_violated (k : Int) {mesh : Mesh} (hd : mesh.dimension = 1) :
    ∀ m ∈ cgMethods k, ∃ p, cgPlan m.2 mesh = .ok p ∧ HasComponents p "u" 3 := by
  obtain ⟨d, cells⟩ := mesh
  intro m hm
  obtain rfl := List.mem_singleton.1 hm
  obtain rfl : d = 1 := hd
  exact ⟨_, rfl, _, rfl, rfl⟩

/-- Displacement and pressure: a conforming displacement and a pressure without continuity, two orders lower: the
pressures are among the divergences of displacements of order `k`. -/
theorem C140_pressure (k : Int) {mesh : Mesh} (hd : mesh.dimension = 2 ∨ mesh.dimension = 3) :
    ∀ m ∈ thMethods k, ∃ p u q, thPlan m.2 mesh = .ok p ∧ p.data = [("u", u), ("p", q)] ∧
      u.nComp = mesh.dimension ∧ q.nComp = 1 ∧ u.family = "Lagrange" ∧ q.family = "Lagrange" ∧
      u.kOrder = k ∧ q.kOrder = k - 2 ∧ p.disc.get? "u" = some false ∧ p.disc.get? "p" = some true ∧
      (∃ t, p.tags.get? "u" = some t ∧ p.tags.get? "p" = some t) ∧
      (∃ t, p.bTags.get? "u" = some t ∧ t ≠ []) ∧ p.bTags.get? "p" = none := by
  obtain ⟨d, cells⟩ := mesh
  intro m hm
  obtain rfl := List.mem_singleton.1 hm
  rcases hd with rfl | rfl <;>
    exact ⟨_, _, _, rfl, rfl, rfl, rfl, rfl, rfl, rfl, rfl, rfl, rfl, ⟨_, rfl, rfl⟩, ⟨_, rfl, List.cons_ne_nil _ _⟩, rfl⟩

/-- The comments ask for continuous pressures one order lower (Taylor-Hood); the pressures are two orders lower and
without continuity. -/
theorem C140_pressure_violated (k : Int) {mesh : Mesh} :
    ∀ m ∈ thMethods k, ∃ p q, thPlan m.2 mesh = .ok p ∧ p.data.get? "p" = some q ∧ q.kOrder ≠ k - 1 ∧
      p.disc.get? "p" ≠ some false := by
  intro m hm
  obtain rfl := List.mem_singleton.1 hm
  exact ⟨_, _, rfl, rfl, fun h => by have : k - 2 = k - 1 := h; omega,
    fun h => by have := Option.some.inj (show some true = some false from h); cases this⟩

/-- With linear displacements the order of the pressure is negative, and no space is built. -/
theorem C140_pressure_order_violated {basix : Basix} {mesh : Mesh}
    (hb : ∀ f d disc, ∃ e, basix f d (-1) disc = .error e) :
    ∀ m ∈ thMethods 1, ∃ p, thPlan m.2 mesh = .ok p ∧ ∀ P, p.build basix ≠ .ok P := by
  intro m hm
  obtain rfl := List.mem_singleton.1 hm
  refine ⟨_, rfl, fun P h => ?_⟩
  have hf := C140_follows h
  obtain ⟨-, hf⟩ := hf
  obtain ⟨sp, h1, -, -, -, h5, -⟩ := hf "p" _ rfl
  simp only [Plan.build] at h
  obtain ⟨p₀, hnew, hb'⟩ := Res.bind_eq_ok.1 h
  simp only [Product.buildStructures] at hb'
  obtain ⟨spaces, hsp, hb'⟩ := Res.bind_eq_ok.1 hb'
  obtain ⟨df, hdf, hb'⟩ := Res.bind_eq_ok.1 hb'
  simp only [Res.pure_eq, Except.ok.injEq] at hb'
  subst hb'
  have key : ∀ {t b : Dict String (List (Option Int))} {l r : Dict String Space},
      List.Forall₂ (fun p q => q.1 = p.1 ∧ ∃ s, p.2.buildStructures basix ((t.get? p.1).getD [none]) = .ok s ∧
      s.buildBoundaryStructures basix ((b.get? p.1).getD []) = .ok q.2) l r →
      ∀ b, r.get? "p" = some b → b.kOrder ≠ -1 := by
    intro t b l r hr
    induction hr with
    | nil => intro b hb; simp [Dict.get?] at hb
    | @cons a c l r h1 h2 ih =>
      intro b hb1
      obtain ⟨n, x⟩ := c
      by_cases e : n = "p"
      · simp only [Dict.get?, e, if_true] at hb1
        obtain rfl := Option.some.inj hb1
        obtain ⟨-, s, g1, g2⟩ := h1
        obtain ⟨-, -, -, e1, -⟩ := buildBoundaryStructures_keeps g2
        intro e2
        obtain ⟨-, -, -, e3, -⟩ := buildStructures_keeps g1
        simp only [Space.buildStructures, Space.buildDofMap] at g1
        obtain ⟨s', hd, -⟩ := Res.bind_eq_ok.1 g1
        obtain ⟨t, ht, hd⟩ := Res.bind_eq_ok.1 hd
        obtain ⟨ty, hty, hd⟩ := Res.bind_eq_ok.1 hd
        obtain ⟨ned, hned, hd⟩ := Res.bind_eq_ok.1 hd
        have e4 : a.2.kOrder = -1 := by rw [← e3, ← e1]; exact e2
        obtain ⟨er, her⟩ := hb (effFamily a.2.dimension a.2.generator) ty a.2.discontinuous
        rw [e4, her] at hned
        cases hned
      · simp only [Dict.get?, e, if_false] at hb1
        exact ih b hb1
  exact key (buildFields_inv hsp) sp h1 h5

/-- The layered example: the cells of the three layers and the sides of the four names. -/
theorem C140_layered (k : Int) {mesh : Mesh} {ids : Dict String (List Int)} :
    ∀ m ∈ cgMethods k,
      ((∀ name ∈ ["under", "reservoir", "over", "bc_bottom", "bc_top", "bc_west", "bc_east"],
          ∃ l, ids.get? name = some l) →
        ∃ p t b, layeredPlan m.2 mesh ids = .ok p ∧ p.tags.get? "u" = some t ∧ p.bTags.get? "u" = some b ∧
          (∀ x : Int, some x ∈ t ↔ ∃ name ∈ ["under", "reservoir", "over"], ∃ l, ids.get? name = some l ∧ x ∈ l) ∧
          ∀ x : Int, some x ∈ b ↔
            ∃ name ∈ ["bc_bottom", "bc_top", "bc_west", "bc_east"], ∃ l, ids.get? name = some l ∧ x ∈ l) ∧
      ((∃ name ∈ ["under", "reservoir", "over", "bc_bottom", "bc_top", "bc_west", "bc_east"], ids.get? name = none) →
        layeredPlan m.2 mesh ids = .error .keyError) := by
  intro m hm
  obtain rfl := List.mem_singleton.1 hm
  constructor
  · intro h
    obtain ⟨a, ha⟩ := h "under" (by simp)
    obtain ⟨b, hb⟩ := h "reservoir" (by simp)
    obtain ⟨c, hc⟩ := h "over" (by simp)
    obtain ⟨d, hd⟩ := h "bc_bottom" (by simp)
    obtain ⟨e, he⟩ := h "bc_top" (by simp)
    obtain ⟨f, hf⟩ := h "bc_west" (by simp)
    obtain ⟨g, hg⟩ := h "bc_east" (by simp)
    refine ⟨_, tagsOf (a ++ b ++ c), tagsOf (d ++ e ++ f ++ g), by
      simp only [layeredPlan, Dict.getItem, ha, hb, hc, hd, he, hf, hg]; rfl, rfl, rfl, fun x => ?_, fun x => ?_⟩
    · simp [tagsOf, ha, hb, hc, or_assoc]
    · simp [tagsOf, hd, he, hf, hg, or_assoc]
  · intro h
    have hu : entry [("u", "Lagrange", k)] mesh mesh.dimension "u" (if mesh.dimension = 2 then 2 else 3) =
        .ok ("u", ⟨mesh.dimension, if mesh.dimension = 2 then 2 else 3, "Lagrange", k, mesh⟩) := rfl
    simp only [layeredPlan, hu, Dict.getItem]
    cases h1 : ids.get? "under" with
    | none => rfl
    | some _ =>
      cases h2 : ids.get? "reservoir" with
      | none => rfl
      | some _ =>
        cases h3 : ids.get? "over" with
        | none => rfl
        | some _ =>
          cases h4 : ids.get? "bc_bottom" with
          | none => rfl
          | some _ =>
            cases h5 : ids.get? "bc_top" with
            | none => rfl
            | some _ =>
              cases h6 : ids.get? "bc_west" with
              | none => rfl
              | some _ =>
                cases h7 : ids.get? "bc_east" with
                | none => rfl
                | some _ =>
                  obtain ⟨name, hn, e⟩ := h
                  simp only [List.mem_cons, List.not_mem_nil, or_false] at hn
                  rcases hn with rfl | rfl | rfl | rfl | rfl | rfl | rfl <;> simp_all

theorem one_argument {basix : Basix} {p : Plan} :
    (∀ P, p.buildOne basix ≠ .ok P) ∧
      ∀ s, Product.new p.data = .ok s → p.buildOne basix = .error .typeError := by
  refine ⟨fun P h => ?_, fun s h => ?_⟩
  · simp only [Plan.buildOne] at h
    obtain ⟨s, -, h⟩ := Res.bind_eq_ok.1 h
    cases h
  · rw [Plan.buildOne, h]; rfl

/-- The three examples of `cosserat_ecmor` pass one dictionary to a function of two: no space is built. -/
theorem C140_ecmor_violated {basix : Basix} (k : Int) (bc : List Int) (mesh : Mesh) :
    (∀ m ∈ threeFieldMethods k, ∃ p, ecmorThreePlan bc m.2 mesh = .ok p ∧ (∀ P, p.buildOne basix ≠ .ok P) ∧
      ∀ s, Product.new p.data = .ok s → p.buildOne basix = .error .typeError) ∧
    ∀ m ∈ (cosseratThreeMethods k).take 1, ∃ p, ecmorFourPlan m.2 mesh = .ok p ∧ (∀ P, p.buildOne basix ≠ .ok P) ∧
      ∀ s, Product.new p.data = .ok s → p.buildOne basix = .error .typeError := by
  constructor
  · intro m hm
    obtain rfl := List.mem_singleton.1 hm
    exact ⟨_, rfl, one_argument⟩
  · intro m hm
    obtain rfl := List.mem_singleton.1 hm
    exact ⟨_, rfl, one_argument⟩

/-! ### Scalar elliptic problems -/

/-- Flux and potential of the flow example (either method), on lines and surfaces; other dimensions are rejected. -/
theorem C140_flow (k : Int) (mesh : Mesh) :
    ∀ m ∈ flowMethods k,
      (mesh.dimension = 1 ∨ mesh.dimension = 2 → ∃ p, flowPlan m.2 mesh "v" "q" = .ok p ∧ Pair p "v" "q" ∧
        HasComponents p "v" 1) ∧
      (mesh.dimension ≠ 1 → mesh.dimension ≠ 2 → flowPlan m.2 mesh "v" "q" = .error .valueError) := by
  obtain ⟨d, cells⟩ := mesh
  intro m hm
  constructor
  · intro hd
    rcases hd with rfl | rfl
    all_goals
      rcases List.mem_cons.1 hm with rfl | hm
      · exact ⟨_, rfl, ⟨⟨_, _, _, rfl, rfl, rfl, rfl, div_rt k, rfl, rfl, rfl⟩, rfl, rfl, ⟨_, rfl, rfl⟩,
          ⟨_, rfl, List.cons_ne_nil _ _⟩, rfl⟩, _, rfl, rfl⟩
      · obtain rfl := List.mem_singleton.1 hm
        exact ⟨_, rfl, ⟨⟨_, _, _, rfl, rfl, rfl, rfl, div_bdm k, rfl, rfl, rfl⟩, rfl, rfl, ⟨_, rfl, rfl⟩,
          ⟨_, rfl, List.cons_ne_nil _ _⟩, rfl⟩, _, rfl, rfl⟩
  · intro h1 h2
    have h1' : ¬d = 1 := h1
    have h2' : ¬d = 2 := h2
    rcases List.mem_cons.1 hm with rfl | hm
    · simp [flowPlan, entry, Dict.getItem, Dict.get?, h1', h2', bind, Except.bind, pure, Except.pure, throw, throwThe,
        MonadExceptOf.throw]
    · obtain rfl := List.mem_singleton.1 hm
      simp [flowPlan, entry, Dict.getItem, Dict.get?, h1', h2', bind, Except.bind, pure, Except.pure, throw, throwThe,
        MonadExceptOf.throw]

/-- Flux and potential of the first scenario. -/
theorem C140_scenario_one (k : Int) {mesh : Mesh} (hd : mesh.dimension = 1 ∨ mesh.dimension = 2) :
    ∀ m ∈ scenarioMethods k, ∃ p, flowPlan m.2 mesh "u" "p" = .ok p ∧ Pair p "u" "p" ∧ HasComponents p "u" 1 := by
  obtain ⟨d, cells⟩ := mesh
  intro m hm
  obtain rfl := List.mem_singleton.1 hm
  rcases hd with rfl | rfl
  all_goals
    exact ⟨_, rfl, ⟨⟨_, _, _, rfl, rfl, rfl, rfl, div_rt k, rfl, rfl, rfl⟩, rfl, rfl, ⟨_, rfl, rfl⟩,
      ⟨_, rfl, List.cons_ne_nil _ _⟩, rfl⟩, _, rfl, rfl⟩

/-- Second scenario on surfaces: flux and potential of each region, on different cells, and the multiplier of the order
of the traces of the fluxes. -/
theorem C140_scenario_two (k : Int) {mesh : Mesh} (hd : mesh.dimension = 2) :
    ∀ m ∈ scenarioMethods k, ∃ a b c, scenarioTwoPlans m.2 mesh "u" "p" "v" "q" = .ok (a, b, c) ∧
      Pair a "v" "q" ∧ Pair b "u" "p" ∧ a.tags.get? "v" = some (tagsOf [1]) ∧ b.tags.get? "u" = some (tagsOf [2]) ∧
      ∃ l, c.data = [("l", l)] ∧ l.dimension + 1 = mesh.dimension ∧ l.nComp = 1 ∧
        (∀ f, a.data.get? "v" = some f → l.kOrder = (bcChoice f.dimension .RT f.kOrder false).2.1) ∧
        c.disc.get? "l" = some true := by
  obtain ⟨d, cells⟩ := mesh
  intro m hm
  obtain rfl := List.mem_singleton.1 hm
  obtain rfl : d = 2 := hd
  refine ⟨_, _, _, rfl, ⟨⟨_, _, _, rfl, rfl, rfl, rfl, div_rt k, rfl, rfl, rfl⟩, rfl, rfl, ⟨_, rfl, rfl⟩,
      ⟨_, rfl, List.cons_ne_nil _ _⟩, rfl⟩, ⟨⟨_, _, _, rfl, rfl, rfl, rfl, div_rt k, rfl, rfl, rfl⟩, rfl, rfl, ⟨_, rfl, rfl⟩,
      ⟨_, rfl, List.cons_ne_nil _ _⟩, rfl⟩, rfl, rfl, _, rfl, rfl, rfl, fun f hf => ?_, rfl⟩
  obtain rfl := Option.some.inj hf
  show k = k + 1 - 1
  omega

/-- Second scenario on lines: the multiplier lives on points, for which there is no product space. -/
theorem C140_scenario_two_line_violated {basix : Basix} (k : Int) {mesh : Mesh} (hd : mesh.dimension = 1) :
    ∀ m ∈ scenarioMethods k, ∀ P, scenarioTwo basix m.2 mesh "u" "p" "v" "q" ≠ .ok P := by
  obtain ⟨d, cells⟩ := mesh
  intro m hm P h
  obtain rfl := List.mem_singleton.1 hm
  obtain rfl : d = 1 := hd
  simp only [scenarioTwo] at h
  obtain ⟨⟨a, b, c⟩, h1, h⟩ := Res.bind_eq_ok.1 h
  obtain ⟨s, -, h⟩ := Res.bind_eq_ok.1 h
  obtain ⟨u, -, h⟩ := Res.bind_eq_ok.1 h
  obtain ⟨l, hl, h⟩ := Res.bind_eq_ok.1 h
  have hc : c = ⟨[("l", ⟨0, 1, "Lagrange", k, ⟨1, cells⟩⟩)], [("l", true)], [("l", tagsOf [9, 10])], []⟩ := by
    have := Except.ok.inj h1
    exact (congrArg (fun x : Plan × Plan × Plan => x.2.2) this).symm
  subst hc
  cases hl

/-- Advection and diffusion: both fluxes have the potential's cells, components and order plus one, their sides are
those of the box in each dimension; other dimensions are rejected. -/
theorem C140_advection (k : Int) (mesh : Mesh) :
    (∀ d ∈ [1, 2, 3], mesh.dimension = d → ∃ p, advectionPlan (advectionMethod k).2 mesh = .ok p ∧
      Pair p "q" "u" ∧ Pair p "m" "u" ∧ ∀ f ∈ ["q", "m"],
        p.tags.get? f = some (tagsOf ((boxTags d).values.take 1)) ∧
        p.bTags.get? f = some (tagsOf ((boxTags d).values.drop 1))) ∧
    (mesh.dimension ∉ [1, 2, 3] → advectionPlan (advectionMethod k).2 mesh = .error .valueError) := by
  obtain ⟨d, cells⟩ := mesh
  have sides : ∀ {Q : String → Prop}, Q "q" → Q "m" → ∀ f ∈ ["q", "m"], Q f := by
    intro Q h1 h2 f hf
    rcases List.mem_cons.1 hf with rfl | hf
    · exact h1
    · obtain rfl := List.mem_singleton.1 hf
      exact h2
  constructor
  · intro d' hd' e
    obtain rfl : d = d' := e
    simp only [List.mem_cons, List.not_mem_nil, or_false] at hd'
    rcases hd' with rfl | rfl | rfl
    all_goals
      exact ⟨_, rfl, ⟨⟨_, _, _, rfl, rfl, rfl, rfl, div_rt k, rfl, rfl, rfl⟩, rfl, rfl, ⟨_, rfl, rfl⟩,
        ⟨_, rfl, List.cons_ne_nil _ _⟩, rfl⟩, ⟨⟨_, _, _, rfl, rfl, rfl, rfl, div_rt k, rfl, rfl, rfl⟩, rfl, rfl, ⟨_, rfl, rfl⟩,
        ⟨_, rfl, List.cons_ne_nil _ _⟩, rfl⟩, sides ⟨rfl, rfl⟩ ⟨rfl, rfl⟩⟩
  · intro h
    simp only [List.mem_cons, List.not_mem_nil, or_false, not_or] at h
    obtain ⟨h1, h2, h3⟩ := h
    show (boxBoundary d >>= fun bc => _) = _
    rw [boxBoundary, if_neg h1, if_neg h2, if_neg h3]
    rfl

/-- Transport: mass flux with pressure and solute flux with concentration; the sides are those of the box. -/
theorem C140_transport (k : Int) (mesh : Mesh) :
    ∀ m ∈ transportMethods k, (∀ d ∈ [1, 2, 3], mesh.dimension = d → ∃ p, transportPlan m.2 mesh = .ok p ∧
      Pair p "mp" "p" ∧ Pair p "mc" "c" ∧ ∀ f ∈ ["mp", "mc"],
        p.tags.get? f = some (tagsOf ((boxTags d).values.take 1)) ∧
        p.bTags.get? f = some (tagsOf ((boxTags d).values.drop 1))) ∧
    (mesh.dimension ∉ [1, 2, 3] → transportPlan m.2 mesh = .error .valueError) := by
  obtain ⟨d, cells⟩ := mesh
  have sides : ∀ {Q : String → Prop}, Q "mp" → Q "mc" → ∀ f ∈ ["mp", "mc"], Q f := by
    intro Q h1 h2 f hf
    rcases List.mem_cons.1 hf with rfl | hf
    · exact h1
    · obtain rfl := List.mem_singleton.1 hf
      exact h2
  intro m hm
  obtain rfl := List.mem_singleton.1 hm
  constructor
  · intro d' hd' e
    obtain rfl : d = d' := e
    simp only [List.mem_cons, List.not_mem_nil, or_false] at hd'
    rcases hd' with rfl | rfl | rfl
    all_goals
      exact ⟨_, rfl, ⟨⟨_, _, _, rfl, rfl, rfl, rfl, div_rt k, rfl, rfl, rfl⟩, rfl, rfl, ⟨_, rfl, rfl⟩,
        ⟨_, rfl, List.cons_ne_nil _ _⟩, rfl⟩, ⟨⟨_, _, _, rfl, rfl, rfl, rfl, div_rt k, rfl, rfl, rfl⟩, rfl, rfl, ⟨_, rfl, rfl⟩,
        ⟨_, rfl, List.cons_ne_nil _ _⟩, rfl⟩, sides ⟨rfl, rfl⟩ ⟨rfl, rfl⟩⟩
  · intro h
    simp only [List.mem_cons, List.not_mem_nil, or_false, not_or] at h
    obtain ⟨h1, h2, h3⟩ := h
    show (boxBoundary d >>= fun bc => _) = _
    rw [boxBoundary, if_neg h1, if_neg h2, if_neg h3]
    rfl

open Topology in
/-- The tags of the second scenario are those of its domain, built with all edges numbered: the boundary of each region
is given by the tags of the edges of its wire, and the multiplier lives on the edges of both wires. -/
theorem C140_scenario_two_sides {P : Type} {close : P → P → Bool} {argsort : List Int → List Nat}
    (hc : ∀ x, close x x = true) (ha : IsArgsort argsort) {points : List P} (h7 : 7 ≤ points.length) (k : Int) {mesh : Mesh}
    (hd : mesh.dimension = 2) :
    ∀ m ∈ scenarioMethods k, ∃ a b c vs es w w' f f', scenarioTwoPlans m.2 mesh "u" "p" "v" "q" = .ok (a, b, c) ∧
      buildSurface2D close argsort points none (some []) = .ok ⟨2, [vs, es ++ [w, w'], [f, f']]⟩ ∧
      f.boundary = [w] ∧ f'.boundary = [w'] ∧
      a.tags.get? "v" = some [f.physicalTag] ∧ b.tags.get? "u" = some [f'.physicalTag] ∧
      (∃ t, a.bTags.get? "v" = some t ∧ t.Perm (w.immersed.map Shape.physicalTag)) ∧
      (∃ t, b.bTags.get? "u" = some t ∧ t.Perm (w'.immersed.map Shape.physicalTag)) ∧
      ∃ t, c.tags.get? "l" = some t ∧
        ∀ x, x ∈ t ↔ x ∈ w.immersed.map Shape.physicalTag ∧ x ∈ w'.immersed.map Shape.physicalTag := by
  obtain ⟨d, cells⟩ := mesh
  obtain rfl : d = 2 := hd
  intro m hm
  obtain rfl := List.mem_singleton.1 hm
  obtain ⟨vs, es, w, w', f, f', h1, -, ⟨hl, he⟩, ⟨v, es1, -, p1, rfl, o1, -⟩,
    ⟨v', es2, -, p2, rfl, o2, -⟩, rfl, rfl⟩ := C136_surface hc ha h7 none (some [])
  obtain ⟨_, _, -, -, a0⟩ := he 0 0 1 rfl
  obtain ⟨_, _, -, -, a1⟩ := he 1 1 2 rfl
  obtain ⟨_, _, -, -, a2⟩ := he 2 2 3 rfl
  obtain ⟨_, _, -, -, a3⟩ := he 3 3 4 rfl
  obtain ⟨_, _, -, -, a4⟩ := he 4 4 5 rfl
  obtain ⟨_, _, -, -, a5⟩ := he 5 5 0 rfl
  obtain ⟨_, _, -, -, a6⟩ := he 6 4 6 rfl
  obtain ⟨_, _, -, -, a7⟩ := he 7 6 2 rfl
  simp only [pick, mapRes, getIdx, a0, a1, a2, a3, a4, a5, a6, a7, bind, Except.bind, pure,
      Except.pure, Except.ok.injEq] at p1 p2
  subst p1
  subst p2
  refine ⟨_, _, _, vs, es, _, _, _, _, rfl, h1, rfl, rfl, rfl, rfl, ⟨_, rfl, ?_⟩, ⟨_, rfl, ?_⟩, _, rfl, ?_⟩
  · show List.Perm ([some 3, some 4, some 7, some 8, some 9, some 10] : List (Option Int))
      [some 3, some 4, some 10, some 9, some 7, some 8]
    decide
  · show List.Perm ([some 5, some 6, some 9, some 10] : List (Option Int)) [some 5, some 6, some 9, some 10]
    exact List.Perm.refl _
  · show ∀ x, x ∈ ([some 9, some 10] : List (Option Int)) ↔ x ∈ [some 3, some 4, some 10, some 9, some 7, some 8] ∧
      x ∈ [some 5, some 6, some 9, some 10]
    intro x
    constructor
    · intro h
      simp only [List.mem_cons, List.not_mem_nil, or_false] at h
      rcases h with rfl | rfl <;> decide
    · rintro ⟨h, h'⟩
      simp only [List.mem_cons, List.not_mem_nil, or_false] at h
      rcases h with rfl | rfl | rfl | rfl | rfl | rfl <;> revert h' <;> decide

/-! ### Mixed-dimensional problems -/

/-- The spaces of one dimension of the mixed-dimensional elliptic problem, on a mesh of dimension two. -/
theorem C140_md (k : Int) {mesh : Mesh} (hm : mesh.dimension = 2) {flux potential : String} (hne : flux ≠ potential) :
    ∀ d, d = 1 ∨ d = 2 → ∀ m ∈ mdMethods d k flux potential, ∃ p, mdPlan d m.2 mesh flux potential = .ok p ∧
      Pair p flux potential ∧ HasComponents p flux 1 ∧ (∀ q ∈ p.data, q.2.dimension = d) ∧
      p.tags.get? flux = some (tagsOf (if d = 1 then [10] else [1])) ∧
      p.bTags.get? flux = some (tagsOf (if d = 1 then [3, 5] else [2, 3, 4, 5, 50])) := by
  obtain ⟨md, cells⟩ := mesh
  obtain rfl : md = 2 := hm
  have hne' : ¬potential = flux := fun h => hne h.symm
  intro d hd m hm
  have e : m = ("mixed_rt", [(flux, ("RT", k + 1)), (potential, ("Lagrange", k))]) := by
    rcases hd with rfl | rfl <;> exact List.mem_singleton.1 hm
  subst e
  have h1 : entry [(flux, ("RT", k + 1)), (potential, ("Lagrange", k))] ⟨2, cells⟩ d flux 1 =
      .ok (flux, ⟨d, 1, "RT", k + 1, ⟨2, cells⟩⟩) := by
    simp [entry, Dict.getItem, Dict.get?, bind, Except.bind, pure, Except.pure]
  have h2 : entry [(flux, ("RT", k + 1)), (potential, ("Lagrange", k))] ⟨2, cells⟩ d potential 1 =
      .ok (potential, ⟨d, 1, "Lagrange", k, ⟨2, cells⟩⟩) := by
    simp [entry, Dict.getItem, Dict.get?, bind, Except.bind, pure, Except.pure, hne]
  have g0 : ∀ {α : Type} (x y : α), Dict.get? [(flux, x), (potential, y)] flux = some x := by
    intro α x y; simp [Dict.get?]
  have g1 : ∀ {α : Type} (x y : α), Dict.get? [(flux, x), (potential, y)] potential = some y := by
    intro α x y; simp [Dict.get?, hne]
  have g2 : ∀ {α : Type} (x : α), Dict.get? [(flux, x)] flux = some x := by
    intro α x; simp [Dict.get?]
  have g3 : ∀ {α : Type} (x : α), Dict.get? [(flux, x)] potential = none := by
    intro α x; simp [Dict.get?, hne]
  have dims : ∀ {x y : FieldData} {d : Nat}, x.dimension = d → y.dimension = d →
      ∀ q ∈ [(flux, x), (potential, y)], q.2.dimension = d := by
    intro x y d hx hy q hq
    rcases List.mem_cons.1 hq with rfl | hq
    · exact hx
    · obtain rfl := List.mem_singleton.1 hq
      exact hy
  have hp : ∀ (t b : List Int), getIdx [[], [10], [1]] d = .ok t → getIdx [[], [3, 5], [2, 3, 4, 5, 50]] d = .ok b →
      mdPlan d [(flux, ("RT", k + 1)), (potential, ("Lagrange", k))] ⟨2, cells⟩ flux potential =
        .ok ⟨[(flux, ⟨d, 1, "RT", k + 1, ⟨2, cells⟩⟩), (potential, ⟨d, 1, "Lagrange", k, ⟨2, cells⟩⟩)],
          [(flux, false), (potential, true)], [(flux, tagsOf t), (potential, tagsOf t)], [(flux, tagsOf b)]⟩ := by
    intro t b ht hb
    rw [mdPlan, h1, Res.bind_ok, h2, Res.bind_ok]
    show (getIdx [[], [10], [1]] d >>= fun t => getIdx [[], [3, 5], [2, 3, 4, 5, 50]] d >>= fun b => pure _) = _
    rw [ht, Res.bind_ok, hb, Res.bind_ok]
    rfl
  have fin : ∀ (t b : List Int), getIdx [[], [10], [1]] d = .ok t → getIdx [[], [3, 5], [2, 3, 4, 5, 50]] d = .ok b →
      b ≠ [] → ∃ p, mdPlan d [(flux, ("RT", k + 1)), (potential, ("Lagrange", k))] ⟨2, cells⟩ flux potential = .ok p ∧
      Pair p flux potential ∧ HasComponents p flux 1 ∧ (∀ q ∈ p.data, q.2.dimension = d) ∧
      p.tags.get? flux = some (tagsOf t) ∧ p.bTags.get? flux = some (tagsOf b) := by
    intro t b ht hb hne
    exact ⟨_, hp t b ht hb, ⟨⟨_, _, _, g0 _ _, g1 _ _, rfl, rfl, div_rt k, rfl, rfl, rfl⟩, g0 _ _, g1 _ _,
      ⟨_, g0 _ _, g1 _ _⟩, ⟨_, g2 _, by simpa [tagsOf] using hne⟩, g3 _⟩, ⟨_, g0 _ _, rfl⟩, dims rfl rfl, g0 _ _, g2 _⟩
  rcases hd with rfl | rfl
  · exact fin _ _ rfl rfl (List.cons_ne_nil _ _)
  · exact fin _ _ rfl rfl (List.cons_ne_nil _ _)

/-- On meshes of another dimension the mixed-dimensional problem is rejected. -/
theorem C140_md_dimension (k : Int) {mesh : Mesh} (hm : mesh.dimension ≠ 2) {flux potential : String}
    (hne : flux ≠ potential) :
    ∀ d, d = 1 ∨ d = 2 ∨ d = 3 → ∀ m ∈ mdMethods d k flux potential,
      mdPlan d m.2 mesh flux potential = .error .valueError := by
  intro d hd m hm'
  have e : m = ("mixed_rt", [(flux, ("RT", k + 1)), (potential, ("Lagrange", k))]) := by
    rcases hd with rfl | rfl | rfl <;> exact List.mem_singleton.1 hm'
  subst e
  simp [mdPlan, entry, Dict.getItem, Dict.get?, bind, Except.bind, pure, Except.pure, hne, hm, throw, throwThe,
    MonadExceptOf.throw]

/-- On points the method has no flux, which the spaces ask for. -/
theorem C140_md_point_violated (k : Int) {mesh : Mesh} {flux potential : String} (hne : flux ≠ potential) :
    ∀ m ∈ mdMethods 0 k flux potential, mdPlan 0 m.2 mesh flux potential = .error .keyError := by
  intro m hm
  have e : m = ("mixed_rt", [(potential, ("Lagrange", k))]) := List.mem_singleton.1 hm
  subst e
  simp [mdPlan, entry, Dict.getItem, Dict.get?, bind, Except.bind, Ne.symm hne]

/-! ### Examples -/

/-- A displacement of the plan is built on the example mesh. -/
example : ∃ m ∈ cgMethods 1, ∃ p, cgPlan m.2 ⟨2, exampleCells⟩ = .ok p ∧ ∃ P, p.build exampleBasix = .ok P ∧
    P.spaces.map Prod.fst = ["u"] :=
  ⟨_, List.mem_singleton.2 rfl, _, rfl, _, rfl, rfl⟩

/-- A basis without negative orders. -/
example : ∃ basix : Basix, (∀ f d disc, ∃ e, basix f d (-1) disc = .error e) ∧ ∃ r, basix .P 2 1 false = .ok r :=
  ⟨fun f d k disc => if k < 0 then .error .valueError else exampleBasix f d k disc,
    fun _ _ _ => ⟨.valueError, rfl⟩, _, rfl⟩

/-- Tags of the layered example. -/
example : ∃ ids : Dict String (List Int),
    ∀ name ∈ ["under", "reservoir", "over", "bc_bottom", "bc_top", "bc_west", "bc_east"],
      ∃ l, ids.get? name = some l :=
  ⟨["under", "reservoir", "over", "bc_bottom", "bc_top", "bc_west", "bc_east"].map fun n => (n, [1]), by
    intro name hn
    simp only [List.mem_cons, List.not_mem_nil, or_false] at hn
    rcases hn with rfl | rfl | rfl | rfl | rfl | rfl | rfl <;> exact ⟨[1], rfl⟩⟩

/-- Quadratic fluxes with linear potentials need quadrature of order five. -/
example : ∃ p, flowPlan [("v", ("RT", 2)), ("q", ("Lagrange", 1))] ⟨2, exampleCells⟩ "v" "q" = .ok p ∧
    integrationOrder p.data = .ok 5 := ⟨_, rfl, rfl⟩

example : (⟨2, exampleCells⟩ : Mesh).dimension = 2 ∧ "u" ≠ "p" := ⟨rfl, by decide⟩

/-- The displacement of the layered example is continuous and has two components on surfaces and three otherwise. -/
theorem C140_layered_field (k : Int) {mesh : Mesh} {ids : Dict String (List Int)} : ∀ m ∈ cgMethods k, ∀ p,
    layeredPlan m.2 mesh ids = .ok p →
      p.disc.get? "u" = some false ∧ HasComponents p "u" (if mesh.dimension = 2 then 2 else 3) := by
  intro m hm p h
  obtain rfl := List.mem_singleton.1 hm
  unfold layeredPlan at h
  obtain ⟨u, hu, h⟩ := Res.bind_eq_ok.1 h
  obtain ⟨_, -, h⟩ := Res.bind_eq_ok.1 h
  obtain ⟨_, -, h⟩ := Res.bind_eq_ok.1 h
  obtain ⟨_, -, h⟩ := Res.bind_eq_ok.1 h
  obtain ⟨_, -, h⟩ := Res.bind_eq_ok.1 h
  obtain ⟨_, -, h⟩ := Res.bind_eq_ok.1 h
  obtain ⟨_, -, h⟩ := Res.bind_eq_ok.1 h
  obtain ⟨_, -, h⟩ := Res.bind_eq_ok.1 h
  obtain rfl := Except.ok.inj h
  obtain rfl := Except.ok.inj hu
  exact ⟨rfl, _, rfl, rfl⟩

/-- What the examples of `cosserat_ecmor` ask for: stresses and couple stresses continuous, displacements and
rotations not, conditions on the boundary for the continuous fields. -/
theorem C140_ecmor_fields (k : Int) (bc : List Int) (mesh : Mesh) :
    (∀ m ∈ threeFieldMethods k, ∀ p, ecmorThreePlan bc m.2 mesh = .ok p →
      (∀ name d, p.disc.get? name = some d → (d = false ↔ name = "s")) ∧ p.disc.keys = p.data.keys ∧
        p.bTags.keys = ["s"]) ∧
    ∀ m ∈ (cosseratThreeMethods k).take 1, ∀ p, ecmorFourPlan m.2 mesh = .ok p →
      (∀ name d, p.disc.get? name = some d → (d = false ↔ name = "s" ∨ name = "m")) ∧ p.disc.keys = p.data.keys ∧
        p.bTags.keys = ["s", "m"] := by
  constructor
  · intro m hm p h
    obtain rfl := List.mem_singleton.1 hm
    obtain rfl := Except.ok.inj h
    refine ⟨?_, rfl, rfl⟩
    intro name d hd
    simp only [Dict.get?] at hd
    split at hd
    · next e => subst e; obtain rfl := Option.some.inj hd; simp
    · split at hd
      · next e => subst e; obtain rfl := Option.some.inj hd; simp
      · split at hd
        · next e => subst e; obtain rfl := Option.some.inj hd; simp
        · cases hd
  · intro m hm p h
    obtain rfl := List.mem_singleton.1 hm
    obtain rfl := Except.ok.inj h
    refine ⟨?_, rfl, rfl⟩
    intro name d hd
    simp only [Dict.get?] at hd
    split at hd
    · next e => subst e; obtain rfl := Option.some.inj hd; simp
    · split at hd
      · next e => subst e; obtain rfl := Option.some.inj hd; simp
      · split at hd
        · next e => subst e; obtain rfl := Option.some.inj hd; simp
        · split at hd
          · next e => subst e; obtain rfl := Option.some.inj hd; simp
          · cases hd

#print axioms C140_follows
#print axioms C140_integration
#print axioms C140_integration_empty
#print axioms C140_three_field
#print axioms C140_four_field
#print axioms C140_displacement
#print axioms C140_line_components_violated
#print axioms C140_pressure
#print axioms C140_pressure_violated
#print axioms C140_pressure_order_violated
#print axioms C140_layered
#print axioms C140_ecmor_violated
#print axioms C140_flow
#print axioms C140_scenario_one
#print axioms C140_scenario_two
#print axioms C140_scenario_two_line_violated
#print axioms C140_advection
#print axioms C140_transport
#print axioms C140_scenario_two_sides
#print axioms C140_md
#print axioms C140_md_dimension
#print axioms C140_md_point_violated

#print axioms C140_layered_field
#print axioms C140_ecmor_fields

end Verif.DriverSpaces
