/-
Property theorems C131: mixed-dimensional product spaces (src/spaces/md_product_space.py).
-/
import Verif.Spec.MdProduct
import Verif.Props.Space

namespace Verif.MdProduct
open MeshBuild MeshGraph Dof Space Quadrature
variable {ρ : Type}

/-- C131: the constructor keeps up to three product spaces and sets nothing else. -/
theorem C131_new (dims : List Nat) :
    (dims.length ≤ 3 → Md.new ρ dims = .ok { byDim := dims }) ∧
    (3 < dims.length → Md.new ρ dims = .error .valueError) := by
  constructor <;> intro h
  · simp [Md.new, Nat.not_lt.2 h]
  · simp [Md.new, h]

/-- C131 is violated: product spaces for the dimensions zero to three are refused, while one for
the dimension seven, or three for the same dimension, are taken. -/
theorem C131_limit_violated :
    ¬ ∀ dims : List Nat, (∃ m, Md.new ρ dims = .ok m) ↔ UpToThree dims := by
  intro h
  have h1 := (h [0, 1, 2, 3]).2 ⟨by decide, by decide⟩
  obtain ⟨m, hm⟩ := h1
  cases hm

/-- both directions fail -/
example : UpToThree [0, 1, 2, 3] ∧ Md.new Unit [0, 1, 2, 3] = .error .valueError ∧
    ¬ UpToThree [7] ∧ (Md.new Unit [7]).isOk ∧ ¬ UpToThree [2, 2, 2] ∧
    (Md.new Unit [2, 2, 2]).isOk :=
  ⟨⟨by decide, by decide⟩, rfl, fun h => absurd (h.2 7 (by simp)) (by decide), rfl,
    fun h => absurd h.1 (by decide), rfl⟩

/-- C131 is violated: no field can be defined, since the name of the class of the fields is not
known to the module; the fields known before are dropped. -/
theorem C131_name_violated (m : Md ρ) (data : Dict String FieldData) (h : data ≠ []) :
    m.defineSpaces data = ({ m with spaces := some [] }, .error .nameError) ∧
    m.defineSpaces [] = ({ m with spaces := some [] }, .ok ()) := by
  match data, h with
  | _ :: _, _ => exact ⟨rfl, rfl⟩

example : exampleData ≠ [] := by simp [exampleData]

theorem call_fieldless (mk : Nat → Int → Res ρ) (pt : ρ) (m : Md ρ) (h : Fieldless m) (c : Call) :
    Fieldless (m.call mk pt c).1 ∧ (m.call mk pt c).1.byDim = m.byDim := by
  obtain ⟨h1, h2, h3⟩ := h
  cases c with
  | rules data =>
    simp only [Md.call, Md.defineRules]
    split <;> exact ⟨⟨h1, h2, h3⟩, rfl⟩
  | spaces data =>
    cases data <;> exact ⟨⟨.inr rfl, h2, h3⟩, rfl⟩
  | dofs =>
    rcases h1 with h | h
    · have e : m.call mk pt .dofs = ({ m with dofs := some [] }, .error .attributeError) := by
        simp [Md.call, Md.defineDofs, h]
      rw [e]
      exact ⟨⟨.inl h, .inr rfl, h3⟩, rfl⟩
    · have e : m.call mk pt .dofs = ({ m with dofs := some [] }, .ok ()) := by
        simp [Md.call, Md.defineDofs, h, collectDofs]
      rw [e]
      exact ⟨⟨.inr h, .inr rfl, h3⟩, rfl⟩
  | nDof =>
    rcases h2 with h | h
    · have e : m.call mk pt .nDof = ({ m with nDof := some 0 }, .error .attributeError) := by
        simp [Md.call, Md.defineNDof, h]
      rw [e]
      exact ⟨⟨h1, .inl h, .inr rfl⟩, rfl⟩
    · have e : m.call mk pt .nDof = ({ m with nDof := some 0 }, .ok ()) := by
        simp [Md.call, Md.defineNDof, h, Dict.values]
      rw [e]
      exact ⟨⟨h1, .inr h, .inr rfl⟩, rfl⟩

theorem run_fieldless (mk : Nat → Int → Res ρ) (pt : ρ) (calls : List Call) : ∀ m : Md ρ,
    Fieldless m → Fieldless (m.run mk pt calls) ∧ (m.run mk pt calls).byDim = m.byDim := by
  induction calls with
  | nil => exact fun m h => ⟨h, rfl⟩
  | cons c t ih =>
    intro m h
    obtain ⟨h1, h2⟩ := call_fieldless mk pt m h c
    obtain ⟨h3, h4⟩ := ih _ h1
    exact ⟨h3, h4.trans h2⟩

/-- C131 is violated: whatever methods are called on a new object in whatever order, it knows no
field, its number of degrees of freedom is unset or zero, and destinations are never returned:
`AttributeError` while the fields or their numbers are unset, `ValueError` afterwards. -/
theorem C131_unreachable_violated (mk : Nat → Int → Res ρ) (pt : ρ) (dims : List Nat) (m : Md ρ)
    (hm : Md.new ρ dims = .ok m) (calls : List Call) (i : Nat) :
    Fieldless (m.run mk pt calls) ∧ (m.run mk pt calls).byDim = dims ∧
    (((m.run mk pt calls).dofs = none ∨ (m.run mk pt calls).spaces = none) →
      (m.run mk pt calls).destinationIndexes i = .error .attributeError ∧
      (m.run mk pt calls).bcDestinationIndexes i = .error .attributeError) ∧
    (((m.run mk pt calls).dofs ≠ none ∧ (m.run mk pt calls).spaces ≠ none) →
      (m.run mk pt calls).spacesDest i = .ok [] ∧
      (m.run mk pt calls).destinationIndexes i = .error .valueError ∧
      (m.run mk pt calls).bcDestinationIndexes i = .error .valueError) := by
  have h0 : m = { byDim := dims } := by
    unfold Md.new at hm
    split at hm
    · cases hm
    · exact (Except.ok.inj hm).symm
  subst h0
  obtain ⟨hf, hb⟩ := run_fieldless mk pt calls _
    (⟨.inl rfl, .inl rfl, .inl rfl⟩ : Fieldless ({ byDim := dims } : Md ρ))
  generalize Md.run mk pt { byDim := dims } calls = s at hf hb
  obtain ⟨h1, h2, h3⟩ := hf
  refine ⟨⟨h1, h2, h3⟩, hb, ?_, ?_⟩
  · intro h
    rcases h2 with h2 | h2
    · constructor <;>
        simp only [Md.destinationIndexes, Md.spacesDest, Md.bcDestinationIndexes, Md.spacesBcDest,
          h2, attr] <;> rfl
    · rcases h with h | h
      · rw [h] at h2; cases h2
      · constructor <;>
          simp only [Md.destinationIndexes, Md.spacesDest, Md.bcDestinationIndexes,
            Md.spacesBcDest, h2, h, attr] <;> rfl
  · rintro ⟨ha, hb⟩
    have h1 := h1.resolve_left hb
    have h2 := h2.resolve_left ha
    refine ⟨?_, ?_, ?_⟩ <;>
      simp only [Md.destinationIndexes, Md.spacesDest, Md.bcDestinationIndexes,
          Md.spacesBcDest, h1, h2, attr] <;> rfl

/-- Both kinds of states are reached. -/
example : ∃ m, Md.new Unit [1, 2] = .ok m ∧
    (m.run (fun _ _ => .ok ()) () [.rules exampleData, .spaces exampleData]).dofs = none ∧
    (m.run (fun _ _ => .ok ()) () [.spaces exampleData, .dofs]).dofs = some [] ∧
    (m.run (fun _ _ => .ok ()) () [.spaces exampleData, .dofs]).spaces.isSome ∧
    (m.run (fun _ _ => .ok ()) () [.spaces exampleData, .dofs]).destinationIndexes 0 =
      .error .valueError := ⟨_, rfl, rfl, rfl, rfl, rfl⟩

theorem collectDofs_ok : ∀ (spaces : Dict String Space) (d : Dict String Nat),
    (spaces.keys.Nodup) → (∀ x ∈ spaces.keys, x ∉ d.keys) →
    (∀ q ∈ spaces, ∃ m, q.2.dofMap = some m) →
    collectDofs spaces d = (d ++ numbers spaces, .ok ())
  | [], d, _, _, _ => by simp [collectDofs, numbers]
  | (name, s) :: rest, d, hn, hd, hb => by
    obtain ⟨map, hmap⟩ := hb _ List.mem_cons_self
    simp only [Dict.keys, List.map_cons, List.nodup_cons] at hn
    have hget : s.getDofMap = .ok map := by simp [Space.getDofMap, show s.dofMap = some map from hmap]
    simp only [collectDofs, hget]
    have hset : d.set name map.nDof = d ++ [(name, map.nDof)] :=
      Dict.set_of_not_mem _ (hd name (by simp [Dict.keys]))
    rw [hset, collectDofs_ok rest _ hn.2 ?_ (fun q hq => hb q (List.mem_cons_of_mem _ hq))]
    · simp [numbers, show s.dofMap = some map from hmap]
    · intro x hx
      have h1 := hd x (by simp only [Dict.keys, List.map_cons, List.mem_cons]; exact .inr hx)
      have h2 : x ≠ name := fun h => hn.1 (h ▸ hx)
      simp only [Dict.keys, List.map_append, List.mem_append, List.map_cons, List.map_nil,
        List.mem_singleton] at h1 ⊢
      rintro (h | h)
      · exact h1 h
      · exact h2 h

/-- C131: once the fields of a product space whose structures are built have been assigned by
hand, the numbers are those of this product space, and the destinations are its destinations
without shift. -/
theorem C131_assigned {basix : Basix} (gb : GoodBasix basix) {data : Dict String FieldData}
    {disc : Dict String Bool} {tags bTags : Dict String (List (Option Int))} {p : Product}
    (hp : BuiltFrom basix data disc tags bTags p) (m : Md ρ) (hm : m.spaces = some p.spaces) :
    m.defineDofs = ({ m with dofs := some p.dofs }, .ok ()) ∧
    m.defineDofs.1.defineNDof = ({ m with dofs := some p.dofs, nDof := some p.nDof }, .ok ()) ∧
    ∀ i, m.defineDofs.1.destinationIndexes i = p.destinationIndexes i none ∧
      m.defineDofs.1.bcDestinationIndexes i = p.bcDestinationIndexes i none := by
  obtain ⟨hok, hkeys, hsh⟩ := prodOK gb hp
  have hb : ∀ q ∈ p.spaces, ∃ m, q.2.dofMap = some m := by
    intro q hq
    obtain ⟨-, _, _, D, _, _, _, hF⟩ := hok.fields q hq
    exact ⟨D, hF.dofMap⟩
  have hnum : numbers p.spaces = p.dofs := by
    rw [hok.dofs]
    refine List.map_congr_left fun q hq => ?_
    obtain ⟨D, hD⟩ := hb q hq
    simp [Space.nDof, hD]
  have h1 : m.defineDofs = ({ m with dofs := some p.dofs }, .ok ()) := by
    simp only [Md.defineDofs, hm]
    rw [collectDofs_ok p.spaces [] (by rw [hkeys]; exact hp.1) (by simp [Dict.keys]) hb, hnum]
    rfl
  refine ⟨h1, ?_, ?_⟩
  · rw [h1]
    simp only [Md.defineNDof]
    rw [hok.nDof, hok.dofs]
    simp [Dict.values, List.map_map, Function.comp_def]
  · intro i
    rw [h1]
    simp only [Md.destinationIndexes, Md.spacesDest, Md.bcDestinationIndexes, Md.spacesBcDest, attr,
      hm, Res.bind_ok, Product.destinationIndexes, Product.bcDestinationIndexes,
      Product.spacesDest, Product.spacesBcDest, hsh]
    exact ⟨trivial, trivial⟩

example : ∃ p m, BuiltFrom exampleBasix exampleData [] [("u", [some 1]), ("p", [some 1])]
    [("p", [some 2])] p ∧ (m : Md Unit).spaces = some p.spaces ∧
    m.defineDofs.1.destinationIndexes 0 = .ok [0, 1, 2, 3, 4, 5, 6, 7, 8] := by
  refine ⟨_, { byDim := [], spaces := some _ }, ⟨by decide, ?_, _, rfl, rfl⟩, rfl, rfl⟩
  intro q hq
  have : q.2.mesh = ⟨2, exampleCells⟩ := by
    simp only [exampleData, List.mem_cons, List.not_mem_nil, or_false] at hq
    rcases hq with rfl | rfl <;> rfl
  rw [this]
  exact ⟨exampleCells_wf.1, exampleCells_wf.2.2, exampleCells_wf.2.1⟩

theorem collectDofs_stop (name : String) (s : Space) (rest : Dict String Space)
    (hs : s.dofMap = none) : ∀ (pre : Dict String Space) (d : Dict String Nat),
    pre.keys.Nodup → (∀ x ∈ pre.keys, x ∉ d.keys) → (∀ q ∈ pre, ∃ m, q.2.dofMap = some m) →
    collectDofs (pre ++ (name, s) :: rest) d = (d ++ numbers pre, .error .attributeError)
  | [], d, _, _, _ => by simp [collectDofs, numbers, Space.getDofMap, hs]
  | (n, q) :: pre, d, hn, hd, hb => by
    obtain ⟨map, hmap⟩ := hb _ List.mem_cons_self
    simp only [Dict.keys, List.map_cons, List.nodup_cons] at hn
    have hget : q.getDofMap = .ok map := by simp [Space.getDofMap, show q.dofMap = some map from hmap]
    simp only [List.cons_append, collectDofs, hget]
    have hset : d.set n map.nDof = d ++ [(n, map.nDof)] :=
      Dict.set_of_not_mem _ (hd n (by simp [Dict.keys]))
    rw [hset, collectDofs_stop name s rest hs pre _ hn.2 ?_
      (fun q hq => hb q (List.mem_cons_of_mem _ hq))]
    · simp [numbers, show q.dofMap = some map from hmap]
    · intro x hx
      have h1 := hd x (by simp only [Dict.keys, List.map_cons, List.mem_cons]; exact .inr hx)
      have h2 : x ≠ n := fun h => hn.1 (h ▸ hx)
      simp only [Dict.keys, List.map_append, List.mem_append, List.map_cons, List.map_nil,
        List.mem_singleton] at h1 ⊢
      rintro (h | h)
      · exact h1 h
      · exact h2 h

/-- C131 is violated: when the structures of a field are not built, `AttributeError` is raised,
but the numbers of the fields before it stay; `_define_n_dof` then gives the number for these
fields only. -/
theorem C131_stale_violated (m : Md ρ) (pre rest : Dict String Space) (name : String) (s : Space)
    (hm : m.spaces = some (pre ++ (name, s) :: rest)) (hs : s.dofMap = none) (hn : pre.keys.Nodup)
    (hb : ∀ q ∈ pre, ∃ m, q.2.dofMap = some m) :
    m.defineDofs = ({ m with dofs := some (numbers pre) }, .error .attributeError) ∧
    m.defineDofs.1.defineNDof =
      ({ m with dofs := some (numbers pre), nDof := some (numbers pre).values.sum }, .ok ()) := by
  have h1 : m.defineDofs = ({ m with dofs := some (numbers pre) }, .error .attributeError) := by
    simp only [Md.defineDofs, hm]
    rw [collectDofs_stop name s rest hs pre [] hn (by simp [Dict.keys]) hb]
    rfl
  exact ⟨h1, by rw [h1]; rfl⟩

/-- The first field is built, the second is not. -/
example : ∃ s s', Space.new 2 1 "Lagrange" 1 ⟨2, exampleCells⟩ = .ok s ∧
    s.buildStructures exampleBasix [some 1] = .ok s' ∧ s.dofMap = none ∧
    s'.dofMap.isSome ∧ (numbers [("p", s')]).values.sum = 3 := ⟨_, _, rfl, rfl, rfl, rfl, rfl⟩

/-- C131: the calls in which an attribute is missing raise `AttributeError`, yet set the number to
zero, respectively the table to an empty one. -/
theorem C131_missing (m : Md ρ) :
    (m.spaces = none → m.defineDofs = ({ m with dofs := some [] }, .error .attributeError)) ∧
    (m.dofs = none → m.defineNDof = ({ m with nDof := some 0 }, .error .attributeError)) ∧
    (m.dofs = none → ∀ i, m.destinationIndexes i = .error .attributeError ∧
      m.bcDestinationIndexes i = .error .attributeError) := by
  refine ⟨fun h => by simp [Md.defineDofs, h], fun h => by simp [Md.defineNDof, h], fun h i => ?_⟩
  constructor <;>
    simp only [Md.destinationIndexes, Md.spacesDest, Md.bcDestinationIndexes, Md.spacesBcDest, h,
      attr] <;> rfl

example : ({ byDim := [1] } : Md Unit).spaces = none ∧ ({ byDim := [1] } : Md Unit).dofs = none :=
  ⟨rfl, rfl⟩

#print axioms C131_new
#print axioms C131_limit_violated
#print axioms C131_name_violated
#print axioms C131_unreachable_violated
#print axioms C131_assigned
#print axioms C131_stale_violated
#print axioms C131_missing

end Verif.MdProduct
