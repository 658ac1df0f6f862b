/-
C148: assignment of shapes.
-/
import Verif.Props.Shape
import Verif.Spec.ShapeAssignment

namespace Verif.Topology.Shape
variable {P : Type} {argsort : List Int → List Nat} {close : P → P → Bool}

mutual
theorem view_shown : (s : Shape P) → s.view.immersed = (shown s).map view
  | vertex .. => rfl
  | composed k t p b i => by
    by_cases h : k = .wire
    · simp only [view, immersed, shown, if_pos h]
      exact expand_shown i
    · simp only [view, immersed, shown, if_neg h, viewAll_eq]
theorem expand_shown : (l : List (Shape P)) → expand (viewAll l) = (shownAll l).map view
  | [] => rfl
  | s :: ss => by
    have h := view_shown s
    have ih := expand_shown ss
    unfold expand at ih
    simp only [viewAll, expand, List.flatMap_cons, shownAll, List.map_append, ih, h, List.map_eq_nil_iff]
    congr 1
    split <;> rfl
end

theorem shownAll_undivided {l : List (Shape P)} (h : ∀ x ∈ l, shown x = []) : shownAll l = l := by
  induction l with
  | nil => rfl
  | cons s ss ih =>
    rw [shownAll, if_pos (h s (List.mem_cons_self ..)), ih fun x hx => h x (List.mem_cons_of_mem _ hx)]
    rfl

/-- Only the class and not the content of the object on the left matters. -/
theorem assign_kind {a a' : Shape P} (h : a.kindOf = a'.kindOf) (other : Shape P) :
    assign argsort a other = assign argsort a' other := by
  cases a <;> cases a' <;> simp [kindOf] at h
  · cases other <;> rfl
  · subst h; cases other <;> rfl

/-- C148.  Shapes of different dimension, and a composite and a simple shape, are not assigned to each other. -/
theorem C148_refused {self other : Shape P} (h : self.kindOf ≠ other.kindOf) :
    assign argsort self other = .error .valueError := by
  rcases self with _ | ⟨k, _⟩ <;> rcases other with _ | ⟨k', _⟩
  · exact absurd rfl h
  · cases k' <;> rfl
  · cases k <;> rfl
  · cases k <;> cases k' <;> first | exact absurd rfl h | rfl

/-- C148.  The dimension and whether it is composite determine the class of a shape. -/
theorem C148_class (a b : Shape P) :
    (a.dimension = b.dimension ∧ a.composite = b.composite) ↔ a.kindOf = b.kindOf := by
  rcases a with _ | ⟨k, _⟩ <;> rcases b with _ | ⟨k', _⟩
  · exact ⟨fun _ => rfl, fun _ => ⟨rfl, rfl⟩⟩
  · cases k' <;> simp [dimension, composite, kindOf, Kind.dimension]
  · cases k <;> simp [dimension, composite, kindOf, Kind.dimension]
  · cases k <;> cases k' <;> simp [dimension, composite, kindOf, Kind.dimension, Kind.composite]

theorem assign_composed (k : Kind) (t t' : Int) (p p' : Option Int) (b b' i i' : List (Shape P)) :
    assign argsort (composed k t p b i) (composed k t' p' b' i') = (do
      let x ← setBoundary argsort k b'
      let y ← setImmersed k (shown (composed k t' p' b' i'))
      pure (composed k t' p' x y)) := by
  simp only [assign, dimension, composite, ne_eq, not_true_eq_false, if_false]

theorem setBoundary_ordered (ha : IsArgsort argsort) {k : Kind} {b : List (Shape P)}
    (hd : ∀ x ∈ b, x.dimension ≤ k.dimension) (ho : (b.map tag).Pairwise (· < ·)) :
    setBoundary argsort k b = .ok b := by
  obtain ⟨l, h1, h2, h3⟩ := (C39_boundary_shapes ha k b).1 fun x hx => (C39_admissible k _).2 (hd x hx)
  rw [h1]
  congr 1
  have hn : (b.map tag).Nodup := ho.imp fun h => ne_of_lt h
  rw [List.pairwise_map] at h3 ho
  refine List.Perm.eq_of_pairwise (le := fun a b => a.tag ≤ b.tag) ?_ h3 (ho.imp fun h => le_of_lt h) h2
  intro x y hx hy hxy hyx
  exact List.inj_on_of_nodup_map hn (h2.mem_iff.1 hx) hy (le_antisymm hxy hyx)

theorem setImmersed_ok {k : Kind} {i : List (Shape P)} (h : ∀ x ∈ i, x.dimension ≤ k.dimension) :
    setImmersed k i = .ok i := by
  unfold setImmersed
  rw [if_pos (List.all_eq_true.2 fun s hs => by simpa using (C39_admissible k _).2 (h s hs))]
  rfl

/-- C148.  After the assignment the object has the class, the tag and the physical tag of the other one, and
shows the same boundary and immersed shapes, whatever it was before. -/
theorem C148_assigned_partial (ha : IsArgsort argsort) {self other : Shape P} (hk : self.kindOf = other.kindOf)
    (hw : other.WellFormed) (hu : other.Undivided) :
    ∃ s, assign argsort self other = .ok s ∧ s.view = other.view ∧ s.kindOf = self.kindOf ∧ s.tag = other.tag ∧
      s.physicalTag = other.physicalTag ∧ s.boundary = other.boundary ∧ shown s = shown other := by
  rw [assign_kind hk other]
  rcases other with ⟨t, p, x⟩ | ⟨k, t, p, b, i⟩
  · exact ⟨_, rfl, rfl, hk.symm, rfl, rfl, rfl, rfl⟩
  · have h1 := setBoundary_ordered ha (hw.boundary k rfl) hw.ordered
    have h2 := setImmersed_ok (hw.immersed k rfl)
    have h3 : shown (composed k t p b (shown (composed k t p b i))) = shown (composed k t p b i) := by
      by_cases h : k = .wire
      · subst h
        have := shownAll_undivided (hu rfl)
        rw [shown, if_pos rfl]
        exact this
      · rw [shown, if_neg h]
    refine ⟨composed k t p b (shown (composed k t p b i)), ?_, ?_, hk.symm, rfl, rfl, rfl, h3⟩
    · rw [assign_composed]
      simp only [boundary] at h1
      rw [h1, Res.bind_ok, h2, Res.bind_ok]
      rfl
    · have h4 := view_shown (composed k t p b (shown (composed k t p b i)))
      rw [h3, ← view_shown] at h4
      simp only [view, immersed] at h4 ⊢
      rw [h4]

/-- C148.  After the assignment the two objects are equal, from both sides, and contain the same shapes. -/
theorem C148_equal_partial (ha : IsArgsort argsort) (hc : ∀ x, close x x = true) {self other : Shape P}
    (hk : self.kindOf = other.kindOf) (hw : other.WellFormed) (hu : other.Undivided) :
    ∃ s, assign argsort self other = .ok s ∧ equal close s other = .ok true ∧ equal close other s = .ok true ∧
      ∀ x, contains close s x = contains close other x := by
  obtain ⟨s, h, hv, -⟩ := C148_assigned_partial ha hk hw hu
  refine ⟨s, h, ?_, ?_, fun x => ?_⟩
  · rw [equal, hv]; exact eq_refl hc _
  · rw [equal, hv]; exact eq_refl hc _
  · rw [contains, hv]; rfl

/-- C148.  Assigning a second time changes nothing, and the object before the assignment does not matter. -/
theorem C148_again {self other s : Shape P} (h : assign argsort self other = .ok s) :
    assign argsort s other = .ok s ∧ ∀ a : Shape P, a.kindOf = self.kindOf → assign argsort a other = .ok s := by
  have hk : self.kindOf = other.kindOf := by
    by_contra hne
    rw [C148_refused hne] at h
    exact absurd h (by simp)
  have hs : s.kindOf = self.kindOf := by
    rw [assign_kind hk other] at h
    rcases other with ⟨t, p, x⟩ | ⟨k, t, p, b, i⟩
    · obtain rfl : vertex t p x = s := Except.ok.inj h
      exact hk.symm
    · rw [assign_composed] at h
      obtain ⟨x, -, h⟩ := Res.bind_eq_ok.1 h
      obtain ⟨y, -, h⟩ := Res.bind_eq_ok.1 h
      obtain rfl := Except.ok.inj h
      exact hk.symm
  exact ⟨(assign_kind hs other).trans h, fun a hka => (assign_kind hka other).trans h⟩

/-- C148.  With equal tags in the boundary the assignment still succeeds, and the boundary of the object is a
rearrangement of the other boundary. -/
theorem C148_rearranged (ha : IsArgsort argsort) {self other : Shape P} (hk : self.kindOf = other.kindOf)
    (hb : ∀ k, other.kindOf = some k → ∀ x ∈ other.boundary, x.dimension ≤ k.dimension)
    (hi : ∀ k, other.kindOf = some k → ∀ x ∈ shown other, x.dimension ≤ k.dimension) :
    ∃ s, assign argsort self other = .ok s ∧ s.boundary.Perm other.boundary ∧ s.immersed = shown other := by
  rw [assign_kind hk other]
  rcases other with ⟨t, p, x⟩ | ⟨k, t, p, b, i⟩
  · exact ⟨_, rfl, .refl _, rfl⟩
  · obtain ⟨l, h1, h2, h3⟩ := (C39_boundary_shapes ha k b).1 fun x hx => (C39_admissible k _).2 (hb k rfl x hx)
    refine ⟨composed k t p l (shown (composed k t p b i)), ?_, h2, rfl⟩
    rw [assign_composed, h1, Res.bind_ok, setImmersed_ok (hi k rfl), Res.bind_ok]
    rfl

/-- The point `(x, y, z)`. -/
def at3 (x y z : ℚ) : Fin 3 → ℚ := ![x, y, z]

/-- The edge between two vertices at integers of the axis that is divided as given. -/
def divided (t a b : Int) (parts : List (Shape (Fin 3 → ℚ))) : Shape (Fin 3 → ℚ) :=
  .composed .edge t none [vertexAt a a, vertexAt b b] parts

/-- C148 does not hold for a wire with an edge that is divided twice: the wire takes the parts that the other
one shows, and then shows their parts, so the two are not equal. -/
theorem C148_divided_violated :
    let half := divided 1 0 2 [divided 3 0 1 [], divided 4 1 2 []]
    let other : Shape (Fin 3 → ℚ) := .composed .wire 9 none [vertexAt 0 0] [divided 0 0 4 [half, divided 2 2 4 []]]
    let self : Shape (Fin 3 → ℚ) := .composed .wire 8 none [vertexAt 0 0] [divided 5 0 4 []]
    other.WellFormed ∧ ∃ s, assign stableArgsort self other = .ok s ∧ (shown other).length = 2 ∧
      (shown s).length = 3 ∧ equal closePoints s other = .ok false := by
  intro half other self
  refine ⟨⟨?_, ?_, by simp [other, boundary]⟩, ?_⟩
  · intro k hk x hx
    obtain rfl : Kind.wire = k := Option.some.inj hk
    obtain rfl : x = vertexAt 0 0 := List.mem_singleton.1 hx
    exact Nat.zero_le _
  · intro k hk x hx
    obtain rfl : Kind.wire = k := Option.some.inj hk
    have : x ∈ [half, divided 2 2 4 []] := hx
    simp only [List.mem_cons, List.not_mem_nil, or_false] at this
    rcases this with rfl | rfl <;> exact le_refl _
  · exact ⟨.composed .wire 9 none [vertexAt 0 0] [half, divided 2 2 4 []], rfl, rfl, rfl, by decide +kernel⟩

/-- The wires of the repository's own test (tests/test_topology/test_shapes.py:345-357). -/
def testWires : Res (Oriented (Fin 3 → ℚ) × Oriented (Fin 3 → ℚ)) := do
  let v0 : Shape (Fin 3 → ℚ) := .vertex 0 none (at3 0 0 0)
  let v1 : Shape (Fin 3 → ℚ) := .vertex 1 none (at3 1 0 0)
  let v2 : Shape (Fin 3 → ℚ) := .vertex 2 none (at3 1 1 1)
  let v3 : Shape (Fin 3 → ℚ) := .vertex 3 none (at3 0 1 1)
  let e0 ← mkSimple stableArgsort .edge 0 [v0, v1]
  let e1 ← mkSimple stableArgsort .edge 1 [v1, v2]
  let e2 ← mkSimple stableArgsort .edge 2 [v2, v3]
  let e3 ← mkSimple stableArgsort .edge 3 [v3, v0]
  let w0 ← newWire stableArgsort closePoints 0 [e0, e1, e2, e3] [v0]
  let w1 ← newWire stableArgsort closePoints 1 [e1, e2, e3, e0] [v1]
  pure (w0, w1)

/-- C148.  The orientation of a wire is not assigned: after `w0.shape_assignment(w1)` the wires of the
repository's own test are equal, but the signs of `w0` are those of its former edges, and `boundary_points`
gives two different points for the closed wire. -/
theorem C148_orientation_violated :
    (do
      let (w0, w1) ← testWires
      let s ← w0.assign stableArgsort w1
      let e ← equal closePoints s.wire w1.wire
      let (a, b) ← s.boundaryPoints
      let (c, d) ← w1.boundaryPoints
      pure (e, s.orientation, w1.orientation, [a 0, b 0], [c 0, d 0])).toOption =
    some (true, [1, 1, 1, -1], [1, 1, -1, 1], [1, 0], [1, 1]) := by decide +kernel

/-- A wire of two edges, one of them divided. -/
def sampleWire : Shape (Fin 3 → ℚ) :=
  .composed .wire 9 (some 4) [vertexAt 0 0] [divided 0 0 4 [divided 1 0 2 [], divided 2 2 4 []], divided 3 4 5 []]

/-- The hypotheses of C148 hold for it. -/
example : (Shape.composed .wire 8 none [] [] : Shape (Fin 3 → ℚ)).kindOf = sampleWire.kindOf ∧
    sampleWire.WellFormed ∧ sampleWire.Undivided ∧ (shown sampleWire).length = 3 := by
  refine ⟨rfl, ⟨?_, ?_, by simp [boundary, sampleWire]⟩, ?_, rfl⟩
  · intro k hk x hx
    obtain rfl : Kind.wire = k := Option.some.inj hk
    obtain rfl : x = vertexAt 0 0 := List.mem_singleton.1 hx
    exact Nat.zero_le _
  · intro k hk x hx
    obtain rfl : Kind.wire = k := Option.some.inj hk
    have : x ∈ [divided 1 0 2 [], divided 2 2 4 [], divided 3 4 5 []] := hx
    simp only [List.mem_cons, List.not_mem_nil, or_false] at this
    rcases this with rfl | rfl | rfl <;> exact le_refl _
  · intro _ x hx
    have : x ∈ [divided 1 0 2 [], divided 2 2 4 [], divided 3 4 5 []] := hx
    simp only [List.mem_cons, List.not_mem_nil, or_false] at this
    rcases this with rfl | rfl | rfl <;> rfl

#print axioms C148_refused
#print axioms C148_class
#print axioms C148_assigned_partial
#print axioms C148_equal_partial
#print axioms C148_again
#print axioms C148_rearranged
#print axioms C148_divided_violated
#print axioms C148_orientation_violated

end Verif.Topology.Shape
