/-
Property theorems C132: the data kept by a finite element (src/basis/element_data.py,
src/basis/finite_element.py).
-/
import Verif.Spec.ElementData
import Mathlib.Tactic.Ring

namespace Verif.ElementData
variable {π φ γ ω : Type}

theorem foldl_total (ned : List (List Nat)) : ∀ n : Nat,
    ned.foldl (fun n l => n + l.sum) n = n + total ned := by
  induction ned with
  | nil => intro n; simp [total]
  | cons a t ih => intro n; rw [List.foldl_cons, ih]; simp [total]; omega

/-- C132: a new element has the number of degrees of freedom of its reference element, the order
given or, when this is zero, twice its own plus one, and nothing else. -/
theorem C132_new (k order : Int) (ned : List (List Nat)) :
    (construct k order ned : Data π φ γ ω).nDof = total ned ∧
    (construct k order ned : Data π φ γ ω).numEntityDofs = ned ∧
    (construct k order ned : Data π φ γ ω).order = (if order = 0 then 2 * k + 1 else order) ∧
    (construct k order ned : Data π φ γ ω).points = none ∧
    (construct k order ned : Data π φ γ ω).weights = none ∧
    (construct k order ned : Data π φ γ ω).map = {} := by
  unfold construct setOrder fillDof
  by_cases h : order = 0 <;> simp [h, foldl_total]

/-- A Raviart-Thomas triangle of order one: one degree of freedom on each edge -/
example : (construct 1 0 [[0, 0, 0], [1, 1, 1], [0]] : Data Unit Unit Unit Unit).nDof = 3 ∧
    (construct 1 0 [[0, 0, 0], [1, 1, 1], [0]] : Data Unit Unit Unit Unit).order = 3 ∧
    (construct 1 5 [[0, 0, 0], [1, 1, 1], [0]] : Data Unit Unit Unit Unit).order = 5 :=
  ⟨rfl, rfl, rfl⟩

theorem or_assoc' {α : Type} (a : Option α) (b c : Option α) : (a.or b).or c = a.or (b.or c) := by
  cases a <;> rfl

/-- C132: after any calls the shapes kept are those of the last points, the geometry kept is the
one of the last evaluation that was to be stored, and the quadrature the last one filled in. -/
theorem C132_run (g : Geometry π φ γ) (mapping : φ → π → Res γ) (ned : List (List Nat))
    (calls : List (Call π ω)) : ∀ d : Data π φ γ ω, d.map.cellPoints = none →
    (run g mapping ned d calls).map.phi =
      (if g.dimension = 0 then d.map.phi else ((lastPoints calls).map g.shapes).or d.map.phi) ∧
    (run g mapping ned d calls).map.geo = (lastStored g calls).or d.map.geo ∧
    (run g mapping ned d calls).points = ((lastRule calls).map Prod.fst).or d.points ∧
    (run g mapping ned d calls).weights = ((lastRule calls).map Prod.snd).or d.weights ∧
    (run g mapping ned d calls).nDof = d.nDof + fills calls * total ned ∧
    (run g mapping ned d calls).map.cellPoints = none := by
  induction calls with
  | nil => intro d h; simp [run, lastPoints, lastStored, lastRule, fills, h]
  | cons c t ih =>
    intro d h
    have hrun : run g mapping ned d (c :: t) = run g mapping ned (call g mapping ned d c) t := rfl
    rw [hrun]
    cases c with
    | mapping p s =>
      by_cases h0 : g.dimension = 0
      · obtain ⟨i1, i2, i3, i4, i5, i6⟩ := ih (call g mapping ned d (.mapping p s)) (by
          cases s <;> simp [call, evaluateMapping, h0, h])
        rw [i1, i2, i3, i4, i5]
        refine ⟨?_, ?_, ?_, ?_, ?_, i6⟩ <;>
          cases s <;> simp [call, evaluateMapping, h0, lastStored, lastRule, fills]
      · obtain ⟨i1, i2, i3, i4, i5, i6⟩ := ih (call g mapping ned d (.mapping p s)) (by
          cases s <;> cases hm : g.mapping (g.shapes p) <;>
            simp [call, evaluateMapping, h0, h, hm])
        rw [i1, i2, i3, i4, i5]
        refine ⟨?_, ?_, ?_, ?_, ?_, i6⟩ <;>
          cases s <;> cases hm : g.mapping (g.shapes p) <;> cases hl : lastPoints t <;>
            simp [call, evaluateMapping, h0, lastStored, lastRule, lastPoints, fills, hm, hl]
    | quadrature q =>
      obtain ⟨i1, i2, i3, i4, i5, i6⟩ := ih (call g mapping ned d (.quadrature q)) h
      rw [i1, i2, i3, i4, i5]
      refine ⟨rfl, rfl, ?_, ?_, rfl, i6⟩ <;>
        cases hl : lastRule t <;> simp [call, fillQuadrature, lastRule, hl]
    | dofs =>
      obtain ⟨i1, i2, i3, i4, i5, i6⟩ := ih (call g mapping ned d .dofs) h
      rw [i1, i2, i3, i4, i5]
      refine ⟨rfl, rfl, rfl, rfl, ?_, i6⟩
      simp only [call, fillDof, foldl_total, fills]
      ring
    | basis => exact ih d h
    | store =>
      have : call g mapping ned d .store = d := by
        simp only [call, storeMapping, h]
        cases d.map.phi <;> rfl
      rw [this]
      exact ih d h

/-- C132 is violated: filling in the degrees of freedom adds to their number; after `n` further
times it is `n + 1` times the right one. -/
theorem C132_dofs_violated (g : Geometry π φ γ) (mapping : φ → π → Res γ) (ned : List (List Nat))
    (k order : Int) (n : Nat) :
    (run g mapping ned (construct k order ned : Data π φ γ ω)
      (List.replicate n .dofs)).nDof = (n + 1) * total ned := by
  have hf : fills (List.replicate n (.dofs : Call π ω)) = n := by
    induction n with
    | zero => rfl
    | succ n ih => simp [List.replicate_succ, fills, ih]
  obtain ⟨h1, -, -, -, -, h6⟩ := C132_new (π := π) (φ := φ) (γ := γ) (ω := ω) k order ned
  rw [(C132_run g mapping ned _ _ (by rw [h6])).2.2.2.2.1, hf, h1]
  ring

example : (run (⟨1, id, .ok, 0⟩ : Geometry Nat Nat Nat) (fun a _ => .ok a) [[1, 1], [0]]
    (construct 1 0 [[1, 1], [0]] : Data Nat Nat Nat Nat) [.dofs]).nDof = 4 := rfl

/-- The geometry of an element whose mapping doubles the points -/
def doubling : Geometry Nat Nat Nat := ⟨1, id, fun p => .ok (2 * p), 0⟩

/-- C132 is violated: an evaluation that is not to be stored still replaces the shapes, so that
they do not belong to the geometry kept. -/
theorem C132_stale_violated :
    ¬ ∀ calls : List (Call Nat Nat), Consistent doubling
      (run doubling (fun a _ => .ok a) [] (construct 1 0 []) calls) := by
  intro h
  have := h [.mapping 3 true, .mapping 5 false] 5 6 rfl rfl
  cases this

/-- C132: when every evaluation is stored and none raises they do belong together, on cells that
are not points. -/
theorem C132_consistent (g : Geometry π φ γ) (hd : g.dimension ≠ 0) (mapping : φ → π → Res γ)
    (ned : List (List Nat)) (k order : Int) (calls : List (Call π ω))
    (hs : ∀ p, Call.mapping p false ∉ calls)
    (hok : ∀ p, Call.mapping p true ∈ calls → ∃ r, g.mapping (g.shapes p) = .ok r) :
    Consistent g (run g mapping ned (construct k order ned : Data π φ γ ω) calls) := by
  obtain ⟨-, -, -, -, -, h6⟩ := C132_new (π := π) (φ := φ) (γ := γ) (ω := ω) k order ned
  obtain ⟨i1, i2, -⟩ := C132_run g mapping ned calls (construct k order ned : Data π φ γ ω)
    (by rw [h6])
  have key : ∀ calls : List (Call π ω), (∀ p, Call.mapping p false ∉ calls) →
      (∀ p, Call.mapping p true ∈ calls → ∃ r, g.mapping (g.shapes p) = .ok r) →
      (lastPoints calls = none → lastStored g calls = none) ∧
      ∀ p, lastPoints calls = some p →
        ∃ r, g.mapping (g.shapes p) = .ok r ∧ lastStored g calls = some r := by
    intro calls
    induction calls with
    | nil => intro _ _; simp [lastPoints, lastStored]
    | cons c t ih =>
      intro hs hok
      obtain ⟨j1, j2⟩ := ih (fun p hp => hs p (List.mem_cons_of_mem _ hp))
        (fun p hp => hok p (List.mem_cons_of_mem _ hp))
      cases c with
      | mapping p s =>
        cases s with
        | false => exact absurd List.mem_cons_self (hs p)
        | true =>
          obtain ⟨r, hr⟩ := hok p List.mem_cons_self
          cases hl : lastPoints t with
          | none =>
            refine ⟨by simp [lastPoints, hl], fun q hq => ?_⟩
            obtain rfl : p = q := by simpa [lastPoints, hl] using hq
            exact ⟨r, hr, by simp [lastStored, j1 hl, hd, hr]⟩
          | some q =>
            obtain ⟨r', hr', hs'⟩ := j2 q hl
            refine ⟨by simp [lastPoints, hl], fun q' hq' => ?_⟩
            obtain rfl : q = q' := by simpa [lastPoints, hl] using hq'
            exact ⟨r', hr', by simp [lastStored, hs']⟩
      | quadrature q => exact ⟨j1, j2⟩
      | dofs => exact ⟨j1, j2⟩
      | basis => exact ⟨j1, j2⟩
      | store => exact ⟨j1, j2⟩
  obtain ⟨j1, j2⟩ := key calls hs hok
  intro phi r hphi hgeo
  rw [i1, if_neg hd, h6] at hphi
  rw [i2, h6] at hgeo
  cases hl : lastPoints calls with
  | none => simp [hl] at hphi
  | some p =>
    obtain ⟨r', hr', hs'⟩ := j2 p hl
    obtain rfl : g.shapes p = phi := by simpa [hl] using hphi
    obtain rfl : r' = r := by simpa [hs'] using hgeo
    exact hr'

example : doubling.dimension ≠ 0 ∧
    (run doubling (fun a _ => .ok a) [] (construct 1 0 [] : Data Nat Nat Nat Nat)
      [.mapping 3 true, .mapping 5 true]).map.phi = some 5 ∧
    (run doubling (fun a _ => .ok a) [] (construct 1 0 [] : Data Nat Nat Nat Nat)
      [.mapping 3 true, .mapping 5 true]).map.geo = some 10 := ⟨by decide, rfl, rfl⟩

/-- C132 is violated: whatever was called before, `store_mapping` raises `AttributeError` and
`storage_basis` raises `TypeError`; neither changes anything. -/
theorem C132_store_violated (g : Geometry π φ γ) (mapping : φ → π → Res γ) (ned : List (List Nat))
    (k order : Int) (calls : List (Call π ω)) :
    let d := run g mapping ned (construct k order ned : Data π φ γ ω) calls
    storeMapping mapping d = (d, .error .attributeError) ∧
    storageBasis d = (d, .error .typeError) := by
  obtain ⟨-, -, -, -, -, h6⟩ := C132_new (π := π) (φ := φ) (γ := γ) (ω := ω) k order ned
  obtain ⟨-, -, -, -, -, i6⟩ := C132_run g mapping ned calls (construct k order ned : Data π φ γ ω)
    (by rw [h6])
  refine ⟨?_, rfl⟩
  simp only [storeMapping, i6]
  cases (run g mapping ned (construct k order ned : Data π φ γ ω) calls).map.phi <;> rfl

/-- C132: were the points of the cell kept, `store_mapping` would keep the geometry of the shapes
kept. -/
theorem C132_store (mapping : φ → π → Res γ) (d : Data π φ γ ω) (phi : φ) (pts : π) (r : γ)
    (h1 : d.map.phi = some phi) (h2 : d.map.cellPoints = some pts) :
    (mapping phi pts = .ok r → storeMapping mapping d =
      ({ d with map := { d.map with geo := some r } }, .ok ())) ∧
    (∀ e, mapping phi pts = .error e → storeMapping mapping d = (d, .error e)) := by
  constructor
  · intro h; simp [storeMapping, h1, h2, h]
  · intro e h; simp [storeMapping, h1, h2, h]

example : storeMapping (fun a b => .ok (a * b))
    ({ map := { phi := some 2, cellPoints := some 3 } } : Data Nat Nat Nat Nat) =
    ({ map := { phi := some 2, geo := some 6, cellPoints := some 3 } }, .ok ()) := rfl

/-- C132: what evaluating the mapping returns, and what it raises. -/
theorem C132_evaluate (g : Geometry π φ γ) (p : π) (s : Bool) (d : Data π φ γ ω) :
    (g.dimension = 0 → (evaluateMapping g p s d).2 = .ok g.pointMapping ∧
      (evaluateMapping g p s d).1.map.phi = d.map.phi) ∧
    (g.dimension ≠ 0 → (evaluateMapping g p s d).2 = g.mapping (g.shapes p) ∧
      (evaluateMapping g p s d).1.map.phi = some (g.shapes p)) ∧
    (s = false → (evaluateMapping g p s d).1.map.geo = d.map.geo) ∧
    (s = true → ∀ r, (evaluateMapping g p s d).2 = .ok r →
      (evaluateMapping g p s d).1.map.geo = some r) := by
  by_cases h0 : g.dimension = 0
  · cases s <;> simp [evaluateMapping, h0]
  · cases s <;> cases hm : g.mapping (g.shapes p) <;> simp [evaluateMapping, h0, hm]

example : doubling.dimension ≠ 0 ∧ (⟨0, id, .ok, 7⟩ : Geometry Nat Nat Nat).dimension = 0 :=
  ⟨by decide, rfl⟩

/-- C132 is violated: only boundary markers and bases can be copied; quadratures, mappings,
degrees of freedom and elements raise `AttributeError`. -/
theorem C132_copies_violated (c : Cls) :
    (Copies c ↔ c = .bcEntities ∨ c = .basis) ∧
    (¬ Copies c → copy c = .error .attributeError) := by
  unfold Copies
  cases c <;> refine ⟨⟨?_, ?_⟩, ?_⟩ <;> first
    | (intro h; cases h; done)
    | (rintro (h | h) <;> cases h; done)
    | (intro _; rfl)
    | (intro _; exact .inl rfl)
    | (intro _; exact .inr rfl)
    | (intro h; exact absurd rfl h)

example : Copies .basis ∧ ¬ Copies .quadrature := ⟨rfl, fun h => by cases h⟩

theorem readAll_ok (attrs : List String) : ∀ l : List String, (∀ a ∈ l, a ∈ attrs) →
    readAll attrs l = .ok ()
  | [], _ => rfl
  | a :: t, h => by
    rw [readAll, if_pos (h a (by simp))]
    exact readAll_ok attrs t (fun b hb => h b (by simp [hb]))

/-- C132 is violated also for the objects: were `copy` a method of objects, quadratures and degrees
of freedom could be copied, but mappings would still lack the attribute, and elements, once the
copies of their parts are there, would pass four arguments too many; even mappings with all attributes would pass one too many. -/
theorem C132_object_copies_violated :
    copyWith (initAttrs .quadrature) .quadrature = .ok (initAttrs .quadrature) ∧
    copyWith (initAttrs .dof) .dof = .ok (initAttrs .dof) ∧
    copyWith (initAttrs .mapping) .mapping = .error .attributeError ∧
    copyWith (initAttrs .element) .element = .error .typeError ∧
    ∀ attrs : List String, "phi" ∈ attrs → copyWith attrs .mapping = .error .typeError := by
  refine ⟨rfl, rfl, rfl, rfl, fun attrs h => ?_⟩
  unfold copyWith
  rw [readAll_ok attrs _ (by simpa [copyReads] using h)]
  rfl

example : "phi" ∈ ["phi", "x"] := by decide

/-- C132: each copy passes what the constructor takes, apart from those of the mapping and of the element, which
pass more. -/
theorem C132_args (c : Cls) : (copyArgs c = initArgs c ↔ c ≠ .mapping ∧ c ≠ .element) ∧ initArgs c ≤ copyArgs c := by
  cases c <;> decide

#print axioms C132_new
#print axioms C132_run
#print axioms C132_dofs_violated
#print axioms C132_stale_violated
#print axioms C132_consistent
#print axioms C132_store_violated
#print axioms C132_store
#print axioms C132_evaluate
#print axioms C132_copies_violated
#print axioms C132_object_copies_violated

#print axioms C132_args

end Verif.ElementData
