/-
Property theorems C127: the advection forms and the sequences of facets of examples/geothermal_flow.
-/
import Verif.Spec.ThreeFieldsForm
import Verif.Lemmas.Prelude
import Verif.Lemmas.Trace
import Verif.Lemmas.DofMap
import Verif.Props.Laplace
import Mathlib.Algebra.Order.Ring.Rat
import Mathlib.Tactic.Ring
import Mathlib.Tactic.FieldSimp
import Mathlib.Tactic.NormNum
import Mathlib.Tactic.Linarith

namespace Verif.ThreeFields
open MeshGraph MeshBuild Laplace L2Form Trace

variable {K : Type} [Field K] [LinearOrder K] [IsStrictOrderedRing K]

/-- Away from zero the value of the side from which the velocity comes is taken. -/
theorem C127_upwind (vn inner outer : K) :
    (0 < vn → upwind vn inner outer = inner) ∧ (vn < -(1 / 10 ^ 8) → upwind vn inner outer = outer) := by
  constructor
  · intro h
    simp [upwind, h]
  · intro h
    have h1 : ¬ (vn > 0) := by
      have : (0 : K) < 1 / 10 ^ 8 := by positivity
      linarith
    have h2 : isClose vn 0 = false := by
      rw [isClose, decide_eq_false_iff_not, sub_zero, abs_zero, mul_zero, add_zero, not_le]
      exact lt_of_lt_of_le (by linarith) (neg_le_abs vn)
    simp [upwind, h1, h2]

/-- Small inflow takes the inner value. -/
theorem C127_small_violated : ∃ vn inner outer : ℚ, vn < 0 ∧ inner ≠ outer ∧ upwind vn inner outer = inner := by
  refine ⟨-1 / 10 ^ 9, 1, 0, by norm_num, by norm_num, ?_⟩
  norm_num [upwind, isClose, abs_of_neg]

theorem alphaM_one {s : Side K} {d : Nat} (h : OneDof s d) (alpha : Nat → K) :
    s.alphaM alpha = .ok [alpha (s.nQ + d)] := by
  rw [Side.alphaM, h.dofs]
  simp [mapRes, h.lt, Res.pure_eq]

theorem m_one (s : Side K) (a : K) : s.m [a] = a * s.dm 0 := by simp [Side.m]

theorem scatter_one (r : Nat → K) (shift d : Nat) (v : Nat → K) :
    scatter r shift [d] v = Function.update r (shift + d) (v 0) := by simp [scatter]

/-- The form of an interior facet: its value, and where it vanishes -/
theorem C127_interface {p n : Side K} {d e : Nat} (hp : OneDof p d) (hn : OneDof n e) (hQ : p.nQ = n.nQ)
    (hM : p.nM = n.nM) (hU : p.nU = n.nU) (velocity : K) (alphaP alphaN : Nat → K)
    (ha : isClose (alphaP (p.nQ + d)) (alphaN (n.nQ + e))) :
    ∃ r, interfaceForm velocity p n alphaP alphaN = .ok r ∧ r.n = 2 * p.nDof ∧
      (let w := upwind (velocity * p.normal) (p.u alphaP) (n.u alphaN) * (velocity * p.normal)
       (∀ k, r.val k = if k = p.nDof + p.nQ + e then 1 / 2 * (flux n e alphaN - w) * n.dm 0
         else if k = p.nQ + d then 1 / 2 * (flux p d alphaP - w) * p.dm 0 else 0) ∧
       ((∀ k, r.val k = 0) ↔ flux p d alphaP = w ∧ flux n e alphaN = w)) := by
  have hne : p.nQ + d ≠ p.nDof + p.nQ + e := by
    have := hp.lt
    rw [Side.nDof]
    omega
  refine ⟨⟨2 * p.nDof, Function.update (Function.update (fun _ => (0 : K)) (p.nQ + d)
      (1 / 2 * (alphaP (p.nQ + d) * p.dm 0 - upwind (velocity * p.normal) (p.u alphaP) (n.u alphaN) *
        (velocity * p.normal)) * p.dm 0)) (p.nDof + p.nQ + e)
      (1 / 2 * (alphaN (n.nQ + e) * n.dm 0 - upwind (velocity * p.normal) (p.u alphaP) (n.u alphaN) *
        (velocity * p.normal)) * n.dm 0)⟩, ?_, rfl, ?_⟩
  · unfold interfaceForm
    rw [if_neg (not_not.2 hQ), if_neg (not_not.2 hM), if_neg (not_not.2 hU), alphaM_one hp, alphaM_one hn]
    simp only [Res.bind_ok]
    rw [if_neg (by simp), if_neg (by simp [ha]), hp.dofs, hn.dofs, scatter_one, scatter_one, m_one, m_one]
    rfl
  · intro w
    have hv : ∀ k, Function.update (Function.update (fun _ => (0 : K)) (p.nQ + d)
        (1 / 2 * (alphaP (p.nQ + d) * p.dm 0 - w) * p.dm 0)) (p.nDof + p.nQ + e)
        (1 / 2 * (alphaN (n.nQ + e) * n.dm 0 - w) * n.dm 0) k =
        if k = p.nDof + p.nQ + e then 1 / 2 * (flux n e alphaN - w) * n.dm 0
         else if k = p.nQ + d then 1 / 2 * (flux p d alphaP - w) * p.dm 0 else 0 := by
      intro k
      simp only [Function.update_apply, flux]
    refine ⟨hv, ?_⟩
    constructor
    · intro h
      have h1 := h (p.nQ + d)
      have h2 := h (p.nDof + p.nQ + e)
      dsimp only at h1 h2
      rw [hv, if_neg hne, if_pos rfl] at h1
      rw [hv, if_pos rfl] at h2
      have h3 := (mul_eq_zero.1 h1).resolve_right hp.ne
      have h4 := (mul_eq_zero.1 h2).resolve_right hn.ne
      exact ⟨sub_eq_zero.1 ((mul_eq_zero.1 h3).resolve_left (by norm_num)),
        sub_eq_zero.1 ((mul_eq_zero.1 h4).resolve_left (by norm_num))⟩
    · rintro ⟨h1, h2⟩ k
      dsimp only
      rw [hv, h1, h2, sub_self, mul_zero, zero_mul, zero_mul]
      simp

/-- Where the first cell is on the left, the form vanishes exactly if the flux on both sides is the velocity times the
value upstream. -/
theorem C127_left {p n : Side K} {d e : Nat} (hp : OneDof p d) (hn : OneDof n e) (hQ : p.nQ = n.nQ)
    (hM : p.nM = n.nM) (hU : p.nU = n.nU) (hl : p.normal = 1) {velocity : K}
    (hv : 0 ≤ velocity ∨ velocity < -(1 / 10 ^ 8)) (alphaP alphaN : Nat → K)
    (ha : isClose (alphaP (p.nQ + d)) (alphaN (n.nQ + e))) :
    ∃ r, interfaceForm velocity p n alphaP alphaN = .ok r ∧ ((∀ k, r.val k = 0) ↔
      flux p d alphaP = velocity * upstream velocity (p.u alphaP) (n.u alphaN) ∧
      flux n e alphaN = velocity * upstream velocity (p.u alphaP) (n.u alphaN)) := by
  obtain ⟨r, h1, -, -, h2⟩ := C127_interface hp hn hQ hM hU velocity alphaP alphaN ha
  refine ⟨r, h1, ?_⟩
  have hw : upwind (velocity * p.normal) (p.u alphaP) (n.u alphaN) * (velocity * p.normal) =
      velocity * upstream velocity (p.u alphaP) (n.u alphaN) := by
    rw [hl, mul_one]
    rcases hv with hv | hv
    · rcases hv.eq_or_lt with rfl | hv
      · simp
      · rw [(C127_upwind _ _ _).1 hv, upstream, if_pos hv.le, mul_comm]
    · have : ¬ 0 ≤ velocity := by
        have : (0 : K) < 1 / 10 ^ 8 := by positivity
        linarith
      rw [(C127_upwind _ _ _).2 hv, upstream, if_neg this, mul_comm]
  rw [hw] at h2
  exact h2

/-- Where the first cell is on the right, it vanishes for the negative flux. -/
theorem C127_right {p n : Side K} {d e : Nat} (hp : OneDof p d) (hn : OneDof n e) (hQ : p.nQ = n.nQ)
    (hM : p.nM = n.nM) (hU : p.nU = n.nU) (hl : p.normal = -1) {velocity : K}
    (hv : velocity ≤ 0 ∨ 1 / 10 ^ 8 < velocity) (alphaP alphaN : Nat → K)
    (ha : isClose (alphaP (p.nQ + d)) (alphaN (n.nQ + e))) :
    ∃ r, interfaceForm velocity p n alphaP alphaN = .ok r ∧ ((∀ k, r.val k = 0) ↔
      flux p d alphaP = -(velocity * upstream velocity (n.u alphaN) (p.u alphaP)) ∧
      flux n e alphaN = -(velocity * upstream velocity (n.u alphaN) (p.u alphaP))) := by
  obtain ⟨r, h1, -, -, h2⟩ := C127_interface hp hn hQ hM hU velocity alphaP alphaN ha
  refine ⟨r, h1, ?_⟩
  have hw : upwind (velocity * p.normal) (p.u alphaP) (n.u alphaN) * (velocity * p.normal) =
      -(velocity * upstream velocity (n.u alphaN) (p.u alphaP)) := by
    rw [hl, mul_neg, mul_one]
    rcases hv with hv | hv
    · rcases hv.eq_or_lt with rfl | hv
      · simp
      · rw [(C127_upwind _ _ _).1 (neg_pos.2 hv), upstream, if_neg (not_le.2 hv)]
        ring
    · have : 0 ≤ velocity := by
        have : (0 : K) < 1 / 10 ^ 8 := by positivity
        linarith
      rw [(C127_upwind _ _ _).2 (neg_lt_neg hv), upstream, if_pos this]
      ring
  rw [hw] at h2
  exact h2

/-- A cell with one degree of freedom of the flux in its facet -/
def sideOf (normal : ℚ) : Side ℚ := ⟨1, 1, 1, [0], fun _ => 1, fun _ => 1, normal⟩

theorem sideOf_one (normal : ℚ) : OneDof (sideOf normal) 0 := ⟨rfl, Nat.one_pos, by norm_num [sideOf]⟩

/-- With the first cell on the right the flux `v u` of a constant `u` does not make the form vanish. -/
theorem C127_orientation_violated : ∃ r, interfaceForm 1 (sideOf (-1)) (sideOf 1) (fun _ => 1) (fun _ => 1) = .ok r ∧
    flux (sideOf (-1)) 0 (fun _ => 1) = 1 * upstream 1 ((sideOf 1).u fun _ => 1) ((sideOf (-1)).u fun _ => 1) ∧
    ¬ ∀ k, r.val k = 0 := by
  obtain ⟨r, h1, h2⟩ := C127_right (sideOf_one (-1)) (sideOf_one 1) rfl rfl rfl rfl (velocity := (1 : ℚ))
    (Or.inr (by norm_num)) (fun _ => 1) (fun _ => 1) (by norm_num [isClose])
  refine ⟨r, h1, by norm_num [flux, sideOf, Side.u, upstream], fun h => ?_⟩
  have := (h2.1 h).1
  norm_num [flux, sideOf, Side.u, upstream] at this

/-- The form of a boundary facet: with outflow the flux of the inner value, with inflow that of the prescribed one -/
theorem C127_boundary {s : Side K} {d : Nat} (hs : OneDof s d) (hn : s.normal = 1 ∨ s.normal = -1) {velocity : K}
    (value : K) (hv : 0 ≤ velocity * s.normal ∨ velocity * s.normal < -(1 / 10 ^ 8)) (alpha : Nat → K) :
    ∃ r, boundaryForm velocity value s alpha = .ok r ∧ r.n = s.nDof ∧ (∀ k, k ≠ s.nQ + d → r.val k = 0) ∧
      ((∀ k, r.val k = 0) ↔
        flux s d alpha = velocity * if 0 ≤ velocity * s.normal then s.u alpha else value) := by
  have hw : sgn s.normal * (upwind (velocity * s.normal) (s.u alpha) value * (velocity * s.normal)) =
      velocity * if 0 ≤ velocity * s.normal then s.u alpha else value := by
    have hsg : sgn s.normal * s.normal = 1 := by
      rcases hn with h | h <;> norm_num [h, sgn]
    have : sgn s.normal * (upwind (velocity * s.normal) (s.u alpha) value * (velocity * s.normal)) =
        (sgn s.normal * s.normal) * velocity * upwind (velocity * s.normal) (s.u alpha) value := by ring
    rw [this, hsg, one_mul]
    rcases hv with hv | hv
    · rcases hv.eq_or_lt with h0 | hv
      · have hv0 : velocity = 0 := by
          rcases mul_eq_zero.1 h0.symm with h | h
          · exact h
          · rcases hn with h' | h' <;> norm_num [h'] at h
        simp [hv0]
      · rw [(C127_upwind _ _ _).1 hv, if_pos hv.le]
    · have h0 : ¬ 0 ≤ velocity * s.normal := by
        have : (0 : K) < 1 / 10 ^ 8 := by positivity
        linarith
      rw [(C127_upwind _ _ _).2 hv, if_neg h0]
  refine ⟨⟨s.nDof, Function.update (fun _ => (0 : K)) (s.nQ + d) ((alpha (s.nQ + d) * s.dm 0 -
      velocity * if 0 ≤ velocity * s.normal then s.u alpha else value) * s.dm 0)⟩, ?_, rfl, ?_⟩
  · unfold boundaryForm
    rw [alphaM_one hs]
    simp only [Res.bind_ok]
    rw [hs.dofs, scatter_one, m_one, hw]
    rfl
  · refine ⟨fun k hk => by
      dsimp only
      rw [Function.update_of_ne hk], ?_⟩
    constructor
    · intro h
      have h1 := h (s.nQ + d)
      dsimp only at h1
      rw [Function.update_self] at h1
      exact sub_eq_zero.1 ((mul_eq_zero.1 h1).resolve_right hs.ne)
    · intro h k
      dsimp only
      change alpha (s.nQ + d) * s.dm 0 = _ at h
      rw [h, sub_self, zero_mul]
      by_cases hk : k = s.nQ + d
      · rw [hk, Function.update_self]
      · rw [Function.update_of_ne hk]

/-- On every product space the forms raise, because they unpack the list of four quadratures into two variables. -/
theorem C127_raises_violated {E F Q R : Type} (missing : Err) (fields functions data : List String) (iels : List Nat)
    {quadrature : List Q} (hq : quadrature.length = 4) (space : Option (Dict String (FSpace E)))
    (fs : Option (Dict String F)) (body : Q × Q → Res R) :
    ∃ e, header missing fields functions data iels quadrature space fs body = .error e := by
  have hu : unpackTwo quadrature = .error .valueError := by
    match quadrature, hq with
    | [a, b, c, d], _ => rfl
  cases space with
  | none => exact ⟨missing, rfl⟩
  | some spaces =>
    cases fs with
    | none => exact ⟨missing, rfl⟩
    | some fs =>
      unfold header
      dsimp only
      rw [hu]
      cases mapRes (fun f => spaces.getItem f) fields with
      | error e => exact ⟨e, rfl⟩
      | ok _ =>
        cases mapRes (fun f => fs.getItem f) functions with
        | error e => exact ⟨e, rfl⟩
        | ok _ =>
          simp only [Res.bind_ok]
          cases mapRes (fun iel => mapRes (fun f => do
            let s ← spaces.getItem f
            getIdx s.elements iel) data) iels with
          | error e => exact ⟨e, rfl⟩
          | ok _ => exact ⟨_, rfl⟩

/-! ### The sequences -/

/-- On a mesh with an interior facet the sequences of the three field example raise `KeyError`. -/
theorem C127_interior_violated {m : Mesh} {dim : Nat} {t : List (Nat × List Node)}
    (h : c1Triplets (fun c => .node (c.dimension, c.id)) m dim = .ok t) {x : Nat × List Node} (hx : x ∈ t)
    (h2 : x.2.length = 2) (gidx : Dict Nat Nat) : sequencesThree m dim gidx = .error .keyError := by
  unfold sequencesThree
  rw [h]
  simp only [Res.bind_ok]
  unfold sequencesOf
  have hm : x ∈ t.filter fun t => t.2.length == 2 := List.mem_filter.2 ⟨hx, by simp [h2]⟩
  have hall : ∀ y ∈ t.filter fun t => t.2.length == 2, y.2.length = 2 := fun y hy => by
    simpa using (List.mem_filter.1 hy).2
  match hf : t.filter fun t => t.2.length == 2 with
  | [] => rw [hf] at hm; exact absurd hm (by simp)
  | y :: ys =>
    have hy := hall y (by rw [hf]; simp)
    rw [hf]
    obtain ⟨i, l⟩ := y
    match l, hy with
    | [a, b], _ => rfl

/-- Without interior facets the boundary facets come with the elements of their cells. -/
theorem C127_sequences {m : Mesh} {dim : Nat} {t : List (Nat × List Node)}
    (h : c1Triplets (fun c => .node (c.dimension, c.id)) m dim = .ok t) (h2 : ∀ x ∈ t, x.2.length ≠ 2)
    (gidx : Dict Nat Nat) (si : List (Nat × List Nat)) (se : List (Nat × Nat)) :
    sequencesThree m dim gidx = .ok (si, se) ↔ si = [] ∧
      List.Forall₂ (fun x y => y.1 = x.1 ∧ ∃ n, x.2 = [n] ∧ gidx.getItem n.2 = .ok y.2)
        (t.filter fun x => x.2.length == 1) se := by
  unfold sequencesThree
  rw [h]
  simp only [Res.bind_ok]
  unfold sequencesOf
  have hf : (t.filter fun t => t.2.length == 2) = [] := by
    rw [List.filter_eq_nil_iff]
    intro x hx
    simpa using h2 x hx
  rw [hf]
  simp only [mapRes, Res.bind_ok]
  have key : ∀ {l : List (Nat × List Node)}, (∀ x ∈ l, x.2.length = 1) →
      ∀ se, (mapRes (fun t : Nat × List Node => do
        let n0 ← getIdx t.2 0
        let a ← lookup gidx (.id n0.2)
        pure (t.1, a)) l = .ok se ↔ List.Forall₂ (fun x y => y.1 = x.1 ∧ ∃ n, x.2 = [n] ∧ gidx.getItem n.2 = .ok y.2)
          l se) := by
    intro l hl se
    rw [mapRes_iff]
    have step : ∀ x ∈ l, ∀ y : Nat × Nat, ((do
        let n0 ← getIdx x.2 0
        let a ← lookup gidx (.id n0.2)
        pure (x.1, a) : Res (Nat × Nat)) = .ok y ↔ y.1 = x.1 ∧ ∃ n, x.2 = [n] ∧ gidx.getItem n.2 = .ok y.2) := by
      rintro ⟨i, l0⟩ hx ⟨j, b⟩
      have h1 := hl _ hx
      match l0, h1 with
      | [n], _ =>
        show (do
          let a ← gidx.getItem n.2
          pure (i, a) : Res (Nat × Nat)) = .ok (j, b) ↔ _
        rw [Res.bind_eq_ok]
        constructor
        · rintro ⟨a, h3, h4⟩
          cases h4
          exact ⟨rfl, n, rfl, h3⟩
        · rintro ⟨rfl, n', h3, h4⟩
          cases h3
          exact ⟨b, h4, rfl⟩
    constructor
    · intro h3
      clear hl
      induction h3 with
      | nil => exact .nil
      | cons h4 _ ih =>
        exact .cons ((step _ (by simp) _).1 h4) (ih fun x hx => step x (by simp [hx]))
    · intro h3
      clear hl
      induction h3 with
      | nil => exact .nil
      | cons h4 _ ih =>
        exact .cons ((step _ (by simp) _).2 h4) (ih fun x hx => step x (by simp [hx]))
  have hl : ∀ x ∈ t.filter fun t => t.2.length == 1, x.2.length = 1 := fun x hx => by
    simpa using (List.mem_filter.1 hx).2
  rw [Res.bind_eq_ok]
  constructor
  · rintro ⟨s, h3, h4⟩
    cases h4
    exact ⟨rfl, (key hl _).1 h3⟩
  · rintro ⟨rfl, h3⟩
    exact ⟨se, (key hl _).2 h3, rfl⟩

/-- On a mesh with a facet the sequences of the hydrothermal example raise `NetworkXError`. -/
theorem C127_hydro_violated {m : Mesh} {dim : Nat} {g : DiGraph Node} {c1 : List Cell}
    (h : selectCells (fun c => c.dimension + 1 == dim) m.cells = .ok c1) (hc : c1 ≠ [])
    (hg : buildGraph m dim 1 = .ok g) (gidx : Dict Nat Nat) :
    sequencesHydro m dim gidx = .error .networkXError := by
  unfold sequencesHydro c1Triplets
  rw [h, hg]
  simp only [Res.bind_ok]
  match c1, hc with
  | c :: cs, _ => rfl

/-- A line of `n` segments, first the vertices and then the segments -/
def lineMesh (n : Nat) : Mesh :=
  ⟨1, ((List.range (n + 1)).map fun i => some ⟨0, i, none, [i], [[i]]⟩) ++
    (List.range n).map fun i => some ⟨1, n + 1 + i, some 1, [i, i + 1], [[i, i + 1], [n + 1 + i]]⟩⟩

/-- One segment has both boundary facets, two segments raise, and the hydrothermal example raises on both. -/
theorem C127_lines_violated :
    sequencesThree (lineMesh 1) 1 [(2, 0)] = .ok ([], [(0, 0), (1, 0)]) ∧
    sequencesThree (lineMesh 2) 1 [(3, 0), (4, 1)] = .error .keyError ∧
    sequencesHydro (lineMesh 1) 1 [(2, 0)] = .error .networkXError ∧
    sequencesHydro (lineMesh 2) 1 [(3, 0), (4, 1)] = .error .networkXError := by
  refine ⟨rfl, rfl, rfl, rfl⟩

/-- The hypotheses are satisfiable. -/
example : ∃ r, interfaceForm 1 (sideOf 1) (sideOf (-1)) (fun _ => 1) (fun _ => 1) = .ok r ∧ ∀ k, r.val k = 0 := by
  obtain ⟨r, h1, h2⟩ := C127_left (sideOf_one 1) (sideOf_one (-1)) rfl rfl rfl rfl (velocity := (1 : ℚ))
    (Or.inl (by norm_num)) (fun _ => 1) (fun _ => 1) (by norm_num [isClose])
  exact ⟨r, h1, h2.2 (by norm_num [flux, sideOf, Side.u, upstream])⟩

/-- The scalar is read behind both fluxes: on the values `q`, `m` and `u` of the three fields one after the other the
trace is that of `u`. -/
theorem C127_trace (s : Side K) {q m u : List K} (hq : q.length = s.nQ) (hm : m.length = s.nM) (hu : u.length = s.nU) :
    s.u (fun i => (q ++ m ++ u).getD i 0) = ((List.range u.length).map fun a => u.getD a 0 * s.du a).sum := by
  rw [Side.u, hu]
  congr 1
  refine List.map_congr_left fun a _ => ?_
  rw [List.getD_eq_getElem?_getD, List.getD_eq_getElem?_getD, List.getElem?_append_right (by simp [hq, hm]),
    List.length_append, hq, hm, Nat.add_sub_cancel_left]

omit [Field K] [LinearOrder K] [IsStrictOrderedRing K] in
theorem alphaM_error {s : Side K} (h : ∃ d ∈ s.dofs, s.nM ≤ d) (alpha : Nat → K) :
    s.alphaM alpha = .error .indexError := by
  unfold Side.alphaM
  obtain ⟨d, hd, hl⟩ := h
  generalize s.dofs = l at hd
  induction l with
  | nil => exact absurd hd (by simp)
  | cons a l ih =>
    rw [mapRes]
    by_cases ha : a < s.nM
    · have hd' : d ∈ l := by
        rcases List.mem_cons.1 hd with rfl | h
        · omega
        · exact h
      rw [if_pos ha, ih hd']
      rfl
    · rw [if_neg ha]
      rfl

omit [Field K] [LinearOrder K] [IsStrictOrderedRing K] in
theorem alphaM_ok {s : Side K} (h : ∀ d ∈ s.dofs, d < s.nM) (alpha : Nat → K) :
    s.alphaM alpha = .ok (s.dofs.map fun d => alpha (s.nQ + d)) := by
  unfold Side.alphaM
  generalize s.dofs = l at h
  induction l with
  | nil => rfl
  | cons a l ih =>
    rw [mapRes, if_pos (h a (by simp)), ih fun d hd => h d (by simp [hd])]
    rfl

/-- The exceptions: spaces that differ between the sides, a degree of freedom outside the space, facets of different
sizes and coefficients that differ -/
theorem C127_errors (velocity value : K) (p n : Side K) (alphaP alphaN : Nat → K) :
    (p.nQ ≠ n.nQ ∨ p.nM ≠ n.nM ∨ p.nU ≠ n.nU → interfaceForm velocity p n alphaP alphaN = .error .assertionError) ∧
    ((∃ d ∈ p.dofs, p.nM ≤ d) → boundaryForm velocity value p alphaP = .error .indexError) ∧
    (p.nQ = n.nQ → p.nM = n.nM → p.nU = n.nU →
      ((∃ d ∈ p.dofs, p.nM ≤ d) → interfaceForm velocity p n alphaP alphaN = .error .indexError) ∧
      ((∀ d ∈ p.dofs, d < p.nM) → (∀ d ∈ n.dofs, d < n.nM) →
        (p.dofs.length ≠ n.dofs.length → interfaceForm velocity p n alphaP alphaN = .error .valueError) ∧
        ∀ k : Nat, ∀ d ∈ p.dofs[k]?, ∀ e ∈ n.dofs[k]?, p.dofs.length = n.dofs.length →
          isClose (alphaP (p.nQ + d)) (alphaN (n.nQ + e)) = false →
          interfaceForm velocity p n alphaP alphaN = .error .assertionError)) := by
  refine ⟨fun h => ?_, fun h => ?_, fun hQ hM hU => ⟨fun h => ?_, fun h1 h2 => ⟨fun h => ?_, ?_⟩⟩⟩
  · unfold interfaceForm
    split_ifs with h1 h2 h3
    · rfl
    · rfl
    · rfl
    · exact absurd h (by tauto)
  · unfold boundaryForm
    rw [alphaM_error h]
    rfl
  · unfold interfaceForm
    rw [if_neg (not_not.2 hQ), if_neg (not_not.2 hM), if_neg (not_not.2 hU), alphaM_error h]
    rfl
  · unfold interfaceForm
    rw [if_neg (not_not.2 hQ), if_neg (not_not.2 hM), if_neg (not_not.2 hU), alphaM_ok h1, alphaM_ok h2]
    simp only [Res.bind_ok, List.length_map]
    rw [if_pos h]
  · intro k d hd e he hl hc
    unfold interfaceForm
    rw [if_neg (not_not.2 hQ), if_neg (not_not.2 hM), if_neg (not_not.2 hU), alphaM_ok h1, alphaM_ok h2]
    simp only [Res.bind_ok, List.length_map]
    rw [if_neg (not_not.2 hl), if_pos]
    rw [Bool.not_eq_true', List.all_eq_false]
    refine ⟨false, List.mem_of_getElem? (i := k) ?_, by simp⟩
    rw [List.getElem?_zipWith, List.getElem?_map, List.getElem?_map, Option.mem_def.1 hd, Option.mem_def.1 he]
    simp [hc]

#print axioms C127_upwind
#print axioms C127_small_violated
#print axioms C127_interface
#print axioms C127_left
#print axioms C127_right
#print axioms C127_orientation_violated
#print axioms C127_boundary
#print axioms C127_raises_violated
#print axioms C127_interior_violated
#print axioms C127_sequences
#print axioms C127_hydro_violated
#print axioms C127_lines_violated

#print axioms C127_trace
#print axioms C127_errors

end Verif.ThreeFields
