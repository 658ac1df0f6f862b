/-
Property theorem C90: the values of the basis on a cell (`FiniteElement.evaluate_basis`,
src/basis/finite_element.py:157-187).
-/
import Verif.Spec.Basis
import Verif.Props.Mapping
import Verif.Lemmas.MeshWF
import Mathlib.Tactic.FieldSimp
import Mathlib.Tactic.Linarith
import Mathlib.LinearAlgebra.Matrix.Determinant.Basic

namespace Verif.Basis
open MeshBuild MeshGraph Trace Orient Mapping

variable {K : Type} [Field K]

/-- C90: the table of a point is the number one. -/
theorem C90_point (cells : Cells) (c : Cell) (bc : List Bool) (data : DofData K) (vector : Bool)
    (m : MapType) (geo : Nat → Geo K c.dimension) (tab : Table K) (h : c.dimension = 0) :
    evaluateBasis cells c bc data vector m geo tab = .ok ⟨1, 1, 1, [fun _ _ _ => 1]⟩ := by
  unfold evaluateBasis
  rw [if_pos h]
  rfl

/-- C90: the map of the element is accepted for scalars and for vectors with as many components as the
dimension of the cell, which is 2 or 3; the result has the functions mapped, and is then oriented. -/
theorem C90_mapped (cells : Cells) (c : Cell) (bc : List Bool) (data : DofData K) (vector : Bool)
    (m : MapType) (geo : Nat → Geo K c.dimension) (tab : Table K) (h0 : c.dimension ≠ 0)
    (h1 : c.dimension = 1 → vector = false) (hder : 0 < tab.nDer)
    (hm : m = .identity ∨ tab.nComp = 2 ∨ tab.nComp = 3) :
    ∃ t : Table K, t.nDer = tab.nDer ∧ t.nPts = tab.nPts ∧ t.nComp = m.size tab.nComp ∧
      List.Forall₂ (Mapped m geo tab.nComp) tab.phi t.phi ∧
      evaluateBasis cells c bc data vector m geo tab
        = (permuteAndTransform cells c bc data t.phi >>= fun phi => .ok { t with phi := phi }) := by
  have hev : ∀ t, mapTable m geo tab = .ok t → evaluateBasis cells c bc data vector m geo tab
      = (permuteAndTransform cells c bc data t.phi >>= fun phi => .ok { t with phi := phi }) := by
    intro t ht
    unfold evaluateBasis
    rw [if_neg h0, ht, Res.bind_ok, dif_neg (by rintro ⟨h, hv⟩; rw [h1 h] at hv; cases hv)]
    rfl
  have hall : ∀ (f : (Nat → Nat → Nat → K) → Nat → Nat → Nat → K),
      (∀ phi, Mapped m geo tab.nComp phi (f phi)) →
      List.Forall₂ (Mapped m geo tab.nComp) tab.phi (tab.phi.map f) := by
    intro f hf
    rw [List.forall₂_map_right_iff, List.forall₂_same]
    exact fun x _ => hf x
  by_cases hs : m.size tab.nComp = tab.nComp
  · refine ⟨_, ?_, ?_, ?_, ?_, hev _ (by
      unfold mapTable
      rw [if_neg (by omega)]
      exact if_pos hs)⟩
    · rfl
    · rfl
    · exact hs.symm
    · refine hall _ fun phi => ⟨fun p c => ?_, fun k hk p c _ => ?_, fun k hk p c h h' => ?_⟩
      · simp [setValues]
      · simp [setValues, hk]
      · omega
  · have h2 : m.size tab.nComp = 3 ∧ tab.nComp = 2 := by
      cases m
      · exact absurd rfl hs
      · refine ⟨rfl, ?_⟩
        simp only [MapType.size] at hs
        rcases hm with h | h | h
        · cases h
        · exact h
        · exact absurd h.symm hs
      · refine ⟨rfl, ?_⟩
        simp only [MapType.size] at hs
        rcases hm with h | h | h
        · cases h
        · exact h
        · exact absurd h.symm hs
    refine ⟨_, ?_, ?_, ?_, ?_, hev _ (by
      unfold mapTable
      rw [if_neg (by omega)]
      simp only [if_neg hs]
      rw [if_neg (by omega), if_neg (by omega)])⟩
    · rfl
    · rfl
    · show tab.nComp + 1 = _
      omega
    · refine hall _ fun phi => ⟨fun p c => ?_, fun k hk p c h => ?_, fun k hk p c h h' => ?_⟩
      · simp [setValues]
      · simp [setValues, hk, insertZero, show c < 2 by omega]
      · simp [setValues, hk, insertZero, show c = 2 by omega]

/-- C90: scalars keep their values, whatever the cell. -/
theorem C90_scalar (cells : Cells) (c : Cell) (bc : List Bool) (data : DofData K) (vector : Bool)
    (geo : Nat → Geo K c.dimension) (tab : Table K) (h0 : c.dimension ≠ 0)
    (h1 : c.dimension = 1 → vector = false) (hder : 0 < tab.nDer)
    (hid : c.dimension = 1 ∨ data.identity = true) :
    ∃ t, evaluateBasis cells c bc data vector .identity geo tab = .ok t ∧
      t.nDer = tab.nDer ∧ t.nPts = tab.nPts ∧ t.nComp = tab.nComp ∧
      List.Forall₂ (fun phi psi => ∀ k p i, i < tab.nComp → psi k p i = phi k p i) tab.phi t.phi := by
  obtain ⟨t, e1, e2, e3, hf, he⟩ := C90_mapped cells c bc data vector .identity geo tab h0 h1 hder
    (.inl rfl)
  refine ⟨t, ?_, e1, e2, e3, ?_⟩
  · rw [he]
    have : permuteAndTransform cells c bc data t.phi = .ok t.phi := by
      unfold permuteAndTransform permute2d permute3d
      rcases hid with h | h
      · simp [h]
      · simp [h]
    rw [this]
    rfl
  · refine hf.imp fun phi psi h k p i hi => ?_
    by_cases hk : k = 0
    · subst hk
      exact h.values p i
    · exact h.derivatives k hk p i hi

/-- C90: other numbers of components are refused for vectors. -/
theorem C90_rejects (cells : Cells) (c : Cell) (bc : List Bool) (data : DofData K) (vector : Bool)
    (m : MapType) (geo : Nat → Geo K c.dimension) (tab : Table K) (h0 : c.dimension ≠ 0) :
    (tab.nDer = 0 →
      evaluateBasis cells c bc data vector m geo tab = .error .indexError) ∧
    (tab.nDer ≠ 0 → m ≠ .identity → tab.nComp < 2 →
      evaluateBasis cells c bc data vector m geo tab = .error .indexError) ∧
    (tab.nDer ≠ 0 → m ≠ .identity → 3 < tab.nComp →
      evaluateBasis cells c bc data vector m geo tab = .error .valueError) := by
  have hev : ∀ e, mapTable m geo tab = .error e →
      evaluateBasis cells c bc data vector m geo tab = .error e := by
    intro e he
    unfold evaluateBasis
    rw [if_neg h0, he]
    rfl
  have h3 : m ≠ .identity → m.size tab.nComp = 3 := by
    intro h
    cases m
    · exact absurd rfl h
    · rfl
    · rfl
  refine ⟨fun h => hev _ ?_, fun h hm hn => hev _ ?_, fun h hm hn => hev _ ?_⟩
  · unfold mapTable
    rw [if_pos h]
  · unfold mapTable
    rw [if_neg h]
    have := h3 hm
    simp only [this]
    rw [if_neg (by omega), if_pos hn]
  · unfold mapTable
    rw [if_neg h]
    have := h3 hm
    simp only [this]
    rw [if_neg (by omega), if_neg (by omega), if_pos (by omega)]

section
variable [LinearOrder K] [IsStrictOrderedRing K]

/-- C90: on tetrahedra of positive orientation, the flux of a mapped function through the image of a
parallelogram is the flux of the function on the reference cell; on the others it has the opposite sign. -/
theorem C90_flux (g : Geo K 3) (hg : FitsDet g) (v : Nat → K) (a b : Fin 3 → K) :
    (0 < g.jac.det → dot (vec (MapType.contravariant.push g v)) (cross (image g.jac a) (image g.jac b))
      = dot (vec v) (cross a b)) ∧
    (g.jac.det < 0 → dot (vec (MapType.contravariant.push g v))
      (cross (image g.jac a) (image g.jac b)) = - dot (vec v) (cross a b)) := by
  have hdet : g.det ^ 2 = g.jac.det ^ 2 := by
    rw [hg.square, Matrix.det_mul, Matrix.det_transpose, pow_two]
  have hne := hg.pos.ne'
  have key : g.det * dot (vec (MapType.contravariant.push g v))
      (cross (image g.jac a) (image g.jac b)) = g.jac.det * dot (vec v) (cross a b) := by
    simp [dot, vec, cross, image, MapType.push, Fin.sum_univ_succ, Matrix.det_fin_three]
    field_simp
    ring
  constructor
  · intro h
    have : g.det = g.jac.det := by
      rcases sq_eq_sq_iff_eq_or_eq_neg.1 hdet with h' | h'
      · exact h'
      · have := hg.pos
        linarith
    rw [this] at key
    exact mul_left_cancel₀ h.ne' key
  · intro h
    have : g.det = - g.jac.det := by
      rcases sq_eq_sq_iff_eq_or_eq_neg.1 hdet with h' | h'
      · have := hg.pos
        linarith
      · exact h'
    have hj : g.jac.det = - g.det := by rw [this]; ring
    rw [hj] at key
    apply mul_left_cancel₀ hne
    rw [key]
    ring

/-- C90: on triangles, the mapped functions are tangential, and their flux across the image of a
segment in the plane of the triangle is the one on the reference cell. -/
theorem C90_flux_triangle (g : Geo K 2) (hg : FitsDet g) (v : Nat → K) (a : Fin 2 → K) :
    ∃ n : Fin 3 → K, dot n n = 1 ∧ (∀ b, dot n (image g.jac b) = 0) ∧
      dot n (vec (MapType.contravariant.push g v)) = 0 ∧
      dot n (cross (vec (MapType.contravariant.push g v)) (image g.jac a))
        = v 0 * a 1 - v 1 * a 0 := by
  have hne := hg.pos.ne'
  have hsq := hg.square
  simp [Matrix.det_fin_two, Matrix.mul_apply, Fin.sum_univ_succ] at hsq
  refine ⟨fun i => g.det⁻¹ * cross (fun i => g.jac i 0) (fun i => g.jac i 1) i, ?_, ?_, ?_, ?_⟩
  · simp [dot, cross]
    field_simp
    rw [hsq]
    ring
  · intro b
    simp [dot, cross, image, Fin.sum_univ_succ]
    ring
  · simp [dot, cross, vec, MapType.push, Fin.sum_univ_succ]
    ring
  · simp [dot, cross, vec, image, MapType.push, Fin.sum_univ_succ]
    field_simp
    rw [hsq]
    ring

end

/-- C90: the circulation of a mapped function along the image of a segment is the one on the reference
cell. -/
theorem C90_circulation {d : Nat} (g : Geo K d) (hg : FitsInv g) (v : Nat → K) (a : Fin d → K) :
    dot (vec (MapType.covariant.push g v)) (image g.jac a) = ∑ k : Fin d, v k * a k := by
  have h : ∀ k l : Fin d, ∑ i : Fin 3, g.inv k i * g.jac i l = if k = l then 1 else 0 := by
    intro k l
    have := congrFun (congrFun hg k) l
    rw [Matrix.mul_apply, Matrix.one_apply] at this
    exact this
  have e : dot (vec (MapType.covariant.push g v)) (image g.jac a)
      = ∑ i : Fin 3, (∑ k : Fin d, g.inv k i * v k) * ∑ l : Fin d, g.jac i l * a l := by
    simp [dot, vec, image, MapType.push, Fin.sum_univ_succ]
    ring
  rw [e]
  simp only [Finset.sum_mul_sum]
  rw [Finset.sum_comm]
  refine Finset.sum_congr rfl fun k _ => ?_
  rw [Finset.sum_comm]
  have : ∀ l : Fin d, ∑ i : Fin 3, g.inv k i * v k * (g.jac i l * a l)
      = (if k = l then 1 else 0) * (v k * a l) := by
    intro l
    rw [← h, Finset.sum_mul]
    exact Finset.sum_congr rfl fun i _ => by ring
  simp [this]

/-- C90: on edges the vector families only keep the first component of the tangent; on an edge in the direction
of the first axis this changes nothing. -/
theorem C90_line_partial (cells : Cells) (c : Cell) (bc : List Bool) (data : DofData K)
    (geo : Nat → Geo K c.dimension) (tab : Table K) (h1 : c.dimension = 1) (hder : 0 < tab.nDer)
    (hn : tab.nPts = tab.phi.length ∨ tab.nPts = 1) (t : K) (det : K)
    (hgeo : ∀ p, (geo p).det = det ∧ (geo p).jac 0 ⟨0, by omega⟩ = t) :
    ∃ r, evaluateBasis cells c bc data true .identity geo tab = .ok r ∧
      r.nDer = tab.nDer ∧ r.nPts = tab.nPts ∧ r.nComp = tab.nComp ∧
      List.Forall₂ (fun phi psi => (∀ p, psi 0 p 0 = det⁻¹ * t * phi 0 p 0) ∧
        ∀ k, k ≠ 0 → ∀ p i, psi k p i = phi k p i) tab.phi r.phi := by
  refine ⟨⟨tab.nDer, tab.nPts, tab.nComp, (tab.phi.map fun phi => setValues phi fun p =>
      MapType.identity.push (geo p) (phi 0 p)).zipIdx.map
        (scaled (fun p => (geo p).cast h1) tab.nPts)⟩, ?_, rfl, rfl, rfl, ?_⟩
  · unfold evaluateBasis
    rw [if_neg (by omega)]
    have hm : mapTable MapType.identity geo tab = .ok { tab with
        phi := tab.phi.map fun phi => setValues phi fun p => MapType.identity.push (geo p) (phi 0 p) } := by
      unfold mapTable
      rw [if_neg (by omega)]
      exact if_pos rfl
    rw [hm, Res.bind_ok, dif_pos ⟨h1, rfl⟩]
    unfold linePiola
    rw [if_neg (by simp; omega), Res.bind_ok]
    have : ∀ phi : List (Nat → Nat → Nat → K), permuteAndTransform cells c bc data phi = .ok phi := by
      intro phi
      unfold permuteAndTransform
      rw [if_neg (by omega), if_neg (by omega)]
    rw [this]
    rfl
  · show List.Forall₂ _ _ (List.map _ _)
    rw [List.forall₂_map_right_iff, List.forall₂_iff_get]
    refine ⟨by simp, fun i hi hj => ?_⟩
    simp [scaled, setValues, MapType.push, Geo.cast, hgeo]
    constructor
    · intro p
      have := fun q => (hgeo q).1
      have h2 := fun q => (hgeo q).2
      rw [show (Fin.cast h1.symm 0 : Fin c.dimension) = ⟨0, by omega⟩ from rfl, h2]
      ring
    · intro k hk p i
      simp [hk]

/-- C90: with another number of points than of functions an edge is refused. -/
theorem C90_line_rejects (cells : Cells) (c : Cell) (bc : List Bool) (data : DofData K)
    (geo : Nat → Geo K c.dimension) (tab : Table K) (h1 : c.dimension = 1) (hder : 0 < tab.nDer)
    (hn : tab.nPts ≠ tab.phi.length ∧ tab.nPts ≠ 1) :
    evaluateBasis cells c bc data true .identity geo tab = .error .valueError := by
  unfold evaluateBasis
  rw [if_neg (by omega)]
  have hm : mapTable MapType.identity geo tab = .ok { tab with
      phi := tab.phi.map fun phi => setValues phi fun p => MapType.identity.push (geo p) (phi 0 p) } := by
    unfold mapTable
    rw [if_neg (by omega)]
    exact if_pos rfl
  rw [hm, Res.bind_ok, dif_pos ⟨h1, rfl⟩]
  unfold linePiola
  rw [if_pos (by simp; omega)]
  rfl

/-! ### Edges the rule of the code does not serve -/

/-- The edge from the origin to the end of the third unit vector -/
def vertical : Geo ℚ 1 := ⟨!![0; 0; 1], 1, !![0, 0, 1]⟩

/-- The two functions of degree one at the ends of the reference edge, and their derivatives -/
def linearTable (n : Nat) : Table ℚ :=
  ⟨2, n, 1, [fun d p _ => if d = 0 then (if p = 0 then 1 else 0) else -1,
    fun d p _ => if d = 0 then (if p = 0 then 0 else 1) else 1]⟩

/-- An edge as stored in a mesh -/
def edgeCell : Cell := ⟨1, 2, none, [0, 1], [[0, 1], [2], [], []]⟩

/-- Data of a Lagrange element -/
def lagrangeData : DofData ℚ := ⟨true, 0, 0, 0, 0, 0, [[[0], [1]], [[]]]⟩

/-- C90 violated: on a vertical edge the functions of the vector families vanish, although the first one is one at the first point
on the reference cell. -/
theorem C90_vertical_violated :
    FitsDet vertical ∧ FitsInv vertical ∧
    ∃ t, evaluateBasis [] edgeCell [] lagrangeData true .identity (fun _ => vertical)
        (linearTable 2) = .ok t ∧ t.phi.length = 2 ∧
      ∀ phi ∈ t.phi, ∀ p, phi 0 p 0 = 0 := by
  refine ⟨⟨by norm_num [vertical], ?_⟩, ?_, ?_⟩
  · simp [vertical, Matrix.mul_apply, Fin.sum_univ_succ]
  · ext i j
    fin_cases i; fin_cases j
    simp [vertical, Matrix.mul_apply, Fin.sum_univ_succ]
  · obtain ⟨t, h, -, -, -, hf⟩ := C90_line_partial [] edgeCell [] lagrangeData
      (fun _ => vertical) (linearTable 2) rfl (by decide) (.inl rfl) 0 1
      (fun _ => ⟨rfl, rfl⟩)
    refine ⟨t, h, hf.length_eq.symm, fun psi hpsi p => ?_⟩
    obtain ⟨phi, -, hphi⟩ := forall₂_right hf hpsi
    rw [hphi.1]
    norm_num

/-- C90 violated: with the three points of a more accurate quadrature, the same functions are refused. -/
theorem C90_points_violated :
    evaluateBasis [] edgeCell [] lagrangeData true .identity (fun _ => vertical) (linearTable 3)
      = .error .valueError :=
  C90_line_rejects [] edgeCell [] lagrangeData (fun _ => vertical) (linearTable 3) rfl (by decide)
    (by decide)

/-! ### The hypotheses are satisfiable -/

/-- A triangle in an inclined plane: its edges are `(1, 0, 0)` and `(0, 3, 4)`. -/
def inclined : Geo ℚ 2 :=
  ⟨!![1, 0; 0, 3; 0, 4], 5, !![1, 0, 0; 0, 3/25, 4/25]⟩

example : FitsDet inclined ∧ FitsInv inclined := by
  refine ⟨⟨by norm_num [inclined], ?_⟩, ?_⟩
  · simp [inclined, Matrix.det_fin_two, Matrix.mul_apply, Fin.sum_univ_succ]
    norm_num
  · ext i j
    fin_cases i <;> fin_cases j <;>
      simp [inclined, Matrix.mul_apply, Fin.sum_univ_succ] <;> norm_num

/-- The second unit vector becomes the direction of the second edge, over the area. -/
example : vec (MapType.contravariant.push inclined fun i => if i = 1 then 1 else 0)
    = ![0, 3/5, 4/5] := by
  funext i
  fin_cases i <;> simp [vec, MapType.push, inclined, Fin.sum_univ_succ] <;> norm_num

/-- Tetrahedra of both orientations -/
example : ∃ g h : Geo ℚ 3, FitsDet g ∧ FitsDet h ∧ 0 < g.jac.det ∧ h.jac.det < 0 := by
  have e1 : (!![2, 0, 0; 0, 1, 0; 0, 0, 1] : Matrix (Fin 3) (Fin 3) ℚ).det = 2 := by
    simp [Matrix.det_fin_three]
  have e2 : (!![0, 2, 0; 1, 0, 0; 0, 0, 1] : Matrix (Fin 3) (Fin 3) ℚ).det = -2 := by
    simp [Matrix.det_fin_three]
  refine ⟨⟨!![2, 0, 0; 0, 1, 0; 0, 0, 1], 2, 0⟩, ⟨!![0, 2, 0; 1, 0, 0; 0, 0, 1], 2, 0⟩,
    ⟨by norm_num, ?_⟩, ⟨by norm_num, ?_⟩, ?_, ?_⟩ <;>
  simp only [Matrix.det_mul, Matrix.det_transpose, e1, e2] <;> norm_num

example : 0 < (linearTable 2).nDer ∧ edgeCell.dimension = 1 := ⟨by decide, rfl⟩

#print axioms C90_point
#print axioms C90_mapped
#print axioms C90_scalar
#print axioms C90_rejects
#print axioms C90_flux
#print axioms C90_flux_triangle
#print axioms C90_circulation
#print axioms C90_line_partial
#print axioms C90_line_rejects
#print axioms C90_vertical_violated
#print axioms C90_points_violated

end Verif.Basis
