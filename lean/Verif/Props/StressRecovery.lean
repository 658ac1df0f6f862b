/-
C143: the drivers with a stress constraint.
-/
import Mathlib.Algebra.BigOperators.Fin
import Mathlib.Tactic.FieldSimp
import Mathlib.Tactic.Positivity
import Mathlib.Tactic.Linarith
import Verif.Spec.StressRecovery
import Verif.Lemmas.Trace
import Verif.Props.Elasticity

namespace Verif.StressRecovery
open Assembly L2Form Laplace Elasticity MeshGraph Trace

section
variable {K X : Type} [Field K]

theorem component_ok {alpha : List K} {dest : List Nat} {n comps c : Nat} (hl : dest.length = n * comps)
    (hc : c < comps) (hb : ∀ d ∈ dest, d < alpha.length) :
    ∃ a, component alpha dest comps c = .ok a ∧ a.length = n ∧
      ∀ j < n, a.getD j 0 = coeffs alpha dest (j * comps + c) := by
  have hs : sliceIdx dest.length c dest.length comps = List.range' c n comps := by
    have := sliceIdx_comp (nPhi := n) (nComp := comps) hc
    unfold sliceIdx at this ⊢
    rw [hl]
    rw [show min (c + n * comps) (n * comps) = n * comps by omega] at this
    rw [Nat.min_self]
    exact this
  have hin : ∀ j < n, c + comps * j < dest.length := by
    intro j hj
    rw [hl]
    have : comps * (j + 1) ≤ n * comps := by rw [Nat.mul_comm n]; exact Nat.mul_le_mul_left _ hj
    rw [Nat.mul_add] at this
    omega
  obtain ⟨idx, hi⟩ := fancy_total (a := dest) (idx := List.range' c n comps) (by
    intro i hi
    rw [List.mem_range'] at hi
    obtain ⟨j, hj, rfl⟩ := hi
    exact hin j hj)
  have hidx : ∀ j < n, idx[j]? = dest[c + comps * j]? := by
    intro j hj
    have h := List.forall₂_iff_get.1 hi
    have hln : idx.length = n := by rw [← h.1, List.length_range']
    have h2 := h.2 j (by rw [List.length_range']; exact hj) (by rw [hln]; exact hj)
    simp only [List.get_eq_getElem, List.getElem_range'] at h2
    rw [List.getElem?_eq_getElem (by rw [hln]; exact hj), h2]
  have hln : idx.length = n := by rw [← hi.length_eq, List.length_range']
  obtain ⟨a, ha⟩ := fancy_total (a := alpha) (idx := idx) (by
    intro i hi'
    obtain ⟨j, hj, rfl⟩ := List.getElem_of_mem hi'
    have := hidx j (hln ▸ hj)
    rw [List.getElem?_eq_getElem hj] at this
    exact hb _ (List.mem_of_getElem? this.symm))
  refine ⟨a, ?_, by rw [← ha.length_eq, hln], ?_⟩
  · rw [component, hs, fancy_iff.2 hi]
    exact fancy_iff.2 ha
  · intro j hj
    have h := List.forall₂_iff_get.1 ha
    have h2 := h.2 j (by rw [hln]; exact hj) (by rw [← h.1, hln]; exact hj)
    simp only [List.get_eq_getElem] at h2
    have hx := hidx j hj
    rw [List.getElem?_eq_getElem (by rw [hln]; exact hj)] at hx
    rw [coeffs, List.getD_eq_getElem?_getD, List.getD_eq_getElem?_getD, List.getD_eq_getElem?_getD,
      show j * comps + c = c + comps * j by rw [Nat.mul_comm, Nat.add_comm], ← hx, Option.getD_some, h2,
      List.getElem?_eq_getElem (by rw [← h.1, hln]; exact hj)]

theorem components_ok {alpha : List K} {dest : List Nat} {n comps : Nat} (hl : dest.length = n * comps)
    (hb : ∀ d ∈ dest, d < alpha.length) :
    ∃ as, mapRes (component alpha dest comps) (List.range comps) = .ok as ∧ as.length = comps ∧
      ∀ c < comps, ∃ a, as[c]? = some a ∧ a.length = n ∧ ∀ j < n, a.getD j 0 = coeffs alpha dest (j * comps + c) := by
  have key : ∀ l : List Nat, (∀ c ∈ l, c < comps) → ∃ as, mapRes (component alpha dest comps) l = .ok as ∧
      List.Forall₂ (fun c (a : List K) => a.length = n ∧ ∀ j < n, a.getD j 0 = coeffs alpha dest (j * comps + c)) l as := by
    intro l
    induction l with
    | nil => exact fun _ => ⟨[], rfl, .nil⟩
    | cons c l ih =>
      intro h
      obtain ⟨a, h1, h2⟩ := component_ok (alpha := alpha) hl (h c List.mem_cons_self) hb
      obtain ⟨as, h3, h4⟩ := ih fun d hd => h d (List.mem_cons_of_mem _ hd)
      refine ⟨a :: as, ?_, .cons h2 h4⟩
      rw [mapRes, h1, h3]
      rfl
  obtain ⟨as, h1, h2⟩ := key (List.range comps) fun c hc => List.mem_range.1 hc
  have hlen : as.length = comps := by rw [← h2.length_eq, List.length_range]
  refine ⟨as, h1, hlen, ?_⟩
  intro c hc
  have h := (List.forall₂_iff_get.1 h2).2 c (by rw [List.length_range]; exact hc) (by rw [hlen]; exact hc)
  simp only [List.get_eq_getElem, List.getElem_range] at h
  exact ⟨_, List.getElem?_eq_getElem (by rw [hlen]; exact hc), h⟩

theorem gradU_ok {dim n : Nat} {g : Arr K} (hr : g.rows = n) (hc : g.cols = dim) {as : List (List K)}
    (hl : as.length = dim) (ha : ∀ a ∈ as, a.length = n) :
    ∃ gu, gradU dim g as = .ok gu ∧ ∀ k a, as[k]? = some a → ∀ l, gu k l =
      ∑ j ∈ Finset.range n, a.getD j 0 * g.val j l := by
  have hrow : ∀ p ∈ as.zipIdx, gradRow dim g p.1 p.2 = .ok fun l => ∑ j ∈ Finset.range n, p.1.getD j 0 * g.val j l := by
    intro p hp
    have hm := List.mk_mem_zipIdx_iff_getElem?.1 (show (p.1, p.2) ∈ as.zipIdx from hp)
    have hk : p.2 < as.length := by
      by_contra h
      rw [List.getElem?_eq_none (by omega)] at hm
      exact absurd hm (by simp)
    have hlen : p.1.length = n := ha _ (List.mem_of_getElem? hm)
    rw [gradRow, matmul, if_neg (by rw [hlen, hr]; exact fun h => h rfl)]
    show (if dim ≤ p.2 then _ else if g.cols ≠ dim then _ else _) = _
    rw [if_neg (by omega), if_neg (by rw [hc]; exact fun h => h rfl)]
    show Except.ok _ = _
    rw [hlen]
  have hm : mapRes (fun p : List K × Nat => gradRow dim g p.1 p.2) as.zipIdx =
      .ok (as.zipIdx.map fun p l => ∑ j ∈ Finset.range n, p.1.getD j 0 * g.val j l) := by
    rw [mapRes_iff, List.forall₂_map_right_iff]
    exact List.forall₂_same.2 hrow
  rw [gradU, hm]
  refine ⟨_, rfl, ?_⟩
  intro k a hk l
  have : (as.zipIdx.map fun p l => ∑ j ∈ Finset.range n, p.1.getD j 0 * g.val j l)[k]? =
      some fun l => ∑ j ∈ Finset.range n, a.getD j 0 * g.val j l := by
    rw [List.getElem?_map, List.getElem?_zipIdx, hk]
    rfl
  simp only [this]

theorem pointStress_eq [CharZero K] (dim : Nat) (lam mu : K) (gu : Nat → Nat → K) (k l : Nat) :
    pointStress dim lam mu gu k l = 2 * mu * sym gu k l + lam * tr dim gu * if k = l then 1 else 0 := by
  have : (∑ q ∈ Finset.range dim, 1 / 2 * (gu q q + gu q q)) = tr dim gu := by
    unfold tr
    refine Finset.sum_congr rfl fun q _ => ?_
    have : (2 : K) ≠ 0 := two_ne_zero
    field_simp
    ring
  unfold pointStress sym
  dsimp only
  rw [this]
  ring

theorem elementStress_ok [CharZero K] {nPoints dim : Nat} {alpha : List K} {e : SEl K X} (h : Fits nPoints dim alpha e)
    (lam mu : K) : ∃ s, elementStress dim dim lam mu alpha e = .ok (s, volume e) ∧
      ∀ k < dim, ∀ l < dim, s k l = stressIntegral dim lam mu alpha e k l := by
  obtain ⟨as, h1, h2, h3⟩ := components_ok (alpha := alpha) h.dest h.bound
  have step : ∀ i, ∃ g gu, gradients e.el i = .ok g ∧ gradU dim g as = .ok gu ∧
      ∀ k < dim, ∀ l < dim, gu k l = fieldGrad dim e.el (coeffs alpha e.dest) i k l := by
    intro i
    obtain ⟨g, hg, hr, hc, hv⟩ := gradients_spec h.shapes.der i
    rw [h.shapes.comps, h.hdim] at hc
    obtain ⟨gu, hgu, hval⟩ := gradU_ok (n := e.el.tab.nPhi) hr hc h2 (by
      intro a ha
      obtain ⟨c, hc', rfl⟩ := List.getElem_of_mem ha
      obtain ⟨a', e1, e2, -⟩ := h3 c (h2 ▸ hc')
      rw [List.getElem?_eq_getElem hc'] at e1
      rw [Option.some.inj e1]
      exact e2)
    refine ⟨g, gu, hg, hgu, ?_⟩
    intro k hk l _
    obtain ⟨a, e1, -, e3⟩ := h3 k hk
    rw [hval k a e1 l, fieldGrad]
    refine Finset.sum_congr rfl fun j hj => ?_
    rw [e3 j (Finset.mem_range.1 hj), hv]
  have fold : ∀ n, ∃ s, (List.range n).foldlM (fun (acc : (Nat → Nat → K) × K) i => (do
      let g ← gradients e.el i
      let gu ← gradU dim g as
      let w := e.el.det i * e.el.weights i
      pure (fun k l => acc.1 k l + w * pointStress dim lam mu gu k l, acc.2 + w) : Res _)) (fun _ _ => 0, 0) =
      .ok (s, ∑ i ∈ Finset.range n, e.el.det i * e.el.weights i) ∧
      ∀ k < dim, ∀ l < dim, s k l = ∑ i ∈ Finset.range n, e.el.det i * e.el.weights i * hooke dim lam mu alpha e i k l := by
    intro n
    induction n with
    | zero => exact ⟨_, rfl, fun _ _ _ _ => rfl⟩
    | succ n ih =>
      obtain ⟨s, hs, hv⟩ := ih
      obtain ⟨g, gu, hg, hgu, hval⟩ := step n
      rw [List.range_succ, List.foldlM_append, hs]
      refine ⟨fun k l => s k l + e.el.det n * e.el.weights n * pointStress dim lam mu gu k l, ?_, ?_⟩
      · rw [Res.bind_ok, List.foldlM_cons, hg, Res.bind_ok, hgu, Finset.sum_range_succ]
        rfl
      · intro k hk l hl
        show s k l + e.el.det n * e.el.weights n * pointStress dim lam mu gu k l = _
        rw [Finset.sum_range_succ, hv k hk l hl]
        congr 2
        rw [pointStress_eq, hooke, sym, sym, hval k hk l hl, hval l hl k hk, tr, tr]
        congr 3
        exact Finset.sum_congr rfl fun q hq => hval q (Finset.mem_range.1 hq) q (Finset.mem_range.1 hq)
  obtain ⟨s, hs, hv⟩ := fold e.el.nPts
  refine ⟨s, ?_, hv⟩
  rw [elementStress, h1]
  exact hs

theorem addNodes_ok {nPoints : Nat} (s : Nat → Nat → K) (vol : K) : ∀ {nodes : List Nat} (acc : Acc K),
    (∀ n ∈ nodes, n < nPoints) → ∃ acc', nodes.foldlM (addNode nPoints s vol) acc = .ok acc' ∧
      (∀ p k l, acc'.stress p k l = acc.stress p k l + nodes.count p * (s k l * vol)) ∧
      ∀ p, acc'.weight p = acc.weight p + nodes.count p * vol
  | [], acc, _ => ⟨acc, rfl, by simp, by simp⟩
  | n :: nodes, acc, h => by
      have e : addNode nPoints s vol acc n = .ok ⟨fun p k l => if p = n then acc.stress p k l + s k l * vol
          else acc.stress p k l, fun p => if p = n then acc.weight p + vol else acc.weight p⟩ := by
        rw [addNode, if_neg (by have := h n List.mem_cons_self; omega)]
      obtain ⟨acc', h1, h2, h3⟩ := addNodes_ok s vol (nodes := nodes) ⟨fun p k l => if p = n then
          acc.stress p k l + s k l * vol else acc.stress p k l, fun p => if p = n then acc.weight p + vol
          else acc.weight p⟩ fun m hm => h m (List.mem_cons_of_mem _ hm)
      refine ⟨acc', ?_, ?_, ?_⟩
      · rw [List.foldlM_cons, e]
        exact h1
      · intro p k l
        rw [h2, List.count_cons]
        by_cases hp : p = n
        · subst hp
          simp only [if_true, beq_self_eq_true]
          push_cast
          ring
        · simp only [if_neg hp, beq_iff_eq, if_neg (Ne.symm hp)]
          push_cast
          ring
      · intro p
        rw [h3, List.count_cons]
        by_cases hp : p = n
        · subst hp
          simp only [if_true, beq_self_eq_true]
          push_cast
          ring
        · simp only [if_neg hp, beq_iff_eq, if_neg (Ne.symm hp)]
          push_cast
          ring

variable [LinearOrder K] [IsStrictOrderedRing K]

theorem accumulate {nPoints dim : Nat} {alpha : List K} (lam mu : K) : ∀ {els : List (SEl K X)} (acc : Acc K),
    (∀ e ∈ els, Fits nPoints dim alpha e) →
    ∃ acc', els.foldlM (addElement nPoints dim dim lam mu alpha) acc = .ok acc' ∧
      (∀ p, ∀ k < dim, ∀ l < dim, acc'.stress p k l = acc.stress p k l +
        around els p fun e => stressIntegral dim lam mu alpha e k l) ∧
      ∀ p, acc'.weight p = acc.weight p + around els p volume
  | [], acc, _ => ⟨acc, rfl, by simp [around], by simp [around]⟩
  | e :: els, acc, h => by
      have he := h e List.mem_cons_self
      obtain ⟨s, hs, hv⟩ := elementStress_ok he lam mu
      by_cases hvol : 0 < volume e
      · obtain ⟨acc1, h1, h2, h3⟩ := addNodes_ok (fun k l => s k l / volume e) (volume e) acc he.nodes
        have e1 : addElement nPoints dim dim lam mu alpha acc e = .ok acc1 := by
          rw [addElement, hs, Res.bind_ok]
          show (if volume e ≤ 0 then _ else _) = _
          rw [if_neg (not_le.2 hvol)]
          exact h1
        obtain ⟨acc2, h4, h5, h6⟩ := accumulate lam mu (els := els) acc1 fun d hd => h d (List.mem_cons_of_mem _ hd)
        refine ⟨acc2, ?_, ?_, ?_⟩
        · rw [List.foldlM_cons, e1]
          exact h4
        · intro p k hk l hl
          rw [h5 p k hk l hl, h2, div_mul_cancel₀ _ hvol.ne', hv k hk l hl, around, around, List.map_cons, List.sum_cons,
            if_pos hvol]
          ring
        · intro p
          rw [h6, h3, around, around, List.map_cons, List.sum_cons, if_pos hvol]
          ring
      · have e1 : addElement nPoints dim dim lam mu alpha acc e = .ok acc := by
          rw [addElement, hs, Res.bind_ok]
          show (if volume e ≤ 0 then _ else _) = _
          rw [if_pos (not_lt.1 hvol)]
          rfl
        obtain ⟨acc2, h4, h5, h6⟩ := accumulate lam mu (els := els) acc fun d hd => h d (List.mem_cons_of_mem _ hd)
        refine ⟨acc2, ?_, ?_, ?_⟩
        · rw [List.foldlM_cons, e1]
          exact h4
        · intro p k hk l hl
          rw [h5 p k hk l hl, around, around, List.map_cons, List.sum_cons, if_neg hvol, zero_add]
        · intro p
          rw [h6, around, around, List.map_cons, List.sum_cons, if_neg hvol, zero_add]

theorem hooke_symm (dim : Nat) (lam mu : K) (alpha : List K) (e : SEl K X) (i k l : Nat) :
    hooke dim lam mu alpha e i k l = hooke dim lam mu alpha e i l k := by
  unfold hooke sym
  rw [add_comm (fieldGrad dim e.el (coeffs alpha e.dest) i k l)]
  by_cases h : k = l
  · subst h; rfl
  · rw [if_neg h, if_neg (Ne.symm h)]

/-- The stress in a node is the mean of Hooke's stress over the elements around it, weighted by their volumes; a node
without such an element gets zero. -/
theorem C143_nodal {nPoints dim : Nat} {alpha : List K} {els : List (SEl K X)}
    (h : ∀ e ∈ els, Fits nPoints dim alpha e) (lam mu : K) :
    ∃ r, recover nPoints dim dim lam mu alpha els = .ok r ∧ ∀ p, ∀ k < dim, ∀ l < dim,
      r p k l = if 0 < around els p volume then
        around els p (fun e => stressIntegral dim lam mu alpha e k l) / around els p volume else 0 := by
  obtain ⟨acc, h1, h2, h3⟩ := accumulate lam mu (⟨fun _ _ _ => 0, fun _ => 0⟩ : Acc K) h
  refine ⟨finish acc, by rw [recover, h1]; rfl, ?_⟩
  intro p k hk l hl
  have hsym : (around els p fun e => stressIntegral dim lam mu alpha e l k) =
      around els p fun e => stressIntegral dim lam mu alpha e k l := by
    unfold around stressIntegral
    simp only [hooke_symm dim lam mu alpha _ _ l k]
  have hw := h3 p
  rw [zero_add] at hw
  rw [finish, hw, h2 p k hk l hl, h2 p l hl k hk, hsym]
  simp only [zero_add]
  by_cases hp : 0 < around els p volume
  · rw [if_pos hp, if_pos hp, ← two_mul, ← mul_assoc]
    norm_num
  · rw [if_neg hp, if_neg hp]
    -- no element with a volume contains the node
    have hz : ∀ e ∈ els, ¬ 0 < volume e ∨ e.nodes.count p = 0 := by
      intro e he
      by_contra hc
      push Not at hc
      refine hp ?_
      have hpos : ∀ x ∈ els.map (fun e => if 0 < volume e then (e.nodes.count p : K) * volume e else 0), 0 ≤ x := by
        intro x hx
        obtain ⟨d, -, rfl⟩ := List.mem_map.1 hx
        split
        · exact mul_nonneg (Nat.cast_nonneg _) (le_of_lt ‹_›)
        · exact le_rfl
      have hle := List.single_le_sum hpos _ (List.mem_map_of_mem he)
      rw [if_pos hc.1] at hle
      refine lt_of_lt_of_le ?_ hle
      exact mul_pos (by exact_mod_cast Nat.pos_of_ne_zero hc.2) hc.1
    unfold around
    rw [List.map_congr_left (g := fun _ => (0 : K))]
    · simp
    · intro e he
      rcases hz e he with h' | h'
      · exact if_neg h'
      · split
        · rw [h', Nat.cast_zero, zero_mul]
        · rfl

/-- The tensor in a node is symmetric. -/
theorem C143_symmetric {nPoints dim : Nat} {alpha : List K} {els : List (SEl K X)}
    (h : ∀ e ∈ els, Fits nPoints dim alpha e) {lam mu : K} {r : Nat → Nat → Nat → K}
    (hr : recover nPoints dim dim lam mu alpha els = .ok r) (p : Nat) {k l : Nat} (hk : k < dim) (hl : l < dim) :
    r p k l = r p l k := by
  obtain ⟨r', h1, h2⟩ := C143_nodal h lam mu
  rw [hr] at h1
  cases h1
  rw [h2 p k hk l hl, h2 p l hl k hk]
  have hsym : (around els p fun e => stressIntegral dim lam mu alpha e l k) =
      around els p fun e => stressIntegral dim lam mu alpha e k l := by
    unfold around stressIntegral
    simp only [hooke_symm dim lam mu alpha _ _ l k]
  rw [hsym]

/-- With weights that are not negative the stress of a node lies between the bounds of the stresses around it. -/
theorem C143_between {nPoints dim : Nat} {alpha : List K} {els : List (SEl K X)}
    (h : ∀ e ∈ els, Fits nPoints dim alpha e) {lam mu : K} {r : Nat → Nat → Nat → K}
    (hr : recover nPoints dim dim lam mu alpha els = .ok r) {p : Nat} (hp : ∃ e ∈ els, p ∈ e.nodes ∧ 0 < volume e)
    {k l : Nat} (hk : k < dim) (hl : l < dim) {lo hi : K}
    (hw : ∀ e ∈ els, p ∈ e.nodes → ∀ i < e.el.nPts, 0 ≤ e.el.det i * e.el.weights i)
    (hb : ∀ e ∈ els, p ∈ e.nodes → ∀ i < e.el.nPts, lo ≤ hooke dim lam mu alpha e i k l ∧
      hooke dim lam mu alpha e i k l ≤ hi) : lo ≤ r p k l ∧ r p k l ≤ hi := by
  obtain ⟨r', h1, h2⟩ := C143_nodal h lam mu
  rw [hr] at h1
  cases h1
  have hterm : ∀ e ∈ els, (if 0 < volume e then (e.nodes.count p : K) * (lo * volume e) else 0) ≤
        (if 0 < volume e then (e.nodes.count p : K) * stressIntegral dim lam mu alpha e k l else 0) ∧
      (if 0 < volume e then (e.nodes.count p : K) * stressIntegral dim lam mu alpha e k l else 0) ≤
        if 0 < volume e then (e.nodes.count p : K) * (hi * volume e) else 0 := by
    intro e he
    by_cases hv : 0 < volume e
    · rw [if_pos hv, if_pos hv, if_pos hv]
      by_cases hm : p ∈ e.nodes
      · have c0 : (0 : K) ≤ e.nodes.count p := Nat.cast_nonneg _
        refine ⟨mul_le_mul_of_nonneg_left ?_ c0, mul_le_mul_of_nonneg_left ?_ c0⟩
        · rw [volume, Finset.mul_sum, stressIntegral]
          refine Finset.sum_le_sum fun i hi' => ?_
          rw [mul_comm lo]
          exact mul_le_mul_of_nonneg_left (hb e he hm i (Finset.mem_range.1 hi')).1 (hw e he hm i (Finset.mem_range.1 hi'))
        · rw [volume, Finset.mul_sum, stressIntegral]
          refine Finset.sum_le_sum fun i hi' => ?_
          rw [mul_comm hi]
          exact mul_le_mul_of_nonneg_left (hb e he hm i (Finset.mem_range.1 hi')).2 (hw e he hm i (Finset.mem_range.1 hi'))
      · rw [List.count_eq_zero_of_not_mem hm, Nat.cast_zero, zero_mul, zero_mul, zero_mul]
        exact ⟨le_rfl, le_rfl⟩
    · rw [if_neg hv, if_neg hv, if_neg hv]
      exact ⟨le_rfl, le_rfl⟩
  have hscale : ∀ c : K, (around els p fun e => c * volume e) = c * around els p volume := by
    intro c
    unfold around
    rw [← List.sum_map_mul_left]
    congr 1
    refine List.map_congr_left fun e _ => ?_
    split
    · ring
    · rw [mul_zero]
  have hpos : 0 < around els p volume := by
    obtain ⟨e, he, hm, hv⟩ := hp
    have hnn : ∀ x ∈ els.map (fun e => if 0 < volume e then (e.nodes.count p : K) * volume e else 0), 0 ≤ x := by
      intro x hx
      obtain ⟨d, -, rfl⟩ := List.mem_map.1 hx
      split
      · exact mul_nonneg (Nat.cast_nonneg _) (le_of_lt ‹_›)
      · exact le_rfl
    have hle := List.single_le_sum hnn _ (List.mem_map_of_mem he)
    rw [if_pos hv] at hle
    exact lt_of_lt_of_le (mul_pos (by exact_mod_cast List.count_pos_iff.2 hm) hv) hle
  rw [h2 p k hk l hl, if_pos hpos]
  constructor
  · rw [le_div_iff₀ hpos, ← hscale]
    exact List.sum_le_sum fun e he => (hterm e he).1
  · rw [div_le_iff₀ hpos, ← hscale]
    exact List.sum_le_sum fun e he => (hterm e he).2

/-- A stress that is the same in all points of all elements around a node is the stress of the node: a displacement
with a constant gradient gets its exact stress. -/
theorem C143_constant {nPoints dim : Nat} {alpha : List K} {els : List (SEl K X)}
    (h : ∀ e ∈ els, Fits nPoints dim alpha e) {lam mu : K} {r : Nat → Nat → Nat → K}
    (hr : recover nPoints dim dim lam mu alpha els = .ok r) {p : Nat} (hp : ∃ e ∈ els, p ∈ e.nodes ∧ 0 < volume e)
    {k l : Nat} (hk : k < dim) (hl : l < dim) {s : K}
    (hw : ∀ e ∈ els, p ∈ e.nodes → ∀ i < e.el.nPts, 0 ≤ e.el.det i * e.el.weights i)
    (hs : ∀ e ∈ els, p ∈ e.nodes → ∀ i < e.el.nPts, hooke dim lam mu alpha e i k l = s) : r p k l = s := by
  have hb := C143_between h hr hp hk hl (lo := s) (hi := s) hw
    fun e he hm i hi => ⟨(hs e he hm i hi).ge, (hs e he hm i hi).le⟩
  exact le_antisymm hb.2 hb.1

/-- The law is that of the weak form: for one field of numbers its stress is the driver's. -/
theorem C143_same_law {dim : Nat} (lam mu : K) {u : Arr K} (hr : u.rows = dim) :
    ∃ s, Elasticity.stress dim mu lam u = .ok s ∧ ∀ k l, s.val k l = pointStress dim lam mu u.val k l := by
  refine ⟨⟨u.rows, u.cols, fun k l => (1 / 2 * (u.val k l + u.val l k)) * (2 * mu) +
    lam * (∑ q ∈ Finset.range u.rows, 1 / 2 * (u.val q q + u.val q q)) * if k = l then 1 else 0⟩, ?_, ?_⟩
  · unfold Elasticity.stress
    dsimp only
    unfold addIdentity
    rw [if_pos (by simp [Arr.scale, symmetricPart, hr])]
    rfl
  · intro k l
    rw [hr]
    unfold pointStress
    dsimp only
    ring

/-- A node that is not a point is refused. -/
theorem C143_refused {nPoints dim : Nat} {alpha : List K} {els : List (SEl K X)} {e : SEl K X} {rest : List (SEl K X)}
    (h : ∀ e ∈ els, Fits nPoints dim alpha e) (he : ∃ n, Fits n dim alpha e) (hv : 0 < volume e)
    (hn : ∃ n ∈ e.nodes, nPoints ≤ n) (lam mu : K) :
    recover nPoints dim dim lam mu alpha (els ++ e :: rest) = .error .indexError := by
  obtain ⟨acc, h1, -, -⟩ := accumulate lam mu (⟨fun _ _ _ => 0, fun _ => 0⟩ : Acc K) h
  obtain ⟨n', he⟩ := he
  obtain ⟨s, hs, -⟩ := elementStress_ok he lam mu
  have key : ∀ (nodes : List Nat) (acc : Acc K), (∃ n ∈ nodes, nPoints ≤ n) →
      nodes.foldlM (addNode nPoints (fun k l => s k l / volume e) (volume e)) acc = .error .indexError := by
    intro nodes
    induction nodes with
    | nil => rintro _ ⟨n, hn, -⟩; simp at hn
    | cons m nodes ih =>
      rintro acc ⟨n, hn, hle⟩
      rw [List.foldlM_cons]
      by_cases hm : nPoints ≤ m
      · rw [addNode, if_pos hm]
        rfl
      · rw [addNode, if_neg hm, Res.bind_ok]
        refine ih _ ⟨n, ?_, hle⟩
        rcases List.mem_cons.1 hn with rfl | h'
        · exact absurd hle hm
        · exact h'
  rw [recover, List.foldlM_append, h1, Res.bind_ok, List.foldlM_cons, addElement, hs, Res.bind_ok]
  simp only []
  rw [if_neg (not_le.2 hv), key _ _ hn]
  rfl

/-! ### Lamé parameters -/

/-- The Lamé parameters belong to the given modulus and ratio: the usual formulas give them back. -/
theorem C143_lame {E nu lam mu : K} (h : computeLame E nu = .ok (lam, mu)) (hE : 0 < E) (h0 : -1 < nu) (h1 : nu < 1 / 2) :
    0 < mu ∧ 0 < lam + mu ∧ mu * (3 * lam + 2 * mu) / (lam + mu) = E ∧ lam / (2 * (lam + mu)) = nu ∧
      (0 < nu ↔ 0 < lam) := by
  have a : 0 < 1 + nu := by linarith
  have b : 0 < 1 - 2 * nu := by linarith
  unfold computeLame at h
  rw [if_neg (mul_pos a b).ne', if_neg (by positivity)] at h
  cases h
  have hm : E * nu / ((1 + nu) * (1 - 2 * nu)) + E / (2 * (1 + nu)) = E / (2 * ((1 + nu) * (1 - 2 * nu))) := by
    have a' := a.ne'
    have b' := b.ne'
    rw [div_add_div _ _ (mul_ne_zero a' b') (mul_ne_zero two_ne_zero a'),
      div_eq_div_iff (mul_ne_zero (mul_ne_zero a' b') (mul_ne_zero two_ne_zero a'))
        (mul_ne_zero two_ne_zero (mul_ne_zero a' b'))]
    ring
  refine ⟨by positivity, by rw [hm]; positivity, ?_, ?_, ?_⟩
  · rw [hm]
    field_simp
    ring
  · rw [hm]
    have a' := a.ne'
    have b' := b.ne'
    have e' := hE.ne'
    rw [show 2 * (E / (2 * ((1 + nu) * (1 - 2 * nu)))) = E / ((1 + nu) * (1 - 2 * nu)) by
      rw [mul_div_assoc', mul_div_mul_left _ _ two_ne_zero],
      div_div_div_cancel_right₀ (mul_ne_zero a' b'), mul_div_cancel_left₀ _ e']
  · constructor
    · intro hn
      positivity
    · intro hl
      by_contra hn
      have : E * nu / ((1 + nu) * (1 - 2 * nu)) ≤ 0 :=
        div_nonpos_of_nonpos_of_nonneg (mul_nonpos_of_nonneg_of_nonpos hE.le (not_lt.1 hn)) (mul_pos a b).le
      exact absurd hl (not_lt.2 this)

/-- They exist unless the ratio is `-1` or `1/2`. -/
theorem C143_lame_refused (E nu : K) :
    computeLame E nu = .error .zeroDivisionError ↔ nu = -1 ∨ nu = 1 / 2 := by
  unfold computeLame
  by_cases h : (1 + nu) * (1 - 2 * nu) = 0
  · rw [if_pos h]
    refine ⟨fun _ => ?_, fun _ => rfl⟩
    rcases mul_eq_zero.1 h with h | h
    · left; linarith
    · right; linarith
  · rw [if_neg h, if_neg (by
      intro h'
      exact h (by rw [show 1 + nu = 0 by linarith, zero_mul]))]
    refine ⟨fun e => by simp at e, ?_⟩
    rintro (rfl | rfl)
    · exact absurd (by ring) h
    · exact absurd (by norm_num) h

example : computeLame (25000000000 : ℚ) (22 / 100) = .ok (25000000000 * (22 / 100) / ((1 + 22 / 100) * (1 - 2 * (22 / 100))),
    25000000000 / (2 * (1 + 22 / 100))) := by
  unfold computeLame
  norm_num

end

/-! ### Cells and facets -/

theorem mem_facetsOf {tags materials : List Nat} {i : Nat} :
    i ∈ facetsOf tags materials ↔ ∃ m, materials[i]? = some m ∧ m ∈ tags := by
  unfold facetsOf
  simp only [List.mem_map, List.mem_filter, decide_eq_true_eq, Prod.exists, exists_eq_right]
  constructor
  · rintro ⟨m, h, ht⟩
    exact ⟨m, List.mk_mem_zipIdx_iff_getElem?.1 h, ht⟩
  · rintro ⟨m, h, ht⟩
    exact ⟨m, List.mk_mem_zipIdx_iff_getElem?.2 h, ht⟩

theorem zipIdx_filter_nodup {α : Type} (l : List α) (f : α × Nat → Bool) : ((l.zipIdx.filter f).map Prod.snd).Nodup := by
  refine List.Nodup.sublist (List.Sublist.map _ List.filter_sublist) ?_
  rw [List.zipIdx_map_snd]
  exact List.nodup_range'

/-- Every facet of the boundary space gets exactly one condition, once: the load on the top, the normal condition on
bottom and sides. -/
theorem C143_facets (materials : List Nat)
    (h : ∀ m ∈ materials, m ∈ bcBottom ++ bcTop ++ bcWest ++ bcEast) :
    (dirichletFacets materials ++ neumannFacets materials).Perm (List.range materials.length) ∧
    ∀ i, i ∈ neumannFacets materials ↔ materials[i]? = some 5 := by
  constructor
  · refine (List.perm_ext_iff_of_nodup ?_ List.nodup_range).2 ?_
    · simp only [dirichletFacets, neumannFacets, List.nodup_append]
      refine ⟨⟨zipIdx_filter_nodup _ _, zipIdx_filter_nodup _ _, ?_⟩, zipIdx_filter_nodup _ _, ?_⟩
      · intro i hi j hj e
        subst e
        obtain ⟨m, h1, h2⟩ := mem_facetsOf.1 hi
        obtain ⟨m', h3, h4⟩ := mem_facetsOf.1 hj
        rw [h1] at h3
        cases h3
        simp only [bcBottom, bcWest, bcEast, List.mem_singleton, List.mem_append] at h2 h4
        omega
      · intro i hi j hj e
        subst e
        obtain ⟨m', h3, h4⟩ := mem_facetsOf.1 hj
        rcases List.mem_append.1 hi with hi | hi <;>
        · obtain ⟨m, h1, h2⟩ := mem_facetsOf.1 hi
          rw [h1] at h3
          cases h3
          simp only [bcBottom, bcTop, bcWest, bcEast, List.mem_singleton, List.mem_append] at h2 h4
          omega
    · intro i
      rw [List.mem_range]
      simp only [dirichletFacets, neumannFacets, List.mem_append, mem_facetsOf]
      constructor
      · rintro ((⟨m, h1, -⟩ | ⟨m, h1, -⟩) | ⟨m, h1, -⟩) <;>
        exact (List.getElem?_eq_some_iff.1 h1).1
      · intro hi
        have hm := h _ (List.getElem_mem hi)
        have e := List.getElem?_eq_getElem hi
        simp only [List.mem_append] at hm
        rcases hm with ((hm | hm) | hm) | hm
        · exact .inl (.inl ⟨_, e, hm⟩)
        · exact .inr ⟨_, e, hm⟩
        · exact .inl (.inr ⟨_, e, .inl hm⟩)
        · exact .inl (.inr ⟨_, e, .inr hm⟩)
  · intro i
    rw [neumannFacets, mem_facetsOf]
    simp only [bcTop, List.mem_singleton, exists_eq_right]

example : dirichletFacets [4, 5, 6, 7, 4] = [0, 4, 2, 3] ∧ neumannFacets [4, 5, 6, 7, 4] = [1] := by decide

/-- The constraint goes to the cells with a centroid in the ball, each once and in order; the tolerance lets in nothing
farther out than a hundred metres and `10⁻¹⁴`. -/
theorem C143_inside (centroids : List (Pt ℝ)) :
    (insideIdx centroids).Nodup ∧ (insideIdx centroids).Pairwise (· < ·) ∧
    (∀ i c, centroids[i]? = some c → dist2 c ≤ 100 ^ 2 → i ∈ insideIdx centroids) ∧
    ∀ i ∈ insideIdx centroids, ∃ c, centroids[i]? = some c ∧ dist2 c < (100 + 1 / 10 ^ 14) ^ 2 := by
  have hmem : ∀ i, i ∈ insideIdx centroids ↔ ∃ c, centroids[i]? = some c ∧ dist2 c ≤ 100 * 100 + 1 / 10 ^ 12 := by
    intro i
    unfold insideIdx
    simp only [List.mem_map, List.mem_filter, decide_eq_true_eq, Prod.exists, exists_eq_right]
    constructor
    · rintro ⟨m, h, ht⟩
      exact ⟨m, List.mk_mem_zipIdx_iff_getElem?.1 h, ht⟩
    · rintro ⟨m, h, ht⟩
      exact ⟨m, List.mk_mem_zipIdx_iff_getElem?.2 h, ht⟩
  refine ⟨zipIdx_filter_nodup _ _, ?_, ?_, ?_⟩
  · refine List.Pairwise.sublist (List.Sublist.map _ List.filter_sublist) ?_
    rw [List.zipIdx_map_snd]
    exact List.pairwise_lt_range'
  · intro i c hc hd
    refine (hmem i).2 ⟨c, hc, ?_⟩
    norm_num at hd ⊢
    linarith
  · intro i hi
    obtain ⟨c, hc, hd⟩ := (hmem i).1 hi
    refine ⟨c, hc, lt_of_le_of_lt hd ?_⟩
    norm_num

/-- The second driver finds no facet of a well or of the fault, whatever the mesh: it compares numbers with lists. -/
theorem C143_facets_by_name_violated (cells : List Int) : ∀ name ∈ ["well_1", "well_2", "fault"],
    facetsByName name cells = .ok [] := by
  intro name hn
  simp only [List.mem_cons, List.not_mem_nil, or_false] at hn
  rcases hn with rfl | rfl | rfl <;>
  · simp only [facetsByName, matId]
    congr 1
    exact List.filter_eq_nil_iff.2 fun m _ => by simp

/-- The table of the layers is not the one documented above it, and the layer that differs is the one in use. -/
theorem C143_materials_violated :
    materials.map (fun m => (m.1, m.2.1, m.2.2.1)) ≠ documented ∧
    (∀ m ∈ materials, (m.1, m.2.1, m.2.2.1) ∈ documented ↔ m.1 ≠ usedLayer) := by
  decide

/-! ### An example -/

/-- The triangle of the elasticity example, with the displacement `(x, 0)`. -/
def exampleEl : SEl ℚ Unit := ⟨triangle, [0, 1, 2, 3, 4, 5], [0, 1, 2]⟩

theorem exampleFits : Fits 3 2 ([0, 0, 1, 0, 0, 0] : List ℚ) exampleEl :=
  ⟨triangle_shapes, rfl, rfl, by decide, by decide⟩

example : ∃ r, recover 3 2 2 1 1 ([0, 0, 1, 0, 0, 0] : List ℚ) [exampleEl] = .ok r ∧ r 1 0 0 = 3 ∧ r 1 1 1 = 1 ∧
    r 1 0 1 = 0 := by
  have hf : ∀ e ∈ [exampleEl], Fits 3 2 ([0, 0, 1, 0, 0, 0] : List ℚ) e := by
    intro e he
    rw [List.mem_singleton.1 he]
    exact exampleFits
  obtain ⟨r, h1, -⟩ := C143_nodal hf 1 1
  have hvol : volume exampleEl = 1 / 2 := by norm_num [volume, exampleEl, triangle]
  have hg : ∀ k < 2, ∀ l < 2, fieldGrad 2 exampleEl.el (coeffs ([0, 0, 1, 0, 0, 0] : List ℚ) exampleEl.dest) 0 k l =
      if k = 0 ∧ l = 0 then 1 else 0 := by
    intro k hk l hl
    have := fun a => triangle_grad 0 a l hl
    simp only [fieldGrad, exampleEl, this]
    show ∑ a ∈ Finset.range 3, _ = _
    interval_cases k <;> interval_cases l <;> norm_num [Finset.sum_range_succ, coeffs]
  have hc : ∀ k (hk : k < 2) l (hl : l < 2), r 1 k l = hooke 2 1 1 ([0, 0, 1, 0, 0, 0] : List ℚ) exampleEl 0 k l := by
    intro k hk l hl
    refine C143_constant hf h1 ⟨exampleEl, List.mem_singleton_self _, by decide, by rw [hvol]; norm_num⟩ hk hl ?_ ?_
    · intro e he _ i hi
      rw [List.mem_singleton.1 he]
      norm_num [exampleEl, triangle]
    · intro e he _ i hi
      rw [List.mem_singleton.1 he] at hi ⊢
      have : i = 0 := by
        have h1 : exampleEl.el.nPts = 1 := rfl
        omega
      rw [this]
  refine ⟨r, h1, ?_, ?_, ?_⟩
  all_goals
    rw [hc _ (by decide) _ (by decide), hooke, sym, tr]
    simp only [Finset.sum_range_succ, Finset.sum_range_zero, hg _ (show 0 < 2 by decide) _ (show 0 < 2 by decide),
      hg _ (show 0 < 2 by decide) _ (show 1 < 2 by decide), hg _ (show 1 < 2 by decide) _ (show 0 < 2 by decide),
      hg _ (show 1 < 2 by decide) _ (show 1 < 2 by decide)]
    norm_num

/-- The centre of the ring is the point (500, 277, 0). -/
theorem C143_centre (c : Pt ℝ) :
    dist2 c = ∑ i : Fin 3, (c i - (![500, 277, 0] : Fin 3 → ℝ) i) ^ 2 := by
  rw [dist2, Fin.sum_univ_three]
  rfl

/-- A component beyond the dimension raises `IndexError`, a gradient of another length `ValueError`. -/
theorem C143_row_refused {K : Type} [Field K] (dim : Nat) (g : Arr K) (a : List K) (c : Nat) (h : a.length = g.rows) :
    (dim ≤ c → gradRow dim g a c = .error .indexError) ∧
      (c < dim → g.cols ≠ dim → gradRow dim g a c = .error .valueError) := by
  constructor
  · intro hc
    rw [gradRow, matmul, if_neg (by exact fun h' => h' h)]
    show (if dim ≤ c then _ else _) = _
    rw [if_pos hc]
  · intro hc hg
    rw [gradRow, matmul, if_neg (by exact fun h' => h' h)]
    show (if dim ≤ c then _ else _) = _
    rw [if_neg (by omega)]
    exact if_pos hg

/-- Any other name raises `KeyError`. -/
theorem C143_other_name (cells : List Int) {name : String} (h : name ∉ ["well_1", "well_2", "fault"]) :
    facetsByName name cells = .error .keyError := by
  simp only [List.mem_cons, List.not_mem_nil, or_false, not_or] at h
  have : matId name = none := by
    unfold matId
    split
    · exact absurd rfl h.1
    · exact absurd rfl h.2.1
    · exact absurd rfl h.2.2
    · rfl
  rw [facetsByName, this]

/-- The four sides have the materials four to seven, one each. -/
theorem C143_sides : bcBottom ++ bcTop ++ bcWest ++ bcEast = [4, 5, 6, 7] ∧
    [bcBottom, bcTop, bcWest, bcEast].map List.length = [1, 1, 1, 1] := by
  decide

#print axioms C143_nodal

#print axioms C143_symmetric
#print axioms C143_between
#print axioms C143_constant
#print axioms C143_same_law
#print axioms C143_refused
#print axioms C143_lame
#print axioms C143_lame_refused
#print axioms C143_facets
#print axioms C143_inside
#print axioms C143_facets_by_name_violated
#print axioms C143_materials_violated

#print axioms C143_centre
#print axioms C143_row_refused

#print axioms C143_other_name

#print axioms C143_sides

end Verif.StressRecovery
