/-
C37 (mesh sizes) and C36 (mesh colouring).
-/
import Verif.Lemmas.MeshMetrics
import Verif.Props.MeshGraph

namespace Verif.MeshMetrics
open MeshBuild MeshGraph Trace

/-! ### C37 -/

/-- C37: `cell_diam` is the largest distance between two nodes of the cell, that is, the diameter
of the simplex spanned by the nodes. -/
theorem C37_cell_diam {points : Points ℝ} {c : Cell} {d : ℝ} (h : cellDiam points c = .ok d) :
    ∃ ps, List.Forall₂ (fun t p => points[t]? = some p) c.nodeTags ps ∧
      IsGreatest {x | ∃ (i j : Nat) (p q : Pt ℝ), i ≠ j ∧ ps[i]? = some p ∧ ps[j]? = some q ∧
        x = dist (toE p) (toE q)} d ∧
      d = Metric.diam (hull ps) := by
  obtain ⟨ps, h1, h2⟩ := cellDiam_iff.1 h
  exact ⟨ps, h1, h2, (diam_hull h2).symm⟩

/-- C37: which cells have a size.  A cell with existing nodes, at least two of them, has one; a
cell with a single node raises `ValueError`; a missing node raises `IndexError`. -/
theorem C37_cell_diam_total (points : Points ℝ) (c : Cell) :
    ((∀ t ∈ c.nodeTags, t < points.length) → 2 ≤ c.nodeTags.length →
      ∃ d, cellDiam points c = .ok d) ∧
    ((∀ t ∈ c.nodeTags, t < points.length) → c.nodeTags.length < 2 →
      cellDiam points c = .error .valueError) ∧
    ((∃ t ∈ c.nodeTags, points.length ≤ t) → cellDiam points c = .error .indexError) := by
  refine ⟨fun h h2 => ?_, fun h h2 => ?_, fun h => ?_⟩
  · obtain ⟨ps, hps⟩ := fancy_total h
    have hl := hps.length_eq
    unfold cellDiam
    rw [fancy_iff.2 hps, Res.bind_ok]
    apply maxR_exists
    have : dist (toE ps[0]) (toE ps[1]) ∈ (pairDiffs ps).map norm3 :=
      mem_pairDiffs.2 ⟨0, 1, ps[0], ps[1], by simp, by simp, by simp, rfl⟩
    intro hn
    rw [hn] at this
    simp at this
  · obtain ⟨ps, hps⟩ := fancy_total h
    have hl := hps.length_eq
    unfold cellDiam
    rw [fancy_iff.2 hps, Res.bind_ok]
    have : (pairDiffs ps).map norm3 = [] := by
      rw [List.eq_nil_iff_forall_not_mem]
      intro x hx
      obtain ⟨i, j, p, q, hij, hi, hj, -⟩ := mem_pairDiffs.1 hx
      have := (List.getElem?_eq_some_iff.1 hi).1
      have := (List.getElem?_eq_some_iff.1 hj).1
      omega
    rw [this]; rfl
  · obtain ⟨t, ht, hlt⟩ := h
    have : ∀ l : List Nat, t ∈ l → mapRes (getIdx points) l = .error .indexError := by
      intro l
      induction l with
      | nil => simp
      | cons a l ih =>
        intro hm
        rcases List.mem_cons.1 hm with rfl | hm
        · simp [mapRes, getIdx, List.getElem?_eq_none hlt]
        · simp only [mapRes, ih hm]
          cases ha : getIdx points a with
          | ok x => simp
          | error e =>
            unfold getIdx at ha
            split at ha
            · simp at ha
            · simp only [Except.error.injEq] at ha
              subst ha; simp
    unfold cellDiam fancy
    rw [this _ ht]; rfl

/-- C37: `mesh_size` returns the smallest, the mean and the largest diameter of the selected
cells, in this order. -/
theorem C37_mesh_size {m : Mesh} {cs : List Cell} (hcs : m.cells = cs.map some)
    (points : Points ℝ) (dim : Option Nat) (tag : Option Int) {mn me mx : ℝ}
    (h : meshSize m points dim tag = .ok (mn, me, mx)) :
    ∃ sizes, List.Forall₂ (fun c d => cellDiam points c = .ok d)
        (cs.filter fun c => Selected m dim tag c) sizes ∧
      IsLeast {x | x ∈ sizes} mn ∧ IsGreatest {x | x ∈ sizes} mx ∧
      me * sizes.length = sizes.sum ∧ mn ≤ me ∧ me ≤ mx := by
  rw [meshSize_filled hcs] at h
  simp only [Res.bind_eq_ok, Res.pure_eq, Except.ok.injEq, Prod.mk.injEq] at h
  obtain ⟨sizes, h1, a, h2, b, h3, rfl, rfl, rfl⟩ := h
  rw [mapRes_iff] at h1
  rw [minR_iff] at h2
  rw [maxR_iff] at h3
  have hne : sizes ≠ [] := by
    rintro rfl; exact absurd h2.1 (by simp)
  have hb := mean_bounds hne (fun x hx => h2.2 hx) (fun x hx => h3.2 hx)
  refine ⟨sizes, h1, h2, h3, ?_, hb.1, hb.2⟩
  rw [div_mul_cancel₀]
  simpa using hne

/-- C37: on a mesh without empty slots whose cells have existing nodes, `mesh_size` returns for
every positive dimension with a selected cell, and raises `ValueError` when no cell is selected;
it raises `AttributeError` when a slot is empty. -/
theorem C37_mesh_size_total (m : Mesh) (points : Points ℝ) (dim : Option Nat)
    (tag : Option Int) :
    (∀ cs : List Cell, m.cells = cs.map some →
      ((∃ c ∈ cs, Selected m dim tag c) →
        (∀ c ∈ cs, Selected m dim tag c →
          (∀ t ∈ c.nodeTags, t < points.length) ∧ 2 ≤ c.nodeTags.length) →
        ∃ r, meshSize m points dim tag = .ok r) ∧
      ((∀ c ∈ cs, ¬ Selected m dim tag c) →
        meshSize m points dim tag = .error .valueError)) ∧
    (none ∈ m.cells → meshSize m points dim tag = .error .attributeError) := by
  refine ⟨fun cs hcs => ⟨?_, ?_⟩, ?_⟩
  · rintro ⟨c, hc, hsel⟩ hall
    rw [meshSize_filled hcs]
    obtain ⟨sizes, hs⟩ : ∃ sizes, mapRes (cellDiam points)
        (cs.filter fun c => Selected m dim tag c) = .ok sizes := by
      have : ∀ l : List Cell, (∀ c ∈ l, ∃ d, cellDiam points c = .ok d) →
          ∃ sizes, mapRes (cellDiam points) l = .ok sizes := by
        intro l
        induction l with
        | nil => intro _; exact ⟨[], rfl⟩
        | cons a l ih =>
          intro h
          obtain ⟨d, hd⟩ := h a (by simp)
          obtain ⟨r, hr⟩ := ih fun x hx => h x (by simp [hx])
          exact ⟨d :: r, by simp [mapRes, hd, hr]⟩
      apply this
      intro c hc
      simp only [List.mem_filter, decide_eq_true_eq] at hc
      obtain ⟨h1, h2⟩ := hall c hc.1 hc.2
      exact (C37_cell_diam_total points c).1 h1 h2
    have hl := (mapRes_iff.1 hs).length_eq
    have hne : sizes ≠ [] := by
      rintro rfl
      have : c ∈ cs.filter fun c => Selected m dim tag c := by simp [hc, hsel]
      rw [List.length_nil, List.length_eq_zero_iff] at hl
      rw [hl] at this
      simp at this
    obtain ⟨a, ha⟩ := minR_exists hne
    obtain ⟨b, hb⟩ := maxR_exists hne
    exact ⟨_, by rw [hs, Res.bind_ok, ha, Res.bind_ok, hb, Res.bind_ok]; rfl⟩
  · intro hno
    rw [meshSize_filled hcs]
    have : (cs.filter fun c => Selected m dim tag c) = [] := by simpa using hno
    rw [this]; rfl
  · intro h
    unfold meshSize
    simp [selectCells_empty_slot _ _ h]

/-- C37 on built meshes: the hypotheses about the nodes hold for the cells of dimension at least
one. -/
theorem C37_built (f : MeshFile) (cells : Cells) (h : buildConformalMesh f = .ok cells)
    (points : Points ℝ) (hp : points.length = f.nPoints) (i : Nat) (c : Cell)
    (hc : Stored cells i c) (hd : 1 ≤ c.dimension) : ∃ d, cellDiam points c = .ok d := by
  obtain ⟨hn, -⟩ := C02_sub_entities f cells h i c hc
  refine (C37_cell_diam_total points c).1 ?_ (by omega)
  obtain ⟨E, hE, hI⟩ := build_inv h
  obtain ⟨p, hpt, -, hs⟩ := hI.origin i c hc
  have hwf := build_wf h
  intro t ht
  rw [hp]
  exact hwf.2.2 p hpt t (hs.subset ht)

/-- Diameter of the 3-4-5 triangle. -/
example : cellDiam [![0, 0, 0], ![3, 0, 0], ![0, 4, 0]]
    (createCell 2 [0, 1, 2] 0 none) = .ok 5 := by
  rw [cellDiam_iff]
  refine ⟨[![0, 0, 0], ![3, 0, 0], ![0, 4, 0]], ?_, ?_⟩
  · simp [createCell]
  have hd : ∀ p q : Pt ℝ, dist (toE p) (toE q) = norm3 (q - p) := fun p q => (norm3_eq p q).symm
  have h5 : Real.sqrt 25 = 5 := by
    rw [show (25 : ℝ) = 5 ^ 2 by norm_num]; exact Real.sqrt_sq (by norm_num)
  have h3 : Real.sqrt 9 = 3 := by
    rw [show (9 : ℝ) = 3 ^ 2 by norm_num]; exact Real.sqrt_sq (by norm_num)
  have h4 : Real.sqrt 16 = 4 := by
    rw [show (16 : ℝ) = 4 ^ 2 by norm_num]; exact Real.sqrt_sq (by norm_num)
  constructor
  · refine ⟨1, 2, _, _, by simp, rfl, rfl, ?_⟩
    rw [hd]
    simp [norm3]
    rw [show (3 : ℝ) ^ 2 + 4 ^ 2 = 25 by norm_num, h5]
  · rintro x ⟨i, j, p, q, hij, hi, hj, rfl⟩
    rw [hd]
    have hi' := (List.getElem?_eq_some_iff.1 hi).1
    have hj' := (List.getElem?_eq_some_iff.1 hj).1
    simp only [List.length_cons, List.length_nil] at hi' hj'
    have hle : ∀ y : ℝ, y ≤ 25 → Real.sqrt y ≤ 5 := fun y hy => by
      rw [← h5]; exact Real.sqrt_le_sqrt hy
    apply hle
    interval_cases i <;> interval_cases j <;> simp at hij hi hj <;> subst hi hj <;>
      simp <;> norm_num

/-! ### C36 -/

/-- C36 is violated: `coloring_mesh_by_co_dimension` never returns.  The colours are keyed by
graph nodes (pairs of dimension and id) and filtered by membership in a list of ids, so the filter
keeps nothing and `np.vstack` raises. -/
theorem C36_violated (equitable : DiGraph Node → Nat → Res (Dict Node Nat)) (nColors : Nat)
    (m : Mesh) (dim coDim : Nat) (hco : coDim ≤ dim) :
    ∃ e, coloring equitable nColors m dim coDim hco = .error e := by
  cases h : coloring equitable nColors m dim coDim hco with
  | error e => exact ⟨e, rfl⟩
  | ok r =>
    exfalso
    unfold coloring at h
    simp only [Res.bind_eq_ok] at h
    obtain ⟨t, -, t', -, g, -, col, -, sel, -, hf⟩ := h
    have : (col.map fun it => (PyVal.tuple it.1.1 it.1.2, it.2)).filter
        (fun it => it.1 ∈ sel.map fun c => PyVal.int c.id) = [] := by
      rw [List.filter_eq_nil_iff]
      intro x hx
      obtain ⟨it, -, rfl⟩ := List.mem_map.1 hx
      simp
    rw [this] at hf
    simp [finishColoring] at hf

/-- C36: the exception when everything before succeeds is `ValueError`. -/
theorem C36_violated_valueError (equitable : DiGraph Node → Nat → Res (Dict Node Nat))
    (nColors : Nat) (m : Mesh) (hw : WellFormed m.cells) (dim coDim : Nat) (hco : coDim ≤ dim)
    (hdim : dim ≤ m.dimension) (he : ∀ g, ∃ col, equitable g nColors = .ok col) :
    coloring equitable nColors m dim coDim hco = .error .valueError := by
  obtain ⟨sel, t, ht, hm, htd, htopo, -⟩ := buildData_ok hw (⟨m, dim, [], []⟩ : Topology) rfl
  obtain ⟨g, hg, -⟩ := htopo.incidence (d := dim - coDim) (by rw [htd]; simp)
  obtain ⟨cs, hcs⟩ := hw.eq_map
  obtain ⟨col, hcol⟩ := he (reverseGraph g)
  unfold coloring
  have : Topology.new m dim = .ok ⟨m, dim, [], []⟩ := by
    simp [Topology.new, Nat.not_lt.2 hdim]
  rw [this, Res.bind_ok, ht, Res.bind_ok, hg, Res.bind_ok, hcol, Res.bind_ok, hcs,
    selectCells_filled, Res.bind_ok]
  have hnil : ∀ l : List Cell, (col.map fun it => (PyVal.tuple it.1.1 it.1.2, it.2)).filter
      (fun it => it.1 ∈ l.map fun c => PyVal.int c.id) = [] := by
    intro l
    rw [List.filter_eq_nil_iff]
    intro x hx
    obtain ⟨it, -, rfl⟩ := List.mem_map.1 hx
    simp
  simp only [hnil]
  rfl

/-- C36, the part that works: from a non-empty list of coloured elements on, the result colours
exactly these elements, two of them alike exactly when their original colours agree, with colours
`0, 1, ..` in the order of the original ones, and the second map lists the elements of each
colour. -/
theorem C36_renumbering_partial (items : List (PyVal × Nat)) (hne : items ≠ [])
    (hnd : (items.map Prod.fst).Nodup) :
    ∃ e2c c2e, finishColoring items = .ok (e2c, c2e) ∧ e2c.keys = items.map Prod.fst ∧
      (∀ x a y b c d, (x, a) ∈ items → (y, b) ∈ items → e2c.get? x = some c →
        e2c.get? y = some d → (c = d ↔ a = b) ∧ (a < b → c < d)) ∧
      (∀ k, k ∈ e2c.values ↔ k < (items.map Prod.snd).toFinset.card) ∧
      (∀ k l, c2e.get? k = some l ↔
        l ≠ [] ∧ l = (e2c.keys.filter fun x => e2c.get? x = some k)) := by
  obtain ⟨h1, h2, h3⟩ := compress_spec (items.map Prod.snd)
  have hmap : ((items.map fun it => (it.1, compress (items.map Prod.snd) it.2)).map
      Prod.fst).Nodup := by
    rw [List.map_map]; exact hnd
  have hget : ∀ x a, (x, a) ∈ items →
      Dict.get? (items.map fun it => (it.1, compress (items.map Prod.snd) it.2)) x =
        some (compress (items.map Prod.snd) a) := by
    intro x a hx
    exact Dict.get?_of_mem hmap (List.mem_map.2 ⟨(x, a), hx, rfl⟩)
  refine ⟨items.map fun it => (it.1, compress (items.map Prod.snd) it.2),
    groupByColor (items.map fun it => (it.1, compress (items.map Prod.snd) it.2)),
    ?_, ?_, ?_, ?_, ?_⟩
  · simp only [finishColoring, if_neg hne, ofList_nodup hmap]
  · simp [Dict.keys]
  · intro x a y b c d hx hy hc hd
    rw [hget x a hx] at hc
    rw [hget y b hy] at hd
    simp only [Option.some.injEq] at hc hd
    subst hc hd
    have ha : a ∈ items.map Prod.snd := List.mem_map.2 ⟨_, hx, rfl⟩
    have hb : b ∈ items.map Prod.snd := List.mem_map.2 ⟨_, hy, rfl⟩
    exact ⟨h1 a ha b hb, h3 a ha b hb⟩
  · intro k
    rw [h2]
    simp only [Dict.values, List.mem_map]
    constructor
    · rintro ⟨_, ⟨it, hit, rfl⟩, rfl⟩; exact ⟨it.2, ⟨it, hit, rfl⟩, rfl⟩
    · rintro ⟨_, ⟨it, hit, rfl⟩, rfl⟩; exact ⟨_, ⟨it, hit, rfl⟩, rfl⟩
  · intro k l
    rw [groupByColor_get?]
    have hf : ((items.map fun it => (it.1, compress (items.map Prod.snd) it.2)).filter
          fun it => it.2 = k).map Prod.fst =
        (Dict.keys (items.map fun it => (it.1, compress (items.map Prod.snd) it.2))).filter
          fun x => Dict.get? (items.map fun it => (it.1, compress (items.map Prod.snd) it.2)) x
            = some k := by
      generalize items.map (fun it => (it.1, compress (items.map Prod.snd) it.2)) = e at hmap
      rw [Dict.keys, List.filter_map]
      congr 1
      apply List.filter_congr
      intro p hp
      have := Dict.get?_of_mem hmap (k := p.1) (v := p.2) hp
      simp [this]
    rw [← hf]
    split
    · rename_i hn
      rw [hn]; simp
    · rename_i hn
      simp only [Option.some.injEq]
      constructor
      · rintro rfl; exact ⟨by simpa using hn, rfl⟩
      · rintro ⟨-, rfl⟩; rfl

example : finishColoring [(.int 4, 7), (.int 5, 2), (.int 6, 7)] =
    .ok ([(.int 4, 1), (.int 5, 0), (.int 6, 1)], [(1, [.int 4, .int 6]), (0, [.int 5])]) := by
  rfl

#print axioms C37_cell_diam
#print axioms C37_cell_diam_total
#print axioms C37_mesh_size
#print axioms C37_mesh_size_total
#print axioms C37_built
#print axioms C36_violated
#print axioms C36_violated_valueError
#print axioms C36_renumbering_partial

end Verif.MeshMetrics
