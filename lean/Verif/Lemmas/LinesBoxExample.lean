/-
Examples of boxes with lines: a square with sides of length 4.
-/
import Verif.Lemmas.LinesBoxWalk
import Verif.Lemmas.GridDrawing

namespace Verif.LinesBox
open MeshBuild MeshGraph Trace MeshMetrics Geometry VertexOps Topology
open MdBox (vertexShape close corners IsBox)
open scoped Classical

def sqPoints : List (Pt ℝ) := [![0, 0, 0], ![4, 0, 0], ![4, 4, 0], ![0, 4, 0]]

def sqRock : List Edg :=
  [⟨0, some 2, ⟨0, none, ![0, 0, 0]⟩, ⟨1, none, ![4, 0, 0]⟩⟩,
    ⟨1, some 3, ⟨1, none, ![4, 0, 0]⟩, ⟨2, none, ![4, 4, 0]⟩⟩,
    ⟨2, some 4, ⟨2, none, ![4, 4, 0]⟩, ⟨3, none, ![0, 4, 0]⟩⟩,
    ⟨3, some 5, ⟨0, none, ![0, 0, 0]⟩, ⟨3, none, ![0, 4, 0]⟩⟩]

def sqGrid : List Grid := [⟨true, 0, 0, 4⟩, ⟨false, 4, 0, 4⟩, ⟨true, 4, 4, 0⟩, ⟨false, 0, 0, 4⟩]

theorem sq_box : IsBox sqPoints defaultTags2 sqRock := by
  refine ⟨rfl, fun i e he => ?_⟩
  match i, he with
  | 0, he =>
    cases he
    exact ⟨rfl, by decide +kernel, _, _, rfl, rfl, rfl, rfl⟩
  | 1, he =>
    cases he
    exact ⟨rfl, by decide +kernel, _, _, rfl, rfl, rfl, rfl⟩
  | 2, he =>
    cases he
    exact ⟨rfl, by decide +kernel, _, _, rfl, rfl, rfl, rfl⟩
  | 3, he =>
    cases he
    exact ⟨rfl, by decide +kernel, _, _, rfl, rfl, rfl, rfl⟩
  | i + 4, he => simp [sqRock] at he

theorem sq_max : IsMaxTag 4 defaultTags2 5 := by
  refine ⟨Or.inr ⟨3, by decide, by decide +kernel⟩, ?_⟩
  rintro t (h | ⟨i, hi, h⟩)
  · have : defaultTags2.get? "area" = some 1 := by decide +kernel
    rw [this, Option.some.injEq] at h
    omega
  · match i, hi, h with
    | 0, _, h =>
      rw [show defaultTags2.get? (bcLabel 0) = some 2 by decide +kernel, Option.some.injEq] at h
      omega
    | 1, _, h =>
      rw [show defaultTags2.get? (bcLabel 1) = some 3 by decide +kernel, Option.some.injEq] at h
      omega
    | 2, _, h =>
      rw [show defaultTags2.get? (bcLabel 2) = some 4 by decide +kernel, Option.some.injEq] at h
      omega
    | 3, _, h =>
      rw [show defaultTags2.get? (bcLabel 3) = some 5 by decide +kernel, Option.some.injEq] at h
      omega
    | i + 4, hi, _ => omega

/-- The lines of the grid -/
def gridAt (n : Nat) (gs : List Grid) (i : Nat) : Grid := gs.getD (if i < n then i else i - 1) ⟨true, 0, 0, 0⟩

theorem onGrid_drawn {rock ls : List Edg} {gs : List Grid}
    (hr : List.Forall₂ (fun e g => Reads (bare e) g) (rock ++ ls) gs) (hok : ∀ g ∈ gs, g.Ok)
    (hp : gs.Pairwise fun g k => g.flat = k.flat → g.at' ≠ k.at') : OnGrid (gridAt rock.length gs) (drawn rock ls) := by
  have hl := hr.length_eq
  have key : ∀ (i : Nat) (e : LEdge), (drawn rock ls)[i]? = some (some e) → ∃ (k : Nat) (x : Edg) (g : Grid),
      (rock ++ ls)[k]? = some x ∧ e = bare x ∧ gs[k]? = some g ∧ gridAt rock.length gs i = g ∧
      k = (if i < rock.length then i else i - 1) ∧ i ≠ rock.length := by
    intro i e h
    rcases drawn_cases h with ⟨x, hx, he⟩ | ⟨j, x, hi, hx, he⟩
    · have hlt := (List.getElem?_eq_some_iff.1 hx).1
      have hgs : i < gs.length := by rw [← hl, List.length_append]; omega
      refine ⟨i, x, gs[i], by rw [List.getElem?_append_left hlt, hx], he, List.getElem?_eq_getElem hgs, ?_,
        by rw [if_pos hlt], by omega⟩
      unfold gridAt
      rw [if_pos hlt, List.getD_eq_getElem?_getD, List.getElem?_eq_getElem hgs]
      rfl
    · have hlt := (List.getElem?_eq_some_iff.1 hx).1
      have hgs : rock.length + j < gs.length := by rw [← hl, List.length_append]; omega
      refine ⟨rock.length + j, x, gs[rock.length + j], ?_, he, List.getElem?_eq_getElem hgs, ?_, ?_, by omega⟩
      · rw [List.getElem?_append_right (by omega), show rock.length + j - rock.length = j by omega, hx]
      · unfold gridAt
        rw [hi, if_neg (by omega), show rock.length + 1 + j - 1 = rock.length + j by omega,
          List.getD_eq_getElem?_getD, List.getElem?_eq_getElem hgs]
        rfl
      · rw [if_neg (by omega)]
        omega
  refine ⟨fun i e h => ?_, fun i e h => ?_, fun i j e f hij he hf hfl => ?_⟩
  · obtain ⟨k, x, g, h1, rfl, h2, h3, -⟩ := key i e h
    rw [h3]
    obtain ⟨hk, h1⟩ := List.getElem?_eq_some_iff.1 h1
    obtain ⟨hk', h2⟩ := List.getElem?_eq_some_iff.1 h2
    have := hr.get hk hk'
    simp only [List.get_eq_getElem, h1, h2] at this
    exact this
  · obtain ⟨k, x, g, -, -, h2, h3, -⟩ := key i e h
    rw [h3]
    exact hok g (List.mem_of_getElem? h2)
  · obtain ⟨k, x, g, -, -, h2, h3, h4, h5⟩ := key i e he
    obtain ⟨k', x', g', -, -, h2', h3', h4', h5'⟩ := key j f hf
    rw [h3, h3'] at hfl ⊢
    obtain ⟨hk, h2⟩ := List.getElem?_eq_some_iff.1 h2
    obtain ⟨hk', h2'⟩ := List.getElem?_eq_some_iff.1 h2'
    have hkk : k ≠ k' := by
      rw [h4, h4']
      split <;> split <;> omega
    have hpw := List.pairwise_iff_getElem.1 hp
    rcases lt_or_gt_of_ne hkk with hlt | hlt
    · have := hpw k k' hk hk' hlt
      rw [h2, h2'] at this
      exact this hfl
    · have := hpw k' k hk' hk hlt
      rw [h2, h2'] at this
      exact (this hfl.symm).symm

theorem sq_reads : List.Forall₂ (fun e g => Reads (bare e) g) sqRock sqGrid := by
  unfold sqRock sqGrid
  refine .cons ⟨?_, ?_, rfl⟩ (.cons ⟨?_, ?_, rfl⟩ (.cons ⟨?_, ?_, rfl⟩ (.cons ⟨?_, ?_, rfl⟩ .nil))) <;>
    simp [Grid.pt, bare]

/-- Sides only meet at corners. -/
theorem sq_linked {i j : Nat} {e f : Edg} (he : sqRock[i]? = some e) (hf : sqRock[j]? = some f) (hij : j ≠ i) {z : Pt ℝ}
    (h1 : z ∈ (bare e).span) (h2 : z ∈ (bare f).span) : Linked (bare e) (bare f) z := by
  have hli : i < 4 := (List.getElem?_eq_some_iff.1 he).1
  have hlj : j < 4 := (List.getElem?_eq_some_iff.1 hf).1
  have hri : Reads (bare e) (sqGrid[i]'hli) := by
    have := sq_reads.get hli hli
    simp only [List.get_eq_getElem] at this
    rw [(List.getElem?_eq_some_iff.1 he).2] at this
    exact this
  have hrj : Reads (bare f) (sqGrid[j]'hlj) := by
    have := sq_reads.get hlj hlj
    simp only [List.get_eq_getElem] at this
    rw [(List.getElem?_eq_some_iff.1 hf).2] at this
    exact this
  have hne : (sqGrid[i]'hli).flat = (sqGrid[j]'hlj).flat → (sqGrid[i]'hli).at' ≠ (sqGrid[j]'hlj).at' := by
    match i, j, hli, hlj, hij with
    | 0, 0, _, _, h => exact absurd rfl h
    | 1, 1, _, _, h => exact absurd rfl h
    | 2, 2, _, _, h => exact absurd rfl h
    | 3, 3, _, _, h => exact absurd rfl h
    | 0, 1, _, _, _ | 0, 2, _, _, _ | 0, 3, _, _, _ | 1, 0, _, _, _ | 1, 2, _, _, _ | 1, 3, _, _, _ | 2, 0, _, _, _
    | 2, 1, _, _, _ | 2, 3, _, _, _ | 3, 0, _, _, _ | 3, 1, _, _, _ | 3, 2, _, _, _ => simp [sqGrid]
    | i + 4, _, h, _, _ => omega
    | _, j + 4, _, h, _ => omega
  obtain ⟨k1, -, -, rfl⟩ := (grid_meet hri hrj hne).1 ⟨h1, h2⟩
  have fin : ∀ (v : Vtx), v ∈ [(bare e).first, (bare e).second] → v ∈ [(bare f).first, (bare f).second] →
      v.point = (sqGrid[i]'hli).pt (sqGrid[j]'hlj).at' → Linked (bare e) (bare f) ((sqGrid[i]'hli).pt (sqGrid[j]'hlj).at') :=
    fun v a b c => ⟨v, a, v, b, c, c, rfl⟩
  clear hne hri hrj h1 h2
  match i, j, hli, hlj, hij, he, hf, k1, fin with
  | 0, 0, _, _, h, _, _, k1, fin => exact absurd rfl h
  | 1, 1, _, _, h, _, _, k1, fin => exact absurd rfl h
  | 2, 2, _, _, h, _, _, k1, fin => exact absurd rfl h
  | 3, 3, _, _, h, _, _, k1, fin => exact absurd rfl h
  | 0, 2, _, _, _, _, _, k1, fin => exact absurd rfl k1
  | 2, 0, _, _, _, _, _, k1, fin => exact absurd rfl k1
  | 1, 3, _, _, _, _, _, k1, fin => exact absurd rfl k1
  | 3, 1, _, _, _, _, _, k1, fin => exact absurd rfl k1
  | 0, 1, _, _, _, he, hf, k1, fin => cases he; cases hf; exact fin ⟨1, none, ![4, 0, 0]⟩ (.tail _ (.head _)) (.head _) (by simp [sqGrid, Grid.pt])
  | 1, 0, _, _, _, he, hf, k1, fin => cases he; cases hf; exact fin ⟨1, none, ![4, 0, 0]⟩ (.head _) (.tail _ (.head _)) (by simp [sqGrid, Grid.pt])
  | 1, 2, _, _, _, he, hf, k1, fin => cases he; cases hf; exact fin ⟨2, none, ![4, 4, 0]⟩ (.tail _ (.head _)) (.head _) (by simp [sqGrid, Grid.pt])
  | 2, 1, _, _, _, he, hf, k1, fin => cases he; cases hf; exact fin ⟨2, none, ![4, 4, 0]⟩ (.head _) (.tail _ (.head _)) (by simp [sqGrid, Grid.pt])
  | 2, 3, _, _, _, he, hf, k1, fin => cases he; cases hf; exact fin ⟨3, none, ![0, 4, 0]⟩ (.tail _ (.head _)) (.tail _ (.head _)) (by simp [sqGrid, Grid.pt])
  | 3, 2, _, _, _, he, hf, k1, fin => cases he; cases hf; exact fin ⟨3, none, ![0, 4, 0]⟩ (.tail _ (.head _)) (.tail _ (.head _)) (by simp [sqGrid, Grid.pt])
  | 0, 3, _, _, _, he, hf, k1, fin => cases he; cases hf; exact fin ⟨0, none, ![0, 0, 0]⟩ (.head _) (.head _) (by simp [sqGrid, Grid.pt])
  | 3, 0, _, _, _, he, hf, k1, fin => cases he; cases hf; exact fin ⟨0, none, ![0, 0, 0]⟩ (.head _) (.head _) (by simp [sqGrid, Grid.pt])
  | i + 4, _, h, _, _, _, _, k1, fin => omega
  | _, j + 4, _, h, _, _, _, k1, fin => omega

/-- A side of the square is only cut by lines. -/
theorem sq_cut {ls : List Edg} {i : Nat} {z : Pt ℝ} (h : CutAt (drawn sqRock ls) i z) :
    (∃ e ∈ ls, z ∈ (bare e).span) ∧ ∀ e, sqRock[i]? = some e → z ∈ (bare e).span := by
  obtain ⟨e, j, f, h1, h2, h3, h4, h5, h6⟩ := h
  rcases drawn_cases h1 with ⟨x, hx, rfl⟩ | ⟨k, x, hi, hx, rfl⟩
  · rcases drawn_cases h2 with ⟨y, hy, rfl⟩ | ⟨k, y, hj, hy, rfl⟩
    · exact absurd (sq_linked hx hy h3 h4 h5) h6
    · refine ⟨⟨y, List.mem_of_getElem? hy, h5⟩, fun e he => ?_⟩
      rw [hx, Option.some.injEq] at he
      exact he ▸ h4
  · refine ⟨⟨x, List.mem_of_getElem? hx, h4⟩, fun e he => ?_⟩
    have := (List.getElem?_eq_some_iff.1 he).1
    omega

/-- The square with lines on the grid -/
theorem sq_scene {argsort : List ℝ → List Nat} {argsortTag : List Int → List Nat} (hs : Fracture.IsArgsort argsort)
    (ha : IsArgsort argsortTag) {lines : List Line}
    (hd : Drawing (axesOf 2) (drawn sqRock (lineEdges sqPoints.length 5 lines))) :
    IsScene argsort argsortTag sqPoints lines none sqRock 5 :=
  ⟨hs, ha, by decide, sq_max, sq_box, hd⟩

theorem line_mem {n : Nat} {p : Int} {lines : List Line} {e : Edg} (h : e ∈ lineEdges n p lines) {z : Pt ℝ} :
    z ∈ (bare e).span → ∃ l ∈ lines, z ∈ segment ℝ l.1 l.2 := by
  intro hz
  obtain ⟨j, hj⟩ := List.mem_iff_getElem?.1 h
  obtain ⟨l, hl, rfl⟩ := lineEdges_getElem? hj
  exact ⟨l, List.mem_of_getElem? hl, hz⟩

end Verif.LinesBox
