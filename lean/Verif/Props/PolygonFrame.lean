/-
C155: normals and convexity of polygons do not depend on the frame, and the polygons of the tests.
-/
import Verif.Props.Polygon
import Verif.Props.Frame
import Verif.Props.Winding
import Mathlib.Analysis.SpecialFunctions.Trigonometric.Basic
import Mathlib.Data.Matrix.Mul
import Mathlib.LinearAlgebra.Matrix.Notation

namespace Verif.Polygon
open MeshBuild MeshGraph Trace MeshMetrics Geometry
open scoped Classical

/-- The cross product of turned directions: turned, and reversed by a reflection. -/
theorem turn_cross (m : Motion) (u v : Pt ℝ) : cross (m.turn u) (m.turn v) = m.sign • m.turn (cross u v) := by
  have hs := sign_sq m
  have h1 : dot (cross (m.turn u) (m.turn v)) (m.turn (cross u v)) = m.sign * dot (cross u v) (cross u v) :=
    turn_volume m u v (cross u v)
  have h2 : dot (cross (m.turn u) (m.turn v)) (cross (m.turn u) (m.turn v)) = dot (cross u v) (cross u v) := by
    have e : ∀ a b : Pt ℝ, dot (cross a b) (cross a b) = dot a a * dot b b - dot a b * dot a b := by
      intro a b
      simp only [dot, cross, Matrix.cons_val_zero, Matrix.cons_val_one, Matrix.cons_val]
      ring
    rw [e, e, turn_dot, turn_dot, turn_dot]
  have h3 := turn_dot m (cross u v) (cross u v)
  set x := cross (m.turn u) (m.turn v)
  set y := m.turn (cross u v)
  have h : dot (x - m.sign • y) (x - m.sign • y) = 0 := by
    have e : dot (x - m.sign • y) (x - m.sign • y) = dot x x - 2 * m.sign * dot x y + m.sign ^ 2 * dot y y := by
      simp only [dot, Pi.sub_apply, Pi.smul_apply, smul_eq_mul]
      ring
    rw [e, h1, h2, h3]
    linear_combination (-dot (cross u v) (cross u v)) * hs
  have hz : x - m.sign • y = 0 := by
    simp only [dot] at h
    have e0 := sq_nonneg ((x - m.sign • y) 0)
    have e1 := sq_nonneg ((x - m.sign • y) 1)
    have e2 := sq_nonneg ((x - m.sign • y) 2)
    funext k
    match k with
    | 0 => exact pow_eq_zero_iff two_ne_zero |>.1 (by nlinarith)
    | 1 => exact pow_eq_zero_iff two_ne_zero |>.1 (by nlinarith)
    | 2 => exact pow_eq_zero_iff two_ne_zero |>.1 (by nlinarith)
  exact sub_eq_zero.1 hz

theorem mean_move (m : Motion) {points : List (Pt ℝ)} (h : points ≠ []) :
    mean (points.map m.move) = m.move (mean points) := by
  have := move_mean m h
  exact this

theorem getIdx_map {α β : Type} (g : α → β) (l : List α) (i : Nat) : getIdx (l.map g) i = (getIdx l i).map g := by
  simp only [getIdx, List.getElem?_map]
  cases l[i]? <;> rfl

theorem distances_move (m : Motion) (points : List (Pt ℝ)) (x : Pt ℝ) :
    (points.map m.move).map (fun p => norm3 (p - m.move x)) = points.map fun p => norm3 (p - x) := by
  rw [List.map_map]
  refine List.map_congr_left fun p _ => ?_
  simp only [Function.comp, move_sub, turn_norm]

theorem eraseIdx_map' {α β : Type} (g : α → β) : ∀ (l : List α) (i : Nat), (l.map g).eraseIdx i = (l.eraseIdx i).map g
  | [], _ => rfl
  | _ :: _, 0 => rfl
  | a :: l, i + 1 => by simp [eraseIdx_map' g l i]

/-- The three points that span the plane move with the polygon, for all tolerances. -/
theorem C155_plane (m : Motion) (rtol atol : ℝ) {points : List (Pt ℝ)} (h : 2 ≤ points.length) :
    planePoints rtol atol (points.map m.move) = (planePoints rtol atol points).map m.tri := by
  have hne : points ≠ [] := by rintro rfl; simp at h
  unfold planePoints
  simp only [mean_move m hne, distances_move]
  obtain ⟨dxc, hd⟩ : ∃ d, d = points.map fun p => norm3 (p - mean points) := ⟨_, rfl⟩
  rw [← hd]
  simp only [getIdx_map, eraseIdx_map']
  have hdne : dxc ≠ [] := by simpa [hd] using hne
  have i1 := argmax_lt hdne
  have i2 := argmin_lt hdne
  rw [getIdx_some i1, getIdx_some i2]
  simp only [bind, Except.bind]
  by_cases hc : IsClose rtol atol dxc[argmax dxc] dxc[argmin dxc]
  · rw [if_pos hc, if_pos hc]
    cases getIdx points 0 with
    | error e => rfl
    | ok pa =>
      cases getIdx points 1 with
      | error e => rfl
      | ok pb =>
        cases getIdx points 2 with
        | error e => rfl
        | ok pc => rfl
  · rw [if_neg hc, if_neg hc]
    set red := points.eraseIdx (argmax dxc) with hr
    have hrne : red ≠ [] := by
      intro h0
      have hl : red.length = points.length - 1 := by
        rw [hr, List.length_eraseIdx_of_lt (by simpa [hd] using argmax_lt hdne)]
      rw [h0] at hl
      simp at hl
      omega
    have happ : red.map m.move ++ [mean (red.map m.move)] = (red ++ [mean red]).map m.move := by
      rw [mean_move m hrne]; simp
    rw [happ, mean_move m (by simp), move_sub, turn_norm]
    simp only [getIdx_map]
    cases getIdx points (argmax dxc) with
    | error e => rfl
    | ok pa =>
      simp only [Except.map]
      generalize getIdx (red ++ [mean red]) (argmax _) = rb
      generalize getIdx (red ++ [mean red]) (argmin _) = rc
      cases rb <;> cases rc <;> rfl

/-- The normal turns with the polygon; a reflection reverses it. -/
theorem C155_normal (m : Motion) (rtol atol : ℝ) {points : List (Pt ℝ)} (h : 2 ≤ points.length) :
    polygonNormal rtol atol (points.map m.move)
      = (polygonNormal rtol atol points).map fun n => m.sign • m.turn n := by
  unfold polygonNormal
  rw [C155_plane m rtol atol h]
  cases planePoints rtol atol points with
  | error e => rfl
  | ok t =>
    show Except.ok _ = Except.ok _
    refine congrArg Except.ok ?_
    simp only [Motion.tri, move_sub, turn_cross]
    generalize cross (t.2.1 - t.1) (t.2.2 - t.1) = n
    have hn : norm3 (m.sign • m.turn n) = norm3 n := by
      rw [norm3_dot, norm3_dot]
      congr 1
      have e : dot (m.sign • m.turn n) (m.sign • m.turn n) = m.sign ^ 2 * dot (m.turn n) (m.turn n) := by
        simp only [dot, Pi.smul_apply, smul_eq_mul]
        ring
      rw [e, sign_sq, turn_dot, one_mul]
    unfold normalize
    rw [hn]
    split_ifs
    · rw [Geometry.turn_smul, smul_comm]
    · rfl

theorem cyclic_move (m : Motion) {points : List (Pt ℝ)} (h : points ≠ []) (i : Nat) :
    cyclic (points.map m.move) i = m.move (cyclic points i) := by
  have hi : i % points.length < points.length := Nat.mod_lt _ (List.length_pos_of_ne_nil h)
  simp [cyclic, List.getD_eq_getElem?_getD, hi]

/-- Whether a polygon is convex does not depend on the frame, for all polygons and tolerances. -/
theorem C155_convex (m : Motion) (rtol atol : ℝ) (points : List (Pt ℝ)) :
    convexQ rtol atol (points.map m.move) = convexQ rtol atol points := by
  by_cases hl : points.length < 4
  · rw [C94_small rtol atol hl, C94_small rtol atol (by simpa using hl)]
  have hne : points ≠ [] := by rintro rfl; simp at hl
  have hN := C155_normal m rtol atol (show 2 ≤ points.length by omega)
  cases hp : polygonNormal rtol atol points with
  | error e =>
    rw [hp] at hN
    unfold convexQ
    rw [if_neg (by simpa using hl), if_neg hl, hN, hp]
    rfl
  | ok N =>
    rw [hp] at hN
    rw [C94_turns (by omega) hp, C94_turns (by simpa using hl) hN]
    have ht : ∀ i, turn (m.sign • m.turn N) (points.map m.move) i = turn N points i := by
      intro i
      unfold turn
      rw [cyclic_move m hne, cyclic_move m hne, cyclic_move m hne, move_sub, move_sub, turn_cross]
      generalize cross _ _ = w
      have e : dot (m.sign • m.turn N) (m.sign • m.turn w) = m.sign ^ 2 * dot (m.turn N) (m.turn w) := by
        simp only [dot, Pi.smul_apply, smul_eq_mul]
        ring
      rw [e, sign_sq, turn_dot, one_mul]
    simp only [ht, List.length_map]

/-! ### The polygons of the tests -/

/-- the corners of the pentagon, with the decimals of the tests -/
noncomputable def corner : Fin 5 → Pt ℝ
  | 0 => ![-809017 / 1000000, -587785 / 1000000, 0]
  | 1 => ![-809017 / 1000000, 587785 / 1000000, 0]
  | 2 => ![309017 / 1000000, 951057 / 1000000, 0]
  | 3 => ![1, 0, 0]
  | 4 => ![309017 / 1000000, -951057 / 1000000, 0]

/-- test_polygon_geometry_operations.py:123-131 -/
noncomputable def pentagon : List (Pt ℝ) := [corner 0, corner 1, corner 2, corner 3, corner 4]

/-- test_polygon_geometry_operations.py:111-119: the corners in another order -/
noncomputable def tangled : List (Pt ℝ) := [corner 0, corner 1, corner 4, corner 2, corner 3]

/-- test_polygon_geometry_operations.py:70-79 -/
noncomputable def plate : List (Pt ℝ) := [![-1, -1, 0], ![0, -1, 0], ![1, -1, 0], ![1, 1, 0], ![0, 1, 0], ![-1, 1, 0]]

theorem corner_norm (k : Fin 5) : |norm3 (corner k) - 1| ≤ 1 / 1000000 := by
  have key : ∀ v : Pt ℝ, (1 - 1 / 1000000 : ℝ) ^ 2 ≤ v 0 ^ 2 + v 1 ^ 2 + v 2 ^ 2 →
      v 0 ^ 2 + v 1 ^ 2 + v 2 ^ 2 ≤ (1 + 1 / 1000000 : ℝ) ^ 2 → |norm3 v - 1| ≤ 1 / 1000000 := by
    intro v h1 h2
    rw [norm3, abs_le]
    have a := Real.le_sqrt_of_sq_le h1
    have b := Real.sqrt_le_sqrt h2
    rw [Real.sqrt_sq (by norm_num)] at b
    constructor <;> linarith
  match k with
  | 0 => apply key <;> simp [corner] <;> norm_num
  | 1 => apply key <;> simp [corner] <;> norm_num
  | 2 => apply key <;> simp [corner] <;> norm_num
  | 3 => apply key <;> simp [corner] <;> norm_num
  | 4 => apply key <;> simp [corner] <;> norm_num

/-- A polygon of the corners: the plane is spanned by the first three. -/
theorem corners_plane {points : List (Pt ℝ)} (hm : mean points = 0) (hc : ∀ p ∈ points, ∃ k, p = corner k)
    {a b c : Pt ℝ} (h0 : points[0]? = some a) (h1 : points[1]? = some b) (h2 : points[2]? = some c) :
    planePoints (1 / 100000) (1 / 100000000) points = .ok (a, b, c) := by
  unfold planePoints
  simp only [hm]
  have hne : (points.map fun p => norm3 (p - 0)) ≠ [] := by
    intro h
    rw [List.map_eq_nil_iff.1 h] at h0
    cases h0
  have i1 := argmax_lt hne
  have i2 := argmin_lt hne
  rw [getIdx_some i1, getIdx_some i2, Res.bind_ok, Res.bind_ok, List.getElem_map, List.getElem_map, if_pos]
  · simp [getIdx, h0, h1, h2, bind, Except.bind, pure, Except.pure]
  · rw [sub_zero, sub_zero]
    obtain ⟨k, hk⟩ := hc _ (List.getElem_mem (show argmax (points.map fun p => norm3 (p - 0)) < points.length by
      rw [List.length_map] at i1; exact i1))
    obtain ⟨l, hl⟩ := hc _ (List.getElem_mem (show argmin (points.map fun p => norm3 (p - 0)) < points.length by
      rw [List.length_map] at i2; exact i2))
    rw [hk, hl]
    have e1 := abs_le.1 (corner_norm k)
    have e2 := abs_le.1 (corner_norm l)
    rw [IsClose, abs_le, abs_of_nonneg (by linarith [e2.1] : 0 ≤ norm3 (corner l))]
    constructor <;> linarith [e1.1, e1.2, e2.1, e2.2]

theorem pentagon_mean : mean pentagon = 0 := by
  refine pt_ext ?_ ?_ ?_ <;> simp [mean, pentagon, corner] <;> norm_num

theorem tangled_mean : mean tangled = 0 := by
  refine pt_ext ?_ ?_ ?_ <;> simp [mean, tangled, corner] <;> norm_num

theorem normalize_down {z : ℝ} (h : z < 0) : normalize ![0, 0, z] = ![0, 0, -1] := by
  have s : norm3 (![0, 0, z]) = -z := by
    rw [norm3, show ((![0, 0, z] : Pt ℝ) 0 ^ 2 + (![0, 0, z] : Pt ℝ) 1 ^ 2 + (![0, 0, z] : Pt ℝ) 2 ^ 2) = (-z) ^ 2 by simp,
      Real.sqrt_sq (by linarith)]
  rw [normalize, s, if_pos (by linarith)]
  refine pt_ext ?_ ?_ ?_
  · simp
  · simp
  · simp only [Pi.smul_apply, smul_eq_mul, Matrix.cons_val]
    have : z ≠ 0 := h.ne
    field_simp

theorem pentagon_normal : polygonNormal (1 / 100000) (1 / 100000000) pentagon = .ok ![0, 0, -1] := by
  unfold polygonNormal
  rw [corners_plane pentagon_mean (by simp [pentagon]) rfl rfl rfl, Res.bind_ok]
  refine congrArg Except.ok ?_
  rw [← normalize_down (z := -(1175570 / 1000000 * (1118034 / 1000000))) (by norm_num)]
  congr 1
  refine pt_ext ?_ ?_ ?_ <;> simp [corner] <;> norm_num

theorem tangled_normal : polygonNormal (1 / 100000) (1 / 100000000) tangled = .ok ![0, 0, -1] := by
  unfold polygonNormal
  rw [corners_plane tangled_mean (by simp [tangled]) rfl rfl rfl, Res.bind_ok]
  refine congrArg Except.ok ?_
  rw [← normalize_down (z := -(1175570 / 1000000 * (1118034 / 1000000))) (by norm_num)]
  congr 1
  refine pt_ext ?_ ?_ ?_ <;> simp [corner] <;> norm_num

/-- The assertions of `test_convex_q`, in every frame. -/
theorem C155_test_convex (m : Motion) :
    convexQ (1 / 100000) (1 / 100000000) (tangled.map m.move) = .ok false
    ∧ convexQ (1 / 100000) (1 / 100000000) (pentagon.map m.move) = .ok true
    ∧ ∀ a b c : Pt ℝ, convexQ (1 / 100000) (1 / 100000000) ([a, b, c].map m.move) = .ok true := by
  refine ⟨?_, ?_, fun a b c => C94_small _ _ (by simp)⟩
  · rw [C155_convex, C94_turns (by simp [tangled]) tangled_normal]
    refine congrArg Except.ok (decide_eq_false ?_)
    rintro (h | h)
    · have := h 1 (by simp [tangled])
      simp [turn, cyclic, tangled, corner, dot] at this
      norm_num at this
    · have := h 0 (by simp [tangled])
      simp [turn, cyclic, tangled, corner, dot] at this
      norm_num at this
  · rw [C155_convex, C94_turns (by simp [pentagon]) pentagon_normal]
    refine congrArg Except.ok (decide_eq_true (.inl ?_))
    intro i hi
    simp only [pentagon, List.length_cons, List.length_nil, Nat.reduceAdd] at hi
    interval_cases i <;> simp [turn, cyclic, pentagon, corner, dot] <;> norm_num

/-- the first three corners: test_polygon_geometry_operations.py:95-101, 135-141 -/
noncomputable def cap : List (Pt ℝ) := [corner 0, corner 1, corner 2]

theorem far_apart {u v : Pt ℝ} {a b : ℝ} (hb0 : 0 ≤ b) (hb2 : b ≤ 2) (hab : b + 1 / 10 ≤ a) (ha : a ^ 2 ≤ dot u u)
    (hb : dot v v ≤ b ^ 2) : ¬ IsClose (1 / 100000) (1 / 100000000) (norm3 u) (norm3 v) := by
  have h1 : a ≤ norm3 u := by rw [norm3_dot]; exact Real.le_sqrt_of_sq_le ha
  have h2 : norm3 v ≤ b := by
    rw [norm3_dot, ← Real.sqrt_sq hb0]
    exact Real.sqrt_le_sqrt hb
  have h3 : 0 ≤ norm3 v := by rw [norm3_dot]; exact Real.sqrt_nonneg _
  rw [IsClose, abs_of_nonneg (by linarith : 0 ≤ norm3 u - norm3 v), abs_of_nonneg h3]
  linarith

theorem normalize_up {z : ℝ} (h : 0 < z) : normalize ![0, 0, z] = ![0, 0, 1] := by
  have s : norm3 (![0, 0, z]) = z := by
    rw [norm3, show ((![0, 0, z] : Pt ℝ) 0 ^ 2 + (![0, 0, z] : Pt ℝ) 1 ^ 2 + (![0, 0, z] : Pt ℝ) 2 ^ 2) = z ^ 2 by simp,
      Real.sqrt_sq h.le]
  rw [normalize, s, if_pos h.ne']
  refine pt_ext ?_ ?_ ?_
  · simp
  · simp
  · simp only [Pi.smul_apply, smul_eq_mul, Matrix.cons_val]
    have : z ≠ 0 := h.ne'
    field_simp

theorem plate_normal : polygonNormal (1 / 100000) (1 / 100000000) plate = .ok ![0, 0, 1] := by
  have h : planePoints (1 / 100000) (1 / 100000000) plate = .ok (![-1, -1, 0], ![1, -1, 0], ![1 / 5, 1 / 5, 0]) := by
    refine planePoints_eq (c := 0) (m := ![1 / 5, 1 / 5, 0])
      (red := [![0, -1, 0], ![1, -1, 0], ![1, 1, 0], ![0, 1, 0], ![-1, 1, 0]])
      (q := ![0, -1, 0]) (i := 0) (i' := 1) (j := 1) (k := 5) ?_ ?_ ?_ rfl rfl ?_ rfl ?_ ?_ ?_ ?_ rfl rfl
    · funext k
      fin_cases k <;> simp [mean, plate]
    · refine argmax_eq (by simp [squares, plate]) ?_ ?_
      · simp [squares, plate, dot]
      · intro j hj
        omega
    · refine argmin_eq (by simp [squares, plate]) ?_ ?_
      · simp [squares, plate, dot]
      · intro j hj
        interval_cases j
        simp [squares, plate, dot]
    · refine far_apart (a := 14 / 10) (b := 1) (by norm_num) (by norm_num) (by norm_num) ?_ ?_ <;>
        simp [dot] <;> norm_num
    · funext k
      fin_cases k <;> simp [mean] <;> norm_num
    · funext k
      fin_cases k <;> simp [mean] <;> norm_num
    · refine argmax_eq (by simp [squares]) ?_ ?_
      · simp [squares, dot]; norm_num
      · intro j hj
        interval_cases j
        simp [squares, dot]
    · refine argmin_eq (by simp [squares]) ?_ ?_
      · simp [squares, dot]; norm_num
      · intro j hj
        interval_cases j <;> simp [squares, dot] <;> norm_num
  unfold polygonNormal
  rw [h, Res.bind_ok]
  refine congrArg Except.ok ?_
  rw [← normalize_up (z := 12 / 5) (by norm_num)]
  congr 1
  refine pt_ext ?_ ?_ ?_ <;> simp <;> norm_num

theorem cap_normal : polygonNormal (1 / 100000) (1 / 100000000) cap = .ok ![0, 0, -1] := by
  have h : planePoints (1 / 100000) (1 / 100000000) cap = .ok (corner 2, corner 0, corner 1) := by
    refine planePoints_eq (c := ![-436339 / 1000000, 317019 / 1000000, 0]) (m := ![-809017 / 1000000, 0, 0])
      (red := [corner 0, corner 1])
      (q := corner 1) (i := 2) (i' := 1) (j := 0) (k := 1) ?_ ?_ ?_ rfl rfl ?_ rfl ?_ ?_ ?_ ?_ rfl rfl
    · funext k
      fin_cases k <;> simp [mean, cap, corner] <;> norm_num
    · refine argmax_eq (by simp [squares, cap]) ?_ ?_
      · simp [squares, cap, dot, corner]; norm_num
      · intro j hj
        interval_cases j <;> simp [squares, cap, dot, corner] <;> norm_num
    · refine argmin_eq (by simp [squares, cap]) ?_ ?_
      · simp [squares, cap, dot, corner]; norm_num
      · intro j hj
        interval_cases j
        simp [squares, cap, dot, corner]; norm_num
    · refine far_apart (a := 9 / 10) (b := 1 / 2) (by norm_num) (by norm_num) (by norm_num) ?_ ?_ <;>
        simp [dot, corner] <;> norm_num
    · funext k
      fin_cases k <;> simp [mean, corner] <;> norm_num
    · funext k
      fin_cases k <;> simp [mean, corner] <;> norm_num
    · refine argmax_eq (by simp [squares]) ?_ ?_
      · simp [squares, dot, corner]; norm_num
      · intro j hj
        omega
    · refine argmin_eq (by simp [squares]) ?_ ?_
      · simp [squares, dot, corner]; norm_num
      · intro j hj
        interval_cases j
        simp [squares, dot, corner]; norm_num
  unfold polygonNormal
  rw [h, Res.bind_ok]
  refine congrArg Except.ok ?_
  rw [← normalize_down (z := -(65716361469 / 50000000000)) (by norm_num)]
  congr 1
  refine pt_ext ?_ ?_ ?_ <;> simp [corner] <;> norm_num

/-- The assertions of `test_polygon_normal`, in every frame: the pentagon in both orders and three of its corners have the
turned and reversed third direction as normal, the plate has the turned third direction. -/
theorem C155_test_normal (m : Motion) :
    (∀ points ∈ [tangled, pentagon, cap], polygonNormal (1 / 100000) (1 / 100000000) (points.map m.move)
      = .ok (-(m.sign • m.turn ![0, 0, 1])))
    ∧ polygonNormal (1 / 100000) (1 / 100000000) (plate.map m.move) = .ok (m.sign • m.turn ![0, 0, 1]) := by
  have hneg : m.sign • m.turn ![0, 0, -1] = -(m.sign • m.turn ![0, 0, 1]) := by
    funext k
    simp [Motion.turn]
  constructor
  · intro points hp
    have hl : 2 ≤ points.length ∧ polygonNormal (1 / 100000) (1 / 100000000) points = .ok ![0, 0, -1] := by
      simp only [List.mem_cons, List.not_mem_nil, or_false] at hp
      rcases hp with rfl | rfl | rfl
      · exact ⟨by simp [tangled], tangled_normal⟩
      · exact ⟨by simp [pentagon], pentagon_normal⟩
      · exact ⟨by simp [cap], cap_normal⟩
    rw [C155_normal m _ _ hl.1, hl.2, ← hneg]
    rfl
  · rw [C155_normal m _ _ (by simp [plate]), plate_normal]
    rfl


/-- test_polygon_geometry_operations.py:14-40: the frame of the tests, `T @ Rx @ Ry @ Rz` -/
noncomputable def testFrame (θ : ℝ) (shift : Pt ℝ) : Motion where
  mat i j := (![![Real.cos θ ^ 2, -(Real.cos θ * Real.sin θ), -Real.sin θ],
    ![Real.cos θ * Real.sin θ - Real.sin θ ^ 2 * Real.cos θ, Real.cos θ ^ 2 + Real.sin θ ^ 3, -(Real.sin θ * Real.cos θ)],
    ![Real.sin θ ^ 2 + Real.sin θ * Real.cos θ ^ 2, Real.sin θ * Real.cos θ - Real.sin θ ^ 2 * Real.cos θ,
      Real.cos θ ^ 2]] : Fin 3 → Fin 3 → ℝ) i j
  shift := shift
  orth := by
    have h := Real.sin_sq_add_cos_sq θ
    set s := Real.sin θ
    set c := Real.cos θ
    have hc : c ^ 2 = 1 - s ^ 2 := by linarith
    have hc3 : c ^ 3 = c * (1 - s ^ 2) := by rw [← hc]; ring
    have hc4 : c ^ 4 = (1 - s ^ 2) ^ 2 := by rw [← hc]; ring
    intro i j
    match i, j with
    | 0, 0 => simp; ring_nf; simp only [hc, hc3, hc4]; ring
    | 0, 1 => simp; ring_nf; simp only [hc, hc3, hc4]; ring
    | 0, 2 => simp; ring_nf; simp only [hc, hc3, hc4]; ring
    | 1, 0 => simp; ring_nf; simp only [hc, hc3, hc4]; ring
    | 1, 1 => simp; ring_nf; simp only [hc, hc3, hc4]; ring
    | 1, 2 => simp; ring_nf; simp only [hc, hc3, hc4]; ring
    | 2, 0 => simp; ring_nf; simp only [hc, hc3, hc4]; ring
    | 2, 1 => simp; ring_nf; simp only [hc, hc3, hc4]; ring
    | 2, 2 => simp; ring_nf; simp only [hc, hc3, hc4]; ring

/-- the product of the three rotations -/
theorem testFrame_mat (θ : ℝ) (shift : Pt ℝ) : Matrix.of (testFrame θ shift).mat
    = !![1, 0, 0; 0, Real.cos θ, -Real.sin θ; 0, Real.sin θ, Real.cos θ]
      * (!![Real.cos θ, 0, -Real.sin θ; 0, 1, 0; Real.sin θ, 0, Real.cos θ]
        * !![Real.cos θ, -Real.sin θ, 0; Real.sin θ, Real.cos θ, 0; 0, 0, 1]) := by
  ext i j
  fin_cases i <;> fin_cases j <;> simp [testFrame, Matrix.mul_apply, Fin.sum_univ_three] <;> ring

/-- The reference normal of `test_polygon_normal`: in the frame of the test, a rotation by 45 degrees about each axis, the
normal of the plate is (-√2/2, -1/2, 1/2), of the others its negative. -/
theorem C155_test_reference (shift : Pt ℝ) :
    (∀ points ∈ [tangled, pentagon, cap],
      polygonNormal (1 / 100000) (1 / 100000000) (points.map (testFrame (Real.pi / 4) shift).move)
        = .ok ![√2 / 2, 1 / 2, -(1 / 2)])
    ∧ polygonNormal (1 / 100000) (1 / 100000000) (plate.map (testFrame (Real.pi / 4) shift).move)
        = .ok ![-(√2 / 2), -(1 / 2), 1 / 2] := by
  obtain ⟨h1, h2⟩ := C155_test_normal (testFrame (Real.pi / 4) shift)
  have hq : √2 ^ 2 = (2 : ℝ) := Real.sq_sqrt (by norm_num)
  have hs : (testFrame (Real.pi / 4) shift).sign = 1 := by
    have e3 : √2 ^ 3 = 2 * √2 := by rw [pow_succ, hq]
    have e4 : √2 ^ 4 = 4 := by rw [show √2 ^ 4 = (√2 ^ 2) ^ 2 by ring, hq]; norm_num
    have e5 : √2 ^ 5 = 4 * √2 := by rw [pow_succ, e4]
    have e6 : √2 ^ 6 = 8 := by rw [show √2 ^ 6 = (√2 ^ 2) ^ 3 by ring, hq]; norm_num
    have e7 : √2 ^ 7 = 8 * √2 := by rw [pow_succ, e6]
    simp [Motion.sign, testFrame, dot, Real.cos_pi_div_four, Real.sin_pi_div_four]
    ring_nf
    simp only [hq, e3, e4, e5, e6, e7]
    ring
  have ht : (testFrame (Real.pi / 4) shift).turn ![0, 0, 1] = ![-(√2 / 2), -(1 / 2), 1 / 2] := by
    refine pt_ext ?_ ?_ ?_
    · simp [Motion.turn, testFrame, Real.sin_pi_div_four]
    · simp [Motion.turn, testFrame, Real.cos_pi_div_four, Real.sin_pi_div_four]
      ring_nf
      rw [hq]; norm_num
    · simp [Motion.turn, testFrame, Real.cos_pi_div_four]
      ring_nf
      rw [hq]; norm_num
  rw [hs, one_smul, ht] at h1 h2
  refine ⟨fun points hp => ?_, h2⟩
  rw [h1 points hp]
  simp

/-! ### Winding numbers -/

theorem Direction.moved {p v c d : ℂ} {t : ℝ} (hc : c ≠ 0) (h : Direction p v t) :
    Direction (c * p + d) (c * v + d) (t + c.arg) := by
  have e : c * v + d - (c * p + d) = c * (v - p) := by ring
  refine ⟨fun heq => h.1 ?_, ?_⟩
  · have : c * (v - p) = 0 := by rw [← e, heq, sub_self]
    exact sub_eq_zero.1 ((mul_eq_zero.1 this).resolve_left hc)
  · rw [e, norm_mul]
    have h1 := h.2
    have h2 := Complex.norm_mul_exp_arg_mul_I c
    push_cast
    rw [add_mul, Complex.exp_add]
    calc c * (v - p) = (‖c‖ * Complex.exp (c.arg * Complex.I)) * (‖v - p‖ * Complex.exp (t * Complex.I)) := by
          rw [h2, ← h1]
      _ = _ := by ring

/-- The winding number is the same after rotations, shifts and scalings of the plane, for points off the edges that the
program goes along. -/
theorem C155_winding {c : ℂ} (hc : c ≠ 0) (d p : ℂ) (polygon : List ℂ)
    (h : polygon.IsChain fun a b => p ∉ segment ℝ a b) :
    windingNumber (c * p + d) (polygon.map fun v => c * v + d) = windingNumber p polygon := by
  match polygon, h with
  | [], _ => rfl
  | [v], _ => rfl
  | v :: w :: l, h =>
    have hv : v ≠ p := by
      rintro rfl
      exact (List.isChain_cons_cons.1 h).1 (left_mem_segment ℝ _ _)
    obtain ⟨θ, h1, h2⟩ := directions_exist (by simpa using direction_arg hv 0) h
    have g1 : ∀ {l : List ℂ} {θ : List ℝ}, List.Forall₂ (Direction p) l θ →
        List.Forall₂ (Direction (c * p + d)) (l.map fun v => c * v + d) (θ.map (· + c.arg)) := by
      intro l θ hl
      induction hl with
      | nil => exact .nil
      | cons hd _ ih => exact .cons (hd.moved hc) ih
    have g2 : (((v - p).arg :: θ).map (· + c.arg)).IsChain (fun a b => |b - a| < Real.pi) := by
      rw [List.isChain_map]
      refine h2.imp fun a b hab => ?_
      rwa [add_sub_add_right_eq_sub]
    unfold windingNumber
    rw [sum_of_directions h1 h2, sum_of_directions (g1 h1) g2]
    congr 2
    have : (((v - p).arg :: θ).map (· + c.arg)).getLast (by simp)
        = ((v - p).arg :: θ).getLast (List.cons_ne_nil _ _) + c.arg := by
      rw [List.getLast_map]
    simp only [List.map_cons] at this
    rw [this]
    ring

example : ([0, 2, 2 * Complex.I] : List ℂ).IsChain fun a b => (-1 : ℂ) ∉ segment ℝ a b := by
  refine List.isChain_cons_cons.2 ⟨?_, List.isChain_cons_cons.2 ⟨?_, by simp⟩⟩
  · rintro ⟨x, y, hx, hy, -, h⟩
    have := congrArg Complex.re h
    simp at this
    linarith
  · rintro ⟨x, y, hx, hy, -, h⟩
    have := congrArg Complex.re h
    simp at this
    linarith

#print axioms C155_plane
#print axioms C155_normal
#print axioms C155_convex
#print axioms C155_test_convex
#print axioms C155_test_normal
#print axioms C155_test_reference
#print axioms C155_winding

end Verif.Polygon
