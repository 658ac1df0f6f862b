/-
Model of the triangle that shows the expected rate beside a curve of errors: `ConvergenceTriangle` of
examples/cauchy_elasticity/error_plots.py (lines 18-96; the same in examples/cosserat_ecmor/error_plots.py, and in
examples/cosserat_elasticity/cosserat_error_plots.py with the label of the rate closer to the triangle).

Simplifications: logarithms and exponentials are those of the real numbers (the theorems are about positive sizes and
errors; the error of the last point is not used); a position that numpy makes `nan`
(division by zero) is `none`.  `inset_me` (drawing) is left out.
-/
import Verif.Prelude
import Mathlib.Analysis.SpecialFunctions.Log.Basic

namespace Verif.ErrorTriangle

/-- What is given for `rate`, the shifts and `mirror_q` -/
inductive Val where
  | int (n : Int)
  | float (x : ℝ)
  | bool (b : Bool)
  | other

/-- `isinstance(v, int)`; truth values are integers, too -/
def Val.isInt : Val → Bool
  | .int _ => true
  | .bool _ => true
  | .float _ => false
  | .other => false

/-- `isinstance(v, float)` -/
def Val.isFloat : Val → Bool
  | .float _ => true
  | .int _ => false
  | .bool _ => false
  | .other => false

/-- `isinstance(v, bool)` -/
def Val.isBool : Val → Bool
  | .bool _ => true
  | .int _ => false
  | .float _ => false
  | .other => false

/-- What is given for `data`: no array, an array with one axis, a table of `n` rows and `w ≠ 2` columns, or pairs of
size and error -/
inductive Data where
  | other
  | flat (n : Nat)
  | table (n w : Nat)
  | pairs (rows : List (ℝ × ℝ))

/-- Lines 39-46: an array, and `data.shape[0] > 1 and data.shape[1] > 1` -/
def Data.shapeOk : Data → Res Bool
  | .other => .error .typeError
  | .flat n => if 1 < n then .error .indexError else .ok false
  | .table n w => .ok (decide (1 < n) && decide (1 < w))
  | .pairs rows => .ok (decide (1 < rows.length))

/-- Lines 31-57 `validate_input` -/
def validate (data : Data) (rate hShift eShift mirror : Val) : Res Bool := do
  let rateOk := rate.isInt
  let shiftsOk := hShift.isFloat && eShift.isFloat
  let mirrorOk := mirror.isBool
  let dataOk ← data.shapeOk
  if !dataOk then .error .valueError
  else if !rateOk then .error .typeError
  else if !shiftsOk then .error .typeError
  else if !mirrorOk then .error .typeError
  else pure (dataOk && rateOk && shiftsOk && mirrorOk)

/-- The number that a value is in arithmetic -/
noncomputable def Val.num : Val → ℝ
  | .int n => n
  | .float x => x
  | .bool b => if b then 1 else 0
  | .other => 0

/-- The truth value of `mirror_q`, which is one after validation -/
def Val.truth : Val → Bool
  | .bool b => b
  | .int _ => false
  | .float _ => false
  | .other => false

/-- An object after its construction -/
structure Triangle where
  /-- the first three rows of `_triangle`; the fourth is the first -/
  p0 : ℝ × ℝ
  p1 : ℝ × ℝ
  p2 : ℝ × ℝ
  /-- `_label_pos` -/
  stepLabel : Option (ℝ × ℝ)
  rateLabel : Option (ℝ × ℝ)

noncomputable def expPair (p : ℝ × ℝ) : ℝ × ℝ := (Real.exp p.1, Real.exp p.2)
noncomputable def logPair (p : ℝ × ℝ) : ℝ × ℝ := (Real.log p.1, Real.log p.2)

noncomputable def mid (p q : ℝ × ℝ) : ℝ × ℝ := ((p.1 + q.1) / 2, (p.2 + q.2) / 2)

open Classical in
/-- `d / np.linalg.norm(d)` for a vector with one entry that may differ from zero -/
noncomputable def unit (d : ℝ) : Option ℝ := if d = 0 then none else some (d / |d|)

/-- Lines 60-73: the corners in logarithms -/
noncomputable def corners (p0 p2 : ℝ × ℝ) (rate hShift eShift : ℝ) (mirror : Bool) :
    (ℝ × ℝ) × (ℝ × ℝ) × (ℝ × ℝ) :=
  let step := p0.1 - p2.1
  let p1 := if mirror then (p0.1 - step, p0.2 - 0) else (p0.1 - 0, p0.2 - rate * step)
  let p2 := (p0.1 - step, p0.2 - rate * step)
  ((p0.1 + hShift, p0.2 + eShift), (p1.1 + hShift, p1.2 + eShift), (p2.1 + hShift, p2.2 + eShift))

/-- Lines 76-96: the labels; `far` is 0.07 (0.04 in cosserat_error_plots.py) -/
noncomputable def labels (p0 p1 p2 : ℝ × ℝ) (mirror : Bool) (far : ℝ) : Option (ℝ × ℝ) × Option (ℝ × ℝ) :=
  let xc : ℝ × ℝ := ((p0.1 + p1.1 + p2.1) / 3, (p0.2 + p1.2 + p2.2) / 3)
  let mh := if mirror then mid p2 p1 else mid p0 p1
  let me := if mirror then mid p0 p1 else mid p2 p1
  ((unit (xc.2 - me.2)).map fun u => expPair (me.1, -(35 / 100) * u + me.2),
    (unit (xc.1 - mh.1)).map fun u => expPair (-far * u + mh.1, mh.2))

/-- Lines 59-96 `_build_me` -/
noncomputable def build (rows : List (ℝ × ℝ)) (rate hShift eShift : ℝ) (mirror : Bool) (far : ℝ) : Res Triangle := do
  let a ← getIdx rows (rows.length - 2)
  let b ← getIdx rows (rows.length - 1)
  let c := corners (logPair a) (logPair b) rate hShift eShift mirror
  let l := labels c.1 c.2.1 c.2.2 mirror far
  pure ⟨expPair c.1, expPair c.2.1, expPair c.2.2, l.1, l.2⟩

/-- Lines 19-29 `__init__` -/
noncomputable def new (data : Data) (rate hShift eShift mirror : Val) (far : ℝ) : Res Triangle := do
  let ok ← validate data rate hShift eShift mirror
  if !ok then .error .valueError
  else match data with
    | .pairs rows => build rows rate.num hShift.num eShift.num mirror.truth far
    | .table _ _ => .error .valueError
    | .flat _ => .error .indexError
    | .other => .error .typeError

end Verif.ErrorTriangle
