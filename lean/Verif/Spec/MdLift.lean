/-
Specification vocabulary for C112 and C113: scaled mixed problems in a square with a fracture, at a point.
-/
import Mathlib.Analysis.Calculus.Deriv.Basic
import Mathlib.Analysis.SpecialFunctions.Sqrt
import Verif.Spec.Degenerate

namespace Verif.Strong.MdLift
open Real

/-- The fields of the bulk -/
structure Bulk where
  porosity : ℝ → ℝ → ℝ
  porosity₁ : ℝ → ℝ → ℝ
  porosity₂ : ℝ → ℝ → ℝ
  kappa : ℝ → ℝ → ℝ
  dPhi : ℝ → ℝ → ℝ
  dPhi₁ : ℝ → ℝ → ℝ
  dPhi₂ : ℝ → ℝ → ℝ
  p : ℝ → ℝ → ℝ
  u₁ : ℝ → ℝ → ℝ
  u₂ : ℝ → ℝ → ℝ
  q : ℝ → ℝ → ℝ
  v₁ : ℝ → ℝ → ℝ
  v₂ : ℝ → ℝ → ℝ
  rhs : ℝ → ℝ → ℝ

/-- Gradient of a function of two variables -/
def Grad (f : ℝ → ℝ → ℝ) (f₁ f₂ x y : ℝ) : Prop := HasDerivAt (fun t => f t y) f₁ x ∧ HasDerivAt (fun t => f x t) f₂ y

/-- The coefficients belong to each other: the permeability is `k φ²`, `d` is the root of permeability over viscosity, and
the gradients are gradients. -/
structure Bulk.Coefficients (F : Bulk) (k mu x y : ℝ) : Prop where
  porosity_pos : 0 < F.porosity x y
  kappa : F.kappa x y = k * F.porosity x y ^ 2
  dPhi_pos : 0 < F.dPhi x y
  dPhi : F.dPhi x y ^ 2 = F.kappa x y / mu
  gradPorosity : Grad F.porosity (F.porosity₁ x y) (F.porosity₂ x y) x y
  gradDPhi : Grad F.dPhi (F.dPhi₁ x y) (F.dPhi₂ x y) x y

/-- Darcy's law, the scaled fields, and the balance `div u + φ p = √φ f` -/
structure Bulk.Solves (F : Bulk) (mu x y : ℝ) : Prop where
  law : ∃ p₁ p₂, Grad F.p p₁ p₂ x y ∧ F.u₁ x y = -(F.kappa x y / mu) * p₁ ∧ F.u₂ x y = -(F.kappa x y / mu) * p₂
  scaled : F.q x y = √(F.porosity x y) * F.p x y ∧ F.dPhi x y * F.v₁ x y = F.u₁ x y ∧ F.dPhi x y * F.v₂ x y = F.u₂ x y
  balance : ∃ a b, HasDerivAt (fun t => F.u₁ t y) a x ∧ HasDerivAt (fun t => F.u₂ x t) b y ∧
    a + b + F.porosity x y * F.p x y = √(F.porosity x y) * F.rhs x y

/-- The fields of the fracture -/
structure Fracture where
  porosity : ℝ → ℝ
  porosity' : ℝ → ℝ
  kappa : ℝ → ℝ
  dPhi : ℝ → ℝ
  dPhi' : ℝ → ℝ
  p : ℝ → ℝ
  u : ℝ → ℝ
  q : ℝ → ℝ
  v : ℝ → ℝ
  rhs : ℝ → ℝ

/-- As in the bulk, with the width `w` in the mobility. -/
structure Fracture.Coefficients (F : Fracture) (k w mu x : ℝ) : Prop where
  porosity_pos : 0 < F.porosity x
  kappa : F.kappa x = k * F.porosity x ^ 2
  dPhi_pos : 0 < F.dPhi x
  dPhi : F.dPhi x ^ 2 = w * F.kappa x / mu
  gradPorosity : HasDerivAt F.porosity (F.porosity' x) x
  gradDPhi : HasDerivAt F.dPhi (F.dPhi' x) x

/-- Darcy's law along the fracture, the scaled fields, and the balance with an exchange term `e` -/
structure Fracture.Solves (F : Fracture) (w mu e x : ℝ) : Prop where
  law : ∃ p', HasDerivAt F.p p' x ∧ F.u x = -(w * F.kappa x / mu) * p'
  scaled : F.q x = √(F.porosity x) * F.p x ∧ F.dPhi x * F.v x = F.u x
  balance : ∃ a, HasDerivAt F.u a x ∧ a + F.porosity x * F.p x + e = √(F.porosity x) * F.rhs x

/-- The fluxes through the fracture from below and from above: the limits of the second component -/
structure Bulk.Sides (F : Bulk) (x below above : ℝ) : Prop where
  below : Filter.Tendsto (fun t => F.u₂ x t) (nhdsWithin 0 (Set.Iio 0)) (nhds below)
  above : Filter.Tendsto (fun t => F.u₂ x t) (nhdsWithin 0 (Set.Ioi 0)) (nhds above)

/-- The functions of a file of exact solutions, called in a point; `none` stands for values that are not numbers. -/
structure Code where
  porosity : ℝ → ℝ → ℝ → Int → Res ℝ
  gradPorosity : ℝ → ℝ → ℝ → Int → Res (ℝ × ℝ × ℝ)
  kappa : ℝ → ℝ → ℝ → Int → Res ℝ
  dPhi : ℝ → ℝ → ℝ → Int → Res (Option ℝ)
  gradDPhi : ℝ → ℝ → ℝ → Int → Res (Option (ℝ × ℝ × ℝ))
  pExact : ℝ → ℝ → ℝ → Int → Res (Option ℝ)
  uExact : ℝ → ℝ → ℝ → Int → Res (Option (List ℝ))
  qExact : ℝ → ℝ → ℝ → Int → Res (Option ℝ)
  vExact : ℝ → ℝ → ℝ → Int → Res (Option (List ℝ))
  rhs : ℝ → ℝ → ℝ → Int → Res (Option ℝ)

/-- In codimension zero the functions return the fields `F`. -/
structure Returns0 (c : Code) (F : Bulk) : Prop where
  porosity : ∀ x y z, c.porosity x y z 0 = .ok (F.porosity x y)
  gradPorosity : ∀ x y z, c.gradPorosity x y z 0 = .ok (F.porosity₁ x y, F.porosity₂ x y, 0)
  kappa : ∀ x y z, c.kappa x y z 0 = .ok (F.kappa x y)
  dPhi : ∀ x y z, c.dPhi x y z 0 = .ok (some (F.dPhi x y))
  gradDPhi : ∀ x y z, c.gradDPhi x y z 0 = .ok (some (F.dPhi₁ x y, F.dPhi₂ x y, 0))
  pExact : ∀ x y z, c.pExact x y z 0 = .ok (some (F.p x y))
  uExact : ∀ x y z, c.uExact x y z 0 = .ok (some [F.u₁ x y, F.u₂ x y])
  qExact : ∀ x y z, c.qExact x y z 0 = .ok (some (F.q x y))
  vExact : ∀ x y z, c.vExact x y z 0 = .ok (some [F.v₁ x y, F.v₂ x y])
  rhs : ∀ x y z, c.rhs x y z 0 = .ok (some (F.rhs x y))

/-- In codimension one the functions return the fields `F`. -/
structure Returns1 (c : Code) (F : Fracture) : Prop where
  porosity : ∀ x y z, c.porosity x y z 1 = .ok (F.porosity x)
  gradPorosity : ∀ x y z, c.gradPorosity x y z 1 = .ok (F.porosity' x, 0, 0)
  kappa : ∀ x y z, c.kappa x y z 1 = .ok (F.kappa x)
  dPhi : ∀ x y z, c.dPhi x y z 1 = .ok (some (F.dPhi x))
  gradDPhi : ∀ x y z, c.gradDPhi x y z 1 = .ok (some (F.dPhi' x, 0, 0))
  pExact : ∀ x y z, c.pExact x y z 1 = .ok (some (F.p x))
  uExact : ∀ x y z, c.uExact x y z 1 = .ok (some [F.u x])
  qExact : ∀ x y z, c.qExact x y z 1 = .ok (some (F.q x))
  vExact : ∀ x y z, c.vExact x y z 1 = .ok (some [F.v x])
  rhs : ∀ x y z, c.rhs x y z 1 = .ok (some (F.rhs x))

end Verif.Strong.MdLift
