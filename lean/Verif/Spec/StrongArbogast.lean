/-
Specification vocabulary for C108: what the functions of the exact solutions return where the porosity does not
degenerate.
-/
import Verif.Model.StrongArbogast

namespace Verif.Strong.Arbogast

/-- The functions return these numbers in dimension one, to the right of the origin. -/
structure Read1 (beta mu y z : ℝ) (phi gphi kap delta gdelta p u q v f : ℝ → ℝ) : Prop where
  porosity : ∀ x > 0, porosity beta 1 x y z = .ok (phi x)
  gradPorosity : ∀ x > 0, gradPorosity beta 1 x y z = .ok [gphi x, 0, 0]
  kappa : ∀ x > 0, kappa beta 1 x y z = .ok (kap x)
  dPhi : ∀ x > 0, dPhi beta mu 1 x y z = .ok (some (delta x))
  gradDPhi : ∀ x > 0, gradDPhi beta mu 1 x y z = .ok [some (gdelta x), some 0, some 0]
  pExact : ∀ x > 0, pExact beta 1 x y z = .ok [some (p x)]
  uExact : ∀ x > 0, uExact beta 1 x y z = .ok [some (u x)]
  qExact : ∀ x > 0, qExact beta 1 x y z = .ok [some (q x)]
  vExact : ∀ x > 0, vExact beta mu 1 x y z = .ok [some (v x)]
  rhs : ∀ x > 0, rhs beta 1 x y z = .ok [some (f x)]

/-- The functions return these numbers in dimension two, where the porosity does not vanish. -/
structure Read2 (gamma mu z : ℝ) (phi phi₁ phi₂ kap delta delta₁ delta₂ p u₁ u₂ q v₁ v₂ f : ℝ → ℝ → ℝ) : Prop where
  porosity : ∀ x > -3 / 4, ∀ y > -3 / 4, porosity gamma 2 x y z = .ok (phi x y)
  gradPorosity : ∀ x > -3 / 4, ∀ y > -3 / 4, gradPorosity gamma 2 x y z = .ok [phi₁ x y, phi₂ x y]
  kappa : ∀ x > -3 / 4, ∀ y > -3 / 4, kappa gamma 2 x y z = .ok (kap x y)
  dPhi : ∀ x > -3 / 4, ∀ y > -3 / 4, dPhi gamma mu 2 x y z = .ok (some (delta x y))
  gradDPhi : ∀ x > -3 / 4, ∀ y > -3 / 4, gradDPhi gamma mu 2 x y z = .ok [some (delta₁ x y), some (delta₂ x y)]
  pExact : ∀ x > -3 / 4, ∀ y > -3 / 4, pExact gamma 2 x y z = .ok [some (p x y)]
  uExact : ∀ x > -3 / 4, ∀ y > -3 / 4, uExact gamma 2 x y z = .ok [some (u₁ x y), some (u₂ x y)]
  qExact : ∀ x > -3 / 4, ∀ y > -3 / 4, qExact gamma 2 x y z = .ok [some (q x y)]
  vExact : ∀ x > -3 / 4, ∀ y > -3 / 4, vExact gamma mu 2 x y z = .ok [some (v₁ x y), some (v₂ x y)]
  rhs : ∀ x > -3 / 4, ∀ y > -3 / 4, rhs gamma 2 x y z = .ok [some (f x y)]

end Verif.Strong.Arbogast
