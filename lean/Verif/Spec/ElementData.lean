/- What the data of an element should be. -/
import Verif.Model.ElementData

namespace Verif.ElementData
variable {π φ γ ω : Type}

/-- The points of the last evaluation of the mapping -/
def lastPoints : List (Call π ω) → Option π
  | [] => none
  | .mapping p _ :: t => (lastPoints t).or (some p)
  | _ :: t => lastPoints t

/-- The geometry of the last evaluation that was stored without exception -/
def lastStored (g : Geometry π φ γ) : List (Call π ω) → Option γ
  | [] => none
  | .mapping p true :: t =>
    (lastStored g t).or (if g.dimension = 0 then some g.pointMapping
      else match g.mapping (g.shapes p) with | .ok r => some r | .error _ => none)
  | _ :: t => lastStored g t

/-- The quadrature filled in last -/
def lastRule : List (Call π ω) → Option (π × ω)
  | [] => none
  | .quadrature q :: t => (lastRule t).or (some q)
  | _ :: t => lastRule t

/-- How often the degrees of freedom were filled in -/
def fills : List (Call π ω) → Nat
  | [] => 0
  | .dofs :: t => fills t + 1
  | _ :: t => fills t

/-- The number of degrees of freedom of the reference element -/
def total (ned : List (List Nat)) : Nat := (ned.map List.sum).sum

/-- The geometry kept belongs to the shapes kept. -/
def Consistent (g : Geometry π φ γ) (d : Data π φ γ ω) : Prop :=
  ∀ phi r, d.map.phi = some phi → d.map.geo = some r → g.mapping phi = .ok r

/-- An object of class `c` copied keeps its attributes. -/
def Copies (c : Cls) : Prop := copy c = .ok (initAttrs c)

end Verif.ElementData
