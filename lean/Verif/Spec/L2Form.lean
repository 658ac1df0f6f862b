/-
Specification vocabulary for C25 and C26: the local L2 projection system.
-/
import Verif.Model.L2Form

namespace Verif.L2Form
open Assembly

variable {K X : Type}

/-- Spatial components of the basis: one for scalar families. -/
def nDir (s : FormSpace K X) (el : ElementTab K X) : Nat := if s.lagrange then 1 else el.dim

/-- Local number of degrees of freedom of a field. -/
def fieldDofs (s : FormSpace K X) (el : ElementTab K X) : Nat := el.nPhi * s.nComp

/-- A local degree of freedom: field, basis function and component. -/
structure LocalDof where
  field : Nat
  basis : Nat
  comp : Nat
  deriving DecidableEq

/-- The fields with their elements, in order. -/
abbrev Fields (K X : Type) := List (FormSpace K X × ElementTab K X)

/-- `d` is a degree of freedom of the given fields. -/
def LocalDof.Valid (fs : Fields K X) (d : LocalDof) : Prop :=
  ∃ p, fs[d.field]? = some p ∧ d.basis < p.2.nPhi ∧ d.comp < p.1.nComp

/-- First local index of field `k`. -/
def blockStart (fs : Fields K X) (k : Nat) : Nat :=
  ((fs.take k).map fun p => fieldDofs p.1 p.2).sum

/-- Size of the local system. -/
def totalDofs (fs : Fields K X) : Nat := (fs.map fun p => fieldDofs p.1 p.2).sum

/-- Local index: fields one after the other, components interleaved. -/
def LocalDof.index (fs : Fields K X) (d : LocalDof) : Nat :=
  match fs[d.field]? with
  | some p => blockStart fs d.field + (d.basis * p.1.nComp + d.comp)
  | none => 0

variable [CommRing K]

/-- Mass matrix of the basis functions `a` and `b`, by quadrature. -/
def mass (s : FormSpace K X) (el : ElementTab K X) (a b : Nat) : K :=
  ∑ i ∈ Finset.range el.nPts, ∑ d ∈ Finset.range (nDir s el),
    el.det i * el.weights i * (el.phi i a d * el.phi i b d)

/-- Load of component `c` of `f` against basis function `a`, by quadrature. -/
def load (s : FormSpace K X) (el : ElementTab K X) (f : Fun K X) (c a : Nat) : K :=
  ∑ i ∈ Finset.range el.nPts, ∑ d ∈ Finset.range (nDir s el),
    el.det i * el.weights i * el.phi i a d * f el.x c d i

/-- The fields of a space at element `iel`, with the functions to project. -/
inductive Selects (functions : Dict String (Fun K X)) (iel : Nat) :
    Dict String (FormSpace K X) → Fields K X → List (Fun K X) → Prop
  | nil : Selects functions iel [] [] []
  | cons {name s rest el f fs gs} : functions.get? name = some f → s.elements[iel]? = some el →
      Selects functions iel rest fs gs →
      Selects functions iel ((name, s) :: rest) ((s, el) :: fs) (f :: gs)

end Verif.L2Form
