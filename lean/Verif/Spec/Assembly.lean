/-
Specification vocabulary for C21-C23: the assembled system.
-/
import Verif.Model.Assembly
import Mathlib.Algebra.BigOperators.Group.List.Basic

namespace Verif.Assembly
open Space

variable {K T : Type}

/-- What one visited element adds: local residual and Jacobian with their destinations. -/
structure Contribution (K : Type) where
  dest : List Nat
  res : List K
  jac : List (List K)

/-- Local sizes agree and destinations are rows of a system of size `n`. -/
structure Contribution.Fits (c : Contribution K) (n : Nat) : Prop where
  lt : ∀ x ∈ c.dest, x < n
  res_length : c.res.length = c.dest.length
  jac_length : c.jac.length = c.dest.length
  row_length : ∀ row ∈ c.jac, row.length = c.dest.length

variable [AddCommMonoid K]

/-- Sum of the local residual entries with destination `i`. -/
def Contribution.resAt (c : Contribution K) (i : Nat) : K :=
  ((c.dest.zip c.res).map fun p => if p.1 = i then p.2 else 0).sum

/-- Sum of the local Jacobian entries with row destination `i` and column destination `j`. -/
def Contribution.jacAt (c : Contribution K) (i j : Nat) : K :=
  ((c.dest.zip c.jac).map fun r =>
    ((c.dest.zip r.2).map fun p => if r.1 = i ∧ p.1 = j then p.2 else 0).sum).sum

/-- `s'` is `s` plus the given contributions. -/
structure AddsUp (s s' : Sys K) (cs : List (Contribution K)) : Prop where
  length : s'.res.length = s.res.length
  n : s'.jac.n = s.jac.n
  res : ∀ (i : Nat) x, s.res[i]? = some x → s'.res[i]? = some (x + (cs.map (·.resAt i)).sum)
  jac : ∀ i j, s'.jac.val i j = s.jac.val i j + (cs.map (·.jacAt i j)).sum

def Input.seq : Input K T → List Idx
  | .plain _ q .. => q
  | .timed _ q .. => q

def Input.form : Input K T → WeakForm K T
  | .plain _ _ w _ => w
  | .timed _ _ w _ _ => w

/-- The same form over another sequence. -/
def Input.withSeq : Input K T → List Idx → Input K T
  | .plain t _ w a, q => .plain t q w a
  | .timed t _ w a tm, q => .timed t q w a tm

/-- How a form is to be evaluated at one entry of its sequence: `Calls x idx dest args` says that
`evaluate_form` gets `args` and that the result belongs to the degrees of freedom `dest`. -/
inductive Calls : Input K T → Idx → List Nat → EvalArgs K T → Prop
  | form {q w alpha i d al} : w.space.destinationIndexes i none = .ok d →
      gather alpha d = .ok al →
      Calls (.plain "form" q w alpha) (.cell i) d (.element i al)
  | bc {q w alpha i d al} : w.space.bcDestinationIndexes i none = .ok d →
      gather alpha d = .ok al →
      Calls (.plain "bc_form" q w alpha) (.cell i) d (.element i al)
  | interface {q w alpha i p n dp dn ap an} : w.space.destinationIndexes p none = .ok dp →
      w.space.destinationIndexes n none = .ok dn → gather alpha dp = .ok ap →
      gather alpha dn = .ok an →
      Calls (.plain "interface_form" q w alpha) (.triplet i (p, n)) (dp ++ dn)
        (.interface i (p, n) (ap, an))
  | bcInterface {q w alpha i p d al} : w.space.destinationIndexes p none = .ok d →
      gather alpha d = .ok al →
      Calls (.plain "bc_interface_form" q w alpha) (.pair i p) d (.boundaryInterface i p al)
  | time {q w alpha_n alpha t i d aln al} : w.space.destinationIndexes i none = .ok d →
      gather alpha d = .ok al → gather alpha_n d = .ok aln →
      Calls (.timed "time_dependent_form" q w (alpha_n, alpha) t) (.cell i) d
        (.elementTime i aln al t)
  | timeBc {q w alpha_n alpha t i d al} : w.space.bcDestinationIndexes i none = .ok d →
      gather alpha_n d = .ok al →
      Calls (.timed "time_dependent_bc_form" q w (alpha_n, alpha) t) (.cell i) d
        (.boundaryTime i al t)

/-- The contribution of form `x` at sequence entry `idx`. -/
def Contributes (x : Input K T) (idx : Idx) (c : Contribution K) : Prop :=
  ∃ args, Calls x idx c.dest args ∧ x.form.evaluate args = .ok (c.res, c.jac)

/-- All visits of an assembly: forms in order, each with the entries of its sequence. -/
def visits (d : Dict String (Input K T)) : List (Input K T × Idx) :=
  d.flatMap fun p => p.2.seq.map fun idx => (p.2, idx)

/-- The form types and the tuples they come with. -/
def Input.Known : Input K T → Prop
  | .plain t .. => t ∈ ["form", "bc_form", "interface_form", "bc_interface_form"]
  | .timed t .. => t ∈ ["time_dependent_form", "time_dependent_bc_form"]

end Verif.Assembly
