/-
Model of the assembly: src/assembly/ScatterFormData.py and
src/assembly/SequentialAssembler.py.

Numbers are elements of an arbitrary commutative additive monoid `K` (exact arithmetic instead of
floating point).  Statements with side effects are state transformers that also say which
exception, if any, ended them; what was done before an exception stays done.  The weak form is a
parameter: a product space and an `evaluate_form`, which does not touch the global residual and
Jacobian.  The vectors `alpha` are not the residual array.
-/
import Verif.Model.Space

namespace Verif.Assembly
open Space

variable {K T : Type}

/-- A statement: new state, and the exception that ended it, if any. -/
abbrev Step (σ : Type) := σ → σ × Option Err

/-- `for a in l: f(a)`, `list(map(f, l))` -/
def forEach {α σ : Type} (f : α → Step σ) : List α → Step σ
  | [], s => (s, none)
  | a :: l, s =>
    match f a s with
    | (s', none) => forEach f l s'
    | (s', some e) => (s', some e)

/-- Run a statement after another one. -/
def Step.andThen {σ : Type} (f g : Step σ) : Step σ := fun s =>
  match f s with
  | (s', none) => g s'
  | (s', some e) => (s', some e)

/-- Evaluate an expression that does not change the state, then go on. -/
def withRes {α σ : Type} (r : Res α) (f : α → Step σ) : Step σ := fun s =>
  match r with
  | .ok a => f a s
  | .error e => (s, some e)

/-- The global Jacobian: a PETSc matrix of `n` rows and columns. -/
structure Mat (K : Type) where
  n : Nat
  val : Nat → Nat → K

/-- Global residual (numpy vector) and Jacobian. -/
structure Sys (K : Type) where
  res : List K
  jac : Mat K

section
variable [Add K]

/-- `jac_g.setValue(row, col, value, addv=True)`; PETSc refuses indices out of range. -/
def setValue (r c : Nat) (v : K) : Step (Sys K) := fun s =>
  if r < s.jac.n ∧ c < s.jac.n then
    ({ s with jac := { s.jac with
        val := fun i j => if i = r ∧ j = c then s.jac.val i j + v else s.jac.val i j } }, none)
  else (s, some .petscError)

/-- `res_g[i] += v` -/
def addRes (i : Nat) (v : K) : Step (Sys K) := fun s =>
  match s.res[i]? with
  | none => (s, some .indexError)
  | some x => ({ s with res := s.res.set i (x + v) }, none)

/-- ScatterFormData.py:5-11: `np.repeat`, `np.tile`, `ravel` -/
def scatterLhs (jac_l : List (List K)) (dest : List Nat) : Step (Sys K) :=
  let data := jac_l.flatten
  let row := dest.flatMap fun d => List.replicate dest.length d
  let col := (List.replicate dest.length dest).flatten
  forEach (fun k => withRes (getIdx row k) fun r => withRes (getIdx col k) fun c =>
    withRes (getIdx data k) fun v => setValue r c v) (List.range data.length)

/-- ScatterFormData.py:14-18 -/
def scatterRhs (res_l : List K) (dest : List Nat) : Step (Sys K) :=
  forEach (fun (p : Nat × Nat) => withRes (getIdx res_l p.2) fun v => addRes p.1 v) dest.zipIdx

/-- ScatterFormData.py:21-25 -/
def scatterGeneric (res_l : List K) (jac_l : List (List K)) (dest : List Nat) : Step (Sys K) :=
  (scatterRhs res_l dest).andThen (scatterLhs jac_l dest)

end

/-- `alpha[dest]` -/
def gather (alpha : List K) (dest : List Nat) : Res (List K) := MeshGraph.mapRes (getIdx alpha) dest

/-- The arguments an `evaluate_form` is called with. -/
inductive EvalArgs (K T : Type) where
  | element (i : Nat) (alpha : List K)
  | elementTime (i : Nat) (alpha_n alpha : List K) (t : T)
  | boundaryTime (i : Nat) (alpha : List K) (t : T)
  | interface (i : Nat) (pair : Nat × Nat) (alphas : List K × List K)
  | boundaryInterface (i p : Nat) (alpha : List K)

/-- A weak form: its space and its `evaluate_form`. -/
structure WeakForm (K T : Type) where
  space : Product
  evaluate : EvalArgs K T → Res (List K × List (List K))

/-- What a sequence contains: element indices, (index, (index, index)) or (index, index). -/
inductive Idx where
  | cell (i : Nat)
  | triplet (i : Nat) (pair : Nat × Nat)
  | pair (i p : Nat)
  deriving DecidableEq, Repr

section
variable [Add K]

/-- ScatterFormData.py:28-33; an index of another kind cannot be used as list index -/
def scatterTime (w : WeakForm K T) (alpha_n alpha : List K) (t : T) : Idx → Step (Sys K)
  | .cell i =>
    withRes (w.space.destinationIndexes i none) fun dest =>
    withRes (gather alpha dest) fun al =>
    withRes (gather alpha_n dest) fun aln =>
    withRes (w.evaluate (.elementTime i aln al t)) fun p => scatterGeneric p.1 p.2 dest
  | _ => fun s => (s, some .typeError)

/-- ScatterFormData.py:36-40 -/
def scatterForm (w : WeakForm K T) (alpha : List K) : Idx → Step (Sys K)
  | .cell i =>
    withRes (w.space.destinationIndexes i none) fun dest =>
    withRes (gather alpha dest) fun al =>
    withRes (w.evaluate (.element i al)) fun p => scatterGeneric p.1 p.2 dest
  | _ => fun s => (s, some .typeError)

/-- ScatterFormData.py:43-49 (only the previous solution `alpha_n` is passed on) -/
def scatterTimeBc (w : WeakForm K T) (alpha_n _alpha : List K) (t : T) : Idx → Step (Sys K)
  | .cell i =>
    withRes (w.space.bcDestinationIndexes i none) fun dest =>
    withRes (gather alpha_n dest) fun al =>
    withRes (w.evaluate (.boundaryTime i al t)) fun p => scatterGeneric p.1 p.2 dest
  | _ => fun s => (s, some .typeError)

/-- ScatterFormData.py:52-56 -/
def scatterBc (w : WeakForm K T) (alpha : List K) : Idx → Step (Sys K)
  | .cell i =>
    withRes (w.space.bcDestinationIndexes i none) fun dest =>
    withRes (gather alpha dest) fun al =>
    withRes (w.evaluate (.element i al)) fun p => scatterGeneric p.1 p.2 dest
  | _ => fun s => (s, some .typeError)

/-- ScatterFormData.py:59-68 -/
def scatterInterface (w : WeakForm K T) (alpha : List K) : Idx → Step (Sys K)
  | .triplet i pr =>
    withRes (w.space.destinationIndexes pr.1 none) fun dp =>
    withRes (w.space.destinationIndexes pr.2 none) fun dn =>
    withRes (gather alpha dp) fun ap =>
    withRes (gather alpha dn) fun an =>
    withRes (w.evaluate (.interface i pr (ap, an))) fun p => scatterGeneric p.1 p.2 (dp ++ dn)
  | _ => fun s => (s, some .typeError)

/-- ScatterFormData.py:71-76 -/
def scatterBcInterface (w : WeakForm K T) (alpha : List K) : Idx → Step (Sys K)
  | .pair i ip =>
    withRes (w.space.destinationIndexes ip none) fun dest =>
    withRes (gather alpha dest) fun al =>
    withRes (w.evaluate (.boundaryInterface i ip al)) fun p => scatterGeneric p.1 p.2 dest
  | _ => fun s => (s, some .typeError)

/-- The tuples handed to the assembler: (type, sequence, form, alpha) and
(type, sequence, form, (alpha_n, alpha), time). -/
inductive Input (K T : Type) where
  | plain (type : String) (seq : List Idx) (form : WeakForm K T) (alpha : List K)
  | timed (type : String) (seq : List Idx) (form : WeakForm K T) (alphas : List K × List K) (t : T)

def Input.type : Input K T → String
  | .plain t .. => t
  | .timed t .. => t

/-- The callables that take `alpha` only.  Those taking `alpha_n` and `t` are never reached here:
their names contain "time_dependent". -/
def plainCallable (w : WeakForm K T) (alpha : List K) (type : String) : Res (Idx → Step (Sys K)) :=
  if type = "form" then .ok (scatterForm w alpha)
  else if type = "bc_form" then .ok (scatterBc w alpha)
  else if type = "interface_form" then .ok (scatterInterface w alpha)
  else if type = "bc_interface_form" then .ok (scatterBcInterface w alpha)
  else .error .keyError

/-- The callables that take `alpha_n`, `alpha` and `t`. -/
def timedCallable (w : WeakForm K T) (alpha_n alpha : List K) (t : T) (type : String) :
    Res (Idx → Step (Sys K)) :=
  if type = "time_dependent_form" then .ok (scatterTime w alpha_n alpha t)
  else if type = "time_dependent_bc_form" then .ok (scatterTimeBc w alpha_n alpha t)
  else .error .keyError

/-- `pat in s` on strings (as character lists). -/
def containsSub (pat : List Char) : List Char → Bool
  | [] => pat.isPrefixOf []
  | c :: s => pat.isPrefixOf (c :: s) || containsSub pat s

/-- `"time_dependent" in form_type` -/
def isTimeDependent (type : String) : Bool :=
  containsSub "time_dependent".toList type.toList

/-- SequentialAssembler.py:42-67; unpacking a tuple of the wrong length is a `ValueError`. -/
def scatterInput (x : Input K T) : Step (Sys K) :=
  if isTimeDependent x.type then
    match x with
    | .timed type seq form (alpha_n, alpha) t =>
      withRes (timedCallable form alpha_n alpha t type) fun f => forEach f seq
    | .plain .. => fun s => (s, some .valueError)
  else
    match x with
    | .plain type seq form alpha =>
      withRes (plainCallable form alpha type) fun f => forEach f seq
    | .timed .. => fun s => (s, some .valueError)

/-- SequentialAssembler.py:69-86 `scatter_forms`; without inputs `None.items()` fails. -/
def scatterForms (inputs : Option (Dict String (Input K T))) : Step (Sys K) :=
  match inputs with
  | none => fun s => (s, some .attributeError)
  | some d => forEach (fun p => scatterInput p.2) d

end

end Verif.Assembly
