import Verif.Model.DataSet
/-!
# Specification for C03-C06: a dataset is a list of events

An event is an assignment of values to observables.  The specification does not know about
columns.
-/
set_option autoImplicit false
namespace GooFit.Spec
open GooFit

/-- An event: the value of every observable. -/
abbrev Event (F : Type) := Nat → F

/-- Specification state: the observables of the program and the events accepted so far. -/
structure Rows (F : Type) where
  vars : Store F
  events : List (Event F)

/-- Assign `vals` to the observables `obs`, position by position. -/
def assign {F : Type} (obs : List Nat) (vals : List F) (s : Store F) : Store F := fun o =>
  match (obs.zip vals).find? (fun p => p.1 == o) with
  | some p => { s o with value := p.2 }
  | none => s o

/-- The value is within the limits; limits that coincide mean "unlimited". -/
def InLimits {F : Type} [FpCmp F] (c : ObsCell F) : Prop :=
  FpCmp.eq c.upper c.lower = true ∨ (FpCmp.le c.lower c.value = true ∧ FpCmp.le c.value c.upper = true)

instance {F : Type} [FpCmp F] (c : ObsCell F) : Decidable (InLimits c) := by
  unfold InLimits; infer_instance

/-- Is every observable of the dataset in range now? -/
def AllInRange {F : Type} [FpCmp F] (obs : List Nat) (s : Store F) : Prop :=
  ∀ o ∈ obs, InLimits (s o)

instance {F : Type} [FpCmp F] (obs : List Nat) (s : Store F) : Decidable (AllInRange obs s) := by
  unfold AllInRange; infer_instance

/-- Append the current values as an event if they are in range. -/
def Rows.add {F : Type} [FpCmp F] (obs : List Nat) (r : Rows F) : Rows F × Out F :=
  if AllInRange obs r.vars then
    ({ r with events := r.events ++ [fun o => (r.vars o).value] }, .done)
  else (r, .threw .outOfRange)

def Rows.step {F : Type} [FpCmp F] (obs : List Nat) (r : Rows F) : DsOp F → Rows F × Obsn F
  | .setObs o c => ({ r with vars := fun p => if p = o then c else r.vars p }, .out .done)
  | .addEvent => let q := r.add obs; (q.1, .out q.2)
  | .addEventV v vs =>
    if vs.length + 1 = obs.length then
      let q := Rows.add obs { r with vars := assign obs (v :: vs) r.vars }
      (q.1, .out q.2)
    else (r, .out (.threw .general))
  | .clear => ({ r with events := [] }, .out .done)
  | .getNumEvents => (r, .count r.events.length)
  | .getValue o i =>
    match r.events[i]? with
    | none => (r, .out (.threw .general))
    | some e => if o ∈ obs then (r, .out (.val (e o))) else (r, .out (.threw .general))
  | .loadEvent i =>
    match r.events[i]? with
    | some e =>
      ({ r with vars := fun o => if o ∈ obs then { r.vars o with value := e o } else r.vars o }, .out .done)
    | none => if obs = [] then (r, .out .done) else (r, .out (.threw .stdOutOfRange))
  | .setValueForAllEvents o =>
    if o ∈ obs then
      ({ r with events := r.events.map fun e p => if p = o then (r.vars o).value else e p }, .out .done)
    else (r, .out (.threw .general))

def Rows.run {F : Type} [FpCmp F] (obs : List Nat) (r : Rows F) : List (DsOp F) → Rows F × List (Obsn F)
  | [] => (r, [])
  | op :: ops =>
    let q := r.step obs op
    let t := Rows.run obs q.1 ops
    (t.1, q.2 :: t.2)

/-- Dataset `d` holds exactly the events `es` (seen through `getNumEvents` and the columns). -/
def Holds {F : Type} (d : UDS F) (es : List (Event F)) : Prop :=
  d.num = es.length ∧ d.data = d.obs.map (fun o => es.map (fun e => e o))

/-- The event described by column `i` of an imported matrix whose first event gets number `n0`:
observable `obs[j]` has value `col[j]`, and the observable without a row gets the event number. -/
def columnEvent {F : Type} (ofNat : Nat → F) (obs : List Nat) (rows : Nat) (col : List F) (number : Nat)
    (s : Store F) : Store F :=
  assign obs (if obs.length = rows + 1 then col ++ [ofNat number] else col) s

end GooFit.Spec
