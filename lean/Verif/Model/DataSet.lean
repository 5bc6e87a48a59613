/-!
# `DataSet` and `UnbinnedDataSet`

Models `include/goofit/DataSet.h`, `src/goofit/DataSet.cpp`, `include/goofit/UnbinnedDataSet.h`,
`src/goofit/UnbinnedDataSet.cpp`.  Generic in the number type `F`: only the two comparisons used
by `operator bool` matter, and no law about them is assumed, so the results hold for IEEE doubles
including NaN.
-/
set_option autoImplicit false
namespace GooFit

/-- The comparisons `<=` and `==` of `fptype` used in `include/goofit/Variable.h:104`. -/
class FpCmp (F : Type) where
  le : F → F → Bool
  eq : F → F → Bool

/-- Contents of an observable (`include/goofit/Variable.h:27-37, 114, 117`). -/
structure ObsCell (F : Type) where
  value : F
  lower : F
  upper : F
  numBins : Nat
  isEventNumber : Bool

/-- The observables of the program, by identity.  Handles with the same identity share their
contents (property C01), so an observable is represented by the number of its object (`include/goofit/Variable.h:22-106`). -/
abbrev Store (F : Type) := Nat → ObsCell F

/-- `setValue` through a handle (`include/goofit/Variable.h:70`). -/
def Store.setValue {F : Type} (s : Store F) (o : Nat) (v : F) : Store F :=
  fun p => if p = o then { s p with value := v } else s p

/-- `operator bool`: in range (`include/goofit/Variable.h:103-105`). -/
def ObsCell.inRange {F : Type} [FpCmp F] (c : ObsCell F) : Bool :=
  FpCmp.eq c.upper c.lower || (FpCmp.le c.value c.upper && FpCmp.le c.lower c.value)

/-- The exceptions thrown: `GooFit::OutOfRange` (`src/goofit/DataSet.cpp:75`),
`GooFit::GeneralError` (`src/goofit/DataSet.cpp:57`, `src/goofit/UnbinnedDataSet.cpp:33,94`,
`include/goofit/DataSet.h:35`), `std::out_of_range` from `.at`. -/
inductive Exn where
  | outOfRange | general | stdOutOfRange
  deriving DecidableEq, Repr

/-- Result of a call: a value, normal return, an exception, or undefined behaviour (no counterpart in the code). -/
inductive Out (F : Type) where
  | val (x : F)
  | done
  | threw (e : Exn)
  | ub

/-- `UnbinnedDataSet`: the observables, one column per observable and `numEventsAdded`
(`include/goofit/DataSet.h:54, 66`, `include/goofit/UnbinnedDataSet.h:85`). -/
structure UDS (F : Type) where
  obs : List Nat
  data : List (List F)
  num : Nat

/-- Program state around one unbinned dataset (no counterpart in the code). -/
structure USt (F : Type) where
  store : Store F
  ds : UDS F

/-- Constructors: `data.resize(vars.size())`, `src/goofit/UnbinnedDataSet.cpp:11-29`. -/
def UDS.new (F : Type) (obs : List Nat) : UDS F :=
  { obs := obs, data := obs.map (fun _ => []), num := 0 }

/-- `DataSet::checkAllVars` (`src/goofit/DataSet.cpp:72-77`): true if no exception. -/
def checkAllVars {F : Type} [FpCmp F] (s : Store F) (obs : List Nat) : Bool :=
  obs.all fun o => (s o).inRange

/-- The push loop of `UnbinnedDataSet::addEvent` (`src/goofit/UnbinnedDataSet.cpp:60-62`); the
flag is false if `data.at(i)` throws.  The columns already pushed stay pushed. -/
def pushAll {F : Type} : List F → List (List F) → List (List F) × Bool
  | [], cols => (cols, true)
  | _ :: _, [] => ([], false)
  | v :: vs, c :: cs => let r := pushAll vs cs; ((c ++ [v]) :: r.1, r.2)

/-- `UnbinnedDataSet::addEvent()` (`src/goofit/UnbinnedDataSet.cpp:58-64`). -/
def USt.addEvent {F : Type} [FpCmp F] (st : USt F) : USt F × Out F :=
  if checkAllVars st.store st.ds.obs then
    let r := pushAll (st.ds.obs.map fun o => (st.store o).value) st.ds.data
    if r.2 then ({ st with ds := { st.ds with data := r.1, num := st.ds.num + 1 } }, .done)
    else ({ st with ds := { st.ds with data := r.1 } }, .threw .stdOutOfRange)
  else (st, .threw .outOfRange)

/-- `for(i...) observables[i].setValue(values[i])` (`include/goofit/DataSet.h:38-39`). -/
def setAll {F : Type} : List Nat → List F → Store F → Store F
  | o :: os, v :: vs, s => setAll os vs (s.setValue o v)
  | _, _, s => s

/-- `DataSet::addEvent(value, args...)` (`include/goofit/DataSet.h:30-41`). -/
def USt.addEventV {F : Type} [FpCmp F] (st : USt F) (v : F) (vs : List F) : USt F × Out F :=
  if (v :: vs).length ≠ st.ds.obs.length then (st, .threw .general)
  else USt.addEvent { st with store := setAll st.ds.obs (v :: vs) st.store }

/-- `UnbinnedDataSet::clear` (`include/goofit/UnbinnedDataSet.h:29-33`). -/
def USt.clear {F : Type} (st : USt F) : USt F × Out F :=
  ({ st with ds := { st.ds with data := st.ds.data.map (fun _ => []), num := 0 } }, .done)

/-- `DataSet::indexOfVariable` (`src/goofit/DataSet.cpp:52-58`); `none` = throws. -/
def indexOfVariable (obs : List Nat) (o : Nat) : Option Nat :=
  match obs with
  | [] => none
  | p :: ps => if o = p then some 0 else (indexOfVariable ps o).map (· + 1)

/-- `UnbinnedDataSet::getValue` (`src/goofit/UnbinnedDataSet.cpp:31-42`); `data[var_idx]` is
unchecked, `.at(idx)` is checked. -/
def UDS.getValue {F : Type} (d : UDS F) (o idx : Nat) : Out F :=
  if idx ≥ d.num then .threw .general
  else
    match indexOfVariable d.obs o with
    | none => .threw .general
    | some j =>
      match d.data[j]? with
      | none => .ub
      | some col =>
        match col[idx]? with
        | none => .threw .stdOutOfRange
        | some x => .val x

/-- The loop of `UnbinnedDataSet::loadEvent` (`src/goofit/UnbinnedDataSet.cpp:44-49`). -/
def loadLoop {F : Type} (idx : Nat) : List Nat → List (List F) → Store F → Store F × Out F
  | [], _, s => (s, .done)
  | _ :: _, [], s => (s, .threw .stdOutOfRange)
  | o :: os, c :: cs, s =>
    match c[idx]? with
    | none => (s, .threw .stdOutOfRange)
    | some x => loadLoop idx os cs (s.setValue o x)

/-- `UnbinnedDataSet::loadEvent` (`src/goofit/UnbinnedDataSet.cpp:44-49`). -/
def USt.loadEvent {F : Type} (st : USt F) (idx : Nat) : USt F × Out F :=
  let r := loadLoop idx st.ds.obs st.ds.data st.store
  ({ st with store := r.1 }, r.2)

/-- `UnbinnedDataSet::setValueForAllEvents` (`src/goofit/UnbinnedDataSet.cpp:51-56`); the writes
`data[ivar][i]` are unchecked. -/
def USt.setValueForAllEvents {F : Type} (st : USt F) (o : Nat) : USt F × Out F :=
  match indexOfVariable st.ds.obs o with
  | none => (st, .threw .general)
  | some j =>
    match st.ds.data[j]? with
    | none => (st, .ub)
    | some col =>
      if col.length < st.ds.num then (st, .ub)
      else
        let col' := List.replicate st.ds.num (st.store o).value ++ col.drop st.ds.num
        ({ st with ds := { st.ds with data := st.ds.data.set j col' } }, .done)

/-- The calls a program makes on a dataset and its observables (no counterpart in the code). -/
inductive DsOp (F : Type) where
  /-- any direct change of an observable (value, limits, number of bins) -/
  | setObs (o : Nat) (c : ObsCell F)
  | addEvent
  | addEventV (v : F) (vs : List F)
  | clear
  | getNumEvents
  | getValue (o idx : Nat)
  | loadEvent (idx : Nat)
  | setValueForAllEvents (o : Nat)

/-- What a call reports: the result and, for `getNumEvents`, the count (no counterpart in the code). -/
inductive Obsn (F : Type) where
  | out (o : Out F)
  | count (n : Nat)

/-- One call (`include/goofit/DataSet.h:47` for `getNumEvents`; others as cited above). -/
def USt.step {F : Type} [FpCmp F] (st : USt F) : DsOp F → USt F × Obsn F
  | .setObs o c => ({ st with store := fun p => if p = o then c else st.store p }, .out .done)
  | .addEvent => let r := st.addEvent; (r.1, .out r.2)
  | .addEventV v vs => let r := st.addEventV v vs; (r.1, .out r.2)
  | .clear => let r := st.clear; (r.1, .out r.2)
  | .getNumEvents => (st, .count st.ds.num)
  | .getValue o i => (st, .out (st.ds.getValue o i))
  | .loadEvent i => let r := st.loadEvent i; (r.1, .out r.2)
  | .setValueForAllEvents o => let r := st.setValueForAllEvents o; (r.1, .out r.2)

/-- A whole program: final state and all reports (no counterpart in the code). -/
def USt.run {F : Type} [FpCmp F] (st : USt F) : List (DsOp F) → USt F × List (Obsn F)
  | [] => (st, [])
  | op :: ops =>
    let r := st.step op
    let q := USt.run r.1 ops
    (q.1, r.2 :: q.2)

/-! ## Matrices -/

/-- One column of `from_matrix` (`include/goofit/UnbinnedDataSet.h:57-63`): set the observables,
and the last one to the running index if the matrix has one row less than observables. -/
def setColumn {F : Type} (ofNat : Nat → F) (obs : List Nat) (rows : Nat) (col : List F) (idx : Nat)
    (s : Store F) : Store F :=
  let s1 := setAll (obs.take rows) col s
  if obs.length = rows + 1 then
    match obs[rows]? with
    | some o => s1.setValue o (ofNat idx)
    | none => s1
  else s1

/-- The event loop of `from_matrix` (`include/goofit/UnbinnedDataSet.h:56-68`).  `ofNat` is the
conversion `size_t` to `fptype`; `idx` is `optional_index`. -/
def fromMatrixLoop {F : Type} [FpCmp F] (ofNat : Nat → F) (rows : Nat) (filter : Bool) :
    List (List F) → Nat → USt F → USt F × Out F
  | [], _, st => (st, .done)
  | col :: cols, idx, st =>
    let st1 := { st with store := setColumn ofNat st.ds.obs rows col idx st.store }
    if !filter || checkAllVars st1.store st1.ds.obs then
      match st1.addEvent with
      | (st2, .done) => fromMatrixLoop ofNat rows filter cols (idx + 1) st2
      | (st2, e) => (st2, e)
    else fromMatrixLoop ofNat rows filter cols (idx + 1) st1

/-- `UnbinnedDataSet::from_matrix` (`include/goofit/UnbinnedDataSet.h:48-69`).  The matrix is
given by its number of rows and its columns (one per event). -/
def USt.fromMatrix {F : Type} [FpCmp F] (st : USt F) (ofNat : Nat → F) (rows : Nat)
    (cols : List (List F)) (filter : Bool) : USt F × Out F :=
  if st.ds.obs.length ≠ rows ∧ st.ds.obs.length ≠ rows + 1 then (st, .threw .general)
  else fromMatrixLoop ofNat rows filter cols st.ds.num st

/-- `UnbinnedDataSet::to_matrix` (`include/goofit/UnbinnedDataSet.h:73-82`): the matrix by rows
(row = observable); `none` if `data.at(0)` or `data[i].at(j)` throws. -/
def UDS.toMatrix {F : Type} (d : UDS F) : Option (List (List F)) :=
  match d.data with
  | [] => none
  | c :: _ =>
    if d.data.all (fun col => c.length ≤ col.length) then
      some (d.data.map (fun col => col.take c.length))
    else none

end GooFit
