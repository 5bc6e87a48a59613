import Mathlib.Data.Rat.Defs
import Mathlib.Tactic.Ring
import Mathlib.Tactic.Linarith
/-!
# Variables and observables (`include/goofit/Variable.h`)

`Indexable`, `Observable`, `Variable` and `EventNumber` hold their state through
`std::shared_ptr` members, so copies alias.  We model the heap of shared cells, a handle as the
record of its pointers, and the operations construct / copy / assign / set.
-/
namespace GooFit

/-- The `shared_ptr` members of `Indexable`, `Observable` and `Variable`.
Models `include/goofit/Variable.h:27-37` (value, lowerlimit, upperlimit, index),
`:114` (numbins), `:227-240` (error, blind, changed_, fixed, fitter_index).
Simplification: one record with all members stands for both `Observable` (no error, ...) and
`Variable` (no numbins). -/
inductive Field where
  | value | lower | upper | index | numbins | error | blind | changed | fixed | fitterIndex
  deriving DecidableEq, Repr

/-- Position of a member's cell among the cells allocated by one constructor call
(`include/goofit/Variable.h:27-48, 114, 227-240`: every member is a fresh `make_shared`). -/
def Field.offset : Field → Nat
  | .value => 0 | .lower => 1 | .upper => 2 | .index => 3 | .numbins => 4
  | .error => 5 | .blind => 6 | .changed => 7 | .fixed => 8 | .fitterIndex => 9

/-- The members in the order in which a constructor allocates their cells
(`include/goofit/Variable.h:27-48, 114, 227-240`). -/
def Field.all : List Field :=
  [.value, .lower, .upper, .index, .numbins, .error, .blind, .changed, .fixed, .fitterIndex]

/-- A handle: what a C++ object of class `Variable`/`Observable` contains, i.e. its name, its
pointers and the event-number flag (`include/goofit/Variable.h:25-37, 117, 227-240`). -/
structure Handle where
  name : String
  ptr : Field → Nat
  isEventNumber : Bool

/-- A program state: the heap of shared cells and the live handles, in order of creation.
`V` is the type of cell contents.  Models the `shared_ptr` targets of
`include/goofit/Variable.h:27-37, 114, 227-240`; reference counts are not modelled (a cell is
never freed while a handle points to it, so no dangling read can occur). -/
structure World (V : Type) where
  heap : List V
  handles : List Handle

/-- Operations a program performs on handles (no counterpart in the code). -/
inductive VarOp (V : Type) where
  /-- any constructor call: fresh cells with the given contents -/
  | construct (name : String) (isEvt : Bool) (init : Field → V)
  /-- copy construction `Variable b(a)` / passing by value -/
  | copy (src : Nat)
  /-- copy assignment between objects, `a = b` -/
  | assign (dst src : Nat)
  /-- a setter, e.g. `setValue`, `setFixed`, or `a = 3.0` -/
  | set (h : Nat) (f : Field) (v : V)

/-- One operation.  Models `include/goofit/Variable.h:40-48, 120-121, 164-186, 250-254`
(constructors allocate one fresh cell per member), `:161` and the implicit copy operations
(copy the pointers), `:60-86, 126, 195-215` (setters write through the pointer).  An operation
on a handle that does not exist is not a program; it leaves the state alone. -/
def World.step {V : Type} (w : World V) : VarOp V → World V
  | .construct n e init =>
    let base := w.heap.length
    { heap := w.heap ++ Field.all.map init
      handles := w.handles ++ [{ name := n, ptr := fun f => base + f.offset, isEventNumber := e }] }
  | .copy s =>
    match w.handles[s]? with
    | some h => { w with handles := w.handles ++ [h] }
    | none => w
  | .assign d s =>
    match w.handles[s]? with
    | some h => { w with handles := w.handles.set d h }
    | none => w
  | .set k f v =>
    match w.handles[k]? with
    | some h => { w with heap := w.heap.set (h.ptr f) v }
    | none => w

/-- A program: a list of operations (no counterpart in the code). -/
def World.run {V : Type} (ops : List (VarOp V)) : World V :=
  ops.foldl World.step { heap := [], handles := [] }

/-- A getter through handle `k` (`include/goofit/Variable.h:58-78, 128, 193-218`).
`none` for a missing handle or a dangling pointer. -/
def World.read {V : Type} (w : World V) (k : Nat) (f : Field) : Option V :=
  match w.handles[k]? with
  | some h => w.heap[h.ptr f]?
  | none => none

/-- `operator==` (`include/goofit/Variable.h:97`): identity of the value pointers. -/
def World.eq {V : Type} (w : World V) (k l : Nat) : Option Bool :=
  match w.handles[k]?, w.handles[l]? with
  | some a, some b => some (a.ptr .value == b.ptr .value)
  | _, _ => none

/-- `getName` (`include/goofit/Variable.h:63`). -/
def World.name {V : Type} (w : World V) (k : Nat) : Option String :=
  (w.handles[k]?).map (·.name)

/-! ## Constructors of `Variable` -/

/-- Contents of a freshly constructed `Variable` over exact numbers (the members relevant to
fitting), `include/goofit/Variable.h:27-37, 227-240`. -/
structure VarInit where
  name : String
  value : Rat
  lower : Rat
  upper : Rat
  error : Rat
  fixed : Bool
  blind : Rat
  changed : Bool

/-- `Variable(n, v)`, `include/goofit/Variable.h:164-168`. -/
def mkVar2 (n : String) (v : Rat) : VarInit :=
  { name := n, value := v, lower := v + 1/100, upper := v - 1/100, error := 2/1000,
    fixed := true, blind := 0, changed := true }

/-- `Variable(n, v, err)`, `include/goofit/Variable.h:171-175`. -/
def mkVar3 (n : String) (v err : Rat) : VarInit :=
  { name := n, value := v, lower := 0, upper := 0, error := err, fixed := true,
    blind := 0, changed := true }

/-- `Variable(n, v, dn, up)`, `include/goofit/Variable.h:178-180`. -/
def mkVar4 (n : String) (v dn up : Rat) : VarInit :=
  { name := n, value := v, lower := dn, upper := up, error := 1/10 * (up - dn),
    fixed := false, blind := 0, changed := true }

/-- `Variable(n, v, e, dn, up, fix)`, `include/goofit/Variable.h:183-186`. -/
def mkVar5 (n : String) (v e dn up : Rat) (fix : Bool := false) : VarInit :=
  { name := n, value := v, lower := dn, upper := up, error := e, fixed := fix,
    blind := 0, changed := true }

/-- `Indexable::operator bool`, `include/goofit/Variable.h:103-105`. -/
def VarInit.inRange (x : VarInit) : Bool :=
  x.upper == x.lower || (decide (x.value ≤ x.upper) && decide (x.value ≥ x.lower))

/-- How `Params` hands a variable to the minimiser: `src/goofit/Params.cpp:12-26`. -/
inductive MinuitKind where
  | constant
  | free (err : Rat)
  | limited (err lo hi : Rat)
  deriving DecidableEq

/-- `Params::Params`, the choice of the `Add` overload: `src/goofit/Params.cpp:12-20`. -/
def VarInit.minuitKind (x : VarInit) : MinuitKind :=
  if x.fixed then .constant
  else if x.lower == x.upper then .free x.error
  else .limited x.error x.lower x.upper

end GooFit
