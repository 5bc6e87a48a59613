import Verif.Model.DataSet
import Mathlib.Algebra.Order.Field.Basic
/-!
# `UnbinnedDataSet::fillWithGrid`

Models `src/goofit/UnbinnedDataSet.cpp:67-105`.  Numbers are an exact linearly ordered field:
rounding of `lower + (i + 0.5) * step` is not modelled.
-/
set_option autoImplicit false
namespace GooFit

/-- The comparisons of an ordered field, used as `<=` and `==` of `fptype`. -/
instance fpCmpOfOrder {K : Type} [LinearOrder K] : FpCmp K where
  le a b := decide (a ≤ b)
  eq a b := decide (a = b)

variable {K : Type} [Field K] [LinearOrder K]

/-- Value given to an observable in iteration `i` of the loop in `make_a_grid`
(`src/goofit/UnbinnedDataSet.cpp:85-86`). -/
def gridValue (c : ObsCell K) (i : Nat) : K :=
  c.lower + ((i : K) + 1 / 2) * ((c.upper - c.lower) / (c.numBins : K))

/-- The loop `for(i = ...; i < numBins; ++i)` of `make_a_grid`
(`src/goofit/UnbinnedDataSet.cpp:84-88`) around the recursive call `body`, `n` iterations still to
go, the current one being `i`. An exception in the body ends it. -/
def gridLoop (body : USt K → USt K × Out K) (o : Nat) : Nat → Nat → USt K → USt K × Out K
  | 0, _, st => (st, .done)
  | n + 1, i, st =>
    match body { st with store := st.store.setValue o (gridValue (st.store o) i) } with
    | (st2, .done) => gridLoop body o n (i + 1) st2
    | r => r

/-- `make_a_grid` (`src/goofit/UnbinnedDataSet.cpp:67-89`).  The vector is given reversed, so that
`ret.back()` is the head of the list.  The number of bins is read once per loop (the body cannot
change it). -/
def makeAGrid (ev : Option Nat) : List Nat → USt K → USt K × Out K
  | [], st =>
    match st.addEvent with
    | (st2, .done) =>
      match ev with
      | none => (st2, .done)
      | some e => ({ st2 with store := st2.store.setValue e ((st2.store e).value + 1) }, .done)
    | r => r
  | o :: os, st =>
    if (st.store o).isEventNumber then makeAGrid ev os st
    else gridLoop (makeAGrid ev os) o (st.store o).numBins 0 st

/-- The last event-number observable (`src/goofit/UnbinnedDataSet.cpp:98-102`). -/
def lastEventNumber (s : Store K) (obs : List Nat) : Option Nat :=
  obs.reverse.find? fun o => (s o).isEventNumber

/-- `UnbinnedDataSet::fillWithGrid` (`src/goofit/UnbinnedDataSet.cpp:91-105`). -/
def USt.fillWithGrid (st : USt K) : USt K × Out K :=
  if st.ds.data.any (fun c => !c.isEmpty) then (st, .threw .general)
  else makeAGrid (lastEventNumber st.store st.ds.obs) st.ds.obs.reverse st

end GooFit
