import Verif.Model.Grid
/-!
# Tables of numbers passed between Python and unbinned datasets

`from_numpy`, `to_numpy` and `bin_centers` of the Python module (`python/goofit/UnbinnedDataSet.cpp`,
`python/goofit/Variable.cpp`).  A two-dimensional array is the list of its rows and its number of columns;
one row per observable, one column per event.  Arrays with another number of dimensions are refused by
`shape(1)` or `at(i, j)` and are not modelled.
-/
set_option autoImplicit false
namespace GooFit

/-- Column `j` of an array: `array.at(0, j), array.at(1, j), ...`
(`python/goofit/UnbinnedDataSet.cpp:40`). -/
def arrayColumn {F : Type} (arr : List (List F)) (j : Nat) : List F := arr.filterMap fun r => r[j]?

/-- The event loop of `from_numpy` (`python/goofit/UnbinnedDataSet.cpp:38-45`): `vars.at(i)` throws in the
first column if there are more rows than observables. -/
def fromNumpyLoop {F : Type} [FpCmp F] (rows : Nat) (filter : Bool) : List (List F) → USt F → USt F × Out F
  | [], st => (st, .done)
  | col :: cols, st =>
    let st1 := { st with store := setAll st.ds.obs col st.store }
    if st.ds.obs.length < rows then (st1, .threw .stdOutOfRange)
    else if !filter || checkAllVars st1.store st1.ds.obs then
      match st1.addEvent with
      | (st2, .done) => fromNumpyLoop rows filter cols st2
      | (st2, e) => (st2, e)
    else fromNumpyLoop rows filter cols st1

/-- `from_numpy(array, filter)` (`python/goofit/UnbinnedDataSet.cpp:32-46`) for an array of shape
`(arr.length, n)`. -/
def USt.fromNumpy {F : Type} [FpCmp F] (st : USt F) (arr : List (List F)) (n : Nat) (filter : Bool) :
    USt F × Out F :=
  fromNumpyLoop arr.length filter ((List.range n).map (arrayColumn arr)) st

/-- The value of a call, if it returns one (no counterpart in the code). -/
def Out.value? {F : Type} : Out F → Option F
  | .val x => some x
  | _ => none

/-- `to_numpy()` (`python/goofit/UnbinnedDataSet.cpp:54-65`): `none` if `getValue` throws. -/
def UDS.toNumpy {F : Type} (d : UDS F) : Option (List (List F)) :=
  d.obs.mapM fun o => (List.range d.num).mapM fun j => (d.getValue o j).value?

/-- `bin_centers` of an observable (`python/goofit/Variable.cpp:36-43`), `getBinSize` from
`include/goofit/Variable.h:131`. -/
def ObsCell.binCenters {K : Type} [Field K] (c : ObsCell K) : List K :=
  (List.range c.numBins).map fun (i : Nat) => c.lower + ((i : K) + 1 / 2) * ((c.upper - c.lower) / (c.numBins : K))

end GooFit
