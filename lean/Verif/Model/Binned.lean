import Verif.Model.Grid
import Mathlib.Algebra.Order.Floor.Ring
/-!
# `BinnedDataSet`

Models `include/goofit/BinnedDataSet.h` and `src/goofit/BinnedDataSet.cpp`.  Numbers are an exact
ordered field with floor: rounding is not modelled.  Integer widths are.
-/
set_option autoImplicit false
namespace GooFit

/-- `BinnedDataSet` (`include/goofit/DataSet.h:54, 66`, `include/goofit/BinnedDataSet.h:56-58`). -/
structure BDS (K : Type) where
  obs : List Nat
  binsizes : List Nat
  values : List K
  errors : List K
  num : Nat

/-- Program state around one binned dataset (no counterpart in the code). -/
structure BSt (K : Type) where
  store : Store K
  ds : BDS K

/-- `std::accumulate(..., 1, std::multiplies<size_t>())` of `getNumBins`
(`src/goofit/BinnedDataSet.cpp:135-137`): the accumulator is an `int` (the type of the literal 1), so
each product, computed in `size_t`, is cut to 32 bits and sign-extended again. -/
def numBinsAcc : BitVec 32 → List Nat → BitVec 32
  | a, [] => a
  | a, n :: ns => numBinsAcc ((a.signExtend 64 * BitVec.ofNat 64 n).truncate 32) ns

/-- `BinnedDataSet::getNumBins` (`src/goofit/BinnedDataSet.cpp:135-137`); the `int` is converted to
`size_t` on return. -/
def getNumBins (binsizes : List Nat) : Nat := ((numBinsAcc 1#32 binsizes).signExtend 64).toNat

/-- The loop of `localToGlobal` (`src/goofit/BinnedDataSet.cpp:64-75`): `ret` and `priorMatrixSize` are
`unsigned int`; the `size_t` products are cut to 32 bits on assignment. `none` = reading past the end of
`locals` or `binsizes`. -/
def localToGlobalLoop : List Nat → List Nat → List Nat → BitVec 32 → BitVec 32 → Option (BitVec 32)
  | [], _, _, _, ret => some ret
  | _ :: os, l :: ls, n :: ns, prior, ret =>
    localToGlobalLoop os ls ns (prior * BitVec.ofNat 32 n) (ret + BitVec.ofNat 32 l * prior)
  | _ :: _, _, _, _, _ => none

/-- `BinnedDataSet::localToGlobal` (`src/goofit/BinnedDataSet.cpp:64-75`). -/
def BDS.localToGlobal {K : Type} (d : BDS K) (locals : List Nat) : Option Nat :=
  (localToGlobalLoop d.obs locals d.binsizes 1#32 0#32).map BitVec.toNat

/-- The loop of `globalToLocal` (`src/goofit/BinnedDataSet.cpp:84-88`); `none` = integer division by
zero or reading past the end of `binsizes`. -/
def globalToLocalLoop : List Nat → List Nat → Nat → Option (List Nat)
  | [], _, _ => some []
  | _ :: os, n :: ns, g =>
    if n = 0 then none else (globalToLocalLoop os ns (g / n)).map (fun r => g % n :: r)
  | _ :: _, [], _ => none

/-- `BinnedDataSet::globalToLocal` (`src/goofit/BinnedDataSet.cpp:77-90`). -/
def BDS.globalToLocal {K : Type} (d : BDS K) (global : Nat) : Option (List Nat) :=
  globalToLocalLoop d.obs d.binsizes global

/-- Result of a constructor (no counterpart in the code). -/
inductive Made (α : Type) where
  | ok (a : α)
  | lengthError

section
variable {K : Type} [Field K] [LinearOrder K] [IsStrictOrderedRing K] [FloorRing K]

/-- Constructors (`src/goofit/BinnedDataSet.cpp:12-34`): `collectBins` (50-56) and
`binvalues.resize(getNumBins())`, which throws `std::length_error` for sizes of 2^60 or more doubles
(`max_size` of `std::vector<double>`). Running out of memory below that is not modelled. -/
def BDS.new (s : Store K) (obs : List Nat) : Made (BDS K) :=
  let sizes := obs.map fun o => (s o).numBins
  if getNumBins sizes < 2 ^ 60 then
    .ok { obs := obs, binsizes := sizes, values := List.replicate (getNumBins sizes) 0, errors := [], num := 0 }
  else .lengthError

/-- `getBinSize` (`src/goofit/BinnedDataSet.cpp:107-109`); limits are read from the observable now. -/
def binSize (s : Store K) (o n : Nat) : K := ((s o).upper - (s o).lower) / (n : K)

/-- One iteration of `convertValuesToBins` (`src/goofit/BinnedDataSet.cpp:148-159`): clamp, divide,
floor, convert to `size_t`. `none` = undefined behaviour: division by a zero bin size (NaN or infinity
converted to an integer) or a negative number converted to `size_t`. The warning is not modelled, nor
is overflow of `size_t`. -/
def valueToBin (s : Store K) (o n : Nat) (v : K) : Option Nat :=
  let b := min (max v (s o).lower) (s o).upper
  let w := binSize s o n
  if w = 0 then none
  else
    let f := ⌊(b - (s o).lower) / w⌋
    if f < 0 then none else some f.toNat

/-- The loop of `convertValuesToBins` with the current values
(`src/goofit/BinnedDataSet.cpp:58-60, 143-162`). -/
def valuesToBins (s : Store K) : List Nat → List Nat → Option (List Nat)
  | [], _ => some []
  | o :: os, n :: ns =>
    match valueToBin s o n (s o).value, valuesToBins s os ns with
    | some b, some bs => some (b :: bs)
    | _, _ => none
  | _ :: _, [] => none

/-- `getBinNumber` (`src/goofit/BinnedDataSet.cpp:58-62`); `none` = undefined behaviour. -/
def BSt.getBinNumber (st : BSt K) : Option Nat :=
  (valuesToBins st.store st.ds.obs st.ds.binsizes).bind st.ds.localToGlobal

/-- `addWeightedEvent` (`src/goofit/BinnedDataSet.cpp:43-48`). -/
def BSt.addWeightedEvent (st : BSt K) (w : K) : BSt K × Out K :=
  if checkAllVars st.store st.ds.obs then
    match st.getBinNumber with
    | none => (st, .ub)
    | some i =>
      match st.ds.values[i]? with
      | none => (st, .threw .stdOutOfRange)
      | some x =>
        ({ st with ds := { st.ds with values := st.ds.values.set i (x + w), num := st.ds.num + 1 } }, .done)
  else (st, .threw .outOfRange)

/-- `addEvent` (`src/goofit/BinnedDataSet.cpp:36-41`). -/
def BSt.addEvent (st : BSt K) : BSt K × Out K := st.addWeightedEvent 1

/-- `DataSet::addEvent(value, args...)` on a binned dataset (`include/goofit/DataSet.h:30-41`). -/
def BSt.addEventV (st : BSt K) (v : K) (vs : List K) : BSt K × Out K :=
  if (v :: vs).length ≠ st.ds.obs.length then (st, .threw .general)
  else BSt.addEvent { st with store := setAll st.ds.obs (v :: vs) st.store }

/-- `getBinContent` (`include/goofit/BinnedDataSet.h:26`). -/
def BDS.getBinContent (d : BDS K) (i : Nat) : Out K :=
  match d.values[i]? with
  | none => .threw .stdOutOfRange
  | some x => .val x

/-- `setBinContent` (`include/goofit/BinnedDataSet.h:45`); bin numbers are `unsigned int`. -/
def BSt.setBinContent (st : BSt K) (i : BitVec 32) (x : K) : BSt K × Out K :=
  if i.toNat < st.ds.values.length then
    ({ st with ds := { st.ds with values := st.ds.values.set i.toNat x } }, .done)
  else (st, .threw .stdOutOfRange)

/-- `getBinError` (`src/goofit/BinnedDataSet.cpp:121-126`); `sqrt` is abstract. -/
def BDS.getBinError (sqrt : K → K) (d : BDS K) (i : Nat) : Out K :=
  if d.errors.length = 0 then
    match d.values[i]? with
    | none => .threw .stdOutOfRange
    | some x => .val (sqrt x)
  else
    match d.errors[i]? with
    | none => .threw .stdOutOfRange
    | some x => .val x

/-- `setBinError` (`src/goofit/BinnedDataSet.cpp:128-133`): on the first call all errors are resized to
zeros. The resize stays even if `.at` throws. -/
def BSt.setBinError (st : BSt K) (i : BitVec 32) (x : K) : BSt K × Out K :=
  let errs := if st.ds.errors.length = 0 then List.replicate st.ds.values.length 0 else st.ds.errors
  if i.toNat < errs.length then
    ({ st with ds := { st.ds with errors := errs.set i.toNat x } }, .done)
  else ({ st with ds := { st.ds with errors := errs } }, .threw .stdOutOfRange)

/-- `getBinCenter(ivar, bin)` (`src/goofit/BinnedDataSet.cpp:92-100`). -/
def BSt.getBinCenter (st : BSt K) (ivar bin : Nat) : Out K :=
  match st.ds.globalToLocal bin with
  | none => .ub
  | some ls =>
    match ls[ivar]?, st.ds.obs[ivar]?, st.ds.binsizes[ivar]? with
    | some l, some o, some n =>
      .val (binSize st.store o n * ((l : K) + 1 / 2) + (st.store o).lower)
    | none, _, _ => .threw .stdOutOfRange
    | _, _, _ => .ub

/-- `getBinVolume` (`src/goofit/BinnedDataSet.cpp:111-119`). -/
def BSt.getBinVolume (st : BSt K) : K :=
  ((st.ds.obs.zip st.ds.binsizes).map fun p => binSize st.store p.1 p.2).prod

/-- Conversion `double` to `int` (truncation toward zero; outside `int` undefined; C++ conversion). -/
def toInt32 (x : K) : Option Int :=
  let t := if 0 ≤ x then ⌊x⌋ else ⌈x⌉
  if -(2 ^ 31) ≤ t ∧ t < 2 ^ 31 then some t else none

/-- `getNumWeightedEvents` (`src/goofit/BinnedDataSet.cpp:139-141`): the accumulator has the type of
the literal 0, `int`. `none` = undefined conversion. -/
def weightedAcc : Int → List K → Option Int
  | a, [] => some a
  | a, x :: xs => (toInt32 ((a : K) + x)).bind fun b => weightedAcc b xs

/-- `getNumWeightedEvents` (`src/goofit/BinnedDataSet.cpp:139-141`). -/
def BDS.getNumWeightedEvents (d : BDS K) : Out K :=
  match weightedAcc 0 d.values with
  | none => .ub
  | some a => .val (a : K)

/-- Calls a program makes that change a binned dataset or its observables (no counterpart in the code). -/
inductive BOp (K : Type) where
  | setObs (o : Nat) (c : ObsCell K)
  | addEvent
  | addEventV (v : K) (vs : List K)
  | addWeightedEvent (w : K)
  | setBinContent (i : BitVec 32) (x : K)
  | setBinError (i : BitVec 32) (x : K)

/-- One call, as cited above (no counterpart in the code). -/
def BSt.step (st : BSt K) : BOp K → BSt K × Out K
  | .setObs o c => ({ st with store := fun p => if p = o then c else st.store p }, .done)
  | .addEvent => st.addEvent
  | .addEventV v vs => st.addEventV v vs
  | .addWeightedEvent w => st.addWeightedEvent w
  | .setBinContent i x => st.setBinContent i x
  | .setBinError i x => st.setBinError i x

/-- A program: final state and results (no counterpart in the code). -/
def BSt.run (st : BSt K) : List (BOp K) → BSt K × List (Out K)
  | [] => (st, [])
  | op :: ops =>
    let r := st.step op
    let q := BSt.run r.1 ops
    (q.1, r.2 :: q.2)
end

end GooFit
