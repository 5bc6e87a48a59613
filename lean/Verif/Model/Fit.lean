import Verif.Model.TreeHost
import Mathlib.Algebra.Order.Field.Basic
/-!
# Fit controls, metrics, `setData` and the event sum

Models `include/goofit/FitControl.h`, `src/PDFs/MetricPointer.cu`, `setData` of
`src/PDFs/PdfBase.cu`, the event operator of `src/PDFs/MetricTaker.cu` and the queries of
`src/PDFs/GooPdf.cu` as a state machine of one PDF object ("session").

The value of the PDF at an event is an arbitrary function `pdf` of the event's slots (C13 and C14
say what it is), and its normalisation an arbitrary number `norm`; neither changes while the
parameters stay as they are.  A read outside the event array or of an entry never written is `none`.
-/
set_option autoImplicit false
namespace GooFit

/-- The metrics (`src/PDFs/MetricPointer.cu:8-58`). -/
inductive MetricKind where
  | eval | nll | prob | binAvg | binWithError | chisq
  deriving DecidableEq, Repr

/-- The fit controls (`include/goofit/FitControl.h:40-76`). -/
inductive Control where
  | unbinnedNll | binnedNll | binnedError | binnedChisq | prob | eval
  deriving DecidableEq, Repr

/-- `binnedFit()` (`include/goofit/FitControl.h:26`, set by the constructors 40-76). -/
def Control.binnedFit : Control → Bool
  | .binnedNll | .binnedError | .binnedChisq => true
  | .unbinnedNll | .prob | .eval => false

/-- `binErrors()` (`include/goofit/FitControl.h:27, 52-58`): only `BinnedErrorFit` sets `errorsOnBins`. -/
def Control.binErrors : Control → Bool
  | .binnedError => true
  | _ => false

/-- `metricIsPdf()` (`include/goofit/FitControl.h:28`): `!errorsOnBins`. -/
def Control.metricIsPdf (c : Control) : Bool := !c.binErrors

/-- `getMetric()` (`include/goofit/FitControl.h:40-76`). -/
def Control.metric : Control → MetricKind
  | .unbinnedNll => .nll
  | .binnedNll => .binAvg
  | .binnedError => .binWithError
  | .binnedChisq => .chisq
  | .prob => .prob
  | .eval => .eval

/-- A dataset as `setData` reads it: the values returned by `getValue`, `getBinCenter`,
`getBinContent`, `getBinError` and `getBinVolume` (C03-C12 say what they are; `src/PDFs/PdfBase.cu:352-530`). -/
inductive Data (K : Type) where
  /-- `num` events; `value i o` is observable `o` in event `i` -/
  | unbinned (num : Nat) (value : Nat → Nat → K)
  /-- `num` bins; `center i o`, and content, error and volume of bin `i` -/
  | binned (num : Nat) (center : Nat → Nat → K) (content error volume : Nat → K)

/-- `dynamic_cast<BinnedDataSet *>` succeeds (`src/PDFs/PdfBase.cu:352,439`). -/
def Data.isBinned {K : Type} : Data K → Bool
  | .unbinned .. => false
  | .binned .. => true

/-- One bin written to the host array (`src/PDFs/PdfBase.cu:486-492`). -/
def fillBin {K : Type} (idx : Nat → Int) (os : List Nat) (i : Nat) (row : Nat → K)
    (content third : K) (arr : List (Option K)) : List (Option K) :=
  ((fillEvent idx (2 + os.length) i row arr os).set (i * (2 + os.length) + os.length + 0)
    (some content)).set (i * (2 + os.length) + os.length + 1) (some third)

/-- The loop over bins (`src/PDFs/PdfBase.cu:485-494`). -/
def fillBins {K : Type} (idx : Nat → Int) (os : List Nat) (center : Nat → Nat → K)
    (content third : Nat → K) : Nat → List (Option K) → List (Option K)
  | 0, arr => arr
  | k + 1, arr =>
    fillBin idx os k (center k) (content k) (third k) (fillBins idx os center content third k arr)

/-- The device array of a binned dataset (`src/PDFs/PdfBase.cu:470, 485-494, 523-524`). -/
def binnedArray {K : Type} (idx : Nat → Int) (os : List Nat) (center : Nat → Nat → K)
    (content third : Nat → K) (num : Nat) : List (Option K) :=
  fillBins idx os center content third num (List.replicate (num * (2 + os.length)) none)

/-- The part of a `GooPdf` object that `setData`, the queries and the event sum use
(`include/goofit/PdfBase.h:239-281`). -/
structure Sess (K : Type) where
  /-- `observablesList` -/
  obs : List Nat
  /-- the observables' indices -/
  idx : Nat → Int
  /-- `fitControl` -/
  ctl : Control
  /-- `data_` -/
  data : Option (Data K)
  /-- `dev_event_array`, `none` for `nullptr` -/
  array : Option (List (Option K))
  /-- `numEntries` -/
  numEntries : Nat
  /-- `c_totalEvents` -/
  total : Nat

namespace Sess
variable {K : Type}

/-- A freshly constructed PDF (`src/PDFs/GooPdf.cpp:52-67`: `UnbinnedNllFit`;
`include/goofit/PdfBase.h:248-277`). -/
def fresh (obs : List Nat) (idx : Nat → Int) : Sess K :=
  ⟨obs, idx, .unbinnedNll, none, none, 0, 0⟩

/-- `setFitControl` (`src/PDFs/GooPdf.cpp:113-124`).  The components' controls and the flattening of
the tree are the subject of C13-C14. -/
def setFitControl (c : Control) (s : Sess K) : Sess K := { s with ctl := c }

/-- `setData` without MPI (`src/PDFs/PdfBase.cu:329-530`). -/
def setData (d : Option (Data K)) (s : Sess K) : Sess K :=
  let idx := setupObservables s.obs 0 s.idx
  match d with
  | none => { s with idx := idx, data := none, array := none }
  | some (.unbinned num value) =>
    { s with idx := idx, data := d, array := some (eventArray idx s.obs value num),
             numEntries := num, total := num }
  | some (.binned num center content error volume) =>
    let ctl := if s.ctl.binnedFit then s.ctl else .binnedNll
    { s with idx := idx, ctl := ctl, data := d,
             array := some (binnedArray idx s.obs center content
               (if ctl.binErrors then error else volume) num),
             numEntries := num, total := num }

/-- `get_event_size` (`src/PDFs/GooPdf.cpp:23-30`). -/
def eventSize (s : Sess K) : Int :=
  if s.ctl.binnedFit then -((s.obs.length : Int) + 2) else s.obs.length

/-- `eventAddress` of event `i` for a given event size (`src/PDFs/MetricTaker.cu:23`). -/
def eventAt (s : Sess K) (size : Int) (i : Nat) : Evt K :=
  match s.array with
  | none => fun _ => none
  | some arr => eventView arr size.natAbs i

/-- `eventAddress + (abs(eventSize) - 2)` (`src/PDFs/MetricTaker.cu:41`); the pointer may lie before
the array, which only matters when the metric reads it. -/
def tailAt (s : Sess K) (size : Int) (i : Nat) : Evt K :=
  match s.array with
  | none => fun _ => none
  | some arr => fun k =>
    let p : Int := i * size.natAbs + size.natAbs - 2 + k
    if 0 ≤ p then (arr[p.toNat]?).join else none

end Sess

section metrics
variable {K : Type} [Field K] [LinearOrder K]

/-- The metric functions (`src/PDFs/MetricPointer.cu:8-58`).  `log` is the natural logarithm, kept
abstract; `total` is `c_totalEvents`. -/
def MetricKind.apply (log : K → K) (total : Nat) (m : MetricKind) (raw : K) (evt : Evt K) (norm : K) :
    Option K :=
  match m with
  | .eval => some raw
  | .nll => some (if raw * norm > 0 then -log (raw * norm) else 0)
  | .prob => some (raw * norm)
  | .binAvg => do
    let vol ← evt 1
    let p := raw * norm * vol
    if p > 0 then
      let exp := total * p
      let n ← evt 0
      return exp - n * log exp
    else return 0
  | .binWithError => do
    let n ← evt 0
    let err ← evt 1
    let r := (raw - n) / err
    return r * r
  | .chisq => do
    let vol ← evt 1
    let n ← evt 0
    let p := raw * norm * vol
    return (p * total - n) * (p * total - n) / (if n > 1 then n else 1)

/-- The event operator (`src/PDFs/MetricTaker.cu:17-44`, C14) on event `i`. -/
def Sess.valueAt (log : K → K) (pdf : Evt K → Option K) (norm : K) (s : Sess K) (size : Int)
    (i : Nat) : Option K := do
  let raw ← pdf (s.eventAt size i)
  s.ctl.metric.apply log s.total raw (s.tailAt size i) norm

/-- The values of a function on `0, ..., n-1`, all of which must be defined (no counterpart in the code). -/
def collect (f : Nat → Option K) : Nat → Option (List K)
  | 0 => some []
  | n + 1 => do
    let xs ← collect f n
    let x ← f n
    return xs ++ [x]

/-- `reduce_with_metric` without MPI (`src/PDFs/GooPdf.cu:45-78`), summed in order (C21 shows that
the order does not matter). -/
def Sess.reduce (log : K → K) (pdf : Evt K → Option K) (norm : K) (s : Sess K) : Option K :=
  (collect (s.valueAt log pdf norm s.eventSize) s.numEntries).map List.sum

/-- `evaluate_with_metric` without MPI (`src/PDFs/GooPdf.cu:112-136`). -/
def Sess.evaluate (log : K → K) (pdf : Evt K → Option K) (norm : K) (s : Sess K) : Option (List K) :=
  collect (s.valueAt log pdf norm s.obs.length) s.numEntries

/-- The normalisation stored by `normalize()`: 1 when the metric does not take a PDF
(`src/PDFs/GooPdf.cu:341-346`), otherwise the PDF's. -/
def Sess.normOf (norm : K) (s : Sess K) : K := if s.ctl.metricIsPdf then norm else 1

/-- Result of `calculateNLL` (`src/PDFs/GooPdf.cu:254-273`). -/
inductive NllResult (K : Type) where
  | value (x : K)
  | aborted
  | ub

/-- `calculateNLL` (`src/PDFs/GooPdf.cu:254-273`). -/
def Sess.calculateNLL (log : K → K) (pdf : Evt K → Option K) (norm : K) (s : Sess K) : NllResult K :=
  if s.normOf norm ≤ 0 then .aborted
  else
    match s.reduce log pdf (s.normOf norm) with
    | none => .ub
    | some r => if r = 0 then .aborted else .value r

end metrics

/-! ### Queries -/

/-- `EvalFunc` (`include/goofit/FitControl.h:11`, the three accepted by `src/PDFs/GooPdf.cu:315-322`). -/
inductive EvalFunc where
  | prob | eval | nll
  deriving DecidableEq, Repr

/-- The fit control `getValue` installs (`src/PDFs/GooPdf.cu:315-322`). -/
def EvalFunc.control : EvalFunc → Control
  | .prob => .prob
  | .eval => .eval
  | .nll => .unbinnedNll

/-- The queries.  `point` and `grid` are the temporary datasets filled from the observables
(`src/PDFs/GooPdf.cu:275-338,340-396,402-435`). -/
inductive Query (K : Type) where
  | getValue (f : EvalFunc) (point : Nat → Nat → K)
  | evaluateAtPoints (bins : Nat) (grid : Nat → Nat → K)
  | compProbs
  | normalize

namespace Sess
variable {K : Type}

/-- Effect of `getValue` on the PDF (`src/PDFs/GooPdf.cu:314-338`). -/
def getValue (f : EvalFunc) (point : Nat → Nat → K) (s : Sess K) : Sess K :=
  let s := s.setFitControl f.control
  let old := s.data
  (s.setData (some (.unbinned 1 point))).setData old

/-- Effect of `evaluateAtPoints` on the PDF (`src/PDFs/GooPdf.cu:275-312`). -/
def evaluateAtPoints (bins : Nat) (grid : Nat → Nat → K) (s : Sess K) : Sess K :=
  let s := s.setFitControl .eval
  let old := s.data
  (s.setData (some (.unbinned bins grid))).setData old

/-- Effect of `getCompProbsAtDataPoints` on the PDF (`src/PDFs/GooPdf.cu:402-435`). -/
def compProbs (s : Sess K) : Sess K :=
  let fc := s.ctl
  (s.setFitControl .prob).setFitControl fc

/-- Effect of a query.  `normalize()` (`src/PDFs/GooPdf.cu:340-396`) only writes normalisations,
which the next `calculateNLL` computes again. -/
def query (q : Query K) (s : Sess K) : Sess K :=
  match q with
  | .getValue f p => s.getValue f p
  | .evaluateAtPoints n g => s.evaluateAtPoints n g
  | .compProbs => s.compProbs
  | .normalize => s

end Sess

/-- Everything a user can do to the session (no counterpart in the code). -/
inductive FitOp (K : Type) where
  | setData (d : Option (Data K))
  | setFitControl (c : Control)
  | query (q : Query K)

/-- One call (no counterpart in the code). -/
def FitOp.run {K : Type} (o : FitOp K) (s : Sess K) : Sess K :=
  match o with
  | .setData d => s.setData d
  | .setFitControl c => s.setFitControl c
  | .query q => s.query q

/-- A history of calls (no counterpart in the code). -/
def Sess.runAll {K : Type} (ops : List (FitOp K)) (s : Sess K) : Sess K :=
  ops.foldl (fun s o => o.run s) s

end GooFit
