import Verif.Model.Likelihood
import Verif.Model.Mpi
/-!
# The numbers a PDF is asked for

`getValue`, `evaluateAtPoints` and `getCompProbsAtDataPoints` (`src/PDFs/GooPdf.cu:275-338, 402-435`),
`plotToROOT` and `scan` (`src/PDFs/GooPdf.cpp:69-81, 126-143`) through the global arrays, with the
normalisations that the objects keep (`cachedNormalization`, `include/goofit/PdfBase.h:256`).

Exact arithmetic in an ordered field, as in `Model/Likelihood.lean`.  The metrics that these calls install
do not read `c_totalEvents`, which is an arbitrary number `N` here.
-/
set_option autoImplicit false
namespace GooFit

section
variable {K : Type} [Field K] [LinearOrder K] [IsStrictOrderedRing K] [FloorRing K]
attribute [local instance] FpOps.ofField
variable {L : Lib K}

mutual
/-- The tree with every object's `cachedNormalization`, which `populateArrays` pushes
(`src/PDFs/PdfBase.cu:305`). -/
def Pdf.cached (cache : Nat → K) : Pdf L → Pdf L
  | .mk n cs => .mk { n with norm := cache n.oid } (cachedList cache cs)
/-- The same for the components (`src/PDFs/PdfBase.cu:305`, run over `components`). -/
def cachedList (cache : Nat → K) : List (Pdf L) → List (Pdf L)
  | [] => []
  | c :: cs => c.cached cache :: cachedList cache cs
end

mutual
/-- The object is in the tree (no counterpart in the code). -/
def Pdf.hasObject (o : Nat) : Pdf L → Bool
  | .mk n cs => o == n.oid || hasObjectList o cs
/-- The same for the components (no counterpart in the code). -/
def hasObjectList (o : Nat) : List (Pdf L) → Bool
  | [] => false
  | c :: cs => c.hasObject o || hasObjectList o cs
end

/-- A PDF object with its data, the global arrays, and the `cachedNormalization` of all objects
(no counterpart in the code). -/
structure Asked {K : Type} (L : Lib K) where
  sess : Sess K
  arr : Machine L
  cache : Nat → K

namespace Asked

/-- `normalize()` on a PDF.  Every assignment of a normalisation in the array comes with the same assignment
of `cachedNormalization` (`src/PDFs/GooPdf.cu:357-358, 393-394`, `src/PDFs/combine/AddPdf.cu:168-169`,
`ProdPdf.cu:95-96`, `src/goofit/PdfBase.cpp:31-32`, `include/goofit/PdfBase.h:204-207`), so that afterwards
it is what the array has at the object's place. -/
def normalize (cfg : NormSetup L) (val : Nat → K) (fuel : Nat) (u : Pdf L) (s : Asked L) : Ran (K × Asked L) :=
  (s.arr.normalize cfg val fuel u).andThen fun (r, a) =>
  .done (r, { s with
    arr := a
    cache := fun o =>
      if u.hasObject o then (a.host.bufs.nrm[(a.host.slots o).nrm + 1]?).getD (s.cache o) else s.cache o })

/-- `host_normalizations.sync(d_normalizations)` (`src/PDFs/GooPdf.cu:281,297,326,407`). -/
def sync (s : Asked L) : Asked L := { s with arr := s.arr.sync }

variable {log : K → K} {N : Nat}

/-- `setIndices()` on a PDF or one of its components (`src/PDFs/GooPdf.cu:182-200`), with the metric of the
fit control `c`, and the copy of everything to the device (`pre_run`, `src/PDFs/PdfBase.cu:24-31`). -/
def flatten (val : Nat → K) (c : Control) (u : Pdf (L.metrics log N)) (s : Asked (L.metrics log N)) :
    Asked (L.metrics log N) :=
  let h := s.arr.host.setIndices ⟨val, s.sess.idx⟩ (u.cached s.cache) c.metric
  { s with arr := ⟨h, h.bufs.nrm⟩ }

/-- `setFitControl` (`src/PDFs/GooPdf.cpp:113-124`): the components' own flattening, which comes first, is
overwritten by that of the whole tree. -/
def setFitControl (val : Nat → K) (t : Pdf (L.metrics log N)) (c : Control) (s : Asked (L.metrics log N)) :
    Asked (L.metrics log N) :=
  flatten val c t { s with sess := s.sess.setFitControl c }

/-- `setData` (`src/PDFs/PdfBase.cu:329-530`): the observables are numbered, the tree is flattened, and the
events are copied. -/
def setData (val : Nat → K) (t : Pdf (L.metrics log N)) (d : Option (Data K)) (s : Asked (L.metrics log N)) :
    Asked (L.metrics log N) :=
  let sess := s.sess.setData d
  flatten val sess.ctl t { s with sess := sess }

/-- `evaluate_with_metric` without MPI (`src/PDFs/GooPdf.cu:112-136, 175-180`). -/
def evaluate (fuel : Nat) (s : Asked (L.metrics log N)) : Option (List K) :=
  collect (fun i => metricTaker (L.metrics log N) s.arr.onDevice fuel
    (s.sess.eventAt s.sess.obs.length i) (s.sess.tailAt s.sess.obs.length i)) s.sess.numEntries

/-- `Observable::operator bool` for a value `y` (`include/goofit/Variable.h:103-105`). -/
def inRange (r : K × K × Nat) (y : K) : Bool := decide (r.2.1 = r.1) || (decide (y ≤ r.2.1) && decide (r.1 ≤ y))

/-- `addEvent` accepts the point: all observables are in range (`src/goofit/DataSet.cpp:72-77`,
`src/goofit/UnbinnedDataSet.cpp:58-59`). -/
def accepts (cfg : NormSetup (L.metrics log N)) (os : List Nat) (x : Nat → K) : Bool :=
  os.all fun o => inRange (cfg.range o) (x o)

/-- `getValue` (`src/PDFs/GooPdf.cu:314-338`) with the observables at `x`.  `.aborted` also stands for the
exception that a point out of range raises. -/
def getValue (cfg : NormSetup (L.metrics log N)) (val : Nat → K) (fuel : Nat) (t : Pdf (L.metrics log N))
    (x : Nat → K) (f : EvalFunc) (s : Asked (L.metrics log N)) : Ran (K × Asked (L.metrics log N)) :=
  ((s.setFitControl val t f.control).normalize cfg val fuel t).andThen fun (_, s) =>
  let s := s.sync
  if !accepts cfg s.sess.obs x then .aborted
  else
    let old := s.sess.data
    let s := s.setData val t (some (.unbinned 1 fun _ => x))
    match s.evaluate fuel with
    | some (r :: _) => .done (r, s.setData val t old)
    | _ => .ub

/-- Bin centre `i` of the observable (`src/PDFs/GooPdf.cu:285-288`, `include/goofit/Variable.h:131`). -/
def center (r : K × K × Nat) (i : Nat) : K := r.1 + ((i : K) + 1 / 2) * ((r.2.1 - r.1) / (r.2.2 : K))

/-- The observables while bin `i` of observable `var` is filled (`src/PDFs/GooPdf.cu:287-290`). -/
def pointAt (cfg : NormSetup (L.metrics log N)) (var : Nat) (x : Nat → K) (i : Nat) : Nat → K :=
  fun o => if o = var then center (cfg.range var) i else x o

/-- `evaluateAtPoints` (`src/PDFs/GooPdf.cu:275-312`) with the observables at `x`: the values, the
observables afterwards, and the state. -/
def evaluateAtPoints (cfg : NormSetup (L.metrics log N)) (val : Nat → K) (fuel : Nat)
    (t : Pdf (L.metrics log N)) (x : Nat → K) (var : Nat) (s : Asked (L.metrics log N)) :
    Ran (List K × (Nat → K) × Asked (L.metrics log N)) :=
  ((s.setFitControl val t .eval).normalize cfg val fuel t).andThen fun (_, s) =>
  let s := s.sync
  let bins := (cfg.range var).2.2
  let grid := pointAt cfg var x
  if !(List.range bins).all (fun i => accepts cfg s.sess.obs (grid i)) then .aborted
  else
    let old := s.sess.data
    ((s.setData val t (some (.unbinned bins grid))).normalize cfg val fuel t).andThen fun (_, s) =>
    let s := s.sync
    match s.evaluate fuel, s.arr.host.bufs.nrm[(s.arr.host.slots t.node.oid).nrm + 1]? with
    | some vs, some n =>
      .done (vs.map (· * n), if bins = 0 then x else grid (bins - 1), s.setData val t old)
    | _, _ => .ub

/-- The loop over the components (`src/PDFs/GooPdf.cu:414-430`): each is flattened alone and normalised, the
metric is put at the end of the table once more, and everything is copied to the device. -/
def componentValues (cfg : NormSetup (L.metrics log N)) (val : Nat → K) (fuel : Nat) :
    List (Pdf (L.metrics log N)) → Asked (L.metrics log N) → Ran (List (List K) × Asked (L.metrics log N))
  | [], s => .done ([], s)
  | c :: cs, s =>
    ((s.flatten val .prob c).normalize cfg val fuel c).andThen fun (_, s) =>
    let s := sync { s with arr := { s.arr with host := { s.arr.host with
      table := s.arr.host.table ++ [.metric (L := L.metrics log N) MetricKind.prob] } } }
    match s.evaluate fuel with
    | none => .ub
    | some vs => (componentValues cfg val fuel cs s).andThen fun (vss, s) => .done (vs :: vss, s)

/-- `getCompProbsAtDataPoints` (`src/PDFs/GooPdf.cu:402-435`). -/
def getCompProbs (cfg : NormSetup (L.metrics log N)) (val : Nat → K) (fuel : Nat) (t : Pdf (L.metrics log N))
    (s : Asked (L.metrics log N)) : Ran (List (List K) × Asked (L.metrics log N)) :=
  let fc := s.sess.ctl
  ((s.setFitControl val t .prob).normalize cfg val fuel t).andThen fun (_, s) =>
  let s := s.sync
  match s.evaluate fuel with
  | none => .ub
  | some vs =>
    (componentValues cfg val fuel t.comps s).andThen fun (vss, s) =>
    .done (vs :: vss, s.setFitControl val t fc)

/-- `plotToROOT` (`src/PDFs/GooPdf.cpp:126-143`): the contents of the bins, the observables afterwards, and
the state. -/
def plotToROOT (cfg : NormSetup (L.metrics log N)) (val : Nat → K) (fuel : Nat) (t : Pdf (L.metrics log N))
    (x : Nat → K) (var : Nat) (normFactor : K) (s : Asked (L.metrics log N)) :
    Ran (List K × (Nat → K) × Asked (L.metrics log N)) :=
  (s.evaluateAtPoints cfg val fuel t x var).andThen fun (vs, x, s) =>
  let r := cfg.range var
  let pdfInt := vs.foldl (· + ·) 0
  .done (vs.map fun v => v * normFactor / pdfInt / ((r.2.1 - r.1) / (r.2.2 : K)), x, s)

end Asked

/-- The values a scan visits (`src/PDFs/GooPdf.cpp:70-75`); `fuel` bounds the number of iterations. -/
def scanPoints (upper step : K) : Nat → K → List K
  | 0, _ => []
  | fuel + 1, v => if v < upper then v :: scanPoints upper step fuel (v + step) else []

/-- `scan` (`src/PDFs/GooPdf.cpp:69-81`): at every point the value of the observable is set, the parameters are
copied and `calculateNLL` is called.  The value of an observable is neither a parameter nor part of the data, so
that the call is that of `FCN::operator()` at unchanged parameters. -/
def Machine.scan (log : K → K) (x : ExtSess K) (cfg : NormSetup (L.metrics log x.sess.total)) (fuel : Nat)
    (t : Pdf (L.metrics log x.sess.total)) (val : Nat → K) (var : Nat)
    (s : Machine (L.metrics log x.sess.total)) : Ran (List K × Machine (L.metrics log x.sess.total)) :=
  let r := cfg.range var
  let step := (r.2.1 - r.1) / (r.2.2 : K)
  s.fcnAll log x cfg fuel t ((scanPoints r.2.1 step (r.2.2 + 1) (r.1 + 1 / 2 * step)).map fun _ => val)

end

/-! ### With MPI -/

/-- One rank's part of `MPI_Allgatherv`: its numbers are written from its displacement on; `none` if they do not fit
(`src/PDFs/GooPdf.cu:161-168`). -/
def gatherOne {α : Type} (arr : List α) (start : Nat) (vals : List α) : Option (List α) :=
  if start + vals.length ≤ arr.length then some (arr.take start ++ vals ++ arr.drop (start + vals.length)) else none

/-- The exchange of the results at the end of `evaluate_with_metric` (`src/PDFs/GooPdf.cu:139-172`): all ranks learn how
many numbers each has, the displacements are their sums, and the numbers are gathered in an array of `numEntries`.
`entries_to_process` is sent as an `int`, of which there is enough for counts below `2 ^ 31`. -/
def gatherResults {α : Type} (zero : α) (numEntries : Nat) (locals : List (List α)) : Option (List α) :=
  let counts := locals.map List.length
  ((mpiDisplacements 0 counts).zip locals).foldlM (fun arr p => gatherOne arr p.1 p.2) (List.replicate numEntries zero)

end GooFit
