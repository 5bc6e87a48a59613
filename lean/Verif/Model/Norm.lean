import Verif.Model.FpField
import Verif.Model.TreeHost
import Verif.Model.Fit
/-!
# Normalisation: the integration grid, `GooPdf::normalize` and the combining PDFs' `normalize`

Models the grid operator of `src/PDFs/MetricTaker.cu`, `get_bin_grid_size`, `get_bin_grid_volume`
(`src/PDFs/GooPdf.cpp`), `generateNormRange` (`src/PDFs/PdfBase.cu`), `reduce_with_bins` and
`normalize` (`src/PDFs/GooPdf.cu`), and `normalize` of `src/PDFs/combine/*.cu`.

Exact arithmetic in an ordered field.
-/
set_option autoImplicit false
namespace GooFit

section grid
variable {K : Type} [Field K] [LinearOrder K] [IsStrictOrderedRing K] [FloorRing K]
attribute [local instance] FpOps.ofField

/-- One entry of `normRanges`: lower limit, upper limit and number of bins of an observable
(`src/PDFs/PdfBase.cu:532-557`).  Simplification: the number of bins, stored as a `double` and read
back through `floor(x + 0.5)`, stays a natural number. -/
structure Range (K : Type) where
  lower : K
  upper : K
  bins : Nat

/-- `integrationBins > 0 ? integrationBins : v.getNumBins()` (`src/PDFs/PdfBase.cu:548`,
`src/PDFs/GooPdf.cpp:36`). -/
def gridBins (integrationBins : Int) (numBins : Nat) : Nat :=
  if integrationBins > 0 then integrationBins.toNat else numBins

/-- `generateNormRange` (`src/PDFs/PdfBase.cu:532-557`): one range per observable, with the
observables' limits and bin counts. -/
def normRanges (integrationBins : Int) (obs : List (K × K × Nat)) : List (Range K) :=
  obs.map fun v => ⟨v.1, v.2.1, gridBins integrationBins v.2.2⟩

/-- `get_bin_grid_size` (`src/PDFs/GooPdf.cpp:32-40`).  Simplification: no overflow of `int`. -/
def gridSize (integrationBins : Int) (obs : List (K × K × Nat)) : Nat :=
  obs.foldl (fun t v => t * gridBins integrationBins v.2.2) 1

/-- `get_bin_grid_volume` (`src/PDFs/GooPdf.cpp:42-50`). -/
def gridVolume (obs : List (K × K × Nat)) : K :=
  obs.foldl (fun t v => t * (v.2.1 - v.1)) 1

/-- The loop over observables of the grid operator (`src/PDFs/MetricTaker.cu:75-88`).  `id` is read
once before the loop (line 73); the buffer has ten entries, uninitialised (`new fptype[10]`, line 54);
a modulus by zero or a write outside the buffer is undefined. -/
def gridPointLoop (id : Int) : List (Range K) → Nat → Evt K → Option (Evt K)
  | [], _, e => some e
  | r :: rs, b, e =>
    if r.bins = 0 then none
    else if 0 ≤ id ∧ id < 10 then
      gridPointLoop id rs (b / r.bins) fun k =>
        if (k : Int) = id then
          some ((r.upper - r.lower) / (r.bins : K) * (((b % r.bins : Nat) : K) + 1 / 2) + r.lower)
        else e k
    else none

/-- The grid operator (`src/PDFs/MetricTaker.cu:48-96`): value of the PDF stored at `functionIdx` at
grid point `b`. -/
def gridOperator (L : Lib K) (h : Host L) (fuel functionIdx : Nat) (ranges : List (Range K)) (b : Nat) :
    Option K := do
  let c ← Cursor.skip h.bufs functionIdx Cursor.zero
  let id ← c.getObservable h.bufs 0
  let e ← gridPointLoop (FpOps.toInt id) ranges b (fun _ => none)
  let (v, _) ← callFunction L h.bufs h.table fuel c e
  return v

/-- Sum of a function over `0, ..., n-1`, undefined if a value is (no counterpart in the code). -/
def gridSum (f : Nat → Option K) : Nat → Option K
  | 0 => some 0
  | n + 1 => do
    let s ← gridSum f n
    let x ← f n
    return s + x

/-- Result of `GooPdf::normalize` (`src/PDFs/GooPdf.cu:340-396`). -/
inductive NormResult (K : Type) where
  /-- the integral, and the normalisation `1 / integral` that is stored -/
  | ok (integral norm : K)
  | aborted
  | ub
  deriving DecidableEq

/-- `GooPdf::normalize` without analytic integral (`src/PDFs/GooPdf.cu:364-395`) and
`reduce_with_bins` (83-108); `f b` is the value at grid point `b`. -/
def normalizeGrid (integrationBins : Int) (obs : List (K × K × Nat)) (f : Nat → Option K) :
    NormResult K :=
  let totalBins := gridSize integrationBins obs
  let ret := gridVolume obs / (totalBins : K)
  match gridSum f totalBins with
  | none => .ub
  | some sum =>
    if 0 ≥ sum then .aborted
    else if ret * sum = 0 then .aborted
    else .ok (ret * sum) (1 / (ret * sum))

/-- `GooPdf::normalize` with an analytic integral (`src/PDFs/GooPdf.cu:350-362`). -/
def normalizeAnalytic (integrate : K → K → K) (obs : List (K × K × Nat)) : NormResult K :=
  let ret := obs.foldl (fun t v => t * integrate v.1 v.2.1) 1
  .ok ret (1 / ret)

end grid

/-! ### The combining PDFs -/

/-- The overlap check of the ProdPdf constructor (`src/PDFs/combine/ProdPdf.cu:44-61`): the observables
of each component against those of the one before it. -/
def overlapLoop : List Nat → List (List Nat) → Bool
  | _, [] => false
  | check, cur :: rest => if cur.any (fun o => check.contains o) then true else overlapLoop cur rest

/-- `varOverlaps` (`src/PDFs/combine/ProdPdf.cu:30-73`), from the components' observables and
`separateNorm` flags. -/
def varOverlaps (comps : List (List Nat × Bool)) : Bool :=
  overlapLoop [] (comps.map (·.1)) && !(comps.any (·.2))

section combine
variable {K : Type} [Field K] {L : Lib K}

/-- Replace the normalisation of the root (`setNormalization`, `include/goofit/PdfBase.h:204-207`). -/
def Pdf.setNorm (x : K) : Pdf L → Pdf L
  | .mk n cs => .mk { n with norm := x } cs

mutual
/-- `recursiveSetNormalization` (`src/goofit/PdfBase.cpp:30-39`). -/
def Pdf.setNorms (x : K) : Pdf L → Pdf L
  | .mk n cs => .mk { n with norm := x } (setNormsList x cs)
/-- The same on the components (`src/goofit/PdfBase.cpp:34-36`). -/
def setNormsList (x : K) : List (Pdf L) → List (Pdf L)
  | [] => []
  | c :: cs => c.setNorms x :: setNormsList x cs
end

/-- Flags set on PDF objects (`setCommonNorm`, `setSeparateNorm`, `include/goofit/PdfBase.h:228-231`). -/
structure NormFlags where
  common : Nat → Bool
  separate : Nat → Bool

mutual
/-- `normalize()` of a tree of distinct PDF objects: the number returned and the tree with the new
normalisations (`src/PDFs/combine/AddPdf.cu:143-185`, `ProdPdf.cu:75-99`, `MappedPdf.cu:84-96`,
`EventWeightedAddPdf.cu:145-158`, `CompositePdf.cu:54-78`, `ConvolutionPdf.cu:313-358`, and
`GooPdf::normalize` for the others).

`numeric t` is the integral `GooPdf::normalize` computes for `t` when the device holds the
normalisations stored in `t`; aborts are not represented here.  `w` are the variables' values. -/
def Pdf.normalize (flags : NormFlags) (w : Nat → K) (numeric : Pdf L → K) : Pdf L → K × Pdf L
  | .mk n cs =>
    match n.fn with
    | .add =>
      let rs := normalizeList flags w numeric cs
      let weights := n.params.map w
      let ret := ((weights.zip (rs.map (·.1))).map fun p => p.2 * p.1).sum +
        (1 - weights.sum) * (rs.map (·.1)).getLastD 0
      let comps := rs.map (·.2)
      (ret, .mk { n with norm := 1 }
        (if flags.common n.oid then comps.map (Pdf.setNorm (1 / ret)) else comps))
    | .addExt =>
      let rs := normalizeList flags w numeric cs
      let weights := n.params.map w
      let ret := ((weights.zip (rs.map (·.1))).map fun p => p.2 * p.1).sum / weights.sum
      let comps := rs.map (·.2)
      (ret, .mk { n with norm := 1 }
        (if flags.common n.oid then comps.map (Pdf.setNorm (1 / ret)) else comps))
    | .prod =>
      if varOverlaps (cs.map fun c => (c.getObservables, flags.separate c.node.oid)) then
        let cs' := setNormsList 1 cs
        let ret := numeric (.mk { n with norm := 1 } cs')
        (ret, .mk { n with norm := 1 / ret } cs')
      else (1, .mk { n with norm := 1 } ((normalizeList flags w numeric cs).map (·.2)))
    | .mapped =>
      match cs with
      | [] => (0, .mk { n with norm := 1 } [])
      | m :: ts =>
        let rs := normalizeList flags w numeric ts
        ((rs.map (·.1)).sum, .mk { n with norm := 1 } (m :: rs.map (·.2)))
    | .evtAdd | .evtAddExt =>
      (1, .mk { n with norm := 1 } ((normalizeList flags w numeric cs).map (·.2)))
    | .composite =>
      -- the device sees all normalisations at 1 (recursiveSetNormalization synchronises, the
      -- components' own normalisations computed next are not copied before the integral)
      let ret := numeric (.mk { n with norm := 1 } (setNormsList 1 cs))
      (ret, .mk { n with norm := 1 / ret } ((normalizeList flags w numeric cs).map (·.2)))
    | .conv | .convShared =>
      let cs' := setNormsList 1 cs
      let ret := numeric (.mk { n with norm := 1 } cs')
      (ret, .mk { n with norm := 1 / ret } cs')
    | .leaf _ | .amp3 | .metric _ =>
      let ret := numeric (.mk n cs)
      (ret, .mk { n with norm := 1 / ret } cs)
/-- The components' `normalize()` (the loops cited at `normalize`). -/
def normalizeList (flags : NormFlags) (w : Nat → K) (numeric : Pdf L → K) :
    List (Pdf L) → List (K × Pdf L)
  | [] => []
  | c :: cs => Pdf.normalize flags w numeric c :: normalizeList flags w numeric cs
end

end combine

/-! ### Extended sums -/

/-- Outcome of the AddPdf constructor (`src/PDFs/combine/AddPdf.cu:85-125`). -/
inductive AddCtor where
  | built (extended : Bool)
  | threw
  | ub
  deriving DecidableEq, Repr

/-- The constructor `AddPdf(name, weights, components)` (`src/PDFs/combine/AddPdf.cu:85-125`) on the
numbers of weights and components, all components non-null.  `components.back()` of an empty vector
(line 108) is undefined. -/
def addPdfCtor (weights comps : Nat) : AddCtor :=
  if weights ≠ comps ∧ weights + 1 ≠ comps then .threw
  else if comps = 0 then .ub
  else .built (!(weights < comps))

/-- A PDF object with its member `numEvents` (`include/goofit/PdfBase.h:248`). -/
structure ExtSess (K : Type) where
  sess : Sess K
  numEvents : K

section ext
variable {K : Type} [Field K] [LinearOrder K]

namespace ExtSess

/-- A fresh PDF (`include/goofit/PdfBase.h:248`). -/
def fresh (obs : List Nat) (idx : Nat → Int) : ExtSess K := ⟨Sess.fresh obs idx, 0⟩

/-- The content sum accumulated bin by bin (`src/PDFs/PdfBase.cu:440, 493`). -/
def binSum (content : Nat → K) : Nat → K
  | 0 => 0
  | n + 1 => binSum content n + content n

/-- `setData` (`src/PDFs/PdfBase.cu:329-530`): `numEvents` is set at lines 354 and 440, 493, and keeps
its value for a null dataset. -/
def setData (d : Option (Data K)) (s : ExtSess K) : ExtSess K :=
  ⟨s.sess.setData d,
    match d with
    | none => s.numEvents
    | some (.unbinned num _) => num
    | some (.binned num _ content _ _) => binSum content num⟩

/-- One call, as for `Sess`; the queries call `setData` like those of `Sess`
(`src/PDFs/GooPdf.cu:275-338, 402-435`). -/
def run (o : FitOp K) (s : ExtSess K) : ExtSess K :=
  match o with
  | .setData d => s.setData d
  | .setFitControl c => ⟨s.sess.setFitControl c, s.numEvents⟩
  | .query (.getValue f p) =>
    let s' : ExtSess K := ⟨s.sess.setFitControl f.control, s.numEvents⟩
    (s'.setData (some (.unbinned 1 p))).setData s.sess.data
  | .query (.evaluateAtPoints n g) =>
    let s' : ExtSess K := ⟨s.sess.setFitControl .eval, s.numEvents⟩
    (s'.setData (some (.unbinned n g))).setData s.sess.data
  | .query .compProbs => ⟨s.sess.compProbs, s.numEvents⟩
  | .query .normalize => s

/-- A history of calls (no counterpart in the code). -/
def runAll (ops : List (FitOp K)) (s : ExtSess K) : ExtSess K := ops.foldl (fun s o => s.run o) s

/-- `AddPdf::calculateNLL` (`src/PDFs/combine/AddPdf.cu:187-204`); `weights` are the values of
`parametersList`, of which the first `comps` are read. -/
def calculateNLL (log : K → K) (pdf : Evt K → Option K) (norm : K) (extended : Bool)
    (weights : List K) (comps : Nat) (s : ExtSess K) : NllResult K :=
  match s.sess.calculateNLL log pdf norm with
  | .value r =>
    if extended then
      let expEvents := (weights.take comps).foldl (· + ·) 0
      .value (r + (expEvents - s.numEvents * log expEvents))
    else .value r
  | x => x

end ExtSess
end ext
end GooFit
