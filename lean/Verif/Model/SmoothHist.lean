import Verif.Model.BasicCtor
/-!
# Histogram PDFs: the smoothing and the tables of histograms

`src/PDFs/basic/SmoothHistogramPdf.cu`.  `int` arithmetic is unbounded here (the code overflows for
20 or more axes, where `dev_powi(3, 20)` leaves the `int` range).
-/
set_option autoImplicit false
namespace GooFit
section
variable {F : Type} [FpMath F]
open FpOps FpMath

/-- The loop over the axes in `Smoother::operator()` (`src/PDFs/basic/SmoothHistogramPdf.cu:77-92`):
state `(currBin, localPrevious, trackingBin, offSomeAxis)`; `con` reads a constant of the PDF. -/
def smootherAxes (con : Nat → Option F) (i : Nat) : Nat → Nat → Int × Int × Int × Bool →
    Option (Int × Int × Int × Bool) :=
  forUpto fun v s => do
    let n ← con (3 * (v + 1))
    let localNumBins := toInt n
    let offset : Int := ((i / 3 ^ v % 3 : Nat) : Int) - 1
    let currVarBin := s.2.2.1.tmod localNumBins
    return (s.1 + offset * s.2.1, s.2.1 * localNumBins, s.2.2.1.tdiv localNumBins,
      s.2.2.2 || decide (currVarBin + offset < 0) || decide (currVarBin + offset ≥ localNumBins))

/-- `Smoother::operator()` after it has found its PDF
(`src/PDFs/basic/SmoothHistogramPdf.cu:61-108`): `con` and `par` read the constants and parameters of
the PDF, `base` is the table `dev_base_histograms`. -/
def smoother (con par : Nat → Option F) (base : Nat → Option (List F)) (globalBin : Nat) : Option F := do
  let numVars ← con 0
  let smoothing ← par 0
  let histIndex ← con 1
  let hist ← base (toInt histIndex).toNat
  let centralValue ← readHist hist globalBin
  let s ← forUpto (fun i (s : F × Int) => do
    let r ← smootherAxes con i (toInt numVars).toNat 0 (globalBin, 1, globalBin, false)
    if r.1 = globalBin then return s
    else if r.2.2.2 then return s
    else
      let x ← readHist hist r.1
      return (add s.1 x, s.2 + 1)) (3 ^ (toInt numVars).toNat) 0 (lit 0, 0)
  return div (add centralValue (mul s.1 smoothing)) (add (lit 1) (mul (ofInt s.2) smoothing))

/-- `Smoother::operator()` (`src/PDFs/basic/SmoothHistogramPdf.cu:55-108`): `pc` starts at the
beginning of the arrays and is moved to function number `funcIdx` one PDF at a time. -/
def smootherDev (B : Bufs F) (pc : Cursor) (base : Nat → Option (List F)) (globalBin : Nat) : Option F :=
  smoother (pc.getConstant B) (pc.getParameter B) base globalBin

/-- A `SmoothHistogramPdf` object: the constant registered for its place in the tables, its axes, and
its two device vectors (addresses, `none` for the null pointers of an object without histogram)
(`include/goofit/PDFs/basic/SmoothHistogramPdf.h`, `src/PDFs/basic/SmoothHistogramPdf.cu:113-181`). -/
structure HistPdf (F : Type) where
  number : Nat
  axes : List (Axis F)
  base : Option Nat
  smoothed : Option Nat

/-- Everything `SmoothHistogramPdf` objects share: the device vectors allocated so far, the static
counter `totalHistograms` and the two tables of pointers (`src/PDFs/basic/SmoothHistogramPdf.cu:7-9`). -/
structure HistWorld (F : Type) where
  heap : List (List F)
  total : Nat
  baseTable : Nat → Option Nat
  smoothTable : Nat → Option Nat
  pdfs : List (HistPdf F)

/-- At program start
(static initialisation of the tables and of `totalHistograms`, `src/PDFs/basic/SmoothHistogramPdf.cu:7-9`). -/
def HistWorld.start : HistWorld F := ⟨[], 0, fun _ => none, fun _ => none, []⟩

/-- The vectors the rows of a table point to (`src/PDFs/basic/SmoothHistogramPdf.cu:167-181`). -/
def HistWorld.rows (w : HistWorld F) (t : Nat → Option Nat) (k : Nat) : Option (List F) :=
  (t k).bind fun a => w.heap[a]?

/-- What the device functions see (`src/PDFs/basic/SmoothHistogramPdf.cu:167-181`). -/
def HistWorld.tables (w : HistWorld F) : HistTables F := ⟨fun _ => none, w.rows w.smoothTable⟩

/-- `SmoothHistogramPdf::copyHistogramToDevice` (`src/PDFs/basic/SmoothHistogramPdf.cu:168-196`) on
object `i`: two new vectors, whose addresses go to row `totalHistograms` of the tables.  A row beyond
the hundredth is outside the tables (undefined). -/
def HistWorld.copy (w : HistWorld F) (i : Nat) (contents : List F) : Option (HistWorld F) :=
  if w.total < 100 then
    some { heap := w.heap ++ [contents, contents]
           total := w.total + 1
           baseTable := fun k => if k = w.total then some w.heap.length else w.baseTable k
           smoothTable := fun k => if k = w.total then some (w.heap.length + 1) else w.smoothTable k
           pdfs := w.pdfs.modify i fun p =>
            { p with base := some w.heap.length, smoothed := some (w.heap.length + 1) } }
  else none

/-- The constructor (`src/PDFs/basic/SmoothHistogramPdf.cu:113-154`): the constant is the present
`totalHistograms`; the histogram is copied when its contents sum up to more than zero. -/
def HistWorld.create (w : HistWorld F) (axes : List (Axis F)) (contents : List F) : Option (HistWorld F) :=
  let w' : HistWorld F := { w with pdfs := w.pdfs ++ [⟨w.total, axes, none, none⟩] }
  if lt (lit 0) (contents.foldl add (lit 0)) then w'.copy w.pdfs.length contents else some w'

/-- `SmoothHistogramPdf::normalize` (`src/PDFs/basic/SmoothHistogramPdf.cu:195-215`) on object `i`
with the smoothing parameter at `s`: fills the object's smoothed vector and returns the integral.
The constants read by `Smoother` are the object's own (`C13`). -/
def HistWorld.normalize (w : HistWorld F) (i : Nat) (s : F) : Option (F × HistWorld F) := do
  let p ← w.pdfs[i]?
  let b ← p.base
  let d ← p.smoothed
  let size := (← w.heap[b]?).length
  let consts := (BasicCall.smoothHistogram p.number p.axes 0).consts
  let out ← (List.range size).mapM fun g =>
    smoother (fun k => consts[k]?) (fun _ => some s) (w.rows w.baseTable) g
  let w' := { w with heap := w.heap.set d out }
  let ret ← forUpto (fun v (r : F) => do
    let binSize ← consts[3 + 3 * v + 2]?
    return mul r binSize) p.axes.length 0 (out.foldl add (lit 0))
  return (ret, w')

/-- What a program does with histogram PDFs (no counterpart in the code). -/
inductive HistOp (F : Type) where
  | create (axes : List (Axis F)) (contents : List F)
  | copy (i : Nat) (contents : List F)
  | normalize (i : Nat) (s : F)

/-- One operation (no counterpart in the code). -/
def HistWorld.step (w : HistWorld F) : HistOp F → Option (HistWorld F)
  | .create axes contents => w.create axes contents
  | .copy i contents => w.copy i contents
  | .normalize i s => (w.normalize i s).map Prod.snd

/-- A program (no counterpart in the code). -/
def HistWorld.run : HistWorld F → List (HistOp F) → Option (HistWorld F)
  | w, [] => some w
  | w, op :: ops => (w.step op).bind fun w' => w'.run ops

end
end GooFit
