import Verif.Model.Toy
import Verif.Model.Dalitz3
/-!
# `DalitzPlotter`

Models `include/goofit/PDFs/physics/DalitzPlotter.h:19-139`.  Exact arithmetic.  The observables are handles of the
user's (C01): assigning to them changes the user's.
-/
set_option autoImplicit false
namespace GooFit

/-- The members (`include/goofit/PDFs/physics/DalitzPlotter.h:20-27`); observables are given by their numbers. -/
structure Plotter (K : Type) where
  m12 : Nat
  m13 : Nat
  ev : Nat
  xbins : List Nat
  ybins : List Nat
  pdfValues : List (List K)
  data : UDS K
  mother : K

/-- What the loops of the constructor change (`include/goofit/PDFs/physics/DalitzPlotter.h:31-60`). -/
structure PlotSt (K : Type) where
  xbins : List Nat
  ybins : List Nat
  st : USt K

section
variable {K : Type} [Field K] [LinearOrder K]

/-- `o.setValue(o.getLowerLimit() + o.getBinSize() * (i + 0.5))`
(`include/goofit/PDFs/physics/DalitzPlotter.h:39, 41`). -/
def Store.toBin (s : Store K) (o i : Nat) : Store K :=
  s.setValue o ((s o).lower + (s o).binSize * ((i : K) + 1 / 2))

/-- The body of the inner loop (`include/goofit/PDFs/physics/DalitzPlotter.h:41-52`); `inside` is `inDalitz` with the masses of
the decay. -/
def plotCell (m12 m13 ev : Nat) (inside : K → K → Bool) (i j : Nat) (p : PlotSt K) : PlotSt K × Out K :=
  let st := { p.st with store := p.st.store.toBin m13 j }
  if inside (st.store m12).value (st.store m13).value then
    match st.addEvent with
    | (st', .done) =>
      (⟨p.xbins ++ [i], p.ybins ++ [j], { st' with store := st'.store.setValue ev ((st'.store ev).value + 1) }⟩, .done)
    | (st', e) => (⟨p.xbins ++ [i], p.ybins ++ [j], st'⟩, e)
  else ({ p with st := st }, .done)

/-- `for(size_t i = 0; i < n; ++i)`, with `n` iterations still to go, the present one being `i`; an exception ends it
(`include/goofit/PDFs/physics/DalitzPlotter.h:38, 40`). -/
def plotLoop (body : Nat → PlotSt K → PlotSt K × Out K) : Nat → Nat → PlotSt K → PlotSt K × Out K
  | 0, _, p => (p, .done)
  | n + 1, i, p =>
    match body i p with
    | (p', .done) => plotLoop body n (i + 1) p'
    | r => r

/-- The body of the outer loop (`include/goofit/PDFs/physics/DalitzPlotter.h:39-53`). -/
def plotColumn (m12 m13 ev : Nat) (inside : K → K → Bool) (i : Nat) (p : PlotSt K) : PlotSt K × Out K :=
  let p := { p with st := { p.st with store := p.st.store.toBin m12 i } }
  plotLoop (plotCell m12 m13 ev inside i) (p.st.store m13).numBins 0 p

/-- The constructor (`include/goofit/PDFs/physics/DalitzPlotter.h:30-61`).  `pdf data` is what `getCompProbsAtDataPoints` returns
when `data` is the dataset, `none` if it throws. -/
def Plotter.construct (m12 m13 ev : Nat) (inside : K → K → Bool) (mother : K) (pdf : UDS K → Option (List (List K)))
    (s : Store K) : Store K × Out K × Option (Plotter K) :=
  let p : PlotSt K := ⟨[], [], ⟨s.setValue ev 0, UDS.new K [m12, m13, ev]⟩⟩
  match plotLoop (plotColumn m12 m13 ev inside) (s m12).numBins 0 p with
  | (p, .done) =>
    match pdf p.st.ds with
    | none => (p.st.store, .threw .general, none)
    | some vals => (p.st.store, .done, some ⟨m12, m13, ev, p.xbins, p.ybins, vals, p.st.ds, mother⟩)
  | (p, e) => (p.st.store, e, none)

namespace Plotter

/-- `getNumEvents` (`include/goofit/PDFs/physics/DalitzPlotter.h:97`). -/
def getNumEvents (p : Plotter K) : Nat := p.data.num

/-- `getX` (`include/goofit/PDFs/physics/DalitzPlotter.h:99`); `none`: `std::out_of_range`. -/
def getX (p : Plotter K) (event : Nat) : Option Nat := p.xbins[event]?

/-- `getY` (`include/goofit/PDFs/physics/DalitzPlotter.h:101`). -/
def getY (p : Plotter K) (event : Nat) : Option Nat := p.ybins[event]?

/-- `getXval` (`include/goofit/PDFs/physics/DalitzPlotter.h:103`). -/
def getXval (p : Plotter K) (event : Nat) : Out K := p.data.getValue p.m12 event

/-- `getYval` (`include/goofit/PDFs/physics/DalitzPlotter.h:105`). -/
def getYval (p : Plotter K) (event : Nat) : Out K := p.data.getValue p.m13 event

/-- `getZval` (`include/goofit/PDFs/physics/DalitzPlotter.h:107`). -/
def getZval (p : Plotter K) (event : Nat) : Out K :=
  match p.getXval event, p.getYval event with
  | .val x, .val y => .val (p.mother * p.mother - x * x - y * y)
  | .val _, e => e
  | e, _ => e

/-- `getVal` (`include/goofit/PDFs/physics/DalitzPlotter.h:109`); `none`: `std::out_of_range`. -/
def getVal (p : Plotter K) (event num : Nat) : Option K := (p.pdfValues[num]?).bind fun l => l[event]?

/-- `SetBinContent` on a histogram given by the contents of its bins (ROOT; contents are `float`s there, which is not
modelled; `include/goofit/PDFs/physics/DalitzPlotter.h:133`). -/
def setBin (h : Nat → Nat → K) (x y : Nat) (v : K) : Nat → Nat → K :=
  fun a b => if a = x ∧ b = y then v else h a b

/-- The loop of `make2D` (`include/goofit/PDFs/physics/DalitzPlotter.h:128-134`). -/
def make2DLoop (p : Plotter K) : Nat → Nat → (Nat → Nat → K) → Option (Nat → Nat → K)
  | 0, _, h => some h
  | n + 1, j, h =>
    match p.getX j, p.getY j, p.getVal j 0 with
    | some x, some y, some v => make2DLoop p n (j + 1) (setBin h (1 + x) (1 + y) v)
    | _, _, _ => none

/-- `make2D` (`include/goofit/PDFs/physics/DalitzPlotter.h:118-137`): the contents by numbers of bins, the first of which is 1. -/
def make2D (p : Plotter K) : Option (Nat → Nat → K) := make2DLoop p p.getNumEvents 0 fun _ _ => 0

/-- The event loop of `fillDataSetMC` (`include/goofit/PDFs/physics/DalitzPlotter.h:80-94`).  The stream gives the numbers drawn from
`uniwhole`, and twice from `unihalf`. -/
def mcLoop (p : Plotter K) (integral : List K) : List (K × K × K) → Nat → USt K → USt K × Out K
  | [], _, st => (st, .done)
  | (r, u, v) :: rest, i, st =>
    let j := lowerBound integral r
    match p.data.getValue p.m12 j, p.data.getValue p.m13 j with
    | .val a, .val b =>
      let x := a + (st.store p.m12).binSize * u
      let y := b + (st.store p.m13).binSize * v
      let store := ((st.store.setValue p.m12 x).setValue p.m13 y).setValue p.ev (i : K)
      match USt.addEvent { st with store := store } with
      | (st', .done) => mcLoop p integral rest (i + 1) st'
      | res => res
    | .val _, e => (st, e)
    | e, _ => (st, e)

/-- `fillDataSetMC` (`include/goofit/PDFs/physics/DalitzPlotter.h:64-95`), with the user's dataset in the state.  Without values
`pdfValues[0]` is undefined. -/
def fillDataSetMC (p : Plotter K) (stream : List (K × K × K)) (st : USt K) : USt K × Out K :=
  match p.pdfValues[0]? with
  | none => (st, .ub)
  | some probs => p.mcLoop (cumulative probs) stream 0 st

end Plotter
end

/-- The events of a dataset as the three-body PDF gets them (`src/PDFs/PdfBase.cu:397-403`). -/
noncomputable def readUDS (m12 m13 ev : Nat) (d : UDS ℝ) : Option (List Ev3) :=
  (List.range d.num).mapM fun k =>
    match d.getValue m12 k, d.getValue m13 k, d.getValue ev k with
    | .val x, .val y, .val n => some ⟨x, y, n⟩
    | _, _, _ => none

/-- What the constructor does with a three-body PDF, alone or as the one factor of a `ProdPdf`
(`include/goofit/PDFs/physics/DalitzPlotter.h:56-60`, `src/PDFs/GooPdf.cu:402-412`): data, their number, `normalize`, the values
times the normalisation stored; then the old data again.  Result: the values at the points, and the state. -/
noncomputable def D3.plot (D : D3) (s : D3State) (parent : Bool) (marks : ResObj → Bool) (h : Nat → ℝ) (old : List Ev3)
    (m12 m13 ev : Nat) (d : UDS ℝ) : Option (List ℝ × D3State) :=
  (readUDS m12 m13 ev d).bind fun evs =>
  (D.run s [if parent then .parentData evs else .setData evs, .setDataSize evs.length]).bind fun s1 =>
  (D.normalize s1 marks h).bind fun (s2, n) =>
  ((List.range evs.length).mapM fun k => (D.value s2 h k).map (· * (1 / n))).bind fun vs =>
  (D.run s2 [if parent then .parentData old else .setData old]).map fun s3 => (vs, s3)

end GooFit
