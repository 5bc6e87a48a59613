import Verif.Model.Grid
/-!
# Toy data, and calls that replace the dataset for a while

`PdfBase::fillMCDataSimple` (`src/goofit/PdfBase.cpp:154-203`), `PdfBase::fitTo` (lines 140-146),
`GooPdf::evaluateAtPoints` and `GooPdf::getValue` (`src/PDFs/GooPdf.cu:275-338`), and the constructor of `DalitzPlotter`
(`include/goofit/PDFs/physics/DalitzPlotter.h:56-60`).  Exact arithmetic.
-/
set_option autoImplicit false
namespace GooFit

/-- What the member `data_` of a PDF points to (`include/goofit/PdfBase.h`): nothing, a dataset of the user's, or a local
variable of a member function. -/
inductive DataRef where
  | nothing
  | user (id : Nat)
  | localVar
deriving DecidableEq

section
variable {K : Type} [Field K] [LinearOrder K]

/-- `std::partial_sum` (`src/goofit/PdfBase.cpp:184`). -/
def partialSums : K → List K → List K
  | _, [] => []
  | acc, x :: xs => (acc + x) :: partialSums (acc + x) xs

/-- `integral` (`src/goofit/PdfBase.cpp:183-187`): partial sums divided by the last one.  `integral.back()` is read anew in
every iteration and changes in the last one only. -/
def cumulative (probs : List K) : List K :=
  let s := partialSums 0 probs
  s.map (· / s.getLastD 0)

/-- `std::lower_bound` on a sorted vector (`src/goofit/PdfBase.cpp:193`): the first element that is not less than `r`. -/
def lowerBound (l : List K) (r : K) : Nat := l.findIdx fun x => !decide (x < r)

/-- `Observable::getBinSize` (`include/goofit/Variable.h:131`). -/
def ObsCell.binSize (c : ObsCell K) : K := (c.upper - c.lower) / (c.numBins : K)

/-- The event loop (`src/goofit/PdfBase.cpp:189-200`).  The stream gives the numbers drawn from `uniwhole` and `unihalf`. -/
def toyLoop (o : Nat) (grid : UDS K) (integral : List K) : List (K × K) → USt K → USt K × Out K
  | [], st => (st, .done)
  | (r, u) :: rest, st =>
    match grid.getValue o (lowerBound integral r) with
    | .val c =>
      match USt.addEvent { st with store := st.store.setValue o (c + (st.store o).binSize * u) } with
      | (st', .done) => toyLoop o grid integral rest st'
      | res => res
    | e => (st, e)

/-- `PdfBase::fillMCDataSimple` on a PDF with observables `obs` and dataset `data` (`src/goofit/PdfBase.cpp:154-203`).  `pdf grid`
are the values `getCompProbsAtDataPoints()[0]` at the points of the grid, `none` if it throws.  The result is the state, the
outcome, and what the PDF's dataset pointer is then. -/
def fillMCDataSimple (obs : List Nat) (pdf : UDS K → Option (List K)) (data : Option (Nat × UDS K)) (s : Store K)
    (stream : List (K × K)) : Store K × Option (UDS K) × Out K × DataRef :=
  let orig : DataRef := match data with
    | none => .nothing
    | some (id, _) => .user id
  match obs with
  | [o] =>
    match USt.fillWithGrid ⟨s, UDS.new K [o]⟩ with
    | (g, .done) =>
      match data with
      | none => (g.store, none, .threw .general, orig)
      | some (_, d) =>
        -- setData(&data)
        match pdf g.ds with
        | none => (g.store, some d, .threw .general, .localVar)
        | some probs =>
          match toyLoop o g.ds (cumulative probs) stream ⟨g.store, d⟩ with
          | (st, .done) => (st.store, some st.ds, .done, orig) -- setData(origdata)
          | (st, e) => (st.store, some st.ds, e, .localVar)
    | (g, e) => (g.store, data.map (·.2), e, orig)
  | _ => (s, data.map (·.2), .threw .general, orig)

end

/-! ### Calls that replace the dataset, with exceptions at any point -/

/-- A step of such a call: anything that may throw but does not touch `data_`, or the assignment of `data_`
(`src/PDFs/PdfBase.cu:344`).  `setData` is the assignment between two such steps (lines 329-341 and 346-530). -/
inductive DataStep where
  | work
  | assign (r : DataRef)

/-- `setData(r)` (`src/PDFs/PdfBase.cu:329-530`). -/
def setDataSteps (r : DataRef) : List DataStep := [.work, .assign r, .work]

/-- `fitTo(data)` (`src/goofit/PdfBase.cpp:140-146`). -/
def fitToSteps (old data : DataRef) : List DataStep := setDataSteps data ++ [.work] ++ setDataSteps old

/-- `evaluateAtPoints` (`src/PDFs/GooPdf.cu:275-312`) and `getValue` (lines 314-338): both work, use a local dataset, work, and
put the old one back. -/
def evaluateSteps (old : DataRef) : List DataStep := [.work] ++ setDataSteps .localVar ++ [.work] ++ setDataSteps old

/-- The constructor of `DalitzPlotter` (`include/goofit/PDFs/physics/DalitzPlotter.h:36-61`): the dataset is a member of the
object under construction, which is gone if the constructor throws. -/
def plotterSteps (old : DataRef) : List DataStep := [.work] ++ setDataSteps .localVar ++ [.work, .work] ++ setDataSteps old

/-- Python's `evaluatePdf` (`python/PDFs/GooPdf.cpp:25-33`): the grid is a local variable, and `evaluateAtPoints` uses another. -/
def evaluatePdfSteps (old : DataRef) : List DataStep :=
  [.work] ++ setDataSteps .localVar ++ evaluateSteps .localVar ++ setDataSteps old

/-- What the pointer is after the first `k` steps: if the call is left by an exception in step `k`, what it stays
(no counterpart in the code). -/
def dataAfter (r : DataRef) (steps : List DataStep) (k : Nat) : DataRef :=
  (steps.take k).foldl (fun r s => match s with
    | .work => r
    | .assign r' => r') r

end GooFit
