import Verif.Model.Likelihood
import Verif.Model.Binned
/-!
# What a fit reads from a binned dataset

`setData` with a `BinnedDataSet` (`src/PDFs/PdfBase.cu:439-530`).  Exact arithmetic; no MPI.
-/
set_option autoImplicit false
namespace GooFit

/-- The number a call returned, if it returned (no counterpart in the code). -/
def Out.number? {F : Type} : Out F → Option F
  | .val x => some x
  | _ => none

section
variable {K : Type} [Field K] [LinearOrder K] [IsStrictOrderedRing K] [FloorRing K]

/-- What the loop over the bins reads of bin `i`: the centres in the PDF's observables `obs` and the content
(`src/PDFs/PdfBase.cu:485-490`; `getBinCenter` of an observable, `src/goofit/BinnedDataSet.cpp:102-105`); `none` = an exception or undefined behaviour. -/
def readBin (st : BSt K) (obs : List Nat) (i : Nat) : Option (List K × K) :=
  (obs.mapM fun o => (indexOfVariable st.ds.obs o).bind fun j => (st.getBinCenter j i).number?).bind fun centers =>
    (st.ds.getBinContent i).number?.map fun content => (centers, content)

/-- The dataset as `setData` of a PDF with observables `obs` reads it (`src/PDFs/PdfBase.cu:439-442, 485-494`).  Simplification: an error that cannot
be read counts as zero; errors are as many as contents, which are read before. -/
def readBinned (sqrt : K → K) (st : BSt K) (obs : List Nat) : Option (Data K) :=
  ((List.range (getNumBins st.ds.binsizes)).mapM (readBin st obs)).map fun rows =>
    .binned (getNumBins st.ds.binsizes)
      (fun i o => ((rows[i]?).bind fun r => (indexOfVariable obs o).bind fun j => r.1[j]?).getD 0)
      (fun i => ((rows[i]?).map fun r => r.2).getD 0)
      (fun i => ((st.ds.getBinError sqrt i).number?).getD 0)
      (fun _ => st.getBinVolume)

end
end GooFit
