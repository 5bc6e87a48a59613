import Verif.Model.Convolution
import Verif.Model.Likelihood
import Verif.Model.Minuit
import Mathlib.Analysis.SpecialFunctions.Log.Basic
/-!
# A fit of a convolution of two basic PDFs

`src/PDFs/combine/ConvolutionPdf.cu`, with what it uses of `src/PDFs/GooPdf.cu`, `src/PDFs/PdfBase.cu` and `src/goofit/FCN.cpp`.
The workspaces and the sum are in `Verif.Model.Convolution`.

Exact real arithmetic.  The convolution is the whole PDF, built with the plain constructor; model and resolution are basic PDFs of
its observable.  `ub` is a read outside an array, `aborted` a call of `GooFit::abort` or an exception.
-/
set_option autoImplicit false
namespace GooFit
attribute [local instance] FpOps.ofField

/-- The two components (`src/PDFs/combine/ConvolutionPdf.cu:151-179`): each a function of the values of its parameters and of the
observable, and the variables that are its parameters. -/
structure Cv where
  model : List ℝ → ℝ → ℝ
  modelPars : List Nat
  resol : List ℝ → ℝ → ℝ
  resolPars : List Nat

/-- What changes in the life of the PDF (`include/goofit/PDFs/combine/ConvolutionPdf.h:25-53`). -/
structure CvState where
  /-- the limits and the number of bins of the observable -/
  lower : ℝ
  upper : ℝ
  bins : Nat
  /-- `integrationBins` (`include/goofit/PdfBase.h:264`) -/
  fineness : Int
  /-- the arguments of the last `setIntegrationConstants`, and the limits of the observable at that time -/
  consts : ConvSetup ℝ
  /-- lower limit, upper limit and step in the device array of the constants; `none`: not yet copied -/
  dev : Option (ℝ × ℝ × ℝ)
  /-- `modelWorkSpace` and `resolWorkSpace` -/
  modWs : List ℝ
  resWs : List ℝ
  /-- `workspacesFilled` -/
  filled : Bool
  /-- `normRanges`: limits and number of bins; `none`: null pointer -/
  norm : Option (ℝ × ℝ × Nat)
  /-- `dev_event_array` -/
  data : List ℝ

/-- `get_bin_grid_size` (`src/PDFs/GooPdf.cpp:32-40`). -/
def CvState.gridSize (s : CvState) : Nat := if s.fineness > 0 then s.fineness.toNat else s.bins

/-- `generateNormRange` (`src/PDFs/PdfBase.cu:532-557`). -/
def CvState.withRange (s : CvState) : CvState := { s with norm := some (s.lower, s.upper, s.gridSize) }

/-- `setIntegrationConstants` (`src/PDFs/combine/ConvolutionPdf.cu:228-282`): empty workspaces have no first element. -/
noncomputable def CvState.setIntegration (s : CvState) (lo hi step : ℝ) : Option CvState :=
  let c : ConvSetup ℝ := ⟨lo, hi, step, s.lower, s.upper⟩
  if c.modelBins ≤ 0 ∨ c.resolBins ≤ 0 then none
  else some { s with
    consts := c
    modWs := List.replicate c.modelBins.toNat 0
    resWs := List.replicate c.resolBins.toNat 0
    filled := false }

/-- `setData` with unbinned data (`src/PDFs/PdfBase.cu:329-349, 381-420`, through `populateArrays`, `src/PDFs/PdfBase.cu:266-311`): the
constants go to the device, the range of the normalisation is computed, the events are copied. -/
def CvState.setData (s : CvState) (d : List ℝ) : CvState :=
  { s.withRange with
    dev := some (s.consts.lo, s.consts.hi, s.consts.step)
    data := d }

/-- `Observable::setUpperLimit` (`include/goofit/Variable.h:75`): nothing else notices. -/
def CvState.setUpper (s : CvState) (u : ℝ) : CvState := { s with upper := u }

/-- The sum of `device_ConvolvePdfs` (`src/PDFs/combine/ConvolutionPdf.cu:27-51`) with the constants on the device, the offset and
the workspaces of the last `setIntegrationConstants`; the two normalisations are one (`src/PDFs/combine/ConvolutionPdf.cu:315`). -/
noncomputable def CvState.value (s : CvState) (x : ℝ) : Option ℝ :=
  s.dev.bind fun c =>
    let d : ConvSetup ℝ := ⟨c.1, c.2.1, c.2.2, s.consts.lower, s.consts.upper⟩
    convLoop s.modWs s.resWs (s.consts.offset - d.offsetInBins x) d.modelBins.toNat 0 0

/-- The workspaces after `ConvolutionPdf::normalize` (`src/PDFs/combine/ConvolutionPdf.cu:330-353`); `m` and `r` are
`parametersChanged` of model and resolution, `h` the values of the variables. -/
noncomputable def Cv.refresh (C : Cv) (s : CvState) (m r : Bool) (h : Nat → ℝ) : CvState :=
  { s with
    modWs := if !s.filled || m then s.consts.modelWs (C.model (C.modelPars.map h)) else s.modWs
    resWs := if !s.filled || r then s.consts.resolWs (C.resol (C.resolPars.map h)) else s.resWs
    filled := true }

/-- `reduce_with_bins` (`src/PDFs/GooPdf.cu:83-108`, `src/PDFs/MetricTaker.cu:48-93`): the number of bins is that of the observable,
the points are those of `normRanges`. -/
noncomputable def CvState.sumBins (s : CvState) : Option ℝ :=
  s.norm.bind fun n =>
    if n.2.2 = 0 then none
    else ((List.range s.gridSize).mapM fun b =>
      s.value ((n.2.1 - n.1) / (n.2.2 : ℝ) * (((b % n.2.2 : Nat) : ℝ) + 1 / 2) + n.1)).map List.sum

/-- `ConvolutionPdf::normalize` (`src/PDFs/combine/ConvolutionPdf.cu:313-358`) with `GooPdf::normalize`
(`src/PDFs/GooPdf.cu:346-396`): the new state and the value returned. -/
noncomputable def Cv.normalize (C : Cv) (s : CvState) (m r : Bool) (h : Nat → ℝ) : Ran (CvState × ℝ) :=
  let s := C.refresh s m r h
  match s.sumBins with
  | none => .ub
  | some sum =>
    if sum ≤ 0 then .aborted
    else
      let ret := (s.upper - s.lower) / (s.gridSize : ℝ) * sum
      if ret = 0 then .aborted else .done (s, ret)

/-- `reduce_with_metric` with the metric of an unbinned fit (`src/PDFs/GooPdf.cu:42-77`, `src/PDFs/MetricTaker.cu:17-44`,
`src/PDFs/MetricPointer.cu:12-17`); `norm` is the stored normalisation. -/
noncomputable def CvState.sumOfNll (s : CvState) (norm : ℝ) : Option ℝ :=
  (s.data.mapM fun x => (s.value x).bind fun raw =>
    MetricKind.nll.apply Real.log s.data.length raw (fun _ => none) norm).map List.sum

/-- `parametersChanged` (`src/goofit/PdfBase.cpp:124-127`). -/
def cvChanged (h : Pars ℝ) (ps : List Nat) : Bool := ps.any fun i => (h i).changed

/-- `GooPdf::calculateNLL` (`src/PDFs/GooPdf.cu:254-273`). -/
noncomputable def Cv.calculateNLL (C : Cv) (s : CvState) (h : Pars ℝ) : Ran (ℝ × CvState) :=
  (C.normalize s (cvChanged h C.modelPars) (cvChanged h C.resolPars) fun i => (h i).value).andThen fun (s, total) =>
    if 1 / total ≤ 0 then .aborted
    else
      match s.sumOfNll (1 / total) with
      | none => .ub
      | some nll => if nll = 0 then .aborted else .done (nll, s)

/-- The tree of PDF objects (`src/PDFs/combine/ConvolutionPdf.cu:151-179`): only the parameter lists matter here. -/
def Cv.tree {L : Lib ℝ} (C : Cv) (model resol : L.Leaf) : Pdf L :=
  .mk ⟨0, .conv, [], [], [0], 1⟩
    [.mk ⟨1, .leaf model, C.modelPars, [], [0], 1⟩ [], .mk ⟨2, .leaf resol, C.resolPars, [], [0], 1⟩ []]

/-- `FCN::operator()` (`src/goofit/FCN.cpp:18-28`). -/
noncomputable def Cv.fcn {L : Lib ℝ} (C : Cv) (t : Pdf L) (values : List ℝ) (h : Pars ℝ) (s : CvState) :
    Ran (ℝ × Pars ℝ × CvState) :=
  match fcnAt t values h with
  | none => .aborted
  | some h => (C.calculateNLL s h).andThen fun (r, s) => .done (r, h, s)

/-- What happens during fits: data are given, or the minimiser asks for the value at a vector of parameters (no counterpart in the
code). -/
inductive CvUse where
  | data (d : List ℝ)
  | call (v : List ℝ)

/-- Any number of fits, one after the other: the values the minimiser gets (no counterpart in the code). -/
noncomputable def Cv.useAll {L : Lib ℝ} (C : Cv) (t : Pdf L) : List CvUse → Pars ℝ → CvState → Ran (List ℝ × Pars ℝ × CvState)
  | [], h, s => .done ([], h, s)
  | .data d :: us, h, s => C.useAll t us h (s.setData d)
  | .call v :: us, h, s =>
    (C.fcn t v h s).andThen fun (r, h, s) =>
    (C.useAll t us h s).andThen fun (rs, h, s) => .done (r :: rs, h, s)

end GooFit
