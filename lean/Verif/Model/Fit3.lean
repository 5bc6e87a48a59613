import Verif.Model.Dalitz3
import Verif.Model.Likelihood
import Verif.Model.Minuit
/-!
# A fit of a three-body amplitude

`FCN::operator()` (`src/goofit/FCN.cpp:18-28`) on an `Amp3Body`: the values go to the variables, which are marked as changed or
not; `Amp3Body::normalize` decides by these marks what it recomputes; the metric is summed over the data.
-/
set_option autoImplicit false
namespace GooFit
attribute [local instance] FpOps.ofField

/-- The tree of PDF objects of which an `Amp3Body` is the root (`src/PDFs/physics/Amp3Body.cu:151-168`): its own parameters are
the coefficients, its components the resonances and the efficiency.  Only the parameter lists matter here; the functions of the
resonances are those of `Model/Dalitz3.lean`. -/
def D3.tree {L : Lib ℝ} (D : D3) (leaf : ResObj → L.Leaf) (efficiency : Pdf L) : Pdf L :=
  .mk ⟨0, .amp3, D.params, [(D.res.length : ℝ), 0], [0, 1, 2], 1⟩
    (D.res.zipIdx.map (fun r => .mk ⟨r.2 + 1, .leaf (leaf r.1.res), r.1.res.params, r.1.res.consts, [], 1⟩ [])
      ++ [efficiency])

/-- `parametersChanged()` of a resonance (`src/goofit/PdfBase.cpp:124-127`, called at `src/PDFs/physics/Amp3Body.cu:271`). -/
def marksOf (h : Pars ℝ) (o : ResObj) : Bool := o.params.any fun i => (h i).changed

/-- `reduce_with_metric` with the metric of an unbinned fit (`src/PDFs/GooPdf.cu:42-77`, `src/PDFs/MetricTaker.cu:17-44`,
`src/PDFs/MetricPointer.cu:12-17`): the sum over `numEntries` events; `norm` is the stored normalisation. -/
noncomputable def D3.sumOfNll (D : D3) (s : D3State) (h : Nat → ℝ) (norm : ℝ) : Option ℝ :=
  ((List.range s.entries).mapM fun k =>
    (D.value s h k).bind fun raw => MetricKind.nll.apply Real.log s.entries raw (fun _ => none) norm).map List.sum

/-- `GooPdf::calculateNLL` (`src/PDFs/GooPdf.cu:254-273`) on an `Amp3Body`, whose `normalize` stores one over the value it returns
(`src/PDFs/physics/Amp3Body.cu:356`).  Simplification: when that value is zero the model aborts, where the code goes on with an
infinite normalisation. -/
noncomputable def D3.calculateNLL (D : D3) (s : D3State) (h : Pars ℝ) : Ran (ℝ × D3State) :=
  match D.normalize s (marksOf h) fun i => (h i).value with
  | none => .ub
  | some (s, total) =>
    if 1 / total ≤ 0 then .aborted
    else
      match D.sumOfNll s (fun i => (h i).value) (1 / total) with
      | none => .ub
      | some nll => if nll = 0 then .aborted else .done (nll, s)

/-- `FCN::operator()` (`src/goofit/FCN.cpp:18-28`); an exception is `aborted`. -/
noncomputable def D3.fcn {L : Lib ℝ} (D : D3) (t : Pdf L) (values : List ℝ) (h : Pars ℝ) (s : D3State) :
    Ran (ℝ × Pars ℝ × D3State) :=
  match fcnAt t values h with
  | none => .aborted
  | some h => (D.calculateNLL s h).andThen fun (r, s) => .done (r, h, s)

/-- The calls the minimiser makes one after the other: the values it gets (no counterpart in the code). -/
noncomputable def D3.fcnAll {L : Lib ℝ} (D : D3) (t : Pdf L) : List (List ℝ) → Pars ℝ → D3State →
    Ran (List ℝ × Pars ℝ × D3State)
  | [], h, s => .done ([], h, s)
  | v :: vs, h, s =>
    (D.fcn t v h s).andThen fun (r, h, s) =>
    (D.fcnAll t vs h s).andThen fun (rs, h, s) => .done (r :: rs, h, s)

end GooFit
