import Verif.Model.TimeComponent4
import Verif.Model.Likelihood
import Verif.Model.Minuit
/-!
# A fit of a four-body amplitude

`FCN::operator()` (`src/goofit/FCN.cpp:18-28`) on a PDF that keeps line shapes and amplitudes in caches: the values go to the
variables, which are marked as changed or not; `normalize` decides by these marks what it recomputes; the metric is summed over
the data.
-/
set_option autoImplicit false
namespace GooFit
attribute [local instance] FpOps.ofField

/-- What the fit uses of a PDF with caches: `normalize`, `numEntries`, the value at an event, and the parameters of the components
whose `parametersChanged()` (`src/goofit/PdfBase.cpp:124-127`) `normalize` asks for. -/
structure FitPdf (State Comp : Type) where
  normalize : (Comp → Bool) → (Nat → ℝ) → State → Option (ℝ × State)
  entries : State → Nat
  value : (Nat → ℝ) → State → Nat → Option ℝ
  params : Comp → List Nat

/-- The time-dependent PDF (`src/PDFs/physics/Amp4Body_TD.cu:744-799` and `690-704`, `167-261`). -/
noncomputable def T4.fitPdf (m : T4 LsObj SfObj Nat Nat (Nat → ℝ) Ev4) : FitPdf (T4State Ev4) LsObj where
  normalize c h s := some (m.normalize c h s)
  entries s := s.data.length
  value h s e := m.valueAt h s e
  params o := o.params

/-- The time-independent PDF (`src/PDFs/physics/Amp4Body.cu:398-558`, `53-90`). -/
noncomputable def A4.fitPdf (m : A4 ℝ LsObj SfObj (Nat → ℝ) Ev4) : FitPdf (A4State ℝ Ev4) LsObj where
  normalize c h s := m.normalize Real.sqrt c h s
  entries s := s.data.length
  value h s e := m.value h s e
  params o := o.params

/-- The objects of an amplitude (`src/PDFs/physics/Amplitude.cu:11-31`): the line shapes and spin factors are its components, and
only the line shapes have parameters. -/
noncomputable def amplitudeNode {L : Lib ℝ} (fn : Fn L) (a : Amp4 LsObj SfObj) : Pdf L :=
  .mk ⟨0, fn, [], [], [], 1⟩ (a.ls.map (fun o => .mk ⟨0, fn, o.params, o.consts, [], 1⟩ [])
    ++ a.sf.map (fun o => .mk ⟨0, fn, [], o.consts, [], 1⟩ []))

/-- The objects of the time-dependent PDF (`src/PDFs/physics/Amp4Body_TD.cu:340-343, 367-504, 513-514`).  Only the parameter lists
matter here: all have the same function and number. -/
noncomputable def T4.tree {L : Lib ℝ} (m : T4 LsObj SfObj Nat Nat (Nat → ℝ) Ev4) (fn : Fn L) (resolution efficiency : Pdf L) : Pdf L :=
  .mk ⟨0, fn, m.params, [], [], 1⟩ (m.comps.map (fun a => amplitudeNode fn a.1.amp) ++ [resolution, efficiency])

/-- The objects of the time-independent PDF (`src/PDFs/physics/Amp4Body.cu:120-168`); the parameters are the coefficients. -/
noncomputable def A4.tree {L : Lib ℝ} (m : A4 ℝ LsObj SfObj (Nat → ℝ) Ev4) (coefs : List Nat) (fn : Fn L) (efficiency : Pdf L) : Pdf L :=
  .mk ⟨0, fn, coefs, [], [], 1⟩ (m.amps.map (fun a => amplitudeNode fn a) ++ [efficiency])

namespace FitPdf
variable {State Comp : Type}

/-- `reduce_with_metric` with the metric of an unbinned fit (`src/PDFs/GooPdf.cu:42-77`, `src/PDFs/MetricTaker.cu:17-44`,
`src/PDFs/MetricPointer.cu:12-17`): the sum over `numEntries` events; `norm` is the stored normalisation. -/
noncomputable def sumOfNll (m : FitPdf State Comp) (s : State) (h : Nat → ℝ) (norm : ℝ) : Option ℝ :=
  ((List.range (m.entries s)).mapM fun k =>
    (m.value h s k).bind fun raw => MetricKind.nll.apply Real.log (m.entries s) raw (fun _ => none) norm).map List.sum

/-- `GooPdf::calculateNLL` (`src/PDFs/GooPdf.cu:254-273`); both PDFs store one over what their `normalize` returns
(`src/PDFs/physics/Amp4Body_TD.cu:793`, `src/PDFs/physics/Amp4Body.cu:555`).  Simplification: when that is zero the model aborts,
where the code goes on with an infinite normalisation. -/
noncomputable def calculateNLL (m : FitPdf State Comp) (s : State) (h : Pars ℝ) : Ran (ℝ × State) :=
  match m.normalize (fun o => (m.params o).any fun i => (h i).changed) (fun i => (h i).value) s with
  | none => .ub
  | some (total, s) =>
    if 1 / total ≤ 0 then .aborted
    else
      match m.sumOfNll s (fun i => (h i).value) (1 / total) with
      | none => .ub
      | some nll => if nll = 0 then .aborted else .done (nll, s)

/-- `FCN::operator()` (`src/goofit/FCN.cpp:18-28`); an exception is `aborted`. -/
noncomputable def fcn {L : Lib ℝ} (m : FitPdf State Comp) (t : Pdf L) (values : List ℝ) (h : Pars ℝ) (s : State) :
    Ran (ℝ × Pars ℝ × State) :=
  match fcnAt t values h with
  | none => .aborted
  | some h => (m.calculateNLL s h).andThen fun (r, s) => .done (r, h, s)

/-- The calls the minimiser makes one after the other: the values it gets (no counterpart in the code). -/
noncomputable def fcnAll {L : Lib ℝ} (m : FitPdf State Comp) (t : Pdf L) : List (List ℝ) → Pars ℝ → State →
    Ran (List ℝ × Pars ℝ × State)
  | [], h, s => .done ([], h, s)
  | v :: vs, h, s =>
    (m.fcn t v h s).andThen fun (r, h, s) =>
    (m.fcnAll t vs h s).andThen fun (rs, h, s) => .done (r :: rs, h, s)

end FitPdf
end GooFit
