import Verif.Model.TimeDalitz
import Verif.Model.Dalitz3
import Verif.Model.Likelihood
import Verif.Model.Minuit
/-!
# A time-dependent three-body amplitude PDF: its parameters, events, caches, and a fit

`src/PDFs/physics/Amp3Body_TD.cu`, `src/PDFs/physics/detail/SpecialWaveCalculator.cu`,
`src/PDFs/physics/detail/SpecialDalitzIntegrator.cu`; the functions of the numbers are in `Verif.Model.TimeDalitz`, the
resonances in `Verif.Model.Dalitz3`.

Exact real and complex arithmetic.  The constructor with one resolution function, and a mistag and a tag observable (without them
it is undefined, `tdObservables`).  The resolution is `TruthResolution`.  The columns of the array of the events are the seven
observables in the order of registration.  The event offset is zero; no MPI; one amplitude PDF in the program (several:
`Verif.Model.Globals`).  `none` is an exception or a read or write outside an array.
-/
set_option autoImplicit false
namespace GooFit
open Finset
attribute [local instance] FpOps.ofField

/-- The time-dependent PDF as constructed (`src/PDFs/physics/Amp3Body_TD.cu:263-356`; `DecayInfo3t`,
`include/goofit/PDFs/physics/DalitzPlotHelpers.h:99-115`). -/
structure T3 where
  /-- masses and radii of `decayInfo` -/
  decay : DalitzCtx
  /-- the content of `cDeriatives`, used by splines -/
  table : Nat → ℝ
  /-- `decay._tau`, `_xmixing`, `_ymixing`, `_deltax`, `_deltay` -/
  tau : Nat
  xmixing : Nat
  ymixing : Nat
  deltax : Nat
  deltay : Nat
  /-- `decayInfo.resonances` -/
  res : List (ResUse ResObj)
  /-- the efficiency, a PDF with parameters of its own -/
  eff : (Nat → ℝ) → ℝ → ℝ → ℝ

/-- The parameters the PDF registers (`src/PDFs/physics/Amp3Body_TD.cu:299-303, 321-325`). -/
def T3.params (D : T3) : List Nat :=
  [D.tau, D.xmixing, D.ymixing, D.deltax, D.deltay] ++ D.res.flatMap fun r => [r.ar, r.ai]

/-- The first five parameters, read by position (`src/PDFs/physics/Amp3Body_TD.cu:117-123`, `711-715`). -/
noncomputable def T3.pars (D : T3) (h : Nat → ℝ) : TdPars :=
  ⟨(D.params.map h).getD 0 0, (D.params.map h).getD 1 0, (D.params.map h).getD 2 0, (D.params.map h).getD 3 0,
    (D.params.map h).getD 4 0⟩

/-- Coefficient `i`: parameters `2 i + 5` and `2 i + 6` (`src/PDFs/physics/Amp3Body_TD.cu:93`, `691`, `694-695`). -/
noncomputable def T3.coef (D : T3) (h : Nat → ℝ) (i : Nat) : ℂ :=
  ⟨(D.params.map h).getD (2 * i + 5) 0, (D.params.map h).getD (2 * i + 6) 0⟩

/-- `inDalitz(m12, m13, c_motherMass, c_daug1Mass, c_daug2Mass, c_daug3Mass)` (`src/PDFs/physics/Amp3Body_TD.cu:61`). -/
noncomputable def T3.inside (D : T3) (m12 m13 : ℝ) : Bool :=
  inDalitz m12 m13 D.decay.mother D.decay.d1 D.decay.d2 D.decay.d3

/-- `getResonanceAmplitude` (`src/PDFs/physics/Amp3Body_TD.cu:36-39`) with the third squared mass of the callers
(`src/PDFs/physics/detail/SpecialWaveCalculator.cu:43-44`, `src/PDFs/physics/detail/SpecialDalitzIntegrator.cu:29-30`); a function
that is not defined at the point gives 0 here. -/
noncomputable def T3.resAt (D : T3) (h : Nat → ℝ) (o : ResObj) (m12 m13 : ℝ) : ℂ :=
  let m23 := D.decay.mother * D.decay.mother + D.decay.d1 * D.decay.d1 + D.decay.d2 * D.decay.d2
    + D.decay.d3 * D.decay.d3 - m12 - m13
  (resDevice D.decay D.table o.fn (o.params.map h) o.consts m12 m13 m23).getD 0

/-- `SpecialWaveCalculator::operator()` from the two squared masses (`src/PDFs/physics/detail/SpecialWaveCalculator.cu:18-66`): the
resonance at the point and at the reversed point. -/
noncomputable def T3.wave (D : T3) (h : Nat → ℝ) (o : ResObj) (m12 m13 : ℝ) : ℂ × ℂ :=
  if !D.inside m12 m13 then (0, 0) else (D.resAt h o m12 m13, D.resAt h o m13 m12)

/-- An event: the observables in the order of registration (`src/PDFs/physics/Amp3Body_TD.cu:274, 286-290`). -/
structure Ev7 where
  time : ℝ
  sigma : ℝ
  m12 : ℝ
  m13 : ℝ
  num : ℝ
  mistag : ℝ
  tag : ℝ

/-- The row of an event in the array `dev_event_array` (`src/PDFs/PdfBase.cu:329-438`). -/
def Ev7.row (e : Ev7) : List ℝ := [e.time, e.sigma, e.m12, e.m13, e.num, e.mistag, e.tag]

/-- What changes in the life of the PDF (`include/goofit/PDFs/physics/Amp3Body_TD.h:146-177`). -/
structure T3State where
  /-- `forceRedoIntegrals` -/
  force : Bool
  /-- `dev_event_array` -/
  data : List Ev7
  /-- `numEntries` -/
  entries : Nat
  /-- `totalEventSize` -/
  evtSize : Nat
  /-- the length of every `cachedWaves[i]`; `none`: null pointers -/
  alloc : Option Nat
  /-- limits and numbers of bins of `_m12` and `_m13` -/
  grid : TdRange
  /-- the content of `dalitzNormRange`; `none`: null pointer -/
  normRange : Option TdRange
  /-- value and limits of `_mistag` -/
  mistag : TdMistag
  /-- `_D0Fraction` -/
  fraction : ℝ
  /-- `cachedWaves[i][k]` -/
  waves : Nat → Nat → ℂ × ℂ
  /-- `integrals[i][j]` -/
  integrals : Nat → Nat → Three

/-- After the constructor (`src/PDFs/physics/Amp3Body_TD.cu:282-356`, `include/goofit/PDFs/physics/Amp3Body_TD.h:153-177`).
Simplification: `totalEventSize` is 6 and two more, for the seven observables. -/
noncomputable def t3Init (grid : TdRange) (mistag : TdMistag) : T3State :=
  ⟨true, [], 0, 8, none, grid, none, mistag, 1 / 2, fun _ _ => (0, 0), fun _ _ => 0⟩

/-- `evt[id_m12]` and `evt[id_m13]` of event `k`, counted with `totalEventSize`
(`src/PDFs/physics/detail/SpecialWaveCalculator.cu:25-38`). -/
def T3State.point (s : T3State) (k : Nat) : Option (ℝ × ℝ) := do
  let flat := s.data.flatMap Ev7.row
  return (← flat[k * s.evtSize + 2]?, ← flat[k * s.evtSize + 3]?)

/-- `redoIntegral[i]` (`src/PDFs/physics/Amp3Body_TD.cu:614-621`); `marks` is `parametersChanged` of the resonance. -/
def T3.redo (D : T3) (s : T3State) (marks : ResObj → Bool) (i : Nat) : Bool :=
  s.force || ((D.res[i]?).map fun r => marks r.res).getD false

/-- A recomputation of the waves of resonance `i` leaves an array: there are 16 vectors
(`include/goofit/PDFs/physics/Amp3Body_TD.h:157`), the vector is written at `numEntries` places and as many events are read
(`src/PDFs/physics/Amp3Body_TD.cu:655-661`). -/
def T3State.outside (s : T3State) (i : Nat) : Bool :=
  decide (16 ≤ i) || (List.range s.entries).any (fun k => (s.point k).isNone)
    || (match s.alloc with
        | none => true
        | some n => decide (n < s.entries))

/-- `dalitzNormRange` after it has been looked at (`src/PDFs/physics/Amp3Body_TD.cu:600-612`): it is filled once. -/
def T3State.range (s : T3State) : TdRange := s.normRange.getD s.grid

/-- The state after `Amp3Body_TD::normalize` (`src/PDFs/physics/Amp3Body_TD.cu:596-682`): the number of points is that of the
observables, the points are those of `dalitzNormRange`. -/
noncomputable def T3.refresh (D : T3) (s : T3State) (marks : ResObj → Bool) (h : Nat → ℝ) : T3State :=
  { s with
    force := false
    normRange := some s.range
    waves := fun i k =>
      match D.res[i]?, s.point k with
      | some r, some m =>
        if D.redo s marks i && decide (k < s.entries) then D.wave h r.res m.1 m.2 else s.waves i k
      | _, _ => s.waves i k
    integrals := fun i j =>
      match D.res[i]?, D.res[j]? with
      | some r, some r' =>
        if !D.redo s marks i && !D.redo s marks j then s.integrals i j
        else ∑ g ∈ range (s.grid.nb12 * s.grid.nb13),
          tdIntegrator D.inside (D.resAt h r.res) (D.resAt h r'.res) (D.eff h) s.range g
      | _, _ => s.integrals i j }

/-- `Amp3Body_TD::normalize` (`src/PDFs/physics/Amp3Body_TD.cu:588-756`): the new state and the value returned. -/
noncomputable def T3.normalize (D : T3) (s : T3State) (marks : ResObj → Bool) (h : Nat → ℝ) : Option (T3State × ℝ) :=
  if (List.range D.res.length).any (fun i => D.redo s marks i && s.outside i) then none
  else
    let s' := D.refresh s marks h
    some (s', tdNormalize truthNormalization (D.pars h) s.fraction s.mistag s.grid
      (tdCoherent D.res.length (D.coef h) s'.integrals))

/-- `device_Tddp` from the sums of the waves (`src/PDFs/physics/Amp3Body_TD.cu:112-257`), without the efficiency. -/
noncomputable def tdRate (R : ResFn) (p : TdPars) (a b : ℂ) (ev : Ev7) : ℝ :=
  let charmtag := truncInt ev.tag
  let xmixing := (tdMixing p charmtag).1
  let ymixing := (tdMixing p charmtag).2
  let term1 := Complex.normSq a + Complex.normSq b
  let term2 := Complex.normSq a - Complex.normSq b
  let ab := a * starRingEnd ℂ b
  let ret := R term1 term2 ab.re ab.im p.tau ev.time xmixing ymixing ev.sigma
  if ev.mistag > 0 then
    let ret := ret * (1 - 2 * ev.mistag)
    let ret := ret + ev.mistag * R term1 (-term2) ab.re (-ab.im) taufix ev.time xfix yfix ev.sigma
    ret + ev.mistag * R term1 term2 ab.re ab.im taufix ev.time xfix yfix ev.sigma
  else ret

/-- `device_Tddp` (`src/PDFs/physics/Amp3Body_TD.cu:41-258`) at event `k`. -/
noncomputable def T3.value (D : T3) (s : T3State) (h : Nat → ℝ) (k : Nat) : Option ℝ :=
  (s.data[k]?).bind fun ev =>
    if !D.inside ev.m12 ev.m13 then some 0
    else
      let n := ⌊(0.5 : ℝ) + ev.num⌋
      if D.res ≠ [] ∧ (16 < D.res.length ∨ n < 0 ∨ (s.alloc.getD 0 : ℤ) ≤ n) then none
      else
        let a := ((List.range D.res.length).map fun i => (s.waves i n.toNat).1 * D.coef h i).sum
        let b := ((List.range D.res.length).map fun i => (s.waves i n.toNat).2 * D.coef h i).sum
        some (tdRate truthRes (D.pars h) a b ev * D.eff h ev.m12 ev.m13)

/-- What a program does with the PDF (no counterpart in the code). -/
inductive T3Op where
  /-- `setData` of this PDF (`src/PDFs/PdfBase.cu:329-438`) -/
  | setData (d : List Ev7)
  /-- `setData` of a PDF of which this one is a component: the array of the events is global
  (`src/PDFs/detail/Globals.cpp:11`), `numEntries` is that of the other PDF -/
  | parentData (d : List Ev7)
  /-- `setDataSize` with the number of events and the length of a row -/
  | setDataSize (n size : Nat)
  /-- new limits or numbers of bins of the observables -/
  | setGrid (g : TdRange)
  /-- a new value or new limits of the mistag observable -/
  | setMistag (m : TdMistag)
  /-- `setD0Fraction` -/
  | setFraction (f : ℝ)
  /-- `setForceIntegrals` -/
  | force (f : Bool)
  /-- an evaluation, which calls `normalize` first -/
  | eval (marks : ResObj → Bool) (h : Nat → ℝ)

open Classical in
/-- One step (`Amp3Body_TD::setDataSize`: `src/PDFs/physics/Amp3Body_TD.cu:531-580`; `setD0Fraction`: `582-586`;
`setForceIntegrals`: `include/goofit/PDFs/physics/Amp3Body_TD.h:130`). -/
noncomputable def T3.step (D : T3) (s : T3State) : T3Op → Option T3State
  | .setData d => some { s with data := d, entries := d.length }
  | .parentData d => some { s with data := d }
  | .setDataSize n size =>
    if size < 5 then none
    else some { s with evtSize := size, entries := n, alloc := some n, waves := fun _ _ => (0, 0), force := true }
  | .setGrid g => some { s with grid := g }
  | .setMistag m => some { s with mistag := m }
  | .setFraction f => if 0 ≤ f ∧ f ≤ 1 then some { s with fraction := f } else none
  | .force f => some { s with force := f }
  | .eval marks h => (D.normalize s marks h).map (·.1)

/-- A program (no counterpart in the code). -/
noncomputable def T3.run (D : T3) : T3State → List T3Op → Option T3State
  | s, [] => some s
  | s, op :: ops => (D.step s op).bind fun s => D.run s ops

/-- The tree of PDF objects of which an `Amp3Body_TD` is the root (`src/PDFs/physics/Amp3Body_TD.cu:299-329`): its components are
the resonances, the resolution and the efficiency.  Only the parameter lists matter here; the perfect resolution has none
(`src/PDFs/physics/TruthResolution.cu:49-54`). -/
def T3.tree {L : Lib ℝ} (D : T3) (leaf : ResObj → L.Leaf) (resolution efficiency : Pdf L) : Pdf L :=
  .mk ⟨0, .amp3, D.params, [(D.res.length : ℝ), 0, 0, 0], [0, 1, 2, 3, 4, 5, 6], 1⟩
    (D.res.zipIdx.map (fun r => .mk ⟨r.2 + 1, .leaf (leaf r.1.res), r.1.res.params, r.1.res.consts, [], 1⟩ [])
      ++ [resolution, efficiency])

/-- `parametersChanged()` of a resonance (`src/goofit/PdfBase.cpp:124-127`, called at `src/PDFs/physics/Amp3Body_TD.cu:617`). -/
def t3Marks (h : Pars ℝ) (o : ResObj) : Bool := o.params.any fun i => (h i).changed

/-- `reduce_with_metric` with the metric of an unbinned fit (`src/PDFs/GooPdf.cu:42-77`, `src/PDFs/MetricTaker.cu:17-44`,
`src/PDFs/MetricPointer.cu:12-17`): the sum over `numEntries` events; `norm` is the stored normalisation. -/
noncomputable def T3.sumOfNll (D : T3) (s : T3State) (h : Nat → ℝ) (norm : ℝ) : Option ℝ :=
  ((List.range s.entries).mapM fun k =>
    (D.value s h k).bind fun raw => MetricKind.nll.apply Real.log s.entries raw (fun _ => none) norm).map List.sum

/-- `GooPdf::calculateNLL` (`src/PDFs/GooPdf.cu:254-273`) on an `Amp3Body_TD`, whose `normalize` stores one over the value it
returns (`src/PDFs/physics/Amp3Body_TD.cu:750-751`).  Simplification: when that value is zero the model aborts, where the code goes
on with an infinite normalisation. -/
noncomputable def T3.calculateNLL (D : T3) (s : T3State) (h : Pars ℝ) : Ran (ℝ × T3State) :=
  match D.normalize s (t3Marks h) fun i => (h i).value with
  | none => .ub
  | some (s, total) =>
    if 1 / total ≤ 0 then .aborted
    else
      match D.sumOfNll s (fun i => (h i).value) (1 / total) with
      | none => .ub
      | some nll => if nll = 0 then .aborted else .done (nll, s)

/-- `FCN::operator()` (`src/goofit/FCN.cpp:18-28`); an exception is `aborted`. -/
noncomputable def T3.fcn {L : Lib ℝ} (D : T3) (t : Pdf L) (values : List ℝ) (h : Pars ℝ) (s : T3State) :
    Ran (ℝ × Pars ℝ × T3State) :=
  match fcnAt t values h with
  | none => .aborted
  | some h => (D.calculateNLL s h).andThen fun (r, s) => .done (r, h, s)

/-- The calls the minimiser makes one after the other: the values it gets (no counterpart in the code). -/
noncomputable def T3.fcnAll {L : Lib ℝ} (D : T3) (t : Pdf L) : List (List ℝ) → Pars ℝ → T3State →
    Ran (List ℝ × Pars ℝ × T3State)
  | [], h, s => .done ([], h, s)
  | v :: vs, h, s =>
    (D.fcn t v h s).andThen fun (r, h, s) =>
    (D.fcnAll t vs h s).andThen fun (rs, h, s) => .done (r :: rs, h, s)

end GooFit
