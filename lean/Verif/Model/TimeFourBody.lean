import Verif.Model.TimeDalitz
import Verif.Model.Amp4Body
import Verif.Model.MathUtils

/-!
# Time-dependent four-body amplitudes

Models `src/PDFs/physics/Amp4Body_TD.cu`, `src/PDFs/physics/detail/AmpCalc_TD.cu`,
`src/PDFs/physics/detail/NormIntegrator_TD.cu`, `NormIntegrator_TD_Weighted.cu` and the
`NormEvents_4Body_*` classes of the same directory over ℝ and ℂ.

Simplifications.  Numbers are exact.  A line shape and a spin factor are what the classes `A` and `S` stand for, up to the
comparison with `==`: two objects that compare equal are taken to be the same function (C78 proves that of the classes there are).  A device array is a function of
the index.  The cursor that finds parameters is in `Verif.Model.Tree`.  The 500 entries of `AmpIndices`, which several PDFs
share, and the number 10 of caches are not modelled.  The generation of phase space is that of an external library.
-/

set_option autoImplicit false

namespace GooFit

/-- `Amplitude` (`include/goofit/PDFs/physics/Amplitude.h:14-43`): the coefficient as two variables, the rest as in the
time-independent PDF.  `tag` stands for what else `Amplitude::operator==` (Amplitude.cu:39-42) compares: the name and the
addresses of line shapes and spin factors. -/
structure TAmp (A S V T : Type) where
  tag : T
  ar : V
  ai : V
  amp : Amp4 A S
deriving DecidableEq

/-- Events used for the normalisation: `NormEvents_4Body_HostCached` and `NormEvents_4Body_DeviceCached` hold kinematic
points, `NormEvents_4Body_Weighted` and `NormEvents_4Body_WeightedDevice` in addition the decay time, its error and a
weight (`include/goofit/PDFs/physics/detail/NormEvents_4Body_Base.h:13-23` and its subclasses). -/
inductive NormBatch (Ev : Type) where
  | plain (mc : List Ev)
  | weighted (mc : List (Ev × ℝ × ℝ × ℝ))

/-- The kinematic points (the members set at NormEvents_4Body_Weighted.cu:27-31 and NormEvents_4Body_Base.cu:59-73). -/
def NormBatch.points {Ev : Type} : NormBatch Ev → List Ev
  | .plain mc => mc
  | .weighted mc => mc.map (·.1)

/-- `_sumInitWeights`: the number of events (NormEvents_4Body_HostCached.cu:48, NormEvents_4Body_DeviceCached.cu:38), or
`thrust::reduce(weights.begin(), weights.end(), 0)` (NormEvents_4Body_Weighted.cu:36, NormEvents_4Body_WeightedDevice.cu:36).
The type of the initial value `0` is `int`; the operation is then `plus<int>`, which converts its arguments. -/
noncomputable def NormBatch.sumInitWeights {Ev : Type} : NormBatch Ev → ℝ
  | .plain mc => (mc.length : ℝ)
  | .weighted mc => ((mc.foldl (fun (s : ℤ) e => s + truncInt e.2.2.2) 0 : ℤ) : ℝ)

/-- Everything that is fixed once the PDF is constructed; `P` are the values of all parameters, `Ev` kinematic points
(`include/goofit/PDFs/physics/Amp4Body_TD.h:118-138`). -/
structure T4 (A S V T P Ev : Type) where
  /-- `amplitudes` and `amplitudes_B` of `DecayInfo4t`, `include/goofit/PDFs/physics/DalitzPlotHelpers.h:114-133` -/
  ampsA : List (TAmp A S V T)
  ampsB : List (TAmp A S V T)
  tau : V
  x : V
  y : V
  rate : V
  value : P → V → ℝ
  lineShape : A → P → Ev → ℂ
  spinFactor : S → Ev → ℝ
  efficiency : P → Ev × ℝ × ℝ → ℝ
  res : P → ResFn
  norm : P → NormFn
  batches : List (NormBatch Ev)

/-- The members that change (`include/goofit/PDFs/physics/Amp4Body_TD.h:118-138`). -/
structure T4State (Ev : Type) where
  /-- `_forceRedoIntegrals` -/
  force : Bool
  /-- `_generation_no_norm` -/
  noNorm : Bool
  /-- the data: kinematic point, decay time, error -/
  data : List (Ev × ℝ × ℝ)
  /-- `_cachedResSF` -/
  resSF : Nat → ℂ
  /-- `_cachedAMPs` -/
  ampv : Nat → ℂ
  /-- `_norm_LS_h` or `_norm_LS_d`, of every batch -/
  normLS : Nat → Nat → ℂ
  /-- `_norm_SF_h` or `_norm_SF_d`, of every batch -/
  normSF : Nat → Nat → ℝ

namespace T4
section
variable {A S V T P Ev : Type} [DecidableEq A] [DecidableEq S] [DecidableEq V] [DecidableEq T]

/-- The first components, with the flag that is stored for each (Amp4Body_TD.cu:367-438 and 440-504): an amplitude of the
first list has the flag 2 if it is in the second as well, and 0 otherwise; of the second list those follow that are not in
the first, with the flag 1. -/
def comps (m : T4 A S V T P Ev) : List (TAmp A S V T × Nat) :=
  m.ampsA.map (fun a => (a, if (m.ampsB.find? (fun b => a = b)).isSome then 2 else 0))
    ++ (m.ampsB.filter (fun b => (m.ampsA.find? (fun a => b = a)).isNone)).map (fun b => (b, 1))

/-- `parametersList` (Amp4Body_TD.cu:340-343, 375-376, 413-419, 453-454). -/
def params (m : T4 A S V T P Ev) : List V :=
  [m.tau, m.x, m.y, m.rate]
    ++ m.ampsA.flatMap (fun a => [a.ar, a.ai] ++
        match m.ampsB.find? (fun b => a = b) with
        | some b => [b.ar, b.ai]
        | none => [])
    ++ (m.ampsB.filter (fun b => (m.ampsA.find? (fun a => b = a)).isNone)).flatMap (fun b => [b.ar, b.ai])

/-- `pc.getParameter(i)` (`include/goofit/PDFs/ParameterContainer.h:25`). -/
def par (m : T4 A S V T P Ev) (p : P) (i : Nat) : ℝ :=
  match m.params[i]? with
  | some v => m.value p v
  | none => 0

/-- `_LineShapes`, Amp4Body_TD.cu:380-393 and 458-471. -/
abbrev LS (m : T4 A S V T P Ev) : List A := lineShapesOf (m.comps.map (·.1.amp))
/-- `_SpinFactors`, Amp4Body_TD.cu:397-408 and 475-486. -/
abbrev SF (m : T4 A S V T P Ev) : List S := spinFactorsOf (m.comps.map (·.1.amp))

/-- What is pushed to `amp_idx` for one amplitude, Amp4Body_TD.cu:424-430 and 491-498. -/
def block (m : T4 A S V T P Ev) (a : TAmp A S V T × Nat) : List Nat :=
  [a.1.amp.ls.length, a.1.amp.sf.length, a.1.amp.nPerm, a.2]
    ++ a.1.amp.ls.map (fun x => m.LS.idxOf x) ++ a.1.amp.sf.map (fun x => m.SF.idxOf x)

/-- `amp_idx_start`, Amp4Body_TD.cu:424 and 490: entry `i`. -/
def start (m : T4 A S V T P Ev) (i : Nat) : Nat := ((m.comps.take i).flatMap m.block).length

/-- The device array `AmpIndices`, Amp4Body_TD.cu:534-540. -/
def idx (m : T4 A S V T P Ev) : List Nat :=
  (List.range m.comps.length).map m.start ++ m.comps.flatMap m.block

end
end T4

/-- `AmpCalc_TD::operator()`, AmpCalc_TD.cu:16-89; `res` is `cResSF_TD[cacheToUse]`. -/
noncomputable def ampCalcTD (idx : List Nat) (totalLS totalSF totalAMP nPerm start : Nat) (res : Nat → ℂ) (evt : Nat) : ℂ :=
  let offset := totalLS + totalSF
  let numLS := rd idx (totalAMP + start)
  let numSF := rd idx (totalAMP + start + 1)
  let sfStep := numSF / nPerm
  let lsStep := numLS / nPerm
  ((List.range nPerm).foldl (fun acc i =>
    let r := (List.range' (i * lsStep) lsStep).foldl
      (fun r j => r * res (evt * offset + rd idx (totalAMP + start + 4 + j))) 1
    let r := (List.range' (i * sfStep) sfStep).foldl
      (fun r j => r * ((res (evt * offset + totalLS + rd idx (totalAMP + start + 4 + numLS + j))).re : ℂ)) r
    acc + r) 0) * ((1 / √(nPerm : ℝ) : ℝ) : ℂ)

/-- The amplitude of a normalisation event, NormIntegrator_TD.cu:39-70, and again NormIntegrator_TD_Weighted.cu:43-74;
`evt` has been added to the addresses. -/
noncomputable def normAmpTD (idx : List Nat) (totalAMP mc : Nat) (sfNorm : Nat → ℝ) (lsNorm : Nat → ℂ) (evt amp : Nat) : ℂ :=
  let ampidx := rd idx amp
  let numLS := rd idx (totalAMP + ampidx)
  let numSF := rd idx (totalAMP + ampidx + 1)
  let nPerm := rd idx (totalAMP + ampidx + 2)
  let sfStep := numSF / nPerm
  let lsStep := numLS / nPerm
  ((List.range nPerm).foldl (fun acc j =>
    let r := (List.range' (j * lsStep) lsStep).foldl
      (fun r i => r * lsNorm (evt + rd idx (totalAMP + ampidx + 4 + i) * mc)) 1
    let r := (List.range' (j * sfStep) sfStep).foldl
      (fun r i => r * (sfNorm (evt + rd idx (totalAMP + ampidx + 4 + numLS + i) * mc) : ℂ)) r
    acc + r) 0) * ((1 / √(nPerm : ℝ) : ℝ) : ℂ)

/-- One turn of the loop that adds up the two amplitudes, Amp4Body_TD.cu:187-215, NormIntegrator_TD.cu:73-91 and
NormIntegrator_TD_Weighted.cu:77-95, the same text in three places.  The state is `AmpA`, `AmpB`, `k`. -/
noncomputable def flagStep (par : Nat → ℝ) (flag : Nat) (temp : ℂ) (i : Nat) (s : ℂ × ℂ × Nat) : ℂ × ℂ × Nat :=
  let k := s.2.2
  match flag with
  | 0 => (s.1 + temp * ⟨par (4 + 2 * (i + k)), par (5 + 2 * (i + k))⟩, s.2.1, k)
  | 1 => (s.1, s.2.1 + temp * ⟨par (4 + 2 * (i + k)), par (5 + 2 * (i + k))⟩, k)
  | 2 =>
    let a := s.1 + temp * ⟨par (4 + 2 * (i + k)), par (5 + 2 * (i + k))⟩
    let k := k + 1
    (a, s.2.1 + temp * ⟨par (4 + 2 * (i + k)), par (5 + 2 * (i + k))⟩, k)
  | _ => s

/-- `AmpA` and `AmpB`, Amp4Body_TD.cu:180-228, NormIntegrator_TD.cu:32-95, NormIntegrator_TD_Weighted.cu:36-99. -/
noncomputable def flagSums (idx : List Nat) (numAmps : Nat) (par : Nat → ℝ) (amp : Nat → ℂ) : ℂ × ℂ :=
  let s := (List.range numAmps).foldl (fun s i => flagStep par (rd idx (rd idx i + 3 + numAmps)) (amp i) i s)
    ((0, 0, 0) : ℂ × ℂ × Nat)
  (s.1 * (par 3 : ℂ), s.2.1)

/-- The call of the resolution, Amp4Body_TD.cu:231-249 and NormIntegrator_TD_Weighted.cu:103-115. -/
noncomputable def resolve (R : ResFn) (ab : ℂ × ℂ) (tau time x y sigma : ℝ) : ℝ :=
  let term1 := Complex.normSq ab.1 + Complex.normSq ab.2
  let term2 := Complex.normSq ab.1 - Complex.normSq ab.2
  let term3 := ab.1 * starRingEnd ℂ ab.2
  R term1 term2 term3.re term3.im tau time x y sigma

namespace T4
section
variable {A S V T P Ev : Type} [DecidableEq A] [DecidableEq S] [DecidableEq V] [DecidableEq T]

/-- After the constructor (`_forceRedoIntegrals{true}`, `_generation_no_norm{false}`, Amp4Body_TD.h). -/
def init : T4State Ev := ⟨true, false, [], fun _ => 0, fun _ => 0, fun _ _ => 0, fun _ _ => 0⟩

/-- `setData` and `setDataSize`, Amp4Body_TD.cu:575-604. -/
def setData (s : T4State Ev) (data : List (Ev × ℝ × ℝ)) : T4State Ev :=
  { s with data := data, resSF := fun _ => 0, ampv := fun _ => 0, force := true }

/-- `areLineshapesChanged`, Amp4Body_TD.cu:690-704. -/
def lineshapeChanged (m : T4 A S V T P Ev) (changed : A → Bool) (force : Bool) : List Bool :=
  m.LS.map fun x => force || changed x

/-- `areAmplitudeComponentsChanged`, Amp4Body_TD.cu:706-725, and `Amplitude::lineshapeParametersChanged`,
Amplitude.cu:44-46. -/
def amplitudeChanged (m : T4 A S V T P Ev) (changed : A → Bool) (force : Bool) : List Bool :=
  m.comps.map fun a => force || a.1.amp.ls.any changed

/-- The spin factors at the events, Amp4Body_TD.cu:617-638. -/
def fillSF (m : T4 A S V T P Ev) (data : List (Ev × ℝ × ℝ)) (res : Nat → ℂ) : Nat → ℂ :=
  (m.SF.zipIdx).foldl (fun res x =>
    writeStrided res (m.LS.length + x.2) (m.LS.length + m.SF.length) data.length fun e =>
      match data[e]? with
      | some ev => (m.spinFactor x.1 ev.1 : ℂ)
      | none => 0) res

/-- The line shapes at the events, Amp4Body_TD.cu:643-665. -/
def fillLS (m : T4 A S V T P Ev) (p : P) (changed : List Bool) (data : List (Ev × ℝ × ℝ)) (res : Nat → ℂ) : Nat → ℂ :=
  (m.LS.zipIdx).foldl (fun res x =>
    if changed.getD x.2 false then
      writeStrided res x.2 (m.LS.length + m.SF.length) data.length fun e =>
        match data[e]? with
        | some ev => m.lineShape x.1 p ev.1
        | none => 0
    else res) res

/-- The amplitudes at the events, Amp4Body_TD.cu:668-687. -/
noncomputable def fillAmps (m : T4 A S V T P Ev) (changed : List Bool) (data : List (Ev × ℝ × ℝ)) (res ampv : Nat → ℂ) :
    Nat → ℂ :=
  (m.comps.zipIdx).foldl (fun ampv x =>
    if changed.getD x.2 false then
      writeStrided ampv x.2 m.comps.length data.length
        (ampCalcTD m.idx m.LS.length m.SF.length m.comps.length x.1.1.amp.nPerm (m.start x.2) res)
    else ampv) ampv

/-- `computeCachedSFValuesForBatch_TD`, NormEvents_4Body_Base.cu:123-164. -/
def fillNormSF (m : T4 A S V T P Ev) (spinsCalculated : Bool) (mc : List Ev) (arr : Nat → ℝ) : Nat → ℝ :=
  if !spinsCalculated then
    (m.SF.zipIdx).foldl (fun arr x =>
      writeStrided arr (x.2 * mc.length) 1 mc.length fun e =>
        match mc[e]? with
        | some ev => m.spinFactor x.1 ev
        | none => 0) arr
  else arr

/-- `computeCachedLSValuesForBatch_TD`, NormEvents_4Body_Base.cu:80-121. -/
def fillNormLS (m : T4 A S V T P Ev) (p : P) (changed : List Bool) (mc : List Ev) (arr : Nat → ℂ) : Nat → ℂ :=
  (m.LS.zipIdx).foldl (fun arr x =>
    if changed.getD x.2 false then
      writeStrided arr (x.2 * mc.length) 1 mc.length fun e =>
        match mc[e]? with
        | some ev => m.lineShape x.1 p ev
        | none => 0
    else arr) arr

/-- `AmpA` and `AmpB` of event `e` of a batch (NormIntegrator_TD.cu:32-95, NormIntegrator_TD_Weighted.cu:36-99). -/
noncomputable def normSums (m : T4 A S V T P Ev) (p : P) (mc : List Ev) (sf : Nat → ℝ) (ls : Nat → ℂ) (e : Nat) : ℂ × ℂ :=
  flagSums m.idx m.comps.length (m.par p) (normAmpTD m.idx m.comps.length mc.length sf ls e)

/-- `doNormIntegral_TD`, NormEvents_4Body_Base.cu:167-210 (unweighted) and 213-255 (weighted), with
`NormIntegrator_TD::operator()` (NormIntegrator_TD.cu:97-98) and `NormIntegrator_TD_Weighted::operator()`
(NormIntegrator_TD_Weighted.cu:101-119).  `tau`, `x`, `y` are `parametersList[0]` to `[2]`, Amp4Body_TD.cu:770-772. -/
noncomputable def normIntegral (m : T4 A S V T P Ev) (p : P) (sf : Nat → ℝ) (ls : Nat → ℂ) : NormBatch Ev → ℝ
  | .plain mc =>
    let terms := (List.range mc.length).map (m.normSums p mc sf ls)
    m.norm p (terms.map fun t : ℂ × ℂ => Complex.normSq t.1).sum (terms.map fun t : ℂ × ℂ => Complex.normSq t.2).sum
      (terms.map fun t : ℂ × ℂ => (t.1 * starRingEnd ℂ t.2).re).sum
      (terms.map fun t : ℂ × ℂ => (t.1 * starRingEnd ℂ t.2).im).sum
      (m.par p 0) (m.par p 1) (m.par p 2)
  | .weighted mc =>
    (mc.zipIdx.map fun e => resolve (m.res p) (m.normSums p (mc.map (·.1)) sf ls e.2) (m.par p 0) e.1.2.1 (m.par p 1)
      (m.par p 2) e.1.2.2.1 * e.1.2.2.2).sum

/-- `computeNorm_TD` of batch `n` (NormEvents_4Body_HostCached.cu:62-143, NormEvents_4Body_DeviceCached.cu:44-97,
NormEvents_4Body_Weighted.cu:42-126, NormEvents_4Body_WeightedDevice.cu:42-102): the arrays afterwards. -/
def batchLS (m : T4 A S V T P Ev) (p : P) (noCached : Bool) (changed : List Bool) (b : NormBatch Ev) (arr : Nat → ℂ) :
    Nat → ℂ := if !noCached then m.fillNormLS p changed b.points arr else arr
/-- The same for the spin factors (`computeNorm_TD`, at the same lines; for one, NormEvents_4Body_DeviceCached.cu:54-71). -/
def batchSF (m : T4 A S V T P Ev) (noCached spinsCalculated : Bool) (b : NormBatch Ev) (arr : Nat → ℝ) : Nat → ℝ :=
  if !noCached then m.fillNormSF spinsCalculated b.points arr else arr

/-- `Amp4Body_TD::normalize`, Amp4Body_TD.cu:744-799: the returned value and the new state. -/
noncomputable def normalize (m : T4 A S V T P Ev) (changed : A → Bool) (p : P) (s : T4State Ev) : ℝ × T4State Ev :=
  let lsChanged := m.lineshapeChanged changed s.force
  let ampChanged := m.amplitudeChanged changed s.force
  let spinsCalculated := !s.force
  let resSF := if !spinsCalculated then m.fillSF s.data s.resSF else s.resSF
  let resSF := m.fillLS p lsChanged s.data resSF
  let ampv := m.fillAmps ampChanged s.data resSF s.ampv
  let noCached := spinsCalculated && lsChanged.all fun v => !v
  let normLS := fun n => match m.batches[n]? with
    | some b => if s.noNorm then s.normLS n else m.batchLS p noCached lsChanged b (s.normLS n)
    | none => s.normLS n
  let normSF := fun n => match m.batches[n]? with
    | some b => if s.noNorm then s.normSF n else m.batchSF noCached spinsCalculated b (s.normSF n)
    | none => s.normSF n
  let ret := if s.noNorm then 1 else
    neumaier id (m.batches.zipIdx.map fun b => m.normIntegral p (normSF b.2) (normLS b.2) b.1)
      / (m.batches.foldl (fun w b => w + b.sumInitWeights) 0)
  (ret, ⟨false, s.noNorm, s.data, resSF, ampv, normLS, normSF⟩)

/-- `device_Amp4Body_TD`, Amp4Body_TD.cu:167-261, at event number `e`. -/
noncomputable def valueAt (m : T4 A S V T P Ev) (p : P) (s : T4State Ev) (e : Nat) : Option ℝ :=
  (s.data[e]?).map fun ev =>
    resolve (m.res p) (flagSums m.idx m.comps.length (m.par p) (fun i => s.ampv (e * m.comps.length + i))) (m.par p 0) ev.2.1
      (m.par p 1) (m.par p 2) ev.2.2 * m.efficiency p ev

/-- What a program does with the PDF: new data; an evaluation, which begins with `normalize`, with the values `p` of the
parameters and the marks `changed`; `setForceIntegrals`; `GenerateSig` (Amp4Body_TD.cu:825-1018), as far as it touches this
state. -/
inductive Op (A P Ev : Type) where
  | setData (data : List (Ev × ℝ × ℝ))
  | eval (changed : A → Bool) (p : P)
  | force
  | generate (data : List (Ev × ℝ × ℝ)) (changed : A → Bool) (p : P)

/-- One step (no counterpart in the code). -/
noncomputable def step (m : T4 A S V T P Ev) (s : T4State Ev) : Op A P Ev → T4State Ev
  | .setData d => setData s d
  | .eval c p => (m.normalize c p s).2
  | .force => { s with force := true }
  | .generate d c p => { (m.normalize c p { setData s d with noNorm := true }).2 with force := true }

/-- A history (no counterpart in the code). -/
noncomputable def run (m : T4 A S V T P Ev) (ops : List (Op A P Ev)) : T4State Ev := ops.foldl m.step init

end
end T4
end GooFit
