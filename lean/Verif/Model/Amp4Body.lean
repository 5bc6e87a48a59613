import Verif.Model.Complex
/-!
# Four-body amplitudes: cached line shapes, spin factors and amplitudes (`src/PDFs/physics/Amp4Body.cu`)

Exact arithmetic in a field; `sqrt` is any function.  `A` and `S` are line shapes and spin factors up to `==`
(`include/goofit/PDFs/physics/lineshapes/Lineshape.h:49-53`, `include/goofit/PDFs/physics/SpinFactors.h:60-63`): two objects
that compare equal are taken to be the same, so they have the same parameters (C78 proves that of the classes there are).  A device array is a function of the index;
its size is not modelled, except that of `redoIntegral`.  The cursor that finds a component's parameters is in
`Verif.Model.Tree`; the number 500 of entries of `AmpIndices` and the number 10 of caches are not modelled.
-/
set_option autoImplicit false
namespace GooFit

/-- `Amplitude` (`include/goofit/PDFs/physics/Amplitude.h`): its line shapes, its spin factors and the number of
permutations. -/
structure Amp4 (A S : Type) where
  ls : List A
  sf : List S
  nPerm : Nat
deriving DecidableEq

section
variable {A S : Type} [DecidableEq A] [DecidableEq S]

/-- Append unless an equal one is there (`src/PDFs/physics/Amp4Body.cu:133-146, 150-158`). -/
def addUnique {α : Type} [DecidableEq α] (known : List α) (x : α) : List α := if x ∈ known then known else known ++ [x]

/-- The member `LineShapes` (`src/PDFs/physics/Amp4Body.cu:121-146`). -/
def lineShapesOf (amps : List (Amp4 A S)) : List A := (amps.flatMap (·.ls)).foldl addUnique []
/-- The member `SpinFactors` (`src/PDFs/physics/Amp4Body.cu:148-158`). -/
def spinFactorsOf (amps : List (Amp4 A S)) : List S := (amps.flatMap (·.sf)).foldl addUnique []

/-- What is pushed to `amp_idx` for one amplitude (`src/PDFs/physics/Amp4Body.cu:197-219`, and again 313-338): numbers of line
shapes and spin factors, permutations, and their positions. -/
def ampBlock (LS : List A) (SF : List S) (a : Amp4 A S) : List Nat :=
  [a.ls.length, a.sf.length, a.nPerm] ++ a.ls.map (fun x => LS.idxOf x) ++ a.sf.map (fun x => SF.idxOf x)

/-- `amp_idx` (`src/PDFs/physics/Amp4Body.cu:177-220`). -/
def ampIdx (LS : List A) (SF : List S) (amps : List (Amp4 A S)) : List Nat := amps.flatMap (ampBlock LS SF)
/-- `amp_idx_start` (`src/PDFs/physics/Amp4Body.cu:195`): entry `i`. -/
def ampStart (LS : List A) (SF : List S) (amps : List (Amp4 A S)) (i : Nat) : Nat := (ampIdx LS SF (amps.take i)).length
/-- The device array `AmpIndices` (`src/PDFs/physics/Amp4Body.cu:222-231, 334-338`). -/
def ampIndices (LS : List A) (SF : List S) (amps : List (Amp4 A S)) : List Nat :=
  (List.range amps.length).map (ampStart LS SF amps) ++ ampIdx LS SF amps

end

/-- Read a device array of unsigned numbers (`AmpIndices[k]`, as in `src/PDFs/physics/detail/AmpCalc.cu:25-26`). -/
def rd (l : List Nat) (k : Nat) : Nat := l.getD k 0

/-- `thrust::transform` into `strided_range(begin + off, end, stride)`
(`include/goofit/PDFs/physics/DalitzPlotHelpers.h:135-174`). -/
def writeStrided {α : Type} (arr : Nat → α) (off stride n : Nat) (f : Nat → α) : Nat → α :=
  (List.range n).foldl (fun a e => Function.update a (off + stride * e) (f e)) arr

section
variable {K : Type} [Field K] (sqrt : K → K)

/-- `AmpCalc::operator()` (`src/PDFs/physics/detail/AmpCalc.cu:14-59`). `res` is `cResSF[cacheToUse]`. -/
def ampCalc (idx : List Nat) (totalLS totalSF totalAMP nPerm start : Nat) (res : Nat → Cx K) (evt : Nat) : Cx K :=
  let offset := totalLS + totalSF
  let numLS := rd idx (totalAMP + start)
  let numSF := rd idx (totalAMP + start + 1)
  let sfStep := numSF / nPerm
  let lsStep := numLS / nPerm
  ((List.range nPerm).foldl (fun acc i =>
    let r := (List.range' (i * lsStep) lsStep).foldl
      (fun r j => r * res (evt * offset + rd idx (totalAMP + start + 3 + j))) 1
    let r := (List.range' (i * sfStep) sfStep).foldl
      (fun r j => r * Cx.ofReal (res (evt * offset + totalLS + rd idx (totalAMP + start + 3 + numLS + j))).re) r
    acc + r) 0) * Cx.ofReal (1 / sqrt (nPerm : K))

/-- `NormIntegrator::operator()` (`src/PDFs/physics/detail/NormIntegrator.cu:15-68`). -/
def normIntegrator (idx : List Nat) (totalAMP mc : Nat) (sfNorm : Nat → K) (lsNorm : Nat → Cx K) (coef : Nat → Cx K)
    (evt : Nat) : K :=
  ((List.range totalAMP).foldl (fun ret amp =>
    let start := rd idx amp
    let numLS := rd idx (totalAMP + start)
    let numSF := rd idx (totalAMP + start + 1)
    let nPerm := rd idx (totalAMP + start + 2)
    let sfStep := numSF / nPerm
    let lsStep := numLS / nPerm
    let ret2 := (List.range nPerm).foldl (fun acc j =>
      let r := (List.range' (j * lsStep) lsStep).foldl
        (fun r i => r * lsNorm (evt + rd idx (totalAMP + start + 3 + i) * mc)) 1
      let r := (List.range' (j * sfStep) sfStep).foldl
        (fun r i => r * Cx.ofReal (sfNorm (evt + rd idx (totalAMP + start + 3 + numLS + i) * mc))) r
      acc + r) 0
    ret + ret2 * Cx.ofReal (1 / sqrt (nPerm : K)) * coef amp) 0).norm

variable {A S P Ev : Type} [DecidableEq A] [DecidableEq S]

/-- Everything that is fixed once the PDF is constructed: the user's amplitudes, the physics functions (`P` are the
values of the parameters, `Ev` kinematic points), the coefficients and the normalisation events
(`src/PDFs/physics/Amp4Body.cu:243-289`).  The same functions are used for data and normalisation
(`src/PDFs/physics/detail/{LS,SF,NormLS,NormSpin}Calculator.cu`). -/
structure A4 (K A S P Ev : Type) where
  amps : List (Amp4 A S)
  lineShape : A → P → Ev → Cx K
  spinFactor : S → Ev → K
  coef : P → Nat → Cx K
  efficiency : P → Ev → K
  mc : List Ev

/-- The members that change (`include/goofit/PDFs/physics/Amp4Body.h:70-90`). -/
structure A4State (K Ev : Type) where
  /-- `forceRedoIntegrals` -/
  force : Bool
  /-- `redoIntegral`, an array with one entry per amplitude (`src/PDFs/physics/Amp4Body.cu:173`) -/
  redo : List Bool
  /-- `generation_no_norm` -/
  noNorm : Bool
  /-- the data -/
  data : List Ev
  /-- `cachedResSF` -/
  res : Nat → Cx K
  /-- `cachedAMPs` -/
  ampv : Nat → Cx K
  /-- `norm_LS` -/
  normLS : Nat → Cx K
  /-- `norm_SF` -/
  normSF : Nat → K

namespace A4
/-- `LineShapes` (`src/PDFs/physics/Amp4Body.cu:131-146`). -/
abbrev LS (m : A4 K A S P Ev) : List A := lineShapesOf m.amps
/-- `SpinFactors` (`src/PDFs/physics/Amp4Body.cu:148-158`). -/
abbrev SF (m : A4 K A S P Ev) : List S := spinFactorsOf m.amps
/-- `AmpIndices` (`include/goofit/PDFs/physics/Amp4BodyGlobals.h:8`). -/
abbrev idx (m : A4 K A S P Ev) : List Nat := ampIndices m.LS m.SF m.amps

/-- After the constructor (`src/PDFs/physics/Amp4Body.cu:94-292`; `forceRedoIntegrals{true}` and `generation_no_norm{false}`,
`include/goofit/PDFs/physics/Amp4Body.h:82-85`). -/
def init (m : A4 K A S P Ev) : A4State K Ev :=
  ⟨true, List.replicate m.amps.length true, false, [], fun _ => 0, fun _ => 0, fun _ => 0, fun _ => 0⟩

/-- `setData` followed by `setDataSize` (`src/PDFs/physics/Amp4Body.cu:348-395`): new arrays, everything to be recomputed. -/
def setData (s : A4State K Ev) (data : List Ev) : A4State K Ev :=
  { s with data := data, res := fun _ => 0, ampv := fun _ => 0, force := true }

/-- The loop that sets `redoIntegral` (`src/PDFs/physics/Amp4Body.cu:407-414`): it runs over the line shapes.  `none`: a write
past the end of the array. -/
def markRedo (m : A4 K A S P Ev) (changed : A → Bool) (force : Bool) (redo : List Bool) : Option (List Bool) :=
  (m.LS.zipIdx).foldlM (fun (r : List Bool) x => if x.2 < r.length then some (r.set x.2 (force || changed x.1)) else none)
    redo

/-- The spin factors at the events (`src/PDFs/physics/Amp4Body.cu:433-445`). -/
def fillSF (m : A4 K A S P Ev) (data : List Ev) (res : Nat → Cx K) : Nat → Cx K :=
  (m.SF.zipIdx).foldl (fun res x =>
    writeStrided res (m.LS.length + x.2) (m.LS.length + m.SF.length) data.length fun e =>
      match data[e]? with
      | some ev => Cx.ofReal (m.spinFactor x.1 ev)
      | none => 0) res

/-- The spin factors at the normalisation events (`src/PDFs/physics/Amp4Body.cu:447-461`). -/
def fillNormSF (m : A4 K A S P Ev) (arr : Nat → K) : Nat → K :=
  (m.SF.zipIdx).foldl (fun arr x =>
    writeStrided arr (x.2 * m.mc.length) 1 m.mc.length fun e =>
      match m.mc[e]? with
      | some ev => m.spinFactor x.1 ev
      | none => 0) arr

/-- The line shapes at the events (`src/PDFs/physics/Amp4Body.cu:468-486`). -/
def fillLS (m : A4 K A S P Ev) (p : P) (redo : List Bool) (data : List Ev) (res : Nat → Cx K) : Nat → Cx K :=
  (m.LS.zipIdx).foldl (fun res x =>
    if redo.getD x.2 false then
      writeStrided res x.2 (m.LS.length + m.SF.length) data.length fun e =>
        match data[e]? with
        | some ev => m.lineShape x.1 p ev
        | none => 0
    else res) res

/-- The line shapes at the normalisation events (`src/PDFs/physics/Amp4Body.cu:505-525`). -/
def fillNormLS (m : A4 K A S P Ev) (p : P) (redo : List Bool) (arr : Nat → Cx K) : Nat → Cx K :=
  (m.LS.zipIdx).foldl (fun arr x =>
    if redo.getD x.2 false then
      writeStrided arr (x.2 * m.mc.length) 1 m.mc.length fun e =>
        match m.mc[e]? with
        | some ev => m.lineShape x.1 p ev
        | none => 0
    else arr) arr

/-- The amplitudes at the events (`src/PDFs/physics/Amp4Body.cu:490-502`): recomputed if `redoIntegral` has the mark at the
number of the *amplitude*. -/
def fillAmps (m : A4 K A S P Ev) (redo : List Bool) (data : List Ev) (res ampv : Nat → Cx K) : Nat → Cx K :=
  (m.amps.zipIdx).foldl (fun ampv x =>
    if redo.getD x.2 false then
      writeStrided ampv x.2 m.amps.length data.length
        (ampCalc sqrt m.idx m.LS.length m.SF.length m.amps.length x.1.nPerm (ampStart m.LS m.SF m.amps x.2) res)
    else ampv) ampv

/-- `Amp4Body::normalize` (`src/PDFs/physics/Amp4Body.cu:398-558`): the returned value and the new state. -/
def normalize (m : A4 K A S P Ev) (changed : A → Bool) (p : P) (s : A4State K Ev) : Option (K × A4State K Ev) := do
  let redo ← m.markRedo changed s.force s.redo
  let res := if s.force then m.fillSF s.data s.res else s.res
  let normSF := if s.force ∧ s.noNorm = false then m.fillNormSF s.normSF else s.normSF
  let res := m.fillLS p redo s.data res
  let ampv := m.fillAmps sqrt redo s.data res s.ampv
  let normLS := if s.noNorm then s.normLS else m.fillNormLS p redo s.normLS
  let ret := if s.noNorm then 1 else
    ((List.range m.mc.length).map
      (normIntegrator sqrt m.idx m.amps.length m.mc.length normSF normLS (m.coef p))).sum / (m.mc.length : K)
  return (ret, ⟨false, redo, s.noNorm, s.data, res, ampv, normLS, normSF⟩)

/-- `device_DP` (`src/PDFs/physics/Amp4Body.cu:53-90`) at event number `e`. -/
def value (m : A4 K A S P Ev) (p : P) (s : A4State K Ev) (e : Nat) : Option K :=
  (s.data[e]?).map fun ev =>
    ((List.range m.amps.length).foldl (fun tot i => tot + s.ampv (e * m.amps.length + i) * m.coef p i) 0).norm
      * m.efficiency p ev

/-- What a program does with the PDF: new data; an evaluation, which begins with `normalize`, with the values `p` of the
parameters and the marks `changed`; `GenerateSig` (`src/PDFs/physics/Amp4Body.cu:560-677`), as far as it touches this state, which
replaces the data by its own, switches the normalisation off, and evaluates. -/
inductive Op (A P Ev : Type) where
  | setData (data : List Ev)
  | eval (changed : A → Bool) (p : P)
  | generate (data : List Ev) (changed : A → Bool) (p : P)

/-- One step (no counterpart in the code). -/
def step (m : A4 K A S P Ev) (s : A4State K Ev) : Op A P Ev → Option (A4State K Ev)
  | .setData d => some (setData s d)
  | .eval c p => (m.normalize sqrt c p s).map (·.2)
  | .generate d c p =>
    (m.normalize sqrt c p { setData s d with noNorm := true }).map fun r => { r.2 with force := true }

/-- A history (no counterpart in the code). -/
def run (m : A4 K A S P Ev) (ops : List (Op A P Ev)) : Option (A4State K Ev) := ops.foldlM (m.step sqrt) m.init

end A4
end
end GooFit
