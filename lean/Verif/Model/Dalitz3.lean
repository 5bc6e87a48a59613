import Verif.Model.Basic
import Verif.Model.FpReal
import Verif.Model.Amp3Body
import Verif.Model.Resonance
import Verif.Model.SplineRes
import Verif.Model.Component4
/-!
# A three-body amplitude PDF and its resonances: constructors, device functions, cached waves and integrals

`src/PDFs/physics/resonances/*.cu`, `src/PDFs/physics/Amp3Body.cu`, `src/PDFs/physics/detail/SpecialResonanceCalculator.cu`,
`SpecialResonanceIntegrator.cu`.

Exact real arithmetic.  A `Variable` is a number, its value is looked up when a function is evaluated.  What a resonance
registers is a list of parameters and a list of constants, read back by position (the cursor that finds the lists is in
`Verif.Model.Tree`).  The program has this amplitude PDF only (several: `Verif.Model.Globals`); no MPI; the event offset is
zero.  `none` is a thrown exception (constructors) or a read or write outside an array.
-/
set_option autoImplicit false
namespace GooFit

/-- A call of a constructor of a resonance, class by class, without name and coefficient (variables are numbers)
(the lines are cited at `resBuild`). -/
inductive ResNew where
  | rbw (mass width : Nat) (sp cyc : Nat) (norm sym : Bool)
  | gs (mass width : Nat) (sp cyc : Nat) (norm sym : Bool)
  | lass (mass width : Nat) (sp cyc a r R phiR B phiB : Nat) (norm : Bool)
  | flatte (mean g1 rg2og1 : Nat) (cyc : Nat) (symmDP : Bool)
  | gauss (mass width : Nat) (cyc : Nat)
  | nonRes
  | rhoOmega (omegaMass omegaWidth rhoMass rhoWidth re im delta : Nat) (sp cyc : Nat) (norm sym : Bool)
  | spline (limits : List ℝ) (reals imags : List Nat) (cyc : Nat) (symmDP : Bool)
  | kMatrix (sA0 sA s0prod s0scatt : Nat) (betaR betaI fprodR fprodI fscat poles : List Nat) (L pair : Nat)

/-- The device functions of the resonances (the `ptr_to_` symbols of `src/PDFs/physics/resonances/*.cu`). -/
inductive ResFn3 where
  | RBW | RBW_Sym | GOUSAK | LASS | FLATTE | GAUSSIAN | NONRES | RHOOMEGAMIX | SPLINE | kMatrix_res
deriving DecidableEq

/-- A resonance object: what it has registered (`include/goofit/PdfBase.h:245,260-261`). -/
structure ResObj where
  params : List Nat
  consts : List ℝ
  fn : ResFn3

/-- A `bool` stored as a constant (`PdfBase::registerConstant(double)`, `src/goofit/PdfBase.cpp:43`). -/
def boolC (b : Bool) : ℝ := if b then 1 else 0

/-- The constructors: `RBW` (`src/PDFs/physics/resonances/RBW.cu:93-115`), `GS` (`GS.cu:81-99`), `LASS` (`LASS.cu:125-154`),
`FLATTE` (`FLATTE.cu:80-97`), `Gauss` (`Gauss.cu:35-47`), `NonRes` (`NonRes.cu:17-20`), `RhoOmegaMix`
(`RhoOmegaMix.cu:145-177`; both branches of the test of `sym` register the same function), `Spline` (`Spline.cu:89-113`),
`kMatrix` (`kMatrix.cu:122-172`; `at` throws).  `Spline` reads the limits and the imaginary parts at the positions of the real
parts: `none` if there are fewer of these. -/
noncomputable def resBuild : ResNew → Option ResObj
  | .rbw mass width sp cyc norm sym =>
    some ⟨[mass, width], [(sp : ℝ), (cyc : ℝ), boolC norm], if sym then .RBW_Sym else .RBW⟩
  | .gs mass width sp cyc norm _ => some ⟨[mass, width], [(sp : ℝ), (cyc : ℝ), boolC norm], .GOUSAK⟩
  | .lass mass width sp cyc a r R phiR B phiB norm =>
    some ⟨[mass, width, a, r, R, phiR, B, phiB], [(sp : ℝ), (cyc : ℝ), boolC norm], .LASS⟩
  | .flatte mean g1 rg2og1 cyc symmDP => some ⟨[mean, g1, rg2og1], [(cyc : ℝ), boolC symmDP], .FLATTE⟩
  | .gauss mass width cyc => some ⟨[mass, width], [(cyc : ℝ)], .GAUSSIAN⟩
  | .nonRes => some ⟨[], [], .NONRES⟩
  | .rhoOmega om ow rm rw re im delta sp cyc norm _ =>
    some ⟨[om, ow, rm, rw, re, im, delta], [(sp : ℝ), (cyc : ℝ), boolC norm], .RHOOMEGAMIX⟩
  | .spline limits reals imags cyc symmDP =>
    if limits.length < reals.length ∨ imags.length < reals.length then none
    else some ⟨(List.range reals.length).flatMap fun i => [reals.getD i 0, imags.getD i 0],
      [(cyc : ℝ), boolC symmDP, (limits.length : ℝ)] ++ (List.range reals.length).map fun i => limits.getD i 0, .SPLINE⟩
  | .kMatrix sA0 sA s0prod s0scatt betaR betaI fprodR fprodI fscat poles _ pair =>
    if fscat.length ≠ 5 then none
    else if poles.length ≠ 30 then none
    else if betaR.length < 5 ∨ betaI.length < 5 ∨ fprodR.length < 5 ∨ fprodI.length < 5 then none
    else some ⟨[sA0, sA, s0prod, s0scatt]
        ++ (List.range 5).map (fun i => fscat.getD i 0)
        ++ (List.range 5).flatMap (fun i => [betaR.getD i 0, betaI.getD i 0])
        ++ (List.range 5).flatMap (fun i => [fprodR.getD i 0, fprodI.getD i 0])
        ++ (List.range 30).map (fun i => poles.getD i 0),
      [(pair : ℝ)], .kMatrix_res⟩

/-- A constant read as `bool` (as in `src/PDFs/physics/resonances/RBW.cu`). -/
noncomputable def toB (x : ℝ) : Bool := decide (x ≠ 0)

/-- The device functions read their parameters and constants by position: `plainBW` (`src/PDFs/physics/resonances/RBW.cu:10-16`,
the template argument is 1 or 2), `gouSak` (`GS.cu:9-15`), `lass` (`LASS.cu:9-22`), `flatte` (`FLATTE.cu:19-25`), `gaussian`
(`Gauss.cu:9-14`), `nonres` (`NonRes.cu:8-11`), `rhoomgamix` (`RhoOmegaMix.cu:10-26`), `cubicspline` (`Spline.cu:12-83`),
`kMatrixRes` (`kMatrix.cu:19-116`).  The functions of their values are in `Verif.Model.Resonance`, `SplineRes`, `KMatrix`.
`table` is the content of `cDeriatives` (`Spline.cu:10`); a spline whose lists are too short is `none` here whichever knots
it uses. -/
noncomputable def resDevice (ctx : DalitzCtx) (table : Nat → ℝ) (fn : ResFn3) (p c : List ℝ) (m12 m13 m23 : ℝ) : Option ℂ :=
  match fn with
  | .RBW => do
    return resRBW ctx (toU (← c[0]?)) (toU (← c[1]?)) (toB (← c[2]?)) false (← p[0]?) (← p[1]?) m12 m13 m23
  | .RBW_Sym => do
    return resRBW ctx (toU (← c[0]?)) (toU (← c[1]?)) (toB (← c[2]?)) true (← p[0]?) (← p[1]?) m12 m13 m23
  | .GOUSAK => do
    return resGS ctx (toU (← c[0]?)) (toU (← c[1]?)) (toB (← c[2]?)) false (← p[0]?) (← p[1]?) m12 m13 m23
  | .LASS => do
    return resLASS ctx (toU (← c[0]?)) (toU (← c[1]?)) (toB (← c[2]?))
      ⟨← p[0]?, ← p[1]?, ← p[2]?, ← p[3]?, ← p[4]?, ← p[5]?, ← p[6]?, ← p[7]?⟩ m12 m13 m23
  | .FLATTE => do
    return resFlatte (toU (← c[0]?)) (toB (← c[1]?)) (← p[0]?) (← p[1]?) (← p[2]?) m12 m13 m23
  | .GAUSSIAN => do
    return resGauss (toU (← c[0]?)) (← p[0]?) (← p[1]?) m12 m13 m23
  | .NONRES => some resNonRes
  | .RHOOMEGAMIX => do
    return resRhoOmega ctx (toU (← c[0]?)) (toU (← c[1]?)) (toB (← c[2]?)) false
      ⟨← p[0]?, ← p[1]?, ← p[2]?, ← p[3]?, ← p[4]?, ← p[5]?, ← p[6]?⟩ m12 m13 m23
  | .SPLINE => do
    let cyc := toU (← c[0]?)
    let swap := toB (← c[1]?)
    let n := toU (← c[2]?)
    if c.length < 3 + n ∨ p.length < 2 * n then none
    else
      let v := splEval ⟨[], table⟩ ⟨n, fun k => c.getD (3 + k) 0, fun k => p.getD (2 * k) 0, fun k => p.getD (2 * k + 1) 0, cyc,
        swap⟩ m12 m13 m23
      return ⟨v.1, v.2⟩
  | .kMatrix_res => do
    let pair := toU (← c[0]?)
    if p.length < 59 then none else kMatrixResonance p pair m12 m13 m23

/-- A resonance with the variables of its coefficient (`ResonancePdf`,
`include/goofit/PDFs/physics/resonances/Resonance.h:101-109`). -/
structure ResUse (α : Type) where
  ar : Nat
  ai : Nat
  res : α

/-- The resonances of a decay, constructed (no counterpart in the code). -/
noncomputable def resBuildAll (rs : List (ResUse ResNew)) : Option (List (ResUse ResObj)) :=
  rs.mapM fun r => (resBuild r.res).map fun o => ⟨r.ar, r.ai, o⟩

/-- The three-body PDF as constructed (`Amp3Body::Amp3Body`, `src/PDFs/physics/Amp3Body.cu:127-193`). -/
structure D3 where
  /-- `decayInfo`, copied to the device -/
  decay : DalitzCtx
  /-- the content of `cDeriatives`, used by splines -/
  table : Nat → ℝ
  /-- `decayInfo.resonances` -/
  res : List (ResUse ResObj)
  /-- the efficiency, a PDF with parameters of its own -/
  eff : (Nat → ℝ) → ℝ → ℝ → ℝ

/-- The parameters the PDF registers (`src/PDFs/physics/Amp3Body.cu:161-166`): two per resonance. -/
def D3.params (D : D3) : List Nat := D.res.flatMap fun r => [r.ar, r.ai]

/-- Coefficient `i`: parameters `2 i` and `2 i + 1` (`src/PDFs/physics/Amp3Body.cu:91, 338, 342-343`). -/
noncomputable def D3.coef (D : D3) (h : Nat → ℝ) (i : Nat) : Cx ℝ :=
  ⟨(D.params.map h).getD (2 * i) 0, (D.params.map h).getD (2 * i + 1) 0⟩

/-- `inDalitz(m12, m13, c_motherMass, c_daug1Mass, c_daug2Mass, c_daug3Mass)` (`src/PDFs/physics/Amp3Body.cu:72`). -/
noncomputable def D3.inside (D : D3) (m12 m13 : ℝ) : Bool :=
  inDalitz m12 m13 D.decay.mother D.decay.d1 D.decay.d2 D.decay.d3

/-- A resonance at a point (`src/PDFs/physics/detail/SpecialResonanceCalculator.cu:35-43`,
`SpecialResonanceIntegrator.cu:29-42`); a function that is not defined at the point gives 0 here. -/
noncomputable def D3.resAt (D : D3) (h : Nat → ℝ) (o : ResObj) (m12 m13 : ℝ) : Cx ℝ :=
  let m23 := D.decay.mother * D.decay.mother + D.decay.d1 * D.decay.d1 + D.decay.d2 * D.decay.d2
    + D.decay.d3 * D.decay.d3 - m12 - m13
  toCx ((resDevice D.decay D.table o.fn (o.params.map h) o.consts m12 m13 m23).getD 0)

/-- `SpecialResonanceCalculator::operator()` (`src/PDFs/physics/detail/SpecialResonanceCalculator.cu:12-46`). -/
noncomputable def D3.wave (D : D3) (h : Nat → ℝ) (o : ResObj) (m12 m13 : ℝ) : Cx ℝ :=
  if !D.inside m12 m13 then 0 else D.resAt h o m12 m13

/-- An event: `m12`, `m13` and the event number (`src/PDFs/physics/Amp3Body.cu:61-67`). -/
structure Ev3 where
  m12 : ℝ
  m13 : ℝ
  num : ℝ

/-- What changes in the life of the PDF (`include/goofit/PDFs/physics/Amp3Body.h:80-104`). -/
structure D3State where
  /-- `forceRedoIntegrals` -/
  force : Bool
  /-- `dev_event_array` -/
  data : List Ev3
  /-- `numEntries` -/
  entries : Nat
  /-- the length of every `cachedWaves[i]`; `none`: null pointers -/
  alloc : Option Nat
  /-- limits and numbers of bins of the observables -/
  grid : NormRange ℝ
  /-- `cachedWaves[i][k]` -/
  waves : Nat → Nat → Cx ℝ
  /-- `integrals[i][j]` -/
  integrals : Nat → Nat → Cx ℝ

/-- After the constructor (`src/PDFs/physics/Amp3Body.cu:129-193`). -/
noncomputable def d3Init (grid : NormRange ℝ) : D3State := ⟨true, [], 0, none, grid, fun _ _ => 0, fun _ _ => 0⟩

/-- `redoIntegral[i]` (`src/PDFs/physics/Amp3Body.cu:266-275`); `marks` is `parametersChanged` of the resonance. -/
def D3.redo (D : D3) (s : D3State) (marks : ResObj → Bool) (i : Nat) : Bool :=
  s.force || ((D.res[i]?).map fun r => marks r.res).getD false

/-- A recomputation of the waves of resonance `i` leaves an array: there are 16 vectors
(`include/goofit/PDFs/physics/Amp3Body.h:88`), the vector is written at `numEntries` places and as many events are read. -/
def D3State.outside (s : D3State) (i : Nat) : Bool :=
  decide (16 ≤ i) || decide (s.data.length < s.entries)
    || (match s.alloc with
        | none => true
        | some n => decide (n < s.entries))

/-- The state after `Amp3Body::normalize` (`src/PDFs/physics/Amp3Body.cu:266-331`). -/
noncomputable def D3.refresh (D : D3) (s : D3State) (marks : ResObj → Bool) (h : Nat → ℝ) : D3State :=
  { s with
    force := false
    waves := fun i k =>
      match D.res[i]?, s.data[k]? with
      | some r, some ev =>
        if D.redo s marks i && decide (k < s.entries) then D.wave h r.res ev.m12 ev.m13 else s.waves i k
      | _, _ => s.waves i k
    integrals := fun i j =>
      match D.res[i]?, D.res[j]? with
      | some r, some r' =>
        if !D.redo s marks i && !D.redo s marks j then s.integrals i j
        else integralOf D.inside (D.resAt h r.res) (D.resAt h r'.res) (D.eff h) s.grid
      | _, _ => s.integrals i j }

/-- `Amp3Body::normalize` (`src/PDFs/physics/Amp3Body.cu:238-359`): the new state and the value returned. -/
noncomputable def D3.normalize (D : D3) (s : D3State) (marks : ResObj → Bool) (h : Nat → ℝ) : Option (D3State × ℝ) :=
  if (List.range D.res.length).any (fun i => D.redo s marks i && s.outside i) then none
  else
    let s' := D.refresh s marks h
    let sum := ((List.range D.res.length).map fun i =>
      ((List.range D.res.length).map fun j => D.coef h i * (D.coef h j).conj * s'.integrals i j).sum).sum
    some (s', sum.re * (s.grid.binSize12 * s.grid.binSize13))

/-- `device_DalitzPlot` (`src/PDFs/physics/Amp3Body.cu:60-122`) at event `k`. -/
noncomputable def D3.value (D : D3) (s : D3State) (h : Nat → ℝ) (k : Nat) : Option ℝ :=
  (s.data[k]?).bind fun ev =>
    if !D.inside ev.m12 ev.m13 then some 0
    else
      let n := ⌊(0.5 : ℝ) + ev.num⌋
      if D.res ≠ [] ∧ (16 < D.res.length ∨ n < 0 ∨ (s.alloc.getD 0 : ℤ) ≤ n) then none
      else
        let total := ((List.range D.res.length).map fun i => D.coef h i * s.waves i n.toNat).sum
        some (total.norm * D.eff h ev.m12 ev.m13)

/-- `Amp3Body::fit_fractions` (`src/PDFs/physics/Amp3Body.cu:376-428`), from the cached waves and the present coefficients. -/
noncomputable def D3.fractions (D : D3) (s : D3State) (h : Nat → ℝ) : Option (List (List ℝ)) :=
  s.alloc.map fun n =>
    fitFractions ((List.range D.res.length).map fun i =>
      ((match D.res[i]? with
        | some r => (⟨h r.ar, h r.ai⟩ : Cx ℝ)
        | none => 0), (List.range n).map (s.waves i))) n

/-- What a program does with the PDF (no counterpart in the code). -/
inductive D3Op where
  /-- `setData` of this PDF (`src/PDFs/PdfBase.cu:329-438`) -/
  | setData (d : List Ev3)
  /-- `setData` of a PDF of which this one is a component: the array of the events is global
  (`src/PDFs/detail/Globals.cpp:11`), `numEntries` is that of the other PDF -/
  | parentData (d : List Ev3)
  /-- `setDataSize` -/
  | setDataSize (n : Nat)
  /-- new limits or numbers of bins of the observables -/
  | setGrid (g : NormRange ℝ)
  /-- `setForceIntegrals` (`include/goofit/PDFs/physics/Amp3Body.h:51`) -/
  | force (f : Bool)
  /-- an evaluation, which calls `normalize` first -/
  | eval (marks : ResObj → Bool) (h : Nat → ℝ)

/-- One step (`Amp3Body::setDataSize`: `src/PDFs/physics/Amp3Body.cu:204-236`). -/
noncomputable def D3.step (D : D3) (s : D3State) : D3Op → Option D3State
  | .setData d => some { s with data := d, entries := d.length }
  | .parentData d => some { s with data := d }
  | .setDataSize n => some { s with entries := n, alloc := some n, waves := fun _ _ => 0, force := true }
  | .setGrid g => some { s with grid := g }
  | .force f => some { s with force := f }
  | .eval marks h => (D.normalize s marks h).map (·.1)

/-- A program (no counterpart in the code). -/
noncomputable def D3.run (D : D3) : D3State → List D3Op → Option D3State
  | s, [] => some s
  | s, op :: ops => (D.step s op).bind fun s => D.run s ops

end GooFit
