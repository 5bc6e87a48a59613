import Verif.Model.Amp4Body
import Verif.Model.Lineshape4
import Verif.Model.FourBody
import Verif.Model.SpinFactor
import Verif.Model.KMatrix
import Verif.Model.GSpline
/-!
# The components of a four-body amplitude: constructors, comparison, device functions and calculators

`src/PDFs/physics/lineshapes/*.cu`, `src/PDFs/physics/SpinFactors.cu`, `src/PDFs/physics/detail/*Calculator*.cu`.

Exact real arithmetic.  A `Variable` is a number (which object it is: `isEqualNameValLimits`, `src/goofit/Variable.cpp:9-12`,
compares the addresses of the value and of the limits); its value is looked up when a function is evaluated.  What a
component registers is a list of parameters and a list of constants, read back by position (the cursor that finds the
lists is in `Verif.Model.Tree`).  `none` is a thrown exception (constructors) or a read outside the lists (device functions).
-/
set_option autoImplicit false
namespace GooFit

/-- `enum class FF` (`include/goofit/PDFs/physics/lineshapes/Lineshape.h:18`), as a constant. -/
def ffNum : FormFactor → Nat
  | .One => 0 | .BL => 1 | .BL_Prime => 2 | .BL2 => 3
/-- How the device functions use that constant (`src/PDFs/physics/lineshapes/BW.cu:47-52`): they ask for 0, 1 and 3. -/
def ffOfNum (n : Nat) : FormFactor :=
  if n = 0 then .One else if n = 1 then .BL else if n = 3 then .BL2 else .BL_Prime
/-- `FOCUS::Mod` (`include/goofit/PDFs/physics/lineshapes/FOCUS.h:10`), as a constant. -/
def focusNum : FocusMod → Nat
  | .Kpi => 0 | .KEta => 1 | .I32 => 2
/-- How `FOCUSFunction` uses that constant (`src/PDFs/physics/lineshapes/FOCUS.cu:64-73`). -/
def focusOfNum (n : Nat) : FocusMod := if n = 0 then .Kpi else if n = 1 then .KEta else .I32

/-- The arguments every line shape takes (`include/goofit/PDFs/physics/lineshapes/Lineshape.h:35`). -/
structure LsArgs where
  name : String
  /-- `L` -/
  L : Nat
  /-- `Mpair` -/
  pair : Nat
  /-- `FormFac` -/
  ff : FormFactor
  radius : ℝ

/-- A call of a constructor of a line shape, class by class (variables are numbers; the lines are cited at `lsBuild`). -/
inductive LsNew where
  | rbw (a : LsArgs) (mass width : Nat)
  | sbw (a : LsArgs) (mass width : Nat)
  | lass (a : LsArgs) (mass width : Nat)
  | nonRes (a : LsArgs) (mass width : Nat)
  | one (a : LsArgs) (mass width : Nat)
  | flatte (a : LsArgs) (mass width : Nat)
  | bugg (a : LsArgs) (mass width : Nat)
  | bugg3 (a : LsArgs) (mass width : Nat)
  | focus (a : LsArgs) (mod : FocusMod) (mass width : Nat)
  | glass (a : LsArgs) (mass width : Nat) (vars : List Nat)
  | kMatrix (a : LsArgs) (ar ai sA0 sA s0prod s0scatt : Nat) (betaR betaI fprodR fprodI fscat poles : List Nat)
  | gspline (a : LsArgs) (mass width : Nat) (vars : List Nat) (lo hi : ℝ) (nBins : Nat)

/-- The class of the object (`typeid`, `include/goofit/PDFs/physics/lineshapes/Lineshape.h:50`). -/
inductive LsClass where
  | RBW | SBW | LASS | NonRes | One | Flatte | Bugg | Bugg3 | FOCUS | GLASS | kMatrix | GSpline
deriving DecidableEq

/-- The device functions (the `ptr_to_` symbols of `src/PDFs/physics/lineshapes/*.cu`). -/
inductive LsFn where
  | BW_DP4 | SBW | lass | NONRES_DP | LS_ONE | Flatte | bugg_MINT | bugg_MINT3 | FOCUS | glass3 | kMatrix | Spline
deriving DecidableEq

/-- A line shape object: its class, its members, what it has registered
(`include/goofit/PDFs/physics/lineshapes/Lineshape.h:27-54`). -/
structure LsObj where
  cls : LsClass
  name : String
  L : Nat
  pair : Nat
  ff : FormFactor
  radius : ℝ
  params : List Nat
  consts : List ℝ
  fn : LsFn

noncomputable instance : DecidableEq LsObj := Classical.decEq _

/-- The base constructor (`src/PDFs/physics/lineshapes/Lineshape.cu:21-34`), which registers the pair as constant 0, followed
by what the class registers. -/
def lsBase (cls : LsClass) (a : LsArgs) (params : List Nat) (consts : List ℝ) (fn : LsFn) : LsObj :=
  ⟨cls, a.name, a.L, a.pair, a.ff, a.radius, params, (a.pair : ℝ) :: consts, fn⟩

/-- The constructors: `RBW`, `SBW`, `LASS` (`src/PDFs/physics/lineshapes/BW.cu:154-203`), `NonRes` (`NonRes.cu:28-39`), `One`
(`One.cu:15-23`), `Flatte` (`Flatte.cu:54-66`), `Bugg`, `Bugg3` (`Bugg.cu:133-160`), `FOCUS` (`FOCUS.cu:78-93`), `GLASS`
(`GLASS.cu:66-91`), `kMatrix` (`kMatrix.cu:117-169`), `GSpline` (`GSpline.cu:128-164`).  `h` are the values of the variables
at this time and `junk` the content of uninitialised memory, both used by `GSpline` only. -/
noncomputable def lsBuild (junk : Nat → Nat → ℝ) (h : Nat → ℝ) : LsNew → Option LsObj
  | .rbw a mass width => some (lsBase .RBW a [mass, width] [(a.L : ℝ), (ffNum a.ff : ℝ), a.radius] .BW_DP4)
  | .sbw a mass width => some (lsBase .SBW a [mass, width] [(a.L : ℝ), (ffNum a.ff : ℝ), a.radius] .SBW)
  | .lass a mass width => some (lsBase .LASS a [mass, width] [(a.L : ℝ), (ffNum a.ff : ℝ), a.radius] .lass)
  | .nonRes a _ _ => some (lsBase .NonRes a [] [(a.L : ℝ), a.radius] .NONRES_DP)
  | .one a _ _ => some (lsBase .One a [] [] .LS_ONE)
  | .flatte a mass _ => some (lsBase .Flatte a [mass] [(a.L : ℝ), a.radius] .Flatte)
  | .bugg a _ _ => some (lsBase .Bugg a [] [] .bugg_MINT)
  | .bugg3 a _ _ => some (lsBase .Bugg3 a [] [] .bugg_MINT3)
  | .focus a mod _ _ => some (lsBase .FOCUS a [] [(focusNum mod : ℝ)] .FOCUS)
  | .glass a mass width vars =>
    if vars.length ≠ 5 then none
    else some (lsBase .GLASS a ([mass, width] ++ vars) [(a.L : ℝ), a.radius] .glass3)
  | .kMatrix a _ _ sA0 sA s0prod s0scatt betaR betaI fprodR fprodI fscat poles =>
    if fscat.length ≠ 5 then none
    else if poles.length ≠ 30 then none
    else if betaR.length < 5 ∨ betaI.length < 5 ∨ fprodR.length < 5 ∨ fprodI.length < 5 then none
    else some (lsBase .kMatrix a
      ([sA0, sA, s0prod, s0scatt]
        ++ (List.range 5).map (fun i => fscat.getD i 0)
        ++ (List.range 5).flatMap (fun i => [betaR.getD i 0, betaI.getD i 0])
        ++ (List.range 5).flatMap (fun i => [fprodR.getD i 0, fprodI.getD i 0])
        ++ (List.range 30).map (fun i => poles.getD i 0))
      [(a.pair : ℝ)] .kMatrix)
  | .gspline a mass width vars lo hi nBins =>
    if nBins ≠ vars.length then none
    else (splineCurvatures junk (vars.map h) lo hi).map fun curv =>
      lsBase .GSpline a [mass, width] ([a.radius, lo, hi, (nBins : ℝ)] ++ curv) .Spline

/-- `Lineshape::operator==` (`include/goofit/PDFs/physics/lineshapes/Lineshape.h:49-53`), `Lineshape::isEqualByValue`
(`src/PDFs/physics/lineshapes/Lineshape.cu:36-40`; the overrides call it) and `areParamsandConstantsEqualByVal`
(`src/goofit/PdfBase.cpp:222-246`). -/
noncomputable def lsEq (a b : LsObj) : Bool :=
  decide (a.cls = b.cls) && (decide (a.name = b.name) && decide (a.L = b.L) && decide (a.pair = b.pair)
    && decide (a.ff = b.ff) && decide (a.radius = b.radius)
    && (decide (a.params = b.params) && decide (a.consts = b.consts)))

/-- The device functions read their parameters and constants by position: `BW`, `SBW`, `lass_MINT`
(`src/PDFs/physics/lineshapes/BW.cu:14-148`), `nonres_DP` (`NonRes.cu:10-25`), `LS_ONE` (`One.cu:8-11`), `Flatte_MINT`
(`Flatte.cu:16-50`), `bugg_MINT`, `bugg_MINT3` (`Bugg.cu:39-128`), `FOCUSFunction` (`FOCUS.cu:20-74`), `glass_MINT3`
(`GLASS.cu:13-62`), `kMatrixFunction` (`kMatrix.cu:18-113`), `Spline_TDP` (`GSpline.cu:69-98`). -/
noncomputable def lsDevice (fn : LsFn) (p c : List ℝ) (Mpair m1 m2 : ℝ) : Option ℂ :=
  match fn with
  | .BW_DP4 => do
    return lsRBW Mpair m1 m2 (← p[0]?) (← p[1]?) (toU (← c[1]?)) (ffOfNum (toU (← c[2]?))) (← c[3]?)
  | .SBW => do
    return lsSBW Mpair m1 m2 (← p[0]?) (← p[1]?) (toU (← c[1]?)) (ffOfNum (toU (← c[2]?))) (← c[3]?)
  | .lass => do
    return lsLASS Mpair m1 m2 (← p[0]?) (← p[1]?) (toU (← c[1]?)) (ffOfNum (toU (← c[2]?))) (← c[3]?)
  | .NONRES_DP => do
    return lsNonRes Mpair m1 m2 (toU (← c[1]?)) (← c[2]?)
  | .LS_ONE => some (lsOne Mpair m1 m2)
  | .Flatte => do
    return lsFlatte Mpair m1 m2 (← p[0]?) 0 (toU (← c[1]?)) .One (← c[2]?)
  | .bugg_MINT => some (lsBugg Mpair 0 0)
  | .bugg_MINT3 => some (lsBugg3 Mpair 0 0)
  | .FOCUS => do
    return lsFOCUS Mpair (focusOfNum (toU (← c[1]?)))
  | .glass3 => do
    return lsGLASS Mpair m1 m2 (← p[0]?) (← p[1]?) (toU (← c[1]?)) (← c[2]?) (← p[2]?) (← p[3]?) (← p[4]?) (← p[5]?)
      (← p[6]?)
  | .kMatrix => if p.length < 59 then none else kMatrixLineshape p Mpair
  | .Spline => splineTDP p c Mpair m1 m2

/-- A call of the constructor of a spin factor (`include/goofit/PDFs/physics/SpinFactors.h:50-54`; the second constructor there
passes 1.86484 for `mD0`). -/
structure SfNew where
  name : String
  kind : SF4
  mD0 : ℝ
  p0 : Nat
  p1 : Nat
  p2 : Nat
  p3 : Nat

/-- The constructor without `mD0` (`include/goofit/PDFs/physics/SpinFactors.h:53-54`). -/
noncomputable def sfNewDefault (name : String) (kind : SF4) (p0 p1 p2 p3 : Nat) : SfNew :=
  ⟨name, kind, 1.86484, p0, p1, p2, p3⟩

/-- A spin factor object (`include/goofit/PDFs/physics/SpinFactors.h:37-64`). -/
structure SfObj where
  name : String
  kind : SF4
  p0 : Nat
  p1 : Nat
  p2 : Nat
  p3 : Nat
  consts : List ℝ
  /-- the registered function -/
  fn : SF4

noncomputable instance : DecidableEq SfObj := Classical.decEq _

/-- `SpinFactor::SpinFactor` (`src/PDFs/physics/SpinFactors.cu:588-669`); the `switch` registers the function named like the
kind. -/
def sfBuild (s : SfNew) : SfObj :=
  ⟨s.name, s.kind, s.p0, s.p1, s.p2, s.p3, [s.mD0, (s.p0 : ℝ), (s.p1 : ℝ), (s.p2 : ℝ), (s.p3 : ℝ)], s.kind⟩

/-- `SpinFactor::operator==` (`include/goofit/PDFs/physics/SpinFactors.h:60-63`); a spin factor has no parameters. -/
noncomputable def sfEq (a b : SfObj) : Bool :=
  decide (a.name = b.name) && decide (a.kind = b.kind) && decide (a.p0 = b.p0) && decide (a.p1 = b.p1)
    && decide (a.p2 = b.p2) && decide (a.p3 = b.p3) && decide (a.consts = b.consts)

/-- The device functions of the spin factors (`src/PDFs/physics/SpinFactors.cu:83-568`): constant 0 is used as the radius of the
mother, constants 1 to 4 are the numbers of the particles.  (The two functions that return 1 do not read the numbers; a number
above 3 is `none` here for them too.) -/
noncomputable def sfDevice (fn : SF4) (c : List ℝ) (V : Fin 4 → LV ℝ) : Option ℝ := do
  let r ← c[0]?
  let n1 := toU (← c[1]?)
  let n2 := toU (← c[2]?)
  let n3 := toU (← c[3]?)
  let n4 := toU (← c[4]?)
  if h : n1 < 4 ∧ n2 < 4 ∧ n3 < 4 ∧ n4 < 4 then
    return spinFactorVal fn r ⟨n1, h.1⟩ ⟨n2, h.2.1⟩ ⟨n3, h.2.2.1⟩ ⟨n4, h.2.2.2⟩ V
  else none

/-- An event: the five observables, or the five numbers of a normalisation event
(`src/PDFs/physics/detail/LSCalculator.cu:24-34`). -/
structure Ev4 where
  m12 : ℝ
  m34 : ℝ
  cos12 : ℝ
  cos34 : ℝ
  phi : ℝ

/-- `LSCalculator::operator()` (`src/PDFs/physics/detail/LSCalculator.cu:11-68`, `LSCalculator_TD.cu:11-76`) and
`NormLSCalculator::operator()` (`NormLSCalculator.cu:11-61`, `NormLSCalculator_TD.cu:11-67`): constants 0 to 4 of the PDF are the
masses `decayInfo.particle_masses` (`src/PDFs/physics/Amp4Body.cu:106-108`), constant 0 of the line shape is the pair. -/
noncomputable def lsCalc (masses : List ℝ) (o : LsObj) (h : Nat → ℝ) (ev : Ev4) : Option ℂ := do
  let M ← masses[0]?
  let m1 ← masses[1]?
  let m2 ← masses[2]?
  let m3 ← masses[3]?
  let m4 ← masses[4]?
  let pair := toU (← o.consts[0]?)
  let x ← lsMass pair ev.m12 ev.m34 ev.cos12 ev.cos34 ev.phi M m1 m2 m3 m4
  lsDevice o.fn (o.params.map h) o.consts x.m x.d1 x.d2

/-- `SFCalculator::operator()` (`src/PDFs/physics/detail/SFCalculator.cu:11-55`, `SFCalculator_TD.cu:11-61`) and
`NormSpinCalculator::operator()` (`NormSpinCalculator.cu:11-48`, `NormSpinCalculator_TD.cu:11-57`). -/
noncomputable def sfCalc (masses : List ℝ) (o : SfObj) (ev : Ev4) : Option ℝ := do
  let M ← masses[0]?
  let m1 ← masses[1]?
  let m2 ← masses[2]?
  let m3 ← masses[3]?
  let m4 ← masses[4]?
  let v := get4Vecs ev.m12 ev.m34 ev.cos12 ev.cos34 ev.phi M m1 m2 m3 m4
  sfDevice o.fn o.consts ![v.1, v.2.1, v.2.2.1, v.2.2.2]

/-- Append unless an equal one is there, as the program compares (`src/PDFs/physics/Amp4Body.cu:133-146, 150-158`,
`src/PDFs/physics/Amp4Body_TD.cu:380-408`). -/
def addUniqueBy {α : Type} (eq : α → α → Bool) (known : List α) (x : α) : List α :=
  if known.any (fun y => eq x y) then known else known ++ [x]

/-- The number of a component among the stored ones (`src/PDFs/physics/Amp4Body.cu:203-219`, the first that compares equal). -/
def indexBy {α : Type} (eq : α → α → Bool) (known : List α) (x : α) : Nat := known.findIdx (fun y => eq x y)

/-- What the user says of an amplitude (`Amplitude`, `src/PDFs/physics/Amplitude.cu:11-31`). -/
structure AmpNew where
  ar : Nat
  ai : Nat
  ls : List LsNew
  sf : List SfNew
  nPerm : Nat

/-- The amplitude with its components constructed (no counterpart in the code). -/
noncomputable def ampBuild (junk : Nat → Nat → ℝ) (h : Nat → ℝ) (a : AmpNew) : Option (Amp4 LsObj SfObj) :=
  (a.ls.mapM (lsBuild junk h)).map fun ls => ⟨ls, a.sf.map sfBuild, a.nPerm⟩

/-- The parameters the PDF registers (`src/PDFs/physics/Amp4Body.cu:128-129`): two per amplitude. -/
def coefParams (amps : List AmpNew) : List Nat := amps.flatMap fun a => [a.ar, a.ai]

/-- A complex number as the pairs of `Verif.Model.Complex` (the same number, no counterpart in the code). -/
def toCx (z : ℂ) : Cx ℝ := ⟨z.re, z.im⟩

/-- The four-body PDF of these amplitudes (`src/PDFs/physics/Amp4Body.cu:94-292`).  The coefficients are read at positions `2 i`
and `2 i + 1` (`src/PDFs/physics/Amp4Body.cu:69-70`). -/
noncomputable def fourBodyPdf (masses : List ℝ) (amps : List AmpNew) (built : List (Amp4 LsObj SfObj))
    (efficiency : (Nat → ℝ) → Ev4 → ℝ) (mc : List Ev4) : A4 ℝ LsObj SfObj (Nat → ℝ) Ev4 where
  amps := built
  lineShape o h ev := toCx ((lsCalc masses o h ev).getD 0)
  spinFactor o ev := (sfCalc masses o ev).getD 0
  coef h i := ⟨((coefParams amps).map h).getD (2 * i) 0, ((coefParams amps).map h).getD (2 * i + 1) 0⟩
  efficiency := efficiency
  mc := mc

end GooFit
