import Verif.Model.Tree
/-!
# The basic PDFs: device functions and what their constructors register

Models the device functions and constructors of `src/PDFs/basic/*.cu`,
`src/PDFs/utilities/VariableBinTransform1DPdf.cu`, `src/PDFs/physics/DalitzVetoPdf.cu`,
`src/PDFs/physics/SquareDalitzEffPdf.cu` and `inDalitz` of
`src/PDFs/physics/DalitzPlotHelpers.cu`.

The number type stays generic: the mathematical library functions and the comparisons are
operations without laws, so results in this generality hold for IEEE doubles bit for bit.  Each
arithmetic expression is written in the order in which C++ evaluates it.  `printf` and the trace
messages are not modelled.
-/
set_option autoImplicit false
namespace GooFit

/-- The further operations on `fptype` used by the basic PDFs: the C mathematical library and the
comparisons (`lt`, `le`, `eq` are false on NaN).  `faddeeva` is `device_Faddeeva_2`
(`src/PDFs/basic/VoigtianPdf.cu:51-126`), of which only real and imaginary part of argument and
result are kept. -/
class FpMath (F : Type) extends FpOps F where
  neg : F → F
  exp : F → F
  log : F → F
  sqrt : F → F
  sin : F → F
  sinh : F → F
  erfc : F → F
  fabs : F → F
  pow : F → F → F
  atan2 : F → F → F
  faddeeva : F → F → F × F
  lt : F → F → Bool
  le : F → F → Bool
  eq : F → F → Bool

/-- The tables of device pointers to histograms: `dev_base_interhists`
(`src/PDFs/basic/InterHistPdf.cu:8`) and `dev_smoothed_histograms`
(`src/PDFs/basic/SmoothHistogramPdf.cu:8`); `none` for an entry never written. -/
structure HistTables (F : Type) where
  inter : Nat → Option (List F)
  smooth : Nat → Option (List F)

/-- `h[i]` for an `int` index; outside the array it is undefined
(C++ indexing, as in `src/PDFs/basic/SmoothHistogramPdf.cu:102`). -/
def readHist {F : Type} (h : List F) (i : Int) : Option F := if 0 ≤ i then h[i.toNat]? else none

/-- `for(int i = from; i < from + rem; ++i) s = body(i, s)` (C++ loop). -/
def forUpto {S : Type} (body : Nat → S → Option S) : Nat → Nat → S → Option S
  | 0, _, s => some s
  | rem + 1, i, s => do
    let s' ← body i s
    forUpto body rem (i + 1) s'

/-- The names of the device functions (the `ptr_to_` symbols of `src/PDFs/basic/*.cu`). -/
inductive BasicLeaf where
  | argusUpper | argusLower | bw | bernstein | bifurGauss | binTransform | corrGaussian
  | crystalBall | expGaus | exp | expOffset | expPoly | expPolyOffset | gaussian | interHist
  | johnsonSU | kinLimitBW | landau | novosibirsk | polynomial | offsetPolynomial
  | multiPolynomial | scaledGaussian | evalHistogram | step | trigUpper | trigLower | trigUpper2
  | trigLower2 | voigtian | varBin | dalitzVeto | squareDalitz
  deriving DecidableEq, Repr

section device
variable {F : Type} [FpMath F]
open FpOps FpMath

local infixl:65 " +. " => FpOps.add
local infixl:65 " -. " => FpOps.sub
local infixl:70 " *. " => FpOps.mul
local infixl:70 " /. " => FpOps.div

/-- `a > b` (C++ comparison). -/
abbrev gt (a b : F) : Bool := FpMath.lt b a
/-- `a >= b` (C++ comparison). -/
abbrev ge (a b : F) : Bool := FpMath.le b a

/-- `int id = pc.getObservable(i); fptype x = evt[id]` (as in `src/PDFs/basic/GaussianPdf.cu:8-9`). -/
def readObs (B : Bufs F) (pc : Cursor) (e : Evt F) (i : Nat) : Option F := do
  let id ← pc.getObservable B i
  e.read id

/-- Value of `device_Argus_Upper` (`src/PDFs/basic/ArgusPdf.cu:17-24`). -/
def argusUpperValue (x m0 slope power : F) : F :=
  let t := x /. m0
  if ge t (lit 1) then lit 0
  else
    let t := lit 1 -. t *. t
    x *. pow t power *. exp (slope *. t)

/-- `device_Argus_Upper` (`src/PDFs/basic/ArgusPdf.cu:7-25`). -/
def devArgusUpper : Dev F := fun B pc e => do
  let x ← readObs B pc e 0
  let m0 ← pc.getParameter B 0
  let slope ← pc.getParameter B 1
  let power ← pc.getParameter B 2
  let pc := pc.incrementIndex 1 3 0 1 1
  return (argusUpperValue x m0 slope power, pc)

/-- Value of `device_Argus_Lower` (`src/PDFs/basic/ArgusPdf.cu:37-46`). -/
def argusLowerValue (x m0 slope power : F) : F :=
  let t := x /. m0
  if FpMath.le t (lit 1) then lit 0
  else
    let t := t *. t
    let t := t -. lit 1
    x *. pow t power *. exp (slope *. t)

/-- `device_Argus_Lower` (`src/PDFs/basic/ArgusPdf.cu:27-47`). -/
def devArgusLower : Dev F := fun B pc e => do
  let x ← readObs B pc e 0
  let m0 ← pc.getParameter B 0
  let slope ← pc.getParameter B 1
  let power ← pc.getParameter B 2
  let pc := pc.incrementIndex 1 3 0 1 1
  return (argusLowerValue x m0 slope power, pc)

/-- Value of `device_BW` (`src/PDFs/basic/BWPdf.cu:12-13`). -/
def bwValue (x mean gamma : F) : F :=
  let rootPi := lit (-2) *. atan2 (lit (-1)) (lit 0)
  (gamma /. ((x -. mean) *. (x -. mean) +. gamma *. gamma /. lit 4)) /. (lit 2 *. rootPi)

/-- `device_BW` (`src/PDFs/basic/BWPdf.cu:6-18`). -/
def devBW : Dev F := fun B pc e => do
  let x ← readObs B pc e 0
  let mean ← pc.getParameter B 0
  let gamma ← pc.getParameter B 1
  return (bwValue x mean gamma, pc.incrementIndex 1 2 0 1 1)

/-- `factorial` (`src/PDFs/basic/BernsteinPdf.cu:9-14`). -/
def factorial : Nat → F
  | 0 => lit 1
  | n + 1 => ofNat (n + 1) *. factorial n

/-- `binomial(k, n)` (`src/PDFs/basic/BernsteinPdf.cu:16-24`). -/
def binomial (k n : Nat) : F :=
  if k > n then lit 0
  else
    let a : F := factorial n
    let b : F := factorial k *. factorial (n - k)
    a /. b

/-- One term of the loop of `device_BernsteinPdf` (`src/PDFs/basic/BernsteinPdf.cu:48-55`). -/
def bernsteinTerm (lowX uppX xNorm : F) (maxDegree i : Nat) (coeff ret : F) : F :=
  let val := coeff *. (binomial i (maxDegree - 1) *. pow xNorm (ofNat i)
    *. pow (lit 1 -. xNorm) (ofNat (maxDegree - 1 - i)))
  let val := val /. (uppX -. lowX)
  ret +. val

/-- `device_BernsteinPdf` (`src/PDFs/basic/BernsteinPdf.cu:27-63`). -/
def devBernstein : Dev F := fun B pc e => do
  let numParams ← pc.getNumParameters B
  let numConstants ← pc.getNumConstants B
  let x ← readObs B pc e 0
  let lowX ← pc.getConstant B 1
  let uppX ← pc.getConstant B 2
  let mindegC ← pc.getConstant B 3
  let mindeg := (toInt mindegC).toNat
  let ncoeffs ← pc.getConstant B 0
  let maxDegree := (toInt (ncoeffs +. ofNat mindeg)).toNat
  let xNorm := (x -. lowX) /. (uppX -. lowX)
  let ret ← forUpto (fun i ret => do
    let coeff ← pc.getParameter B i
    return bernsteinTerm lowX uppX xNorm maxDegree i coeff ret) (maxDegree - mindeg) 0 (lit 0)
  return (ret, pc.incrementIndex 1 numParams numConstants 1 1)

/-- Value of `device_BifurGauss` (`src/PDFs/basic/BifurGaussPdf.cu:15-22`). -/
def bifurValue (x mean sigmaLeft sigmaRight : F) : F :=
  let sigma := if gt x mean then sigmaRight else sigmaLeft
  exp (lit (-1/2) *. (x -. mean) *. (x -. mean) /. (sigma *. sigma))

/-- `device_BifurGauss` (`src/PDFs/basic/BifurGaussPdf.cu:6-24`). -/
def devBifurGauss : Dev F := fun B pc e => do
  let x ← readObs B pc e 0
  let mean ← pc.getParameter B 0
  let sigmaLeft ← pc.getParameter B 1
  let sigmaRight ← pc.getParameter B 2
  return (bifurValue x mean sigmaLeft sigmaRight, pc.incrementIndex 1 3 0 1 1)

/-- `static_cast<int>(floor((x - lower) / step))` (`src/PDFs/basic/BinTransformPdf.cu:20`,
`src/PDFs/basic/SmoothHistogramPdf.cu:33-36`). -/
def binOf (x lower step : F) : Int := toInt (floor ((x -. lower) /. step))

/-- `device_BinTransform` (`src/PDFs/basic/BinTransformPdf.cu:6-28`). -/
def devBinTransform : Dev F := fun B pc e => do
  let numConstants ← pc.getNumConstants B
  let numObservables ← pc.getNumObservables B
  let s ← forUpto (fun i (s : Int × Int) => do
    let obsValue ← readObs B pc e i
    let lowerLimit ← pc.getConstant B (i * 3)
    let binSize ← pc.getConstant B (i * 3 + 1)
    let numBins ← pc.getConstant B (i * 3 + 2)
    return (s.1 + binOf obsValue lowerLimit binSize * s.2, s.2 * toInt numBins))
    numObservables 0 (0, 1)
  return (ofInt s.1, pc.incrementIndex 1 0 numConstants numObservables 1)

/-- Value of `device_CorrGaussian` (`src/PDFs/basic/CorrGaussianPdf.cu:19-22`). -/
def corrValue (x y mean1 sigma1 mean2 sigma2 corr : F) : F :=
  let xDist := (x -. mean1) /. sigma1
  let sigma2 := sigma2 *. (lit 1 +. corr *. xDist *. xDist)
  let yDist := (y -. mean2) *. (if FpMath.eq sigma2 (lit 0) then lit 0 else lit 1 /. sigma2)
  exp (lit (-1/2) *. (xDist *. xDist +. yDist *. yDist))

/-- `device_CorrGaussian` (`src/PDFs/basic/CorrGaussianPdf.cu:6-34`). -/
def devCorrGaussian : Dev F := fun B pc e => do
  let idx ← pc.getObservable B 0
  let idy ← pc.getObservable B 1
  let mean1 ← pc.getParameter B 0
  let sigma1 ← pc.getParameter B 1
  let mean2 ← pc.getParameter B 2
  let sigma2 ← pc.getParameter B 3
  let corr ← pc.getParameter B 4
  let x ← e.read idx
  let y ← e.read idy
  return (corrValue x y mean1 sigma1 mean2 sigma2 corr, pc.incrementIndex 1 5 0 2 1)

/-- Value of `device_CrystalBall` (`src/PDFs/basic/CrystalBallPdf.cu:18-32`). -/
def crystalValue (x mean sigma alpha power : F) : F :=
  let rx := if FpMath.eq sigma (lit 0) then lit 0 else (x -. mean) /. sigma
  if (gt alpha (lit 0) && FpMath.le rx alpha) || (FpMath.lt alpha (lit 0) && ge rx alpha)
    || FpMath.eq alpha (lit 0) then
    exp (lit (-1/2) *. rx *. rx)
  else
    let nOverAlpha := power /. alpha
    let a := exp (lit (-1/2) *. alpha *. alpha)
    let b := nOverAlpha -. alpha
    let d := b +. rx
    let d := if FpMath.eq d (lit 0) then lit 0 else nOverAlpha /. d
    a *. pow d power

/-- `device_CrystalBall` (`src/PDFs/basic/CrystalBallPdf.cu:7-39`). -/
def devCrystalBall : Dev F := fun B pc e => do
  let x ← readObs B pc e 0
  let mean ← pc.getParameter B 0
  let sigma ← pc.getParameter B 1
  let alpha ← pc.getParameter B 2
  let power ← pc.getParameter B 3
  return (crystalValue x mean sigma alpha power, pc.incrementIndex 1 4 0 1 1)

/-- Value of `device_ExpGaus` (`src/PDFs/basic/ExpGausPdf.cu:14-19`). -/
def expGausValue (x mean sigma alpha : F) : F :=
  let ret := lit (1/2) *. alpha
  let exparg := ret *. (lit 2 *. mean +. alpha *. sigma *. sigma -. lit 2 *. x)
  let erfarg := (mean +. alpha *. sigma *. sigma -. x) /. (sigma *. lit (14142135623/10000000000))
  let ret := ret *. exp exparg
  ret *. erfc erfarg

/-- `device_ExpGaus` (`src/PDFs/basic/ExpGausPdf.cu:6-24`). -/
def devExpGaus : Dev F := fun B pc e => do
  let x ← readObs B pc e 0
  let mean ← pc.getParameter B 0
  let sigma ← pc.getParameter B 1
  let alpha ← pc.getParameter B 2
  return (expGausValue x mean sigma alpha, pc.incrementIndex 1 3 0 1 1)

/-- `device_Exp` (`src/PDFs/basic/ExpPdf.cu:7-17`). -/
def devExp : Dev F := fun B pc e => do
  let alpha ← pc.getParameter B 0
  let x ← readObs B pc e 0
  return (exp (alpha *. x), pc.incrementIndex 1 1 0 1 1)

/-- `device_ExpOffset` (`src/PDFs/basic/ExpPdf.cu:19-30`). -/
def devExpOffset : Dev F := fun B pc e => do
  let x ← readObs B pc e 0
  let x0 ← pc.getParameter B 0
  let x := x -. x0
  let alpha ← pc.getParameter B 1
  return (exp (alpha *. x), pc.incrementIndex 1 2 0 1 1)

/-- `device_ExpPoly` (`src/PDFs/basic/ExpPdf.cu:32-48`). -/
def devExpPoly : Dev F := fun B pc e => do
  let x ← readObs B pc e 0
  let np ← pc.getNumParameters B
  let exparg ← forUpto (fun i exparg => do
    let p ← pc.getParameter B i
    return exparg +. pow x (ofNat i) *. p) np 0 (lit 0)
  return (exp exparg, pc.incrementIndex 1 np 0 1 1)

/-- `device_ExpPolyOffset` (`src/PDFs/basic/ExpPdf.cu:50-67`). -/
def devExpPolyOffset : Dev F := fun B pc e => do
  let x ← readObs B pc e 0
  let x0 ← pc.getParameter B 0
  let x := x -. x0
  let np ← pc.getNumParameters B
  let exparg ← forUpto (fun i exparg => do
    let p ← pc.getParameter B i
    return exparg +. pow x (ofNat i) *. p) (np - 1) 1 (lit 0)
  return (exp exparg, pc.incrementIndex 1 np 0 1 1)

/-- Value of `device_Gaussian` (`src/PDFs/basic/GaussianPdf.cu:14`). -/
def gaussianValue (x mean sigma : F) : F :=
  exp (lit (-1/2) *. (x -. mean) *. (x -. mean) /. (sigma *. sigma))

/-- `device_Gaussian` (`src/PDFs/basic/GaussianPdf.cu:7-17`). -/
def devGaussian : Dev F := fun B pc e => do
  let x ← readObs B pc e 0
  let mean ← pc.getParameter B 0
  let sigma ← pc.getParameter B 1
  let pc := pc.incrementIndex 1 2 0 1 1
  return (gaussianValue x mean sigma, pc)

/-- `OBS_CODE` (`src/PDFs/basic/InterHistPdf.cu:9`). -/
def obsCode : Int := 4242424242

/-- The first loop of `device_InterHistogram` (`src/PDFs/basic/InterHistPdf.cu:28-59`): state
`(globalBin, previous, binDistances)`. -/
def interBins (B : Bufs F) (pc : Cursor) (e : Evt F) (numVars : Nat) :
    Option (Int × Int × List F) :=
  forUpto (fun i s => do
    let varIndexC ← pc.getConstant B (2 + i * 4)
    let varIndex := toInt varIndexC
    let cur ← if varIndex = obsCode then readObs B pc e i else pc.getParameter B varIndex.toNat
    let lowerBound ← pc.getParameter B (3 + i * 4)
    let step ← pc.getParameter B (4 + i * 4 + 2)
    let cur := cur -. lowerBound
    let cur := cur /. step
    let localBin := toInt (floor cur)
    let n ← pc.getConstant B (3 + 4 * i + 1)
    if i < 10 then
      return (s.1 + s.2.1 * localBin, s.2.1 * toInt n, s.2.2 ++ [cur -. ofInt localBin -. lit (1/2)])
    else none) numVars 0 (0, 1, [])

/-- The loop over the axes for one of the neighbouring bins
(`src/PDFs/basic/InterHistPdf.cu:85-114`): state
`(currBin, localPrevious, trackingBin, offSomeAxis, currentWeight)`. -/
def interAxes (B : Bufs F) (pc : Cursor) (numVars i : Nat) (globalBin : Int) (dist : List F) :
    Option (Int × Int × Int × Bool × F) :=
  forUpto (fun v s => do
    let nC ← B.par[pc.par + 1 + v]?
    let localNumBins := toInt nC
    let offset : Int := (i / 3 ^ v % 3 : Nat) - 1
    if localNumBins = 0 then none
    else
      let d ← dist[v]?
      let currVarBin := s.2.2.1.tmod localNumBins
      let d := d -. ofInt offset
      return (s.1 + offset * s.2.1, s.2.1 * localNumBins, s.2.2.1.tdiv localNumBins,
        s.2.2.2.1 || decide (currVarBin + offset < 0) || decide (currVarBin + offset ≥ localNumBins),
        s.2.2.2.2 +. d *. d)) numVars 0 (globalBin, 1, globalBin, false, lit 0)

/-- `device_InterHistogram` (`src/PDFs/basic/InterHistPdf.cu:16-131`).  It never moves the cursor. -/
def devInterHist (T : HistTables F) : Dev F := fun B pc e => do
  let c1 ← pc.getConstant B 1
  let numVars := ((toInt (c1 -. lit 1)).tdiv 4).toNat
  let c0 ← pc.getConstant B 0
  let (globalBin, _, dist) ← interBins B pc e numVars
  let hist ← T.inter (toInt c0).toNat
  let (ret, total) ← forUpto (fun i (s : F × F) => do
    let (currBin, _, _, off, w) ← interAxes B pc numVars i globalBin dist
    let w := if gt w (lit 0) then
        (if FpMath.le w (sqrt (ofNat numVars)) then lit 1 /. sqrt w else lit 0)
      else lit 0
    let entry ← if off then some (lit 0) else readHist hist currBin
    return (s.1 +. w *. entry, s.2 +. w)) (3 ^ numVars) 0 (lit 0, lit 0)
  return (ret /. total, pc)

/-- Value of `device_JohnsonSU` (`src/PDFs/basic/JohnsonSUPdf.cu:6, 17-23`). -/
def johnsonValue (x jm js jg jd : F) : F :=
  let px := (x -. jm) /. js
  let px2 := px *. px
  let sqrtArg := sqrt (lit 1 +. px2)
  let invSinh := log (px +. sqrtArg)
  let gausArg := jg +. jd *. invSinh
  jd /. (js *. lit (2506628/1000000) *. sqrtArg) *. exp (lit (-1/2) *. gausArg *. gausArg)

/-- `device_JohnsonSU` (`src/PDFs/basic/JohnsonSUPdf.cu:6-24`). -/
def devJohnsonSU : Dev F := fun B pc e => do
  let x ← readObs B pc e 0
  let jm ← pc.getParameter B 0
  let js ← pc.getParameter B 1
  let jg ← pc.getParameter B 2
  let jd ← pc.getParameter B 3
  let pc := pc.incrementIndex 1 4 0 1 1
  return (johnsonValue x jm js jg jd, pc)

/-- `getMomentum` (`src/PDFs/basic/KinLimitBWPdf.cu:7-19`). -/
def getMomentum (mass pimass d0mass : F) : F :=
  if FpMath.le mass (lit 0) then lit 0
  else
    let lambda := mass *. mass -. pimass *. pimass -. d0mass *. d0mass
    let lambda := lambda *. lambda
    let lambda := lambda -. lit 4 *. pimass *. pimass *. d0mass *. d0mass
    if FpMath.le lambda (lit 0) then lit 0 else sqrt (lit (1/2) *. lambda /. mass)

/-- `bwFactor` (`src/PDFs/basic/KinLimitBWPdf.cu:21-24`). -/
def bwFactor (momentum : F) : F := lit 1 /. sqrt (lit 1 +. lit (256/100) *. momentum *. momentum)

/-- Value of `device_KinLimitBW` (`src/PDFs/basic/KinLimitBWPdf.cu:35-53`; the cursor is moved at
line 40, before the early return). -/
def kinLimitValue (x mean width d0mass pimass : F) : F :=
  let mean := mean +. d0mass
  let x := x +. d0mass
  let pReal := getMomentum mean pimass d0mass
  if FpMath.le pReal (lit 0) then lit 0
  else
    let mean := mean *. mean
    let pX := getMomentum x pimass d0mass
    let r := pX /. pReal
    let b := bwFactor pX /. bwFactor pReal
    let phspfactor := (r *. r *. r) *. (b *. b)
    let m := mean -. x *. x
    let g := width *. phspfactor
    (phspfactor *. mean *. width *. width) /. (m *. m +. mean *. (g *. g))

/-- `device_KinLimitBW` (`src/PDFs/basic/KinLimitBWPdf.cu:26-54`). -/
def devKinLimitBW : Dev F := fun B pc e => do
  let x ← readObs B pc e 0
  let mean ← pc.getParameter B 0
  let width ← pc.getParameter B 1
  let d0mass ← pc.getConstant B 0
  let pimass ← pc.getConstant B 1
  let pc := pc.incrementIndex 1 2 2 1 1
  return (kinLimitValue x mean width d0mass pimass, pc)

/-- `c0 + (c1 + (c2 + (c3 + c4 * v) * v) * v) * v` (`src/PDFs/basic/LandauPdf.cu:54-73`). -/
def horner4 (c0 c1 c2 c3 c4 : Rat) (v : F) : F :=
  lit c0 +. (lit c1 +. (lit c2 +. (lit c3 +. lit c4 *. v) *. v) *. v) *. v

/-- The branches of `device_Landau` after the test of `sigma`
(`src/PDFs/basic/LandauPdf.cu:9-28, 40-80`). -/
def landauValue (x mpv sigma : F) : F :=
  let v := (x -. mpv) /. sigma
  if FpMath.lt v (lit (-55/10)) then
    let u := exp (v +. lit 1)
    if FpMath.lt u (lit (1/10000000000)) then lit 0
    else
      let ue := exp (lit (-1) /. u)
      let us := sqrt u
      (lit (3989422803/10000000000) *. (ue /. us) *. (lit 1 +. (lit (4166666667/100000000000) +.
        (lit (-1996527778/100000000000) +. lit (2709538966/100000000000) *. u) *. u) *. u)) /. sigma
  else if FpMath.lt v (lit (-1)) then
    let u := exp (FpMath.neg v -. lit 1)
    (exp (FpMath.neg u) *. sqrt u
      *. horner4 (4259894875/10000000000) (-1249762550/10000000000) (3984243700/100000000000)
        (-6298287635/1000000000000) (1511162253/1000000000000) v
      /. horner4 1 (-3388260629/10000000000) (9594393323/100000000000)
        (-1608042283/100000000000) (3778942063/1000000000000) v) /. sigma
  else if FpMath.lt v (lit 1) then
    (horner4 (1788541609/10000000000) (1173957403/10000000000) (1488850518/100000000000)
        (-1394989411/1000000000000) (1283617211/10000000000000) v
      /. horner4 1 (7428795082/10000000000) (3153932961/10000000000)
        (6694219548/100000000000) (8790609714/1000000000000) v) /. sigma
  else if FpMath.lt v (lit 5) then
    (horner4 (1788544503/10000000000) (9359161662/100000000000) (6325387654/1000000000000)
        (6611667319/100000000000000) (-2031049101/1000000000000000) v
      /. horner4 1 (6097809921/10000000000) (2560616665/10000000000)
        (4746722384/100000000000) (6957301675/1000000000000) v) /. sigma
  else if FpMath.lt v (lit 12) then
    let u := lit 1 /. v
    (u *. u *. horner4 (9874054407/10000000000) (1186723273/10000000) (8492794360/10000000)
        (-7437792444/10000000) (4270262186/10000000) u
      /. horner4 1 (1068615961/10000000) (3376496214/10000000)
        (2016712389/1000000) (1597063511/1000000) u) /. sigma
  else if FpMath.lt v (lit 50) then
    let u := lit 1 /. v
    (u *. u *. horner4 (1003675074/1000000000) (1675702434/10000000) (4789711289/1000000)
        (2121786767/100000) (-2232494910/100000) u
      /. horner4 1 (1569424537/10000000) (3745310488/1000000)
        (9834698876/1000000) (6692428357/100000) u) /. sigma
  else if FpMath.lt v (lit 300) then
    let u := lit 1 /. v
    (u *. u *. horner4 (1000827619/1000000000) (6649143136/10000000) (6297292665/100000)
        (4755546998/10000) (-5743609109/1000) u
      /. horner4 1 (6514101098/10000000) (5697473333/100000)
        (1659174725/10000) (-2815759939/1000) u) /. sigma
  else
    let u := lit 1 /. (v -. v *. log v /. (v +. lit 1))
    (u *. u *. (lit 1 +. (lit (-1845568670/1000000000) +. lit (-4284640743/1000000000) *. u) *. u))
      /. sigma

/-- `device_Landau` (`src/PDFs/basic/LandauPdf.cu:30-80`). -/
def devLandau : Dev F := fun B pc e => do
  let x ← readObs B pc e 0
  let mpv ← pc.getParameter B 0
  let sigma ← pc.getParameter B 1
  let pc := pc.incrementIndex 1 2 0 1 1
  if FpMath.le sigma (lit 0) then return (lit 0, pc)
  else return (landauValue x mpv sigma, pc)

/-- Value of `device_Novosibirsk` (`src/PDFs/basic/NovosibirskPdf.cu:16-39`). -/
def novosibirskValue (x mean sigma tail : F) : F :=
  let qc :=
    if FpMath.lt (fabs tail) (lit (1/10000000)) then
      let d := (x -. mean) /. sigma
      lit (1/2) *. (d *. d)
    else
      let qa := tail *. sqrt (log (lit 4))
      let qb := sinh qa /. qa
      let qx := (x -. mean) /. sigma *. qb
      let qy := lit 1 +. tail *. qx
      if gt qy (lit (1/10000000)) then
        let l := log qy /. tail
        lit (1/2) *. (l *. l +. tail *. tail)
      else lit 15
  exp (FpMath.neg qc)

/-- `device_Novosibirsk` (`src/PDFs/basic/NovosibirskPdf.cu:6-40`). -/
def devNovosibirsk : Dev F := fun B pc e => do
  let mean ← pc.getParameter B 0
  let sigma ← pc.getParameter B 1
  let tail ← pc.getParameter B 2
  let x ← readObs B pc e 0
  let pc := pc.incrementIndex 1 3 0 1 1
  return (novosibirskValue x mean sigma tail, pc)

/-- `device_Polynomial` (`src/PDFs/basic/PolynomialPdf.cu:8-26`). -/
def devPolynomial : Dev F := fun B pc e => do
  let numParams ← pc.getNumParameters B
  let lowC ← pc.getConstant B 0
  let lowestDegree := (toInt lowC).toNat
  let x ← readObs B pc e 0
  let ret ← forUpto (fun i ret => do
    let param ← pc.getParameter B i
    return ret +. param *. pow x (ofNat (lowestDegree + i))) numParams 0 (lit 0)
  return (ret, pc.incrementIndex 1 numParams 1 1 1)

/-- `device_OffsetPolynomial` (`src/PDFs/basic/PolynomialPdf.cu:28-45`). -/
def devOffsetPolynomial : Dev F := fun B pc e => do
  let numParams ← pc.getNumParameters B
  let lowC ← pc.getConstant B 0
  let lowestDegree := (toInt lowC).toNat
  let x ← readObs B pc e 0
  let ret ← forUpto (fun i ret => do
    let param ← pc.getParameter B i
    return ret +. param *. pow x (ofNat (lowestDegree + i - 2))) (numParams - 2) 2 (lit 0)
  return (ret, pc.incrementIndex 1 numParams 1 1 1)

/-- The loop over the observables for one box (`src/PDFs/basic/PolynomialPdf.cu:80-95`): state
`(currTerm, currIndex, sumOfIndices)`. -/
def multiTerm (B : Bufs F) (pc : Cursor) (e : Evt F) (numObs maxDegree box : Nat) :
    Option (F × Nat × Nat) :=
  forUpto (fun j s => do
    let x ← readObs B pc e j
    let offset ← pc.getParameter B j
    let x := x -. offset
    return (s.1 *. pow x (ofNat (s.2.1 % maxDegree)), s.2.1 / maxDegree, s.2.2 + s.2.1 % maxDegree))
    numObs 0 (lit 1, box, 0)

/-- `device_MultiPolynomial` (`src/PDFs/basic/PolynomialPdf.cu:47-118`); the loop state is
`(coeffNumber, ret)`. -/
def devMultiPolynomial : Dev F := fun B pc e => do
  let numConstants ← pc.getNumConstants B
  let numParameters ← pc.getNumParameters B
  let numObs ← pc.getNumObservables B
  let c0 ← pc.getConstant B 0
  let maxDegree := (toInt (c0 +. lit 1)).toNat
  let numBoxes := maxDegree ^ numObs
  let ret ← pc.getParameter B numObs
  let s ← forUpto (fun i (s : Nat × F) => do
    let (currTerm, _, sumOfIndices) ← multiTerm B pc e numObs maxDegree i
    if sumOfIndices ≥ maxDegree then return s
    else
      let coefficient ← pc.getParameter B s.1
      return (s.1 + 1, s.2 +. currTerm *. coefficient)) (numBoxes - 1) 1 (numObs + 1, ret)
  return (s.2, pc.incrementIndex 1 numParameters numConstants numObs 1)

/-- `device_ScaledGaussian` (`src/PDFs/basic/ScaledGaussianPdf.cu:9-20`). -/
def devScaledGaussian : Dev F := fun B pc e => do
  let x ← readObs B pc e 0
  let p0 ← pc.getParameter B 0
  let p2 ← pc.getParameter B 2
  let mean := p0 +. p2
  let p1 ← pc.getParameter B 1
  let p3 ← pc.getParameter B 3
  let sigma := p1 *. (lit 1 +. p3)
  return (gaussianValue x mean sigma, pc.incrementIndex 1 4 0 1 1)

/-- `device_EvalHistogram` (`src/PDFs/basic/SmoothHistogramPdf.cu:11-50`). -/
def devEvalHistogram (T : HistTables F) : Dev F := fun B pc e => do
  let numCons ← pc.getNumConstants B
  let numObs ← pc.getNumObservables B
  let numParms ← pc.getNumParameters B
  let numVars ← pc.getConstant B 0
  let histC ← pc.getConstant B 1
  let s ← forUpto (fun i (s : Int × Int) => do
    let cur ← readObs B pc e i
    let lowerBound ← pc.getConstant B (i * 3 + 4)
    let step ← pc.getConstant B (i * 3 + 5)
    let n ← pc.getConstant B (3 * (i + 1))
    return (s.1 + s.2 * binOf cur lowerBound step, s.2 * toInt n)) (toInt numVars).toNat 0 (0, 1)
  let hist ← T.smooth (toInt histC).toNat
  let ret ← readHist hist s.1
  return (ret, pc.incrementIndex 1 numParms numCons numObs 1)

/-- `device_Step` (`src/PDFs/basic/StepPdf.cu:15-37`). -/
def devStep : Dev F := fun B pc e => do
  let x ← readObs B pc e 0
  let x0 ← pc.getParameter B 0
  let up ← pc.getConstant B 0
  let pc ← pc.next B
  if toInt up = 1 then return (if gt x x0 then lit 1 else lit 0, pc)
  else return (if gt x x0 then lit 0 else lit 1, pc)

/-- `threshCalc` (`src/PDFs/basic/TrigThresholdPdf.cu:6-10`). -/
def threshCalc (distance linConst : F) : F :=
  if gt distance (lit (1/2)) then lit 1
  else linConst +. (lit 1 -. linConst) *. sin (distance *. lit (314159265/100000000))

/-- `device_TrigThresholdUpper` (`src/PDFs/basic/TrigThresholdPdf.cu:12-23`). -/
def devTrigUpper : Dev F := fun B pc e => do
  let x ← readObs B pc e 0
  let thresh ← pc.getParameter B 0
  let trigConst ← pc.getParameter B 1
  let linConst ← pc.getParameter B 2
  return (threshCalc (trigConst *. (thresh -. x)) linConst, pc.incrementIndex 1 3 0 1 1)

/-- `device_TrigThresholdLower` (`src/PDFs/basic/TrigThresholdPdf.cu:25-36`). -/
def devTrigLower : Dev F := fun B pc e => do
  let x ← readObs B pc e 0
  let thresh ← pc.getParameter B 0
  let trigConst ← pc.getParameter B 1
  let linConst ← pc.getParameter B 2
  return (threshCalc (trigConst *. (x -. thresh)) linConst, pc.incrementIndex 1 3 0 1 1)

/-- `device_VerySpecialEpisodeTrigThresholdUpper` (`src/PDFs/basic/TrigThresholdPdf.cu:38-55`). -/
def devTrigUpper2 : Dev F := fun B pc e => do
  let x ← readObs B pc e 0
  let y ← readObs B pc e 1
  let thresh ← pc.getParameter B 0
  let trigConst ← pc.getParameter B 1
  let linConst ← pc.getParameter B 2
  let p3 ← pc.getParameter B 3
  let z := p3 -. x -. y
  return (threshCalc (trigConst *. (thresh -. z)) linConst, pc.incrementIndex 1 4 0 2 1)

/-- `device_VerySpecialEpisodeTrigThresholdLower` (`src/PDFs/basic/TrigThresholdPdf.cu:57-78`). -/
def devTrigLower2 : Dev F := fun B pc e => do
  let x ← readObs B pc e 0
  let y ← readObs B pc e 1
  let thresh ← pc.getParameter B 0
  let trigConst ← pc.getParameter B 1
  let linConst ← pc.getParameter B 2
  let p3 ← pc.getParameter B 3
  let z := p3 -. x -. y
  return (threshCalc (trigConst *. (z -. thresh)) linConst, pc.incrementIndex 1 4 0 2 1)

/-- `device_Voigtian` (`src/PDFs/basic/VoigtianPdf.cu:278-324`). -/
def devVoigtian : Dev F := fun B pc e => do
  let x ← readObs B pc e 0
  let m ← pc.getParameter B 0
  let w ← pc.getParameter B 1
  let s ← pc.getParameter B 2
  if FpMath.eq (lit 0) s && FpMath.eq (lit 0) w then return (lit 1, pc.incrementIndex 1 3 0 1 1)
  else
    let arg := x -. m
    if FpMath.eq (lit 0) s then
      return (lit 1 /. (arg *. arg +. lit (1/4) *. w *. w), pc.incrementIndex 1 3 0 1 1)
    else
      let coef := lit (-1/2) /. (s *. s)
      if FpMath.eq (lit 0) w then return (exp (coef *. arg *. arg), pc.incrementIndex 1 3 0 1 1)
      else
        let c := lit (707106781187/1000000000000)
        let c := c /. s
        let a := lit (1/2) *. c *. w
        let u := c *. arg
        let v := faddeeva u a
        return (c *. lit (5641895835477563/10000000000000000) *. v.1, pc.incrementIndex 1 3 0 1 1)

/-- The loop with `break` of `device_VarBinTransform1D`
(`src/PDFs/utilities/VariableBinTransform1DPdf.cu:17-22`). -/
def varBinLoop (B : Bufs F) (pc : Cursor) (v : F) : Nat → Nat → Nat → Option Nat
  | 0, _, ret => some ret
  | rem + 1, i, ret => do
    let lowerLimit ← B.con[pc.con + i + 2]?
    if FpMath.lt v lowerLimit then return ret
    else varBinLoop B pc v rem (i + 1) (ret + 1)

/-- `device_VarBinTransform1D` (`src/PDFs/utilities/VariableBinTransform1DPdf.cu:6-25`).  It never
moves the cursor. -/
def devVarBin : Dev F := fun B pc e => do
  let id ← B.obs[pc.obs + 1]?
  let obsValue ← e.read id
  let obsValue := if FpMath.lt obsValue (lit 0) then FpMath.neg obsValue else obsValue
  let numLimits ← B.con[pc.con + 1]?
  let ret ← varBinLoop B pc obsValue (toInt numLimits).toNat 0 0
  return (ofNat ret, pc)

/-- `inDalitz` (`src/PDFs/physics/DalitzPlotHelpers.cu:14-59`). -/
def inDalitz (m12 m13 bigM dm1 dm2 dm3 : F) : Bool :=
  let dm1pdm2 := dm1 +. dm2
  let bigMmdm3 := bigM -. dm3
  let bigMmdm1 := bigM -. dm1
  let m23 := bigM *. bigM +. dm1 *. dm1 +. dm2 *. dm2 +. dm3 *. dm3 -. m12 -. m13
  if FpMath.lt m23 (lit 0) || gt m23 (bigMmdm1 *. bigMmdm1) then false
  else
    let m12less := !FpMath.lt m12 (dm1pdm2 *. dm1pdm2)
    let m12grea := !gt m12 (bigMmdm3 *. bigMmdm3)
    let sqrtM12 := sqrt m12
    let dm11 := dm1 *. dm1
    let dm22 := dm2 *. dm2
    let dm33 := dm3 *. dm3
    let e1star := lit (1/2) *. (m12 -. dm22 +. dm11) /. sqrtM12
    let e3star := lit (1/2) *. (bigM *. bigM -. m12 -. dm33) /. sqrtM12
    let rte1mdm11 := sqrt (e1star *. e1star -. dm11)
    let rte3mdm33 := sqrt (e3star *. e3star -. dm33)
    let minimum := (e1star +. e3star) *. (e1star +. e3star)
      -. (rte1mdm11 +. rte3mdm33) *. (rte1mdm11 +. rte3mdm33)
    let m13less := !FpMath.lt m13 minimum
    let maximum := (e1star +. e3star) *. (e1star +. e3star)
      -. (rte1mdm11 -. rte3mdm33) *. (rte1mdm11 -. rte3mdm33)
    let m13grea := !gt m13 maximum
    m12less && m12grea && m13less && m13grea

/-- `device_DalitzVeto` (`src/PDFs/physics/DalitzVetoPdf.cu:7-38`); `PAIR_12 = 0`, `PAIR_13 = 1`,
`PAIR_23 = 2` (`include/goofit/PDFs/physics/DalitzPlotHelpers.h`). -/
def devDalitzVeto : Dev F := fun B pc e => do
  let idx1 ← pc.getObservable B 0
  let idx2 ← pc.getObservable B 1
  let motherM ← pc.getParameter B 0
  let d1m ← pc.getParameter B 1
  let d2m ← pc.getParameter B 2
  let d3m ← pc.getParameter B 3
  let x ← e.read idx1
  let y ← e.read idx2
  let massSum := motherM *. motherM +. d1m *. d1m +. d2m *. d2m +. d3m *. d3m
  let z := massSum -. x -. y
  let ret := if inDalitz x y motherM d1m d2m d3m then lit 1 else lit 0
  let numVetos ← pc.getConstant B 0
  let ret ← forUpto (fun i ret => do
    let varIndex ← pc.getConstant B (1 + i)
    let minimum ← pc.getParameter B (4 + i * 2)
    let maximum ← pc.getParameter B (4 + i * 2 + 1)
    let cur := if toInt varIndex = 0 then x else if toInt varIndex = 1 then y else z
    return ret *. (if FpMath.lt cur maximum && gt cur minimum then lit 0 else lit 1))
    (toInt numVetos).toNat 0 ret
  let pc ← pc.next B
  return (ret, pc)

/-- `thetaprime` (`src/PDFs/physics/SquareDalitzEffPdf.cu:8-28`). -/
def thetaprime (m12 m13 mD mKS0 mh1 mh2 : F) : F :=
  let m23 := mD *. mD +. mKS0 *. mKS0 +. mh1 *. mh1 +. mh2 *. mh2 -. m12 -. m13
  if FpMath.lt m23 (lit 0) then lit 0
  else
    let num := m23 *. (m12 -. m13)
    let lambda1 := (m23 -. mh1 *. mh1 +. mh2 *. mh2) *. (m23 -. mh1 *. mh1 +. mh2 *. mh2)
      -. lit 4 *. m23 *. mh2 *. mh2
    let lambda2 := (mD *. mD -. mKS0 *. mKS0 -. m23) *. (mD *. mD -. mKS0 *. mKS0 -. m23)
      -. lit 4 *. m23 *. mKS0 *. mKS0
    let denum := sqrt lambda1 *. sqrt lambda2
    if FpMath.lt lambda1 (lit 0) || FpMath.lt lambda2 (lit 0) then lit (-99)
    else if FpMath.eq denum (lit 0) then lit (-99) else num /. denum

/-- The value computed by `device_SquareDalitzEff` from its coefficients
(`src/PDFs/physics/SquareDalitzEffPdf.cu:49-73`). -/
def squareDalitzValue (x y c0 c1 c2 c3 c4 c5 c6 c7 : F) : F :=
  let mD := lit (186483/100000)
  let mKS0 := lit (497611/1000000)
  let mh1 := lit (13957/100000)
  let mh2 := lit (13957/100000)
  if !inDalitz x y mD mKS0 mh1 mh2 then lit 0
  else
    let thetap := thetaprime x y mD mKS0 mh1 mh2
    if gt thetap (lit 1) || FpMath.lt thetap (lit (-1)) then lit 0
    else
      let m23 := mD *. mD +. mKS0 *. mKS0 +. mh1 *. mh1 +. mh2 *. mh2 -. x -. y
      if FpMath.lt m23 (lit 0) || gt m23 (lit 2) then lit 0
      else c0 *. m23 *. m23 +. c1 *. m23 +. c2 *. m23 *. thetap *. thetap +. c3 *. thetap *. thetap
        +. c4 *. thetap +. c5 +. c6 *. m23 *. m23 *. m23 *. m23 +. c7 *. m23 *. m23 *. m23

/-- `device_SquareDalitzEff` (`src/PDFs/physics/SquareDalitzEffPdf.cu:30-73`). -/
def devSquareDalitz : Dev F := fun B pc e => do
  let idx ← pc.getObservable B 0
  let idy ← pc.getObservable B 1
  let x ← e.read idx
  let y ← e.read idy
  let c0 ← pc.getParameter B 0
  let c1 ← pc.getParameter B 1
  let c2 ← pc.getParameter B 2
  let c3 ← pc.getParameter B 3
  let c4 ← pc.getParameter B 4
  let c5 ← pc.getParameter B 5
  let c6 ← pc.getParameter B 6
  let c7 ← pc.getParameter B 7
  return (squareDalitzValue x y c0 c1 c2 c3 c4 c5 c6 c7, pc.incrementIndex 1 8 0 2 1)

/-- The device function behind each name (`src/PDFs/basic/*.cu`, cited at each function). -/
def basicDev (T : HistTables F) : BasicLeaf → Dev F
  | .argusUpper => devArgusUpper
  | .argusLower => devArgusLower
  | .bw => devBW
  | .bernstein => devBernstein
  | .bifurGauss => devBifurGauss
  | .binTransform => devBinTransform
  | .corrGaussian => devCorrGaussian
  | .crystalBall => devCrystalBall
  | .expGaus => devExpGaus
  | .exp => devExp
  | .expOffset => devExpOffset
  | .expPoly => devExpPoly
  | .expPolyOffset => devExpPolyOffset
  | .gaussian => devGaussian
  | .interHist => devInterHist T
  | .johnsonSU => devJohnsonSU
  | .kinLimitBW => devKinLimitBW
  | .landau => devLandau
  | .novosibirsk => devNovosibirsk
  | .polynomial => devPolynomial
  | .offsetPolynomial => devOffsetPolynomial
  | .multiPolynomial => devMultiPolynomial
  | .scaledGaussian => devScaledGaussian
  | .evalHistogram => devEvalHistogram T
  | .step => devStep
  | .trigUpper => devTrigUpper
  | .trigLower => devTrigLower
  | .trigUpper2 => devTrigUpper2
  | .trigLower2 => devTrigLower2
  | .voigtian => devVoigtian
  | .varBin => devVarBin
  | .dalitzVeto => devDalitzVeto
  | .squareDalitz => devSquareDalitz

end device
end GooFit
