import Verif.Model.Basic
import Verif.Model.TreeHost
/-!
# Constructors of the basic PDFs

What each constructor registers: parameters, constants and observables, in order.  Variables and
observables are identities; `registerObservable` drops an observable that is already registered.
-/
set_option autoImplicit false
namespace GooFit

/-- One veto of a `DalitzVetoPdf` (`include/goofit/PDFs/physics/DalitzVetoPdf.h`, `VetoInfo`):
`pair` is 0 for `PAIR_12`, 1 for `PAIR_13`, 2 for `PAIR_23`. -/
structure Veto where
  minimum : Nat
  maximum : Nat
  pair : Nat

/-- One axis of a binned transform or histogram: observable, lower limit, bin size, number of
bins (`src/PDFs/basic/SmoothHistogramPdf.cu:124-134`, `BinTransformPdf.cu:33-55`). -/
structure Axis (F : Type) where
  obs : Nat
  lower : F
  size : F
  bins : Nat

/-- A constructor call with its arguments.  The optional arguments that the shorter constructors
fill in with a fresh variable (`ArgusPdf.cu:52-53`, `CrystalBallPdf.cu:43-44`) are written out. -/
inductive BasicCall (F : Type) where
  /-- `src/PDFs/basic/ArgusPdf.cu:55-63` -/
  | argus (x m0 slope : Nat) (upper : Bool) (power : Nat)
  /-- `src/PDFs/basic/BWPdf.cu:22-27` -/
  | bw (x mean width : Nat)
  /-- `src/PDFs/basic/BernsteinPdf.cu:67-88`, with the limits of the observable -/
  | bernstein (x : Nat) (lower upper : F) (coeffs : List Nat) (mindeg : Nat)
  /-- `src/PDFs/basic/BifurGaussPdf.cu:28-33` -/
  | bifurGauss (x mean sigmaL sigmaR : Nat)
  /-- `src/PDFs/basic/BinTransformPdf.cu:33-55`; simplification: the four vectors have the same
  length (a shorter one would be read out of bounds) -/
  | binTransform (axes : List (Axis F))
  /-- `src/PDFs/basic/CorrGaussianPdf.cu:38-50` -/
  | corrGaussian (x y mean1 sigma1 mean2 sigma2 correlation : Nat)
  /-- `src/PDFs/basic/CrystalBallPdf.cu:46-52` -/
  | crystalBall (x mean sigma alpha power : Nat)
  /-- `src/PDFs/basic/ExpGausPdf.cu:28-33` -/
  | expGaus (x mean sigma tau : Nat)
  /-- `src/PDFs/basic/ExpPdf.cu:74-81` -/
  | exp (x alpha : Nat)
  /-- `src/PDFs/basic/ExpPdf.cu:83-89` -/
  | expOffset (x alpha offset : Nat)
  /-- `src/PDFs/basic/ExpPdf.cu:91-104` -/
  | expPoly (x : Nat) (weights : List Nat)
  /-- `src/PDFs/basic/ExpPdf.cu:106-119` -/
  | expPolyOffset (x : Nat) (weights : List Nat) (offset : Nat)
  /-- `src/PDFs/basic/GaussianPdf.cu:21-26` -/
  | gaussian (x mean sigma : Nat)
  /-- `src/PDFs/basic/InterHistPdf.cu:135-180` (its arguments `params` and `obses` are never used), with the number the histogram gets -/
  | interHist (number : Nat) (axes : List (Axis F))
  /-- `src/PDFs/basic/JohnsonSUPdf.cu:28-34` -/
  | johnsonSU (x mean sigma gamma delta : Nat)
  /-- `src/PDFs/basic/KinLimitBWPdf.cu:58-71`, with the masses, which `setMasses` may change -/
  | kinLimitBW (x mean width : Nat) (bigM smallM : F)
  /-- `src/PDFs/basic/LandauPdf.cu:84-89` -/
  | landau (x mpv sigma : Nat)
  /-- `src/PDFs/basic/NovosibirskPdf.cu:44-49` -/
  | novosibirsk (x mean sigma tail : Nat)
  /-- `src/PDFs/basic/PolynomialPdf.cu:125-137` -/
  | polynomial (x : Nat) (weights : List Nat) (lowestDegree : Nat)
  /-- `src/PDFs/basic/PolynomialPdf.cu:139-154` -/
  | offsetPolynomial (x : Nat) (weights : List Nat) (x0 lowestDegree : Nat)
  /-- `src/PDFs/basic/PolynomialPdf.cu:157-210`; the dummy variables it creates are numbered from
  `fresh` -/
  | multiPolynomial (obses coeffs offsets : List Nat) (maxDegree fresh : Nat)
  /-- `src/PDFs/basic/ScaledGaussianPdf.cu:24-30` -/
  | scaledGaussian (x mean sigma delta epsilon : Nat)
  /-- `src/PDFs/basic/SmoothHistogramPdf.cu:113-154`, with the number the histogram gets -/
  | smoothHistogram (number : Nat) (axes : List (Axis F)) (smoothing : Nat)
  /-- `src/PDFs/basic/StepPdf.cu:42-50` -/
  | step (x x0 : Nat) (up : Int)
  /-- `src/PDFs/basic/TrigThresholdPdf.cu:87-96` -/
  | trigThreshold (x thresh trigConst linConst : Nat) (upper : Bool)
  /-- `src/PDFs/basic/TrigThresholdPdf.cu:98-113` -/
  | trigThreshold2 (x y thresh trigConst linConst massConstant : Nat) (upper : Bool)
  /-- `src/PDFs/basic/VoigtianPdf.cu:328-333` -/
  | voigtian (x m s w : Nat)
  /-- `src/PDFs/utilities/VariableBinTransform1DPdf.cu:31-42` -/
  | varBin (x : Nat) (limits : List F)
  /-- `src/PDFs/physics/DalitzVetoPdf.cu:42-62` -/
  | dalitzVeto (x y motherM d1m d2m d3m : Nat) (vetos : List Veto)
  /-- `src/PDFs/physics/SquareDalitzEffPdf.cu:77-93` -/
  | squareDalitz (m12 m13 c0 c1 c2 c3 c4 c5 c6 c7 : Nat)

/-- `observablesList` after `registerObservable` of each element of a list
(`src/goofit/PdfBase.cpp:102-107`): an observable already there is dropped. -/
def registerAll (os : List Nat) : List Nat :=
  os.foldl (fun l o => if o ∈ l then l else l ++ [o]) []

/-- `numParameters` of the multivariate polynomial's constructor
(`src/PDFs/basic/PolynomialPdf.cu:163, 171-179`): the product of `maxDegree + 1 + i` over the
observables passed, then divided by the number of registered observables, ..., 3, 2.
Simplification: no 32-bit overflow. -/
def numCoefficients (passed registered maxDegree : Nat) : Nat :=
  let product := (List.range passed).foldl (fun p i => p * (maxDegree + 1 + i)) 1
  ((List.range (registered - 1)).map (fun k => registered - k)).foldl (fun p i => p / i) product

/-- `while(n > l.size()) l.push_back(new dummy)` (`src/PDFs/basic/PolynomialPdf.cu:181-197`). -/
def padWith (l : List Nat) (n fresh : Nat) : List Nat :=
  l ++ (List.range (n - l.length)).map (fresh + ·)

section
variable {F : Type} [FpMath F]
open FpOps

/-- Which device function is registered (at the lines cited in `BasicCall`). -/
def BasicCall.leaf : BasicCall F → BasicLeaf
  | .argus _ _ _ upper _ => if upper then .argusUpper else .argusLower
  | .bw .. => .bw
  | .bernstein .. => .bernstein
  | .bifurGauss .. => .bifurGauss
  | .binTransform .. => .binTransform
  | .corrGaussian .. => .corrGaussian
  | .crystalBall .. => .crystalBall
  | .expGaus .. => .expGaus
  | .exp .. => .exp
  | .expOffset .. => .expOffset
  | .expPoly .. => .expPoly
  | .expPolyOffset .. => .expPolyOffset
  | .gaussian .. => .gaussian
  | .interHist .. => .interHist
  | .johnsonSU .. => .johnsonSU
  | .kinLimitBW .. => .kinLimitBW
  | .landau .. => .landau
  | .novosibirsk .. => .novosibirsk
  | .polynomial .. => .polynomial
  | .offsetPolynomial .. => .offsetPolynomial
  | .multiPolynomial .. => .multiPolynomial
  | .scaledGaussian .. => .scaledGaussian
  | .smoothHistogram .. => .evalHistogram
  | .step .. => .step
  | .trigThreshold _ _ _ _ upper => if upper then .trigUpper else .trigLower
  | .trigThreshold2 _ _ _ _ _ _ upper => if upper then .trigUpper2 else .trigLower2
  | .voigtian .. => .voigtian
  | .varBin .. => .varBin
  | .dalitzVeto .. => .dalitzVeto
  | .squareDalitz .. => .squareDalitz

/-- The observables handed to `registerObservable`, in order (at the lines cited in `BasicCall`). -/
def BasicCall.obsArgs : BasicCall F → List Nat
  | .argus x _ _ _ _ => [x]
  | .bw x _ _ => [x]
  | .bernstein x _ _ _ _ => [x]
  | .bifurGauss x _ _ _ => [x]
  | .binTransform axes => axes.map Axis.obs
  | .corrGaussian x y _ _ _ _ _ => [x, y]
  | .crystalBall x _ _ _ _ => [x]
  | .expGaus x _ _ _ => [x]
  | .exp x _ => [x]
  | .expOffset x _ _ => [x]
  | .expPoly x _ => [x]
  | .expPolyOffset x _ _ => [x]
  | .gaussian x _ _ => [x]
  | .interHist _ axes => axes.map Axis.obs
  | .johnsonSU x _ _ _ _ => [x]
  | .kinLimitBW x _ _ _ _ => [x]
  | .landau x _ _ => [x]
  | .novosibirsk x _ _ _ => [x]
  | .polynomial x _ _ => [x]
  | .offsetPolynomial x _ _ _ => [x]
  | .multiPolynomial obses _ _ _ _ => obses
  | .scaledGaussian x _ _ _ _ => [x]
  | .smoothHistogram _ axes _ => axes.map Axis.obs
  | .step x _ _ => [x]
  | .trigThreshold x _ _ _ _ => [x]
  | .trigThreshold2 x y _ _ _ _ _ => [x, y]
  | .voigtian x _ _ _ => [x]
  | .varBin x _ => [x]
  | .dalitzVeto x y _ _ _ _ _ => [x, y]
  | .squareDalitz m12 m13 _ _ _ _ _ _ _ _ => [m12, m13]

/-- The variables handed to `registerParameter`, in order (at the lines cited in `BasicCall`). -/
def BasicCall.params : BasicCall F → List Nat
  | .argus _ m0 slope _ power => [m0, slope, power]
  | .bw _ mean width => [mean, width]
  | .bernstein _ _ _ coeffs _ => coeffs
  | .bifurGauss _ mean sigmaL sigmaR => [mean, sigmaL, sigmaR]
  | .binTransform _ => []
  | .corrGaussian _ _ mean1 sigma1 mean2 sigma2 correlation =>
    [mean1, sigma1, mean2, sigma2, correlation]
  | .crystalBall _ mean sigma alpha power => [mean, sigma, alpha, power]
  | .expGaus _ mean sigma tau => [mean, sigma, tau]
  | .exp _ alpha => [alpha]
  | .expOffset _ alpha offset => [offset, alpha]
  | .expPoly _ weights => weights
  | .expPolyOffset _ weights offset => offset :: weights
  | .gaussian _ mean sigma => [mean, sigma]
  | .interHist _ _ => []
  | .johnsonSU _ mean sigma gamma delta => [mean, sigma, gamma, delta]
  | .kinLimitBW _ mean width _ _ => [mean, width]
  | .landau _ mpv sigma => [mpv, sigma]
  | .novosibirsk _ mean sigma tail => [mean, sigma, tail]
  | .polynomial _ weights _ => weights
  | .offsetPolynomial _ weights x0 _ => weights ++ [x0]
  | .multiPolynomial obses coeffs offsets maxDegree fresh =>
    let numParameters := numCoefficients obses.length (registerAll obses).length maxDegree
    padWith offsets obses.length (fresh + numParameters) ++ padWith coeffs numParameters fresh
  | .scaledGaussian _ mean sigma delta epsilon => [mean, sigma, delta, epsilon]
  | .smoothHistogram _ _ smoothing => [smoothing]
  | .step _ x0 _ => [x0]
  | .trigThreshold _ thresh trigConst linConst _ => [thresh, trigConst, linConst]
  | .trigThreshold2 _ _ thresh trigConst linConst massConstant _ =>
    [thresh, trigConst, linConst, massConstant]
  | .voigtian _ m s w => [m, s, w]
  | .varBin _ _ => []
  | .dalitzVeto _ _ motherM d1m d2m d3m vetos =>
    [motherM, d1m, d2m, d3m] ++ vetos.flatMap (fun v => [v.minimum, v.maximum])
  | .squareDalitz _ _ c0 c1 c2 c3 c4 c5 c6 c7 => [c0, c1, c2, c3, c4, c5, c6, c7]

/-- The values handed to `registerConstant`, in order (at the lines cited in `BasicCall`). -/
def BasicCall.consts : BasicCall F → List F
  | .bernstein _ lower upper coeffs mindeg =>
    [ofNat coeffs.length, lower, upper, ofNat mindeg]
  | .binTransform axes => axes.flatMap (fun a => [a.lower, a.size, ofNat a.bins])
  | .interHist number axes =>
    [ofNat number, ofNat axes.length] ++
      axes.flatMap (fun a => [ofInt obsCode, a.lower, a.size, ofNat a.bins])
  | .kinLimitBW _ _ _ bigM smallM => [bigM, smallM]
  | .polynomial _ _ lowestDegree => [ofNat lowestDegree]
  | .offsetPolynomial _ _ _ lowestDegree => [ofNat lowestDegree]
  | .multiPolynomial obses _ _ maxDegree _ =>
    ofNat maxDegree :: (List.range obses.length).map (fun i => ofNat (maxDegree + 1 + i))
  | .smoothHistogram number axes _ =>
    [ofNat axes.length, ofNat number, ofNat axes.length] ++
      axes.flatMap (fun a => [ofNat a.bins, a.lower, a.size])
  | .step _ _ up => [ofInt up]
  | .varBin _ limits => ofNat limits.length :: limits
  | .dalitzVeto _ _ _ _ _ _ vetos => ofNat vetos.length :: vetos.map (fun v => ofNat v.pair)
  | _ => []

/-- A library whose basic PDFs are GooFit's own; the rest is taken from `base` (no counterpart in the code). -/
def basicLib (base : Lib F) (T : HistTables F) : Lib F :=
  { base with Leaf := BasicLeaf, dev := basicDev T }

/-- The object a constructor call builds (`PdfBase` constructor `include/goofit/PdfBase.h:145-158`,
then the constructor body): observables registered one by one, parameters and constants pushed. -/
def BasicCall.node (base : Lib F) (T : HistTables F) (oid : Nat) (norm : F) (a : BasicCall F) :
    Node (basicLib base T) :=
  a.obsArgs.foldl Node.registerObservable
    { oid := oid, fn := .leaf a.leaf, params := a.params, consts := a.consts, obs := [],
      norm := norm }

end
end GooFit
