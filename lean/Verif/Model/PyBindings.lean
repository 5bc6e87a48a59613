import Verif.Model.PyBind

/-!
# The signatures bound in `python/`

One definition for each bound class, listing its constructors in the order they are bound, and one for
each bound member function with keywords.  `GOOFIT_KMATRIX` is taken to be set.
-/

set_option autoImplicit false

namespace GooFit.PyBind

/-- The constructors of `ArgusPdf`: `python/PDFs/basic/ArgusPdf.cpp:11-17`; `python/PDFs/basic/ArgusPdf.cpp:19-26`. -/
def pyArgusPdf : List Sig := [
  [ ⟨some "n", .str, none⟩,
    ⟨some "x", (.inst .observable), none⟩,
    ⟨some "m", (.inst .variable), none⟩,
    ⟨some "s", (.inst .variable), none⟩,
    ⟨some "upper", .bool, none⟩ ],
  [ ⟨some "n", .str, none⟩,
    ⟨some "x", (.inst .observable), none⟩,
    ⟨some "m", (.inst .variable), none⟩,
    ⟨some "s", (.inst .variable), none⟩,
    ⟨some "upper", .bool, none⟩,
    ⟨some "power", (.inst .variable), none⟩ ] ]

/-- The constructors of `BWPdf`: `python/PDFs/basic/BWPdf.cpp:11-17`. -/
def pyBWPdf : List Sig := [
  [ ⟨some "name", .str, none⟩,
    ⟨some "x", (.inst .observable), none⟩,
    ⟨some "mean", (.inst .variable), none⟩,
    ⟨some "Gamma", (.inst .variable), none⟩ ] ]

/-- The constructors of `BernsteinPdf`: `python/PDFs/basic/BernsteinPdf.cpp:13-19`. -/
def pyBernsteinPdf : List Sig := [
  [ ⟨some "name", .str, none⟩,
    ⟨some "obs", (.inst .observable), none⟩,
    ⟨some "coeffs", (.vecInst .variable), none⟩,
    ⟨some "mindeg", .int, none⟩ ] ]

/-- The constructors of `BifurGaussPdf`: `python/PDFs/basic/BifurGaussPdf.cpp:11-18`. -/
def pyBifurGaussPdf : List Sig := [
  [ ⟨some "name", .str, none⟩,
    ⟨some "x", (.inst .observable), none⟩,
    ⟨some "m", (.inst .variable), none⟩,
    ⟨some "sL", (.inst .variable), none⟩,
    ⟨some "sR", (.inst .variable), none⟩ ] ]

/-- The constructors of `BinTransformPdf`: `python/PDFs/basic/BinTransformPdf.cpp:13-23`. -/
def pyBinTransformPdf : List Sig := [
  [ ⟨some "name", .str, none⟩,
    ⟨some "obses", (.vecInst .observable), none⟩,
    ⟨some "limits", .vecFlt, none⟩,
    ⟨some "binSizes", .vecFlt, none⟩,
    ⟨some "numBins", .vecInt, none⟩ ] ]

/-- The constructors of `CorrGaussianPdf`: `python/PDFs/basic/CorrGaussianPdf.cpp:11-22`. -/
def pyCorrGaussianPdf : List Sig := [
  [ ⟨some "name", .str, none⟩,
    ⟨some "x", (.inst .observable), none⟩,
    ⟨some "y", (.inst .observable), none⟩,
    ⟨some "mean1", (.inst .variable), none⟩,
    ⟨some "sigma1", (.inst .variable), none⟩,
    ⟨some "mean2", (.inst .variable), none⟩,
    ⟨some "sigma2", (.inst .variable), none⟩,
    ⟨some "correlation", (.inst .variable), none⟩ ] ]

/-- The constructors of `CrystalBallPdf`: `python/PDFs/basic/CrystalBallPdf.cpp:11-17`; `python/PDFs/basic/CrystalBallPdf.cpp:19-26`. -/
def pyCrystalBallPdf : List Sig := [
  [ ⟨some "name", .str, none⟩,
    ⟨some "x", (.inst .observable), none⟩,
    ⟨some "m", (.inst .variable), none⟩,
    ⟨some "s", (.inst .variable), none⟩,
    ⟨some "a", (.inst .variable), none⟩ ],
  [ ⟨some "name", .str, none⟩,
    ⟨some "x", (.inst .observable), none⟩,
    ⟨some "m", (.inst .variable), none⟩,
    ⟨some "s", (.inst .variable), none⟩,
    ⟨some "a", (.inst .variable), none⟩,
    ⟨some "power", (.inst .variable), none⟩ ] ]

/-- The constructors of `ExpGausPdf`: `python/PDFs/basic/ExpGausPdf.cpp:11-17`. -/
def pyExpGausPdf : List Sig := [
  [ ⟨some "name", .str, none⟩,
    ⟨some "x", (.inst .observable), none⟩,
    ⟨some "m", (.inst .variable), none⟩,
    ⟨some "s", (.inst .variable), none⟩,
    ⟨some "t", (.inst .variable), none⟩ ] ]

/-- The constructors of `ExpPdf`: `python/PDFs/basic/ExpPdf.cpp:13-13`; `python/PDFs/basic/ExpPdf.cpp:15-19`; `python/PDFs/basic/ExpPdf.cpp:21-26`; `python/PDFs/basic/ExpPdf.cpp:28-33`. -/
def pyExpPdf : List Sig := [
  [ ⟨some "name", .str, none⟩,
    ⟨some "x", (.inst .observable), none⟩,
    ⟨some "alpha", (.inst .variable), none⟩ ],
  [ ⟨some "name", .str, none⟩,
    ⟨some "x", (.inst .observable), none⟩,
    ⟨some "coefs", (.vecInst .variable), none⟩ ],
  [ ⟨some "name", .str, none⟩,
    ⟨some "x", (.inst .observable), none⟩,
    ⟨some "alpha", (.inst .variable), none⟩,
    ⟨some "offset", (.inst .variable), none⟩ ],
  [ ⟨some "name", .str, none⟩,
    ⟨some "x", (.inst .observable), none⟩,
    ⟨some "coefs", (.vecInst .variable), none⟩,
    ⟨some "offset", (.inst .variable), none⟩ ] ]

/-- The constructors of `GaussianPdf`: `python/PDFs/basic/GaussianPdf.cpp:11-16`. -/
def pyGaussianPdf : List Sig := [
  [ ⟨some "name", .str, none⟩,
    ⟨some "x", (.inst .observable), none⟩,
    ⟨some "m", (.inst .variable), none⟩,
    ⟨some "s", (.inst .variable), none⟩ ] ]

/-- The constructors of `InterHistPdf`: `python/PDFs/basic/InterHistPdf.cpp:13-19`. -/
def pyInterHistPdf : List Sig := [
  [ ⟨some "name", .str, none⟩,
    ⟨some "x", (.ptr .binnedDataSet), none⟩,
    ⟨some "params", (.vecInst .variable), none⟩,
    ⟨some "obses", (.vecInst .observable), none⟩ ] ]

/-- The constructors of `JohnsonSUPdf`: `python/PDFs/basic/JohnsonSUPdf.cpp:11-18`. -/
def pyJohnsonSUPdf : List Sig := [
  [ ⟨some "name", .str, none⟩,
    ⟨some "x", (.inst .observable), none⟩,
    ⟨some "m", (.inst .variable), none⟩,
    ⟨some "s", (.inst .variable), none⟩,
    ⟨some "g", (.inst .variable), none⟩,
    ⟨some "d", (.inst .variable), none⟩ ] ]

/-- The constructors of `KinLimitBWPdf`: `python/PDFs/basic/KinLimitBWPdf.cpp:11-16`. -/
def pyKinLimitBWPdf : List Sig := [
  [ ⟨some "name", .str, none⟩,
    ⟨some "x", (.inst .observable), none⟩,
    ⟨some "m", (.inst .variable), none⟩,
    ⟨some "s", (.inst .variable), none⟩ ] ]

/-- The constructors of `LandauPdf`: `python/PDFs/basic/LandauPdf.cpp:11-16`. -/
def pyLandauPdf : List Sig := [
  [ ⟨some "name", .str, none⟩,
    ⟨some "x", (.inst .observable), none⟩,
    ⟨some "mpv", (.inst .variable), none⟩,
    ⟨some "sigma", (.inst .variable), none⟩ ] ]

/-- The constructors of `NovosibirskPdf`: `python/PDFs/basic/NovosibirskPdf.cpp:11-17`. -/
def pyNovosibirskPdf : List Sig := [
  [ ⟨some "name", .str, none⟩,
    ⟨some "x", (.inst .observable), none⟩,
    ⟨some "m", (.inst .variable), none⟩,
    ⟨some "s", (.inst .variable), none⟩,
    ⟨some "t", (.inst .variable), none⟩ ] ]

/-- The constructors of `PolynomialPdf`: `python/PDFs/basic/PolynomialPdf.cpp:13-19`; `python/PDFs/basic/PolynomialPdf.cpp:20-25`; `python/PDFs/basic/PolynomialPdf.cpp:26-36`. -/
def pyPolynomialPdf : List Sig := [
  [ ⟨some "name", .str, none⟩,
    ⟨some "x", (.inst .observable), none⟩,
    ⟨some "weights", (.vecInst .variable), none⟩,
    ⟨some "x0", (.inst .variable), none⟩,
    ⟨some "lowestDegree", .uint, (some (.atom (.int 0)))⟩ ],
  [ ⟨some "name", .str, none⟩,
    ⟨some "x", (.inst .observable), none⟩,
    ⟨some "weights", (.vecInst .variable), none⟩,
    ⟨some "lowestDegree", .uint, (some (.atom (.int 0)))⟩ ],
  [ ⟨some "name", .str, none⟩,
    ⟨some "obses", (.vecInst .observable), none⟩,
    ⟨some "coeffs", (.vecInst .variable), none⟩,
    ⟨some "offsets", (.vecInst .variable), none⟩,
    ⟨some "maxDegree", .uint, (some (.atom (.int 0)))⟩ ] ]

/-- The constructors of `ScaledGaussianPdf`: `python/PDFs/basic/ScaledGaussianPdf.cpp:11-18`. -/
def pyScaledGaussianPdf : List Sig := [
  [ ⟨some "name", .str, none⟩,
    ⟨some "x", (.inst .observable), none⟩,
    ⟨some "m", (.inst .variable), none⟩,
    ⟨some "s", (.inst .variable), none⟩,
    ⟨some "d", (.inst .variable), none⟩,
    ⟨some "e", (.inst .variable), none⟩ ] ]

/-- The constructors of `SmoothHistogramPdf`: `python/PDFs/basic/SmoothHistogramPdf.cpp:12-17`. -/
def pySmoothHistogramPdf : List Sig := [
  [ ⟨some "name", .str, none⟩,
    ⟨some "x", (.ptr .binnedDataSet), none⟩,
    ⟨some "smoothing", (.inst .variable), none⟩ ] ]

/-- The constructors of `StepPdf`: `python/PDFs/basic/StepPdf.cpp:11-11`. -/
def pyStepPdf : List Sig := [
  [ ⟨some "name", .str, none⟩,
    ⟨some "x", (.inst .observable), none⟩,
    ⟨some "x0", (.inst .variable), none⟩,
    ⟨some "Up", .int, none⟩ ] ]

/-- The constructors of `TrigThresholdPdf`: `python/PDFs/basic/TrigThresholdPdf.cpp:11-18`; `python/PDFs/basic/TrigThresholdPdf.cpp:19-28`. -/
def pyTrigThresholdPdf : List Sig := [
  [ ⟨some "name", .str, none⟩,
    ⟨some "x", (.inst .observable), none⟩,
    ⟨some "thresh", (.inst .variable), none⟩,
    ⟨some "trigConst", (.inst .variable), none⟩,
    ⟨some "linConst", (.inst .variable), none⟩,
    ⟨some "upper", .bool, (some (.atom (.bool true)))⟩ ],
  [ ⟨some "name", .str, none⟩,
    ⟨some "x", (.inst .observable), none⟩,
    ⟨some "y", (.inst .observable), none⟩,
    ⟨some "thresh", (.inst .variable), none⟩,
    ⟨some "trigConst", (.inst .variable), none⟩,
    ⟨some "linConst", (.inst .variable), none⟩,
    ⟨some "massConstant", (.inst .variable), none⟩,
    ⟨some "upper", .bool, none⟩ ] ]

/-- The constructors of `VoigtianPdf`: `python/PDFs/basic/VoigtianPdf.cpp:11-17`. -/
def pyVoigtianPdf : List Sig := [
  [ ⟨some "name", .str, none⟩,
    ⟨some "x", (.inst .observable), none⟩,
    ⟨some "m", (.inst .variable), none⟩,
    ⟨some "s", (.inst .variable), none⟩,
    ⟨some "w", (.inst .variable), none⟩ ] ]

/-- The constructors of `AddPdf`: `python/PDFs/combine/AddPdf.cpp:13-18`; `python/PDFs/combine/AddPdf.cpp:20-27`. -/
def pyAddPdf : List Sig := [
  [ ⟨some "name", .str, none⟩,
    ⟨some "weights", (.vecInst .variable), none⟩,
    ⟨some "comps", (.vecPtr .pdfBase), none⟩ ],
  [ ⟨some "name", .str, none⟩,
    ⟨some "frac1", (.inst .variable), none⟩,
    ⟨some "func1", (.ptr .pdfBase), none⟩,
    ⟨some "func2", (.ptr .pdfBase), none⟩ ] ]

/-- The constructors of `CompositePdf`: `python/PDFs/combine/CompositePdf.cpp:11-17`. -/
def pyCompositePdf : List Sig := [
  [ ⟨some "name", .str, none⟩,
    ⟨some "core", (.ptr .pdfBase), none⟩,
    ⟨some "shell", (.ptr .pdfBase), none⟩ ] ]

/-- The constructors of `ConvolutionPdf`: `python/PDFs/combine/ConvolutionPdf.cpp:11-18`; `python/PDFs/combine/ConvolutionPdf.cpp:19-27`. -/
def pyConvolutionPdf : List Sig := [
  [ ⟨some "name", .str, none⟩,
    ⟨some "x", (.inst .observable), none⟩,
    ⟨some "model", (.ptr .gooPdf), none⟩,
    ⟨some "resolution", (.ptr .gooPdf), none⟩ ],
  [ ⟨some "name", .str, none⟩,
    ⟨some "x", (.inst .observable), none⟩,
    ⟨some "model", (.ptr .gooPdf), none⟩,
    ⟨some "resolution", (.ptr .gooPdf), none⟩,
    ⟨some "numOthers", .uint, none⟩ ] ]

/-- The constructors of `EventWeightedAddPdf`: `python/PDFs/combine/EventWeightedAddPdf.cpp:13-18`. -/
def pyEventWeightedAddPdf : List Sig := [
  [ ⟨some "name", .str, none⟩,
    ⟨some "weights", (.vecInst .observable), none⟩,
    ⟨some "comps", (.vecPtr .pdfBase), none⟩ ] ]

/-- The constructors of `MappedPdf`: `python/PDFs/combine/MappedPdf.cpp:13-19`. -/
def pyMappedPdf : List Sig := [
  [ ⟨some "name", .str, none⟩,
    ⟨some "m", (.ptr .gooPdf), none⟩,
    ⟨some "t", (.vecPtr .gooPdf), none⟩ ] ]

/-- The constructors of `ProdPdf`: `python/PDFs/combine/ProdPdf.cpp:13-17`. -/
def pyProdPdf : List Sig := [
  [ ⟨some "name", .str, none⟩,
    ⟨some "comps", (.vecPtr .pdfBase), none⟩ ] ]

/-- The constructors of `Amp3Body`: `python/PDFs/physics/Amp3Body.cpp:16-25`. -/
def pyAmp3Body : List Sig := [
  [ ⟨some "name", .str, none⟩,
    ⟨some "m12", (.inst .observable), none⟩,
    ⟨some "m13", (.inst .observable), none⟩,
    ⟨some "eventNumber", (.inst .eventNumber), none⟩,
    ⟨some "decay", (.inst .decayInfo3), none⟩,
    ⟨some "eff", (.ptr .gooPdf), none⟩ ] ]

/-- The constructors of `Amp3Body_IS`: `python/PDFs/physics/Amp3Body_IS.cpp:13-22`. -/
def pyAmp3Body_IS : List Sig := [
  [ ⟨some "name", .str, none⟩,
    ⟨some "m12", (.inst .observable), none⟩,
    ⟨some "m13", (.inst .observable), none⟩,
    ⟨some "eventNumber", (.inst .eventNumber), none⟩,
    ⟨some "decay", (.inst .decayInfo3), none⟩,
    ⟨some "eff", (.ptr .gooPdf), none⟩ ] ]

/-- The constructors of `Amp3Body_TD`: `python/PDFs/physics/Amp3Body_TD.cpp:15-35`; `python/PDFs/physics/Amp3Body_TD.cpp:36-63`; `python/PDFs/physics/Amp3Body_TD.cpp:64-86`; `python/PDFs/physics/Amp3Body_TD.cpp:87-116`. -/
def pyAmp3Body_TD : List Sig := [
  [ ⟨some "name", .str, none⟩,
    ⟨some "dtime", (.inst .observable), none⟩,
    ⟨some "sigmat", (.inst .observable), none⟩,
    ⟨some "m12", (.inst .observable), none⟩,
    ⟨some "m13", (.inst .observable), none⟩,
    ⟨some "eventNumber", (.inst .eventNumber), none⟩,
    ⟨some "decay", (.inst .decayInfo3t), none⟩,
    ⟨some "r", (.ptr .mixingTimeResolution), none⟩,
    ⟨some "eff", (.ptr .gooPdf), none⟩ ],
  [ ⟨some "name", .str, none⟩,
    ⟨some "dtime", (.inst .observable), none⟩,
    ⟨some "sigmat", (.inst .observable), none⟩,
    ⟨some "m12", (.inst .observable), none⟩,
    ⟨some "m13", (.inst .observable), none⟩,
    ⟨some "eventNumber", (.inst .eventNumber), none⟩,
    ⟨some "decay", (.inst .decayInfo3t), none⟩,
    ⟨some "r", (.ptr .mixingTimeResolution), none⟩,
    ⟨some "eff", (.ptr .gooPdf), none⟩,
    ⟨some "mistag", (.ptr .observable), none⟩,
    ⟨some "charmtag", (.ptr .observable), none⟩ ],
  [ ⟨some "name", .str, none⟩,
    ⟨some "dtime", (.inst .observable), none⟩,
    ⟨some "sigmat", (.inst .observable), none⟩,
    ⟨some "m12", (.inst .observable), none⟩,
    ⟨some "m13", (.inst .observable), none⟩,
    ⟨some "eventNumber", (.inst .eventNumber), none⟩,
    ⟨some "decay", (.inst .decayInfo3t), none⟩,
    ⟨some "r", (.vecPtr .mixingTimeResolution), none⟩,
    ⟨some "eff", (.ptr .gooPdf), none⟩,
    ⟨some "md0", (.inst .observable), none⟩ ],
  [ ⟨some "name", .str, none⟩,
    ⟨some "dtime", (.inst .observable), none⟩,
    ⟨some "sigmat", (.inst .observable), none⟩,
    ⟨some "m12", (.inst .observable), none⟩,
    ⟨some "m13", (.inst .observable), none⟩,
    ⟨some "eventNumber", (.inst .eventNumber), none⟩,
    ⟨some "decay", (.inst .decayInfo3t), none⟩,
    ⟨some "r", (.vecPtr .mixingTimeResolution), none⟩,
    ⟨some "eff", (.ptr .gooPdf), none⟩,
    ⟨some "md0", (.inst .observable), none⟩,
    ⟨some "mistag", (.ptr .observable), none⟩,
    ⟨some "charmtag", (.ptr .observable), none⟩ ] ]

/-- The constructors of `Amp4Body`: `python/PDFs/physics/Amp4Body.cu:16-22`; `python/PDFs/physics/Amp4Body.cu:23-30`. -/
def pyAmp4Body : List Sig := [
  [ ⟨some "name", .str, none⟩,
    ⟨some "observables", (.vecInst .observable), none⟩,
    ⟨some "decay", (.inst .decayInfo4), none⟩,
    ⟨some "eff", (.ptr .gooPdf), none⟩ ],
  [ ⟨some "name", .str, none⟩,
    ⟨some "observables", (.vecInst .observable), none⟩,
    ⟨some "decay", (.inst .decayInfo4), none⟩,
    ⟨some "eff", (.ptr .gooPdf), none⟩,
    ⟨some "MCeventsNorm", .uint, none⟩ ] ]

/-- The constructors of `Amp4Body_TD`: `python/PDFs/physics/Amp4Body_TD.cu:20-39`. -/
def pyAmp4Body_TD : List Sig := [
  [ ⟨some "n", .str, none⟩,
    ⟨some "observables", (.vecInst .observable), none⟩,
    ⟨some "decay", (.inst .decayInfo4t), none⟩,
    ⟨some "r", (.ptr .mixingTimeResolution), none⟩,
    ⟨some "eff", (.ptr .gooPdf), none⟩,
    ⟨some "mistag", (.ptr .observable), (some (.atom .none))⟩,
    ⟨some "normSeed", .long, (some (.atom (.int 0)))⟩,
    ⟨some "MCeventsNorm", .uint, (some (.atom (.float 5000000)))⟩ ] ]

/-- The constructors of `DecayInfo3t`: `python/PDFs/physics/DalitzPlotHelpers.cpp:70-75`. -/
def pyDecayInfo3t : List Sig := [
  [ ⟨some "tau", (.inst .variable), none⟩,
    ⟨some "xmixing", (.inst .variable), none⟩,
    ⟨some "ymixing", (.inst .variable), none⟩,
    ⟨some "deltax", (.inst .variable), none⟩,
    ⟨some "deltay", (.inst .variable), none⟩ ] ]

/-- The constructors of `DecayInfo4t`: `python/PDFs/physics/DalitzPlotHelpers.cpp:100-100`. -/
def pyDecayInfo4t : List Sig := [
  [ ⟨some "tau", (.inst .variable), none⟩,
    ⟨some "xmixing", (.inst .variable), none⟩,
    ⟨some "ymixing", (.inst .variable), none⟩,
    ⟨some "SqWStoRSrate", (.inst .variable), none⟩ ] ]

/-- The constructors of `DalitzPlotter`: `python/PDFs/physics/DalitzPlotter.cpp:15-15`. -/
def pyDalitzPlotter : List Sig := [
  [ ⟨none, (.ptr .gooPdf), none⟩,
    ⟨none, (.ptr .amp3Body), none⟩ ] ]

/-- The constructors of `Lineshapes::One`: `python/PDFs/physics/Lineshapes.cpp:30-38`. -/
def pyLineshapes_One : List Sig := [
  [ ⟨some "name", .str, none⟩,
    ⟨some "mass", (.inst .variable), none⟩,
    ⟨some "width", (.inst .variable), none⟩,
    ⟨some "L", .uint, none⟩,
    ⟨some "Mpair", .uint, none⟩,
    ⟨some "FormFac", (.enum .ff), (some (.atom (.enumerator .ff 2)))⟩,
    ⟨some "radius", .flt, (some (.atom (.float (3/2))))⟩ ] ]

/-- The constructors of `Lineshapes::LASS`: `python/PDFs/physics/Lineshapes.cpp:41-49`. -/
def pyLineshapes_LASS : List Sig := [
  [ ⟨some "name", .str, none⟩,
    ⟨some "mass", (.inst .variable), none⟩,
    ⟨some "width", (.inst .variable), none⟩,
    ⟨some "L", .uint, none⟩,
    ⟨some "Mpair", .uint, none⟩,
    ⟨some "FormFac", (.enum .ff), (some (.atom (.enumerator .ff 2)))⟩,
    ⟨some "radius", .flt, (some (.atom (.float (3/2))))⟩ ] ]

/-- The constructors of `Lineshapes::kMatrix`: `python/PDFs/physics/Lineshapes.cpp:53-87`. -/
def pyLineshapes_kMatrix : List Sig := [
  [ ⟨some "name", .str, none⟩,
    ⟨some "a_r", (.inst .variable), none⟩,
    ⟨some "a_i", (.inst .variable), none⟩,
    ⟨some "sA0", (.inst .variable), none⟩,
    ⟨some "sA", (.inst .variable), none⟩,
    ⟨some "s0_prod", (.inst .variable), none⟩,
    ⟨some "s0_scatt", (.inst .variable), none⟩,
    ⟨some "beta_r", (.vecInst .variable), none⟩,
    ⟨some "beta_i", (.vecInst .variable), none⟩,
    ⟨some "f_prod_r", (.vecInst .variable), none⟩,
    ⟨some "f_prod_i", (.vecInst .variable), none⟩,
    ⟨some "fscat", (.vecInst .variable), none⟩,
    ⟨some "poles", (.vecInst .variable), none⟩,
    ⟨some "L", .uint, none⟩,
    ⟨some "Mpair", .uint, none⟩,
    ⟨some "FormFac", (.enum .ff), (some (.atom (.enumerator .ff 2)))⟩,
    ⟨some "radius", .flt, (some (.atom (.float (3/2))))⟩ ] ]

/-- The constructors of `Lineshapes::NonRes`: `python/PDFs/physics/Lineshapes.cpp:91-99`. -/
def pyLineshapes_NonRes : List Sig := [
  [ ⟨some "name", .str, none⟩,
    ⟨some "mass", (.inst .variable), none⟩,
    ⟨some "width", (.inst .variable), none⟩,
    ⟨some "L", .uint, none⟩,
    ⟨some "Mpair", .uint, none⟩,
    ⟨some "FormFac", (.enum .ff), (some (.atom (.enumerator .ff 2)))⟩,
    ⟨some "radius", .flt, (some (.atom (.float (3/2))))⟩ ] ]

/-- The constructors of `Lineshapes::Flatte`: `python/PDFs/physics/Lineshapes.cpp:102-110`. -/
def pyLineshapes_Flatte : List Sig := [
  [ ⟨some "name", .str, none⟩,
    ⟨some "mass", (.inst .variable), none⟩,
    ⟨some "width", (.inst .variable), none⟩,
    ⟨some "L", .uint, none⟩,
    ⟨some "Mpair", .uint, none⟩,
    ⟨some "FormFac", (.enum .ff), (some (.atom (.enumerator .ff 2)))⟩,
    ⟨some "radius", .flt, (some (.atom (.float (3/2))))⟩ ] ]

/-- The constructors of `Lineshapes::Bugg`: `python/PDFs/physics/Lineshapes.cpp:113-121`. -/
def pyLineshapes_Bugg : List Sig := [
  [ ⟨some "name", .str, none⟩,
    ⟨some "mass", (.inst .variable), none⟩,
    ⟨some "width", (.inst .variable), none⟩,
    ⟨some "L", .uint, none⟩,
    ⟨some "Mpair", .uint, none⟩,
    ⟨some "FormFac", (.enum .ff), (some (.atom (.enumerator .ff 2)))⟩,
    ⟨some "radius", .flt, (some (.atom (.float (3/2))))⟩ ] ]

/-- The constructors of `Lineshapes::Bugg3`: `python/PDFs/physics/Lineshapes.cpp:124-132`. -/
def pyLineshapes_Bugg3 : List Sig := [
  [ ⟨some "name", .str, none⟩,
    ⟨some "mass", (.inst .variable), none⟩,
    ⟨some "width", (.inst .variable), none⟩,
    ⟨some "L", .uint, none⟩,
    ⟨some "Mpair", .uint, none⟩,
    ⟨some "FormFac", (.enum .ff), (some (.atom (.enumerator .ff 2)))⟩,
    ⟨some "radius", .flt, (some (.atom (.float (3/2))))⟩ ] ]

/-- The constructors of `Lineshapes::RBW`: `python/PDFs/physics/Lineshapes.cpp:135-143`. -/
def pyLineshapes_RBW : List Sig := [
  [ ⟨some "name", .str, none⟩,
    ⟨some "mass", (.inst .variable), none⟩,
    ⟨some "width", (.inst .variable), none⟩,
    ⟨some "L", .uint, none⟩,
    ⟨some "Mpair", .uint, none⟩,
    ⟨some "FormFac", (.enum .ff), (some (.atom (.enumerator .ff 2)))⟩,
    ⟨some "radius", .flt, (some (.atom (.float (3/2))))⟩ ] ]

/-- The constructors of `Lineshapes::SBW`: `python/PDFs/physics/Lineshapes.cpp:146-154`. -/
def pyLineshapes_SBW : List Sig := [
  [ ⟨some "name", .str, none⟩,
    ⟨some "mass", (.inst .variable), none⟩,
    ⟨some "width", (.inst .variable), none⟩,
    ⟨some "L", .uint, none⟩,
    ⟨some "Mpair", .uint, none⟩,
    ⟨some "FormFac", (.enum .ff), (some (.atom (.enumerator .ff 2)))⟩,
    ⟨some "radius", .flt, (some (.atom (.float (3/2))))⟩ ] ]

/-- The constructors of `Lineshapes::GLASS`: `python/PDFs/physics/Lineshapes.cpp:157-167`. -/
def pyLineshapes_GLASS : List Sig := [
  [ ⟨some "name", .str, none⟩,
    ⟨some "mass", (.inst .variable), none⟩,
    ⟨some "width", (.inst .variable), none⟩,
    ⟨some "L", .uint, none⟩,
    ⟨some "Mpair", .uint, none⟩,
    ⟨some "FormFac", (.enum .ff), (some (.atom (.enumerator .ff 2)))⟩,
    ⟨some "radius", .flt, (some (.atom (.float (3/2))))⟩,
    ⟨some "AdditionalVars", (.vecInst .variable), (some (.seq []))⟩ ] ]

/-- The constructors of `Lineshapes::GSpline`: `python/PDFs/physics/Lineshapes.cpp:170-188`. -/
def pyLineshapes_GSpline : List Sig := [
  [ ⟨some "name", .str, none⟩,
    ⟨some "mass", (.inst .variable), none⟩,
    ⟨some "width", (.inst .variable), none⟩,
    ⟨some "L", .uint, none⟩,
    ⟨some "Mpair", .uint, none⟩,
    ⟨some "FormFac", (.enum .ff), (some (.atom (.enumerator .ff 2)))⟩,
    ⟨some "radius", .flt, (some (.atom (.float (3/2))))⟩,
    ⟨some "AdditionalVars", (.vecInst .variable), (some (.seq []))⟩,
    ⟨some "SplineInfo", .spline, (some (.seq [.float 0, .float 0, .int 0]))⟩ ] ]

/-- The constructors of `Amplitude`: `python/PDFs/physics/Lineshapes.cpp:191-204`. -/
def pyAmplitude : List Sig := [
  [ ⟨some "uniqueDecayStr", .str, none⟩,
    ⟨some "ar", (.inst .variable), none⟩,
    ⟨some "ai", (.inst .variable), none⟩,
    ⟨some "LS", (.vecPtr .lineshape), none⟩,
    ⟨some "SF", (.vecPtr .spinFactor), none⟩,
    ⟨some "nPerm", .uint, (some (.atom (.int 1)))⟩ ] ]

/-- The constructors of `MixingTimeResolution`: `python/PDFs/physics/MixingTimeResolution.cpp:26-26`. -/
def pyMixingTimeResolution : List Sig := [
  [ ⟨some "n", .str, none⟩ ] ]

/-- The constructors of `Resonances::RBW`: `python/PDFs/physics/ResonancePdf.cpp:24-34`. -/
def pyResonances_RBW : List Sig := [
  [ ⟨some "name", .str, none⟩,
    ⟨some "ar", (.inst .variable), none⟩,
    ⟨some "ai", (.inst .variable), none⟩,
    ⟨some "mass", (.inst .variable), none⟩,
    ⟨some "width", (.inst .variable), none⟩,
    ⟨some "sp", .uint, none⟩,
    ⟨some "cyc", .uint, none⟩,
    ⟨some "norm", .bool, (some (.atom (.bool true)))⟩,
    ⟨some "sym", .bool, (some (.atom (.bool false)))⟩ ] ]

/-- The constructors of `Resonances::GS`: `python/PDFs/physics/ResonancePdf.cpp:37-47`. -/
def pyResonances_GS : List Sig := [
  [ ⟨some "name", .str, none⟩,
    ⟨some "ar", (.inst .variable), none⟩,
    ⟨some "ai", (.inst .variable), none⟩,
    ⟨some "mass", (.inst .variable), none⟩,
    ⟨some "width", (.inst .variable), none⟩,
    ⟨some "sp", .uint, none⟩,
    ⟨some "cyc", .uint, none⟩,
    ⟨some "norm", .bool, (some (.atom (.bool true)))⟩,
    ⟨some "sym", .bool, (some (.atom (.bool false)))⟩ ] ]

/-- The constructors of `Resonances::RhoOmegaMix`: `python/PDFs/physics/ResonancePdf.cpp:50-78`. -/
def pyResonances_RhoOmegaMix : List Sig := [
  [ ⟨some "name", .str, none⟩,
    ⟨some "ar", (.inst .variable), none⟩,
    ⟨some "ai", (.inst .variable), none⟩,
    ⟨some "omega_mass", (.inst .variable), none⟩,
    ⟨some "omega_width", (.inst .variable), none⟩,
    ⟨some "rho_mass", (.inst .variable), none⟩,
    ⟨some "rho_width", (.inst .variable), none⟩,
    ⟨some "real", (.inst .variable), none⟩,
    ⟨some "imag", (.inst .variable), none⟩,
    ⟨some "delta", (.inst .variable), none⟩,
    ⟨some "sp", .uint, none⟩,
    ⟨some "cyc", .uint, none⟩,
    ⟨some "norm", .bool, (some (.atom (.bool true)))⟩,
    ⟨some "sym", .bool, (some (.atom (.bool false)))⟩ ] ]

/-- The constructors of `Resonances::LASS`: `python/PDFs/physics/ResonancePdf.cpp:81-109`. -/
def pyResonances_LASS : List Sig := [
  [ ⟨some "name", .str, none⟩,
    ⟨some "ar", (.inst .variable), none⟩,
    ⟨some "ai", (.inst .variable), none⟩,
    ⟨some "mass", (.inst .variable), none⟩,
    ⟨some "width", (.inst .variable), none⟩,
    ⟨some "_a", (.inst .variable), none⟩,
    ⟨some "_r", (.inst .variable), none⟩,
    ⟨some "_R", (.inst .variable), none⟩,
    ⟨some "_phiR", (.inst .variable), none⟩,
    ⟨some "_B", (.inst .variable), none⟩,
    ⟨some "_phiB", (.inst .variable), none⟩,
    ⟨some "sp", .uint, none⟩,
    ⟨some "cyc", .uint, none⟩,
    ⟨some "norm", .bool, (some (.atom (.bool true)))⟩ ] ]

/-- The constructors of `Resonances::kMatrix`: `python/PDFs/physics/ResonancePdf.cpp:113-143`. -/
def pyResonances_kMatrix : List Sig := [
  [ ⟨some "name", .str, none⟩,
    ⟨some "a_r", (.inst .variable), none⟩,
    ⟨some "a_i", (.inst .variable), none⟩,
    ⟨some "sA0", (.inst .variable), none⟩,
    ⟨some "sA", (.inst .variable), none⟩,
    ⟨some "s0_prod", (.inst .variable), none⟩,
    ⟨some "s0_scatt", (.inst .variable), none⟩,
    ⟨some "beta_r", (.vecInst .variable), none⟩,
    ⟨some "beta_i", (.vecInst .variable), none⟩,
    ⟨some "f_prod_r", (.vecInst .variable), none⟩,
    ⟨some "f_prod_i", (.vecInst .variable), none⟩,
    ⟨some "fscat", (.vecInst .variable), none⟩,
    ⟨some "poles", (.vecInst .variable), none⟩,
    ⟨some "L", .uint, none⟩,
    ⟨some "Mpair", .uint, none⟩ ] ]

/-- The constructors of `Resonances::NonRes`: `python/PDFs/physics/ResonancePdf.cpp:147-147`. -/
def pyResonances_NonRes : List Sig := [
  [ ⟨some "name", .str, none⟩,
    ⟨some "ar", (.inst .variable), none⟩,
    ⟨some "ai", (.inst .variable), none⟩ ] ]

/-- The constructors of `Resonances::Gauss`: `python/PDFs/physics/ResonancePdf.cpp:150-157`. -/
def pyResonances_Gauss : List Sig := [
  [ ⟨some "name", .str, none⟩,
    ⟨some "ar", (.inst .variable), none⟩,
    ⟨some "ai", (.inst .variable), none⟩,
    ⟨some "mean", (.inst .variable), none⟩,
    ⟨some "sigma", (.inst .variable), none⟩,
    ⟨some "cyc", .uint, none⟩ ] ]

/-- The constructors of `Resonances::FLATTE`: `python/PDFs/physics/ResonancePdf.cpp:160-169`. -/
def pyResonances_FLATTE : List Sig := [
  [ ⟨some "name", .str, none⟩,
    ⟨some "ar", (.inst .variable), none⟩,
    ⟨some "ai", (.inst .variable), none⟩,
    ⟨some "mean", (.inst .variable), none⟩,
    ⟨some "g1", (.inst .variable), none⟩,
    ⟨some "rg2og1", (.inst .variable), none⟩,
    ⟨some "cyc", .uint, none⟩,
    ⟨some "symmDP", .bool, none⟩ ] ]

/-- The constructors of `Resonances::Spline`: `python/PDFs/physics/ResonancePdf.cpp:172-191`. -/
def pyResonances_Spline : List Sig := [
  [ ⟨some "name", .str, none⟩,
    ⟨some "ar", (.inst .variable), none⟩,
    ⟨some "ai", (.inst .variable), none⟩,
    ⟨some "HH_bin_limits", .vecFlt, none⟩,
    ⟨some "pwa_coefs_reals", (.vecInst .variable), none⟩,
    ⟨some "pwa_coefs_imags", (.vecInst .variable), none⟩,
    ⟨some "cyc", .uint, none⟩,
    ⟨some "symmDP", .bool, (some (.atom (.bool false)))⟩ ] ]

/-- The constructors of `SpinFactor`: `python/PDFs/physics/SpinFactors.cpp:31-39`; `python/PDFs/physics/SpinFactors.cpp:40-47`. -/
def pySpinFactor : List Sig := [
  [ ⟨some "name", .str, none⟩,
    ⟨some "SF", (.enum .sf), none⟩,
    ⟨some "mD0", .flt, none⟩,
    ⟨some "P0", .uint, none⟩,
    ⟨some "P1", .uint, none⟩,
    ⟨some "P2", .uint, none⟩,
    ⟨some "P3", .uint, none⟩ ],
  [ ⟨some "name", .str, none⟩,
    ⟨some "SF", (.enum .sf), none⟩,
    ⟨some "P0", .uint, none⟩,
    ⟨some "P1", .uint, none⟩,
    ⟨some "P2", .uint, none⟩,
    ⟨some "P3", .uint, none⟩ ] ]

/-- The constructors of `SquareDalitzEffPdf`: `python/PDFs/physics/SquareDalitzEffPdf.cpp:12-33`. -/
def pySquareDalitzEffPdf : List Sig := [
  [ ⟨some "name", .str, none⟩,
    ⟨some "m12", (.inst .observable), none⟩,
    ⟨some "m13", (.inst .observable), none⟩,
    ⟨some "c0", (.inst .variable), none⟩,
    ⟨some "c1", (.inst .variable), none⟩,
    ⟨some "c2", (.inst .variable), none⟩,
    ⟨some "c3", (.inst .variable), none⟩,
    ⟨some "c4", (.inst .variable), none⟩,
    ⟨some "c5", (.inst .variable), none⟩,
    ⟨some "c6", (.inst .variable), none⟩,
    ⟨some "c7", (.inst .variable), none⟩ ] ]

/-- The constructors of `ThreeGaussResolution`: `python/PDFs/physics/ThreeGaussResolution.cpp:13-38`. -/
def pyThreeGaussResolution : List Sig := [
  [ ⟨some "cf", (.inst .variable), none⟩,
    ⟨some "tf", (.inst .variable), none⟩,
    ⟨some "cb", (.inst .variable), none⟩,
    ⟨some "cs", (.inst .variable), none⟩,
    ⟨some "tb", (.inst .variable), none⟩,
    ⟨some "ts", (.inst .variable), none⟩,
    ⟨some "ob", (.inst .variable), none⟩,
    ⟨some "os", (.inst .variable), none⟩,
    ⟨some "sb", (.inst .variable), none⟩,
    ⟨some "common_bias_offset", (.inst .variable), none⟩,
    ⟨some "common_width_scale", (.inst .variable), none⟩,
    ⟨some "common_bias_offset2", (.inst .variable), none⟩,
    ⟨some "common_width_scale2", (.inst .variable), none⟩ ] ]

/-- The constructors of `ThreeGaussResolutionExt`: `python/PDFs/physics/ThreeGaussResolutionExt.cpp:13-36`. -/
def pyThreeGaussResolutionExt : List Sig := [
  [ ⟨some "cf", (.inst .variable), none⟩,
    ⟨some "tf", (.inst .variable), none⟩,
    ⟨some "cb", (.inst .variable), none⟩,
    ⟨some "cs", (.inst .variable), none⟩,
    ⟨some "tb", (.inst .variable), none⟩,
    ⟨some "ts", (.inst .variable), none⟩,
    ⟨some "ob", (.inst .variable), none⟩,
    ⟨some "os", (.inst .variable), none⟩,
    ⟨some "sb_low", (.inst .variable), none⟩,
    ⟨some "sb_high", (.inst .variable), none⟩,
    ⟨some "Tthres", (.inst .variable), none⟩,
    ⟨some "constantC", (.inst .variable), none⟩ ] ]

/-- The constructors of `ThreeGaussResolutionSplice`: `python/PDFs/physics/ThreeGaussResolutionSplice.cpp:13-46`. -/
def pyThreeGaussResolutionSplice : List Sig := [
  [ ⟨some "cf", (.inst .variable), none⟩,
    ⟨some "tf", (.inst .variable), none⟩,
    ⟨some "cb", (.inst .variable), none⟩,
    ⟨some "cs", (.inst .variable), none⟩,
    ⟨some "tb", (.inst .variable), none⟩,
    ⟨some "ts", (.inst .variable), none⟩,
    ⟨some "ob", (.inst .variable), none⟩,
    ⟨some "os", (.inst .variable), none⟩,
    ⟨some "knots", (.vecInst .variable), none⟩,
    ⟨some "a0", (.vecInst .variable), none⟩,
    ⟨some "a1", (.vecInst .variable), none⟩,
    ⟨some "a2", (.vecInst .variable), none⟩,
    ⟨some "a3", (.vecInst .variable), none⟩,
    ⟨some "common_bias_offset", (.inst .variable), none⟩,
    ⟨some "common_width_scale", (.inst .variable), none⟩,
    ⟨some "common_bias_offset2", (.inst .variable), none⟩,
    ⟨some "common_width_scale2", (.inst .variable), none⟩ ] ]

/-- The constructors of `VariableBinTransform1DPdf`: `python/PDFs/utilities/VariableBinTransform1DPdf.cpp:12-12`. -/
def pyVariableBinTransform1DPdf : List Sig := [
  [ ⟨none, .str, none⟩,
    ⟨none, (.inst .observable), none⟩,
    ⟨none, .vecFlt, none⟩ ] ]

/-- The constructors of `FCN`: `python/goofit/FitManager.cpp:19-19`. -/
def pyFCN : List Sig := [
  [ ⟨some "params", (.inst .params), none⟩ ] ]

/-- The constructors of `Params`: `python/goofit/FitManager.cpp:22-22`. -/
def pyParams : List Sig := [
  [ ⟨some "pdf", (.inst .pdfBase), none⟩ ] ]

/-- The constructors of `FitManagerMinuit2`: `python/goofit/FitManager.cpp:34-34`. -/
def pyFitManagerMinuit2 : List Sig := [
  [ ⟨none, (.ptr .pdfBase), none⟩ ] ]

/-- The constructors of `Observable`: `python/goofit/Variable.cpp:30-30`. -/
def pyObservable : List Sig := [
  [ ⟨some "name", .str, none⟩,
    ⟨some "min", .flt, none⟩,
    ⟨some "max", .flt, none⟩ ] ]

/-- The constructors of `Variable`: `python/goofit/Variable.cpp:56-56`; `python/goofit/Variable.cpp:57-61`; `python/goofit/Variable.cpp:62-67`; `python/goofit/Variable.cpp:68-75`. -/
def pyVariable : List Sig := [
  [ ⟨some "name", .str, none⟩,
    ⟨some "value", .flt, none⟩ ],
  [ ⟨some "name", .str, none⟩,
    ⟨some "value", .flt, none⟩,
    ⟨some "error", .flt, none⟩ ],
  [ ⟨some "name", .str, none⟩,
    ⟨some "value", .flt, none⟩,
    ⟨some "min", .flt, none⟩,
    ⟨some "max", .flt, none⟩ ],
  [ ⟨some "name", .str, none⟩,
    ⟨some "value", .flt, none⟩,
    ⟨some "error", .flt, none⟩,
    ⟨some "min", .flt, none⟩,
    ⟨some "max", .flt, none⟩,
    ⟨some "fixed", .bool, (some (.atom (.bool false)))⟩ ] ]

/-- The constructors of `EventNumber`: `python/goofit/Variable.cpp:93-97`. -/
def pyEventNumber : List Sig := [
  [ ⟨some "name", .str, none⟩,
    ⟨some "min", .flt, (some (.atom (.int 0)))⟩,
    ⟨some "max", .flt, (some (.atom (.float 9007199254740992)))⟩ ] ]

/-- `PdfBase.setData`: `python/goofit/PdfBase.cpp:19`. -/
def py_setData : List Sig := [
  [ ⟨some "ptr", (.ptr .dataSet), (some (.atom (.none)))⟩ ] ]

/-- `PdfBase.fillMCDataSimple`: `python/goofit/PdfBase.cpp:32-37`. -/
def py_fillMCDataSimple : List Sig := [
  [ ⟨some "events", .size, none⟩,
    ⟨some "seed", .uint, (some (.atom (.int 0)))⟩ ] ]

/-- `PdfBase.fitTo`: `python/goofit/PdfBase.cpp:38-43`. -/
def py_fitTo : List Sig := [
  [ ⟨some "data", (.ptr .dataSet), none⟩,
    ⟨some "verbosity", .int, (some (.atom (.int 3)))⟩ ] ]

/-- `PdfBase.fit`: `python/goofit/PdfBase.cpp:44-48`. -/
def py_fit : List Sig := [
  [ ⟨some "verbosity", .int, (some (.atom (.int 3)))⟩ ] ]

/-- `Amp3Body.setDataSize`: `python/PDFs/physics/Amp3Body.cpp:26`. -/
def py_Amp3Body_setDataSize : List Sig := [
  [ ⟨some "dataSize", .uint, none⟩,
    ⟨some "evtSize", .uint, (some (.atom (.int 3)))⟩,
    ⟨some "offset", .uint, (some (.atom (.int 0)))⟩ ] ]

/-- `Amp3Body_TD.setDataSize`: `python/PDFs/physics/Amp3Body_TD.cpp:118`. -/
def py_Amp3Body_TD_setDataSize : List Sig := [
  [ ⟨some "dataSize", .uint, none⟩,
    ⟨some "evtSize", .uint, (some (.atom (.int 5)))⟩,
    ⟨some "offset", .uint, (some (.atom (.int 0)))⟩ ] ]

/-- `Amp4Body.setDataSize`: `python/PDFs/physics/Amp4Body.cu:32`. -/
def py_Amp4Body_setDataSize : List Sig := [
  [ ⟨some "dataSize", .uint, none⟩,
    ⟨some "evtSize", .uint, (some (.atom (.int 6)))⟩ ] ]

/-- `Amp4Body.setForceIntegrals`: `python/PDFs/physics/Amp4Body.cu:33`. -/
def py_setForceIntegrals : List Sig := [
  [ ⟨some "fset", .bool, (some (.atom (.bool true)))⟩ ] ]

/-- `Amp3Body.setGenerationOffset`: `python/PDFs/physics/Amp3Body.cpp:39`. -/
def py_setGenerationOffset : List Sig := [
  [ ⟨some "off", .int, none⟩ ] ]

/-- `Amp3Body_TD.setD0Fraction`: `python/PDFs/physics/Amp3Body_TD.cpp:121`. -/
def py_setD0Fraction : List Sig := [
  [ ⟨some "d0fraction", .flt, none⟩ ] ]

/-- `UnbinnedDataSet.loadEvent`: `python/goofit/UnbinnedDataSet.cpp:72`. -/
def py_loadEvent : List Sig := [
  [ ⟨some "event_number", .size, none⟩ ] ]

/-- `DalitzPlotter.getVal`: `python/PDFs/physics/DalitzPlotter.cpp:22`. -/
def py_getVal : List Sig := [
  [ ⟨some "event", .size, none⟩,
    ⟨some "num", .size, (some (.atom (.int 0)))⟩ ] ]

/-- `BinnedDataSet.setBinContent`: `python/goofit/BinnedDataSet.cpp:38`. -/
def py_setBinContent : List Sig := [
  [ ⟨some "bin", .uint, none⟩,
    ⟨some "value", .flt, none⟩ ] ]

/-- `BinnedDataSet.setBinError`: `python/goofit/BinnedDataSet.cpp:40`. -/
def py_setBinError : List Sig := [
  [ ⟨some "bin", .uint, none⟩,
    ⟨some "value", .flt, none⟩ ] ]

/-- `ConvolutionPdf.setIntegrationConstants`: `python/PDFs/combine/ConvolutionPdf.cpp:29`.  The names are given
as plain strings, which are documentation, not keywords. -/
def py_setIntegrationConstants : List Sig := [
  [ ⟨none, .flt, none⟩,
    ⟨none, .flt, none⟩,
    ⟨none, .flt, none⟩ ] ]

/-- `UnbinnedDataSet.from_matrix`: `python/goofit/UnbinnedDataSet.cpp:67-71`.  The documentation string
and the literal `"…"_a` of the first parameter stand side by side without a comma, and adjacent literals
are one literal, so the keyword is the whole sentence. -/
def py_from_matrix : List Sig := [
  [ ⟨some "Append a matrix to a dataset. The final parameter will be a count if the matrix is missing one row.matrix", (.inst .ndarray), none⟩,
    ⟨some "filter", .bool, (some (.atom (.bool false)))⟩ ] ]

/-- `DalitzPlotter.fillDataSetMC`: `python/PDFs/physics/DalitzPlotter.cpp:26-30`.  The documentation string
and the literal `"…"_a` of the first parameter stand side by side without a comma, and adjacent literals
are one literal, so the keyword is the whole sentence. -/
def py_fillDataSetMC : List Sig := [
  [ ⟨some "Fill an unbinned dataset with values from a simple grid based MC fill.dataset", (.inst .unbinnedDataSet), none⟩,
    ⟨some "nTotal", .size, none⟩ ] ]

/-- Everything bound in `python/` with constructor arguments, and the member functions that have
keywords: the name in Python and the signatures in the order they are bound.  `FCNBase` and the other
classes of `python/Minuit2` belong to Minuit2 and are left out; constructors without parameters too. -/
def bindings : List (String × List Sig) := [
  ("ArgusPdf", pyArgusPdf),
  ("BWPdf", pyBWPdf),
  ("BernsteinPdf", pyBernsteinPdf),
  ("BifurGaussPdf", pyBifurGaussPdf),
  ("BinTransformPdf", pyBinTransformPdf),
  ("CorrGaussianPdf", pyCorrGaussianPdf),
  ("CrystalBallPdf", pyCrystalBallPdf),
  ("ExpGausPdf", pyExpGausPdf),
  ("ExpPdf", pyExpPdf),
  ("GaussianPdf", pyGaussianPdf),
  ("InterHistPdf", pyInterHistPdf),
  ("JohnsonSUPdf", pyJohnsonSUPdf),
  ("KinLimitBWPdf", pyKinLimitBWPdf),
  ("LandauPdf", pyLandauPdf),
  ("NovosibirskPdf", pyNovosibirskPdf),
  ("PolynomialPdf", pyPolynomialPdf),
  ("ScaledGaussianPdf", pyScaledGaussianPdf),
  ("SmoothHistogramPdf", pySmoothHistogramPdf),
  ("StepPdf", pyStepPdf),
  ("TrigThresholdPdf", pyTrigThresholdPdf),
  ("VoigtianPdf", pyVoigtianPdf),
  ("AddPdf", pyAddPdf),
  ("CompositePdf", pyCompositePdf),
  ("ConvolutionPdf", pyConvolutionPdf),
  ("EventWeightedAddPdf", pyEventWeightedAddPdf),
  ("MappedPdf", pyMappedPdf),
  ("ProdPdf", pyProdPdf),
  ("Amp3Body", pyAmp3Body),
  ("Amp3Body_IS", pyAmp3Body_IS),
  ("Amp3Body_TD", pyAmp3Body_TD),
  ("Amp4Body", pyAmp4Body),
  ("Amp4Body_TD", pyAmp4Body_TD),
  ("DecayInfo3t", pyDecayInfo3t),
  ("DecayInfo4t", pyDecayInfo4t),
  ("DalitzPlotter", pyDalitzPlotter),
  ("Lineshapes.One", pyLineshapes_One),
  ("Lineshapes.LASS", pyLineshapes_LASS),
  ("Lineshapes.kMatrix", pyLineshapes_kMatrix),
  ("Lineshapes.NonRes", pyLineshapes_NonRes),
  ("Lineshapes.Flatte", pyLineshapes_Flatte),
  ("Lineshapes.Bugg", pyLineshapes_Bugg),
  ("Lineshapes.Bugg3", pyLineshapes_Bugg3),
  ("Lineshapes.RBW", pyLineshapes_RBW),
  ("Lineshapes.SBW", pyLineshapes_SBW),
  ("Lineshapes.GLASS", pyLineshapes_GLASS),
  ("Lineshapes.GSpline", pyLineshapes_GSpline),
  ("Amplitude", pyAmplitude),
  ("MixingTimeResolution", pyMixingTimeResolution),
  ("Resonances.RBW", pyResonances_RBW),
  ("Resonances.GS", pyResonances_GS),
  ("Resonances.RhoOmegaMix", pyResonances_RhoOmegaMix),
  ("Resonances.LASS", pyResonances_LASS),
  ("Resonances.kMatrix", pyResonances_kMatrix),
  ("Resonances.NonRes", pyResonances_NonRes),
  ("Resonances.Gauss", pyResonances_Gauss),
  ("Resonances.FLATTE", pyResonances_FLATTE),
  ("Resonances.Spline", pyResonances_Spline),
  ("SpinFactor", pySpinFactor),
  ("SquareDalitzEffPdf", pySquareDalitzEffPdf),
  ("ThreeGaussResolution", pyThreeGaussResolution),
  ("ThreeGaussResolutionExt", pyThreeGaussResolutionExt),
  ("ThreeGaussResolutionSplice", pyThreeGaussResolutionSplice),
  ("VariableBinTransform1DPdf", pyVariableBinTransform1DPdf),
  ("FCN", pyFCN),
  ("Params", pyParams),
  ("FitManagerMinuit2", pyFitManagerMinuit2),
  ("Observable", pyObservable),
  ("Variable", pyVariable),
  ("EventNumber", pyEventNumber),
  ("PdfBase.setData", py_setData),
  ("PdfBase.fillMCDataSimple", py_fillMCDataSimple),
  ("PdfBase.fitTo", py_fitTo),
  ("PdfBase.fit", py_fit),
  ("Amp3Body.setDataSize", py_Amp3Body_setDataSize),
  ("Amp3Body_TD.setDataSize", py_Amp3Body_TD_setDataSize),
  ("Amp4Body.setDataSize", py_Amp4Body_setDataSize),
  ("Amp4Body.setForceIntegrals", py_setForceIntegrals),
  ("Amp3Body.setGenerationOffset", py_setGenerationOffset),
  ("Amp3Body_TD.setD0Fraction", py_setD0Fraction),
  ("UnbinnedDataSet.loadEvent", py_loadEvent),
  ("DalitzPlotter.getVal", py_getVal),
  ("BinnedDataSet.setBinContent", py_setBinContent),
  ("BinnedDataSet.setBinError", py_setBinError),
  ("ConvolutionPdf.setIntegrationConstants", py_setIntegrationConstants),
  ("UnbinnedDataSet.from_matrix", py_from_matrix),
  ("DalitzPlotter.fillDataSetMC", py_fillDataSetMC) ]

end GooFit.PyBind
