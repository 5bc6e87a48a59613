import Verif.Spec.PyBind

/-!
# What the headers declare

The C++ declarations that the bindings of `python/` are about, transcribed from the headers alone: the
name, the type and the default value of each parameter (a default is written as the Python value that
denotes it).
-/

set_option autoImplicit false

namespace GooFit.Spec

open PyBind

/-- `include/goofit/PDFs/basic/ArgusPdf.h:32-32`; `include/goofit/PDFs/basic/ArgusPdf.h:33-33`. -/
def hdArgusPdf : List (List Declared) := [
  [ ⟨"n", .str, none⟩,
    ⟨"_x", (.inst .observable), none⟩,
    ⟨"m", (.inst .variable), none⟩,
    ⟨"s", (.inst .variable), none⟩,
    ⟨"upper", .bool, none⟩ ],
  [ ⟨"n", .str, none⟩,
    ⟨"_x", (.inst .observable), none⟩,
    ⟨"m", (.inst .variable), none⟩,
    ⟨"s", (.inst .variable), none⟩,
    ⟨"upper", .bool, none⟩,
    ⟨"power", (.inst .variable), none⟩ ] ]

/-- `include/goofit/PDFs/basic/BWPdf.h:21-21`. -/
def hdBWPdf : List (List Declared) := [
  [ ⟨"n", .str, none⟩,
    ⟨"_x", (.inst .observable), none⟩,
    ⟨"m", (.inst .variable), none⟩,
    ⟨"s", (.inst .variable), none⟩ ] ]

/-- `include/goofit/PDFs/basic/BernsteinPdf.h:14-14`. -/
def hdBernsteinPdf : List (List Declared) := [
  [ ⟨"n", .str, none⟩,
    ⟨"vars", (.inst .observable), none⟩,
    ⟨"coeffs", (.vecInst .variable), none⟩,
    ⟨"mindeg", .uint, (some (.atom (.int 0)))⟩ ] ]

/-- `include/goofit/PDFs/basic/BifurGaussPdf.h:27-27`. -/
def hdBifurGaussPdf : List (List Declared) := [
  [ ⟨"n", .str, none⟩,
    ⟨"_x", (.inst .observable), none⟩,
    ⟨"m", (.inst .variable), none⟩,
    ⟨"sL", (.inst .variable), none⟩,
    ⟨"sR", (.inst .variable), none⟩ ] ]

/-- `include/goofit/PDFs/basic/BinTransformPdf.h:30-34`. -/
def hdBinTransformPdf : List (List Declared) := [
  [ ⟨"n", .str, none⟩,
    ⟨"obses", (.vecInst .observable), none⟩,
    ⟨"limits", .vecFlt, none⟩,
    ⟨"binSizes", .vecFlt, none⟩,
    ⟨"numBins", .vecInt, none⟩ ] ]

/-- `include/goofit/PDFs/basic/CorrGaussianPdf.h:31-38`. -/
def hdCorrGaussianPdf : List (List Declared) := [
  [ ⟨"n", .str, none⟩,
    ⟨"_x", (.inst .observable), none⟩,
    ⟨"_y", (.inst .observable), none⟩,
    ⟨"mean1", (.inst .variable), none⟩,
    ⟨"sigma1", (.inst .variable), none⟩,
    ⟨"mean2", (.inst .variable), none⟩,
    ⟨"sigma2", (.inst .variable), none⟩,
    ⟨"correlation", (.inst .variable), none⟩ ] ]

/-- `include/goofit/PDFs/basic/CrystalBallPdf.h:30-30`; `include/goofit/PDFs/basic/CrystalBallPdf.h:31-31`. -/
def hdCrystalBallPdf : List (List Declared) := [
  [ ⟨"n", .str, none⟩,
    ⟨"_x", (.inst .observable), none⟩,
    ⟨"m", (.inst .variable), none⟩,
    ⟨"s", (.inst .variable), none⟩,
    ⟨"a", (.inst .variable), none⟩ ],
  [ ⟨"n", .str, none⟩,
    ⟨"_x", (.inst .observable), none⟩,
    ⟨"m", (.inst .variable), none⟩,
    ⟨"s", (.inst .variable), none⟩,
    ⟨"a", (.inst .variable), none⟩,
    ⟨"power", (.inst .variable), none⟩ ] ]

/-- `include/goofit/PDFs/basic/ExpGausPdf.h:27-27`. -/
def hdExpGausPdf : List (List Declared) := [
  [ ⟨"n", .str, none⟩,
    ⟨"_x", (.inst .observable), none⟩,
    ⟨"m", (.inst .variable), none⟩,
    ⟨"s", (.inst .variable), none⟩,
    ⟨"t", (.inst .variable), none⟩ ] ]

/-- `include/goofit/PDFs/basic/ExpPdf.h:30-30`; `include/goofit/PDFs/basic/ExpPdf.h:31-31`; `include/goofit/PDFs/basic/ExpPdf.h:32-32`; `include/goofit/PDFs/basic/ExpPdf.h:33-33`. -/
def hdExpPdf : List (List Declared) := [
  [ ⟨"n", .str, none⟩,
    ⟨"_x", (.inst .observable), none⟩,
    ⟨"alpha", (.inst .variable), none⟩ ],
  [ ⟨"n", .str, none⟩,
    ⟨"_x", (.inst .observable), none⟩,
    ⟨"weights", (.vecInst .variable), none⟩ ],
  [ ⟨"n", .str, none⟩,
    ⟨"_x", (.inst .observable), none⟩,
    ⟨"alpha", (.inst .variable), none⟩,
    ⟨"offset", (.inst .variable), none⟩ ],
  [ ⟨"n", .str, none⟩,
    ⟨"_x", (.inst .observable), none⟩,
    ⟨"weights", (.vecInst .variable), none⟩,
    ⟨"offset", (.inst .variable), none⟩ ] ]

/-- `include/goofit/PDFs/basic/GaussianPdf.h:22-22`. -/
def hdGaussianPdf : List (List Declared) := [
  [ ⟨"n", .str, none⟩,
    ⟨"_x", (.inst .observable), none⟩,
    ⟨"m", (.inst .variable), none⟩,
    ⟨"s", (.inst .variable), none⟩ ] ]

/-- `include/goofit/PDFs/basic/InterHistPdf.h:48-48`. -/
def hdInterHistPdf : List (List Declared) := [
  [ ⟨"n", .str, none⟩,
    ⟨"x", (.ptr .binnedDataSet), none⟩,
    ⟨"params", (.vecInst .variable), none⟩,
    ⟨"obses", (.vecInst .observable), none⟩ ] ]

/-- `include/goofit/PDFs/basic/JohnsonSUPdf.h:23-23`. -/
def hdJohnsonSUPdf : List (List Declared) := [
  [ ⟨"n", .str, none⟩,
    ⟨"_x", (.inst .observable), none⟩,
    ⟨"m", (.inst .variable), none⟩,
    ⟨"s", (.inst .variable), none⟩,
    ⟨"g", (.inst .variable), none⟩,
    ⟨"d", (.inst .variable), none⟩ ] ]

/-- `include/goofit/PDFs/basic/KinLimitBWPdf.h:55-55`. -/
def hdKinLimitBWPdf : List (List Declared) := [
  [ ⟨"n", .str, none⟩,
    ⟨"_x", (.inst .observable), none⟩,
    ⟨"m", (.inst .variable), none⟩,
    ⟨"s", (.inst .variable), none⟩ ] ]

/-- `include/goofit/PDFs/basic/LandauPdf.h:25-25`. -/
def hdLandauPdf : List (List Declared) := [
  [ ⟨"n", .str, none⟩,
    ⟨"_x", (.inst .observable), none⟩,
    ⟨"mpv", (.inst .variable), none⟩,
    ⟨"sigma", (.inst .variable), none⟩ ] ]

/-- `include/goofit/PDFs/basic/NovosibirskPdf.h:24-24`. -/
def hdNovosibirskPdf : List (List Declared) := [
  [ ⟨"n", .str, none⟩,
    ⟨"_x", (.inst .observable), none⟩,
    ⟨"m", (.inst .variable), none⟩,
    ⟨"s", (.inst .variable), none⟩,
    ⟨"t", (.inst .variable), none⟩ ] ]

/-- `include/goofit/PDFs/basic/PolynomialPdf.h:64-65`; `include/goofit/PDFs/basic/PolynomialPdf.h:63-63`; `include/goofit/PDFs/basic/PolynomialPdf.h:66-70`. -/
def hdPolynomialPdf : List (List Declared) := [
  [ ⟨"n", .str, none⟩,
    ⟨"_x", (.inst .observable), none⟩,
    ⟨"weights", (.vecInst .variable), none⟩,
    ⟨"x0", (.inst .variable), none⟩,
    ⟨"lowestDegree", .uint, (some (.atom (.int 0)))⟩ ],
  [ ⟨"n", .str, none⟩,
    ⟨"_x", (.inst .observable), none⟩,
    ⟨"weights", (.vecInst .variable), none⟩,
    ⟨"lowestDegree", .uint, (some (.atom (.int 0)))⟩ ],
  [ ⟨"n", .str, none⟩,
    ⟨"obses", (.vecInst .observable), none⟩,
    ⟨"coeffs", (.vecInst .variable), none⟩,
    ⟨"offsets", (.vecInst .variable), none⟩,
    ⟨"maxDegree", .uint, (some (.atom (.int 0)))⟩ ] ]

/-- `include/goofit/PDFs/basic/ScaledGaussianPdf.h:27-27`. -/
def hdScaledGaussianPdf : List (List Declared) := [
  [ ⟨"n", .str, none⟩,
    ⟨"_x", (.inst .observable), none⟩,
    ⟨"m", (.inst .variable), none⟩,
    ⟨"s", (.inst .variable), none⟩,
    ⟨"d", (.inst .variable), none⟩,
    ⟨"e", (.inst .variable), none⟩ ] ]

/-- `include/goofit/PDFs/basic/SmoothHistogramPdf.h:34-34`. -/
def hdSmoothHistogramPdf : List (List Declared) := [
  [ ⟨"n", .str, none⟩,
    ⟨"x", (.ptr .binnedDataSet), none⟩,
    ⟨"smoothing", (.inst .variable), none⟩ ] ]

/-- `include/goofit/PDFs/basic/StepPdf.h:26-26`. -/
def hdStepPdf : List (List Declared) := [
  [ ⟨"n", .str, none⟩,
    ⟨"_x", (.inst .observable), none⟩,
    ⟨"x0", (.inst .variable), none⟩,
    ⟨"Up", .int, (some (.atom (.int 1)))⟩ ] ]

/-- `include/goofit/PDFs/basic/TrigThresholdPdf.h:35-36`; `include/goofit/PDFs/basic/TrigThresholdPdf.h:37-44`. -/
def hdTrigThresholdPdf : List (List Declared) := [
  [ ⟨"n", .str, none⟩,
    ⟨"_x", (.inst .observable), none⟩,
    ⟨"thresh", (.inst .variable), none⟩,
    ⟨"trigConst", (.inst .variable), none⟩,
    ⟨"linConst", (.inst .variable), none⟩,
    ⟨"upper", .bool, (some (.atom (.bool true)))⟩ ],
  [ ⟨"n", .str, none⟩,
    ⟨"_x", (.inst .observable), none⟩,
    ⟨"_y", (.inst .observable), none⟩,
    ⟨"thresh", (.inst .variable), none⟩,
    ⟨"trigConst", (.inst .variable), none⟩,
    ⟨"linConst", (.inst .variable), none⟩,
    ⟨"massConstant", (.inst .variable), none⟩,
    ⟨"upper", .bool, none⟩ ] ]

/-- `include/goofit/PDFs/basic/VoigtianPdf.h:24-24`. -/
def hdVoigtianPdf : List (List Declared) := [
  [ ⟨"n", .str, none⟩,
    ⟨"_x", (.inst .observable), none⟩,
    ⟨"m", (.inst .variable), none⟩,
    ⟨"s", (.inst .variable), none⟩,
    ⟨"w", (.inst .variable), none⟩ ] ]

/-- `include/goofit/PDFs/combine/AddPdf.h:64-64`; `include/goofit/PDFs/combine/AddPdf.h:65-65`. -/
def hdAddPdf : List (List Declared) := [
  [ ⟨"n", .str, none⟩,
    ⟨"weights", (.vecInst .variable), none⟩,
    ⟨"comps", (.vecPtr .pdfBase), none⟩ ],
  [ ⟨"n", .str, none⟩,
    ⟨"frac1", (.inst .variable), none⟩,
    ⟨"func1", (.ptr .pdfBase), none⟩,
    ⟨"func2", (.ptr .pdfBase), none⟩ ] ]

/-- `include/goofit/PDFs/combine/CompositePdf.h:28-28`. -/
def hdCompositePdf : List (List Declared) := [
  [ ⟨"n", .str, none⟩,
    ⟨"core", (.ptr .pdfBase), none⟩,
    ⟨"shell", (.ptr .pdfBase), none⟩ ] ]

/-- `include/goofit/PDFs/combine/ConvolutionPdf.h:36-36`; `include/goofit/PDFs/combine/ConvolutionPdf.h:37-37`. -/
def hdConvolutionPdf : List (List Declared) := [
  [ ⟨"n", .str, none⟩,
    ⟨"_x", (.inst .observable), none⟩,
    ⟨"model", (.ptr .gooPdf), none⟩,
    ⟨"resolution", (.ptr .gooPdf), none⟩ ],
  [ ⟨"n", .str, none⟩,
    ⟨"_x", (.inst .observable), none⟩,
    ⟨"model", (.ptr .gooPdf), none⟩,
    ⟨"resolution", (.ptr .gooPdf), none⟩,
    ⟨"numOthers", .uint, none⟩ ] ]

/-- `include/goofit/PDFs/combine/EventWeightedAddPdf.h:18-18`. -/
def hdEventWeightedAddPdf : List (List Declared) := [
  [ ⟨"n", .str, none⟩,
    ⟨"weights", (.vecInst .observable), none⟩,
    ⟨"comps", (.vecPtr .pdfBase), none⟩ ] ]

/-- `include/goofit/PDFs/combine/MappedPdf.h:34-34`. -/
def hdMappedPdf : List (List Declared) := [
  [ ⟨"n", .str, none⟩,
    ⟨"m", (.ptr .gooPdf), none⟩,
    ⟨"t", (.vecPtr .gooPdf), none⟩ ] ]

/-- `include/goofit/PDFs/combine/ProdPdf.h:32-32`. -/
def hdProdPdf : List (List Declared) := [
  [ ⟨"n", .str, none⟩,
    ⟨"comps", (.vecPtr .pdfBase), none⟩ ] ]

/-- `include/goofit/PDFs/physics/Amp3Body.h:39-44`. -/
def hdAmp3Body : List (List Declared) := [
  [ ⟨"n", .str, none⟩,
    ⟨"m12", (.inst .observable), none⟩,
    ⟨"m13", (.inst .observable), none⟩,
    ⟨"eventNumber", (.inst .eventNumber), none⟩,
    ⟨"decay", (.inst .decayInfo3), none⟩,
    ⟨"eff", (.ptr .gooPdf), (some (.atom .none))⟩ ] ]

/-- `include/goofit/PDFs/physics/Amp3Body_IS.h:35-35`. -/
def hdAmp3Body_IS : List (List Declared) := [
  [ ⟨"n", .str, none⟩,
    ⟨"m12", (.inst .observable), none⟩,
    ⟨"m13", (.inst .observable), none⟩,
    ⟨"eventNumber", (.inst .eventNumber), none⟩,
    ⟨"decay", (.inst .decayInfo3), none⟩,
    ⟨"eff", (.ptr .gooPdf), none⟩ ] ]

/-- `include/goofit/PDFs/physics/Amp3Body_TD.h:74-84`; `include/goofit/PDFs/physics/Amp3Body_TD.h:74-84`; `include/goofit/PDFs/physics/Amp3Body_TD.h:85-96`; `include/goofit/PDFs/physics/Amp3Body_TD.h:85-96`. -/
def hdAmp3Body_TD : List (List Declared) := [
  [ ⟨"n", .str, none⟩,
    ⟨"_dtime", (.inst .observable), none⟩,
    ⟨"_sigmat", (.inst .observable), none⟩,
    ⟨"m12", (.inst .observable), none⟩,
    ⟨"m13", (.inst .observable), none⟩,
    ⟨"eventNumber", (.inst .eventNumber), none⟩,
    ⟨"decay", (.inst .decayInfo3t), none⟩,
    ⟨"r", (.ptr .mixingTimeResolution), none⟩,
    ⟨"eff", (.ptr .gooPdf), none⟩,
    ⟨"mistag", (.ptr .observable), (some (.atom .none))⟩,
    ⟨"charmtag", (.ptr .observable), (some (.atom .none))⟩ ],
  [ ⟨"n", .str, none⟩,
    ⟨"_dtime", (.inst .observable), none⟩,
    ⟨"_sigmat", (.inst .observable), none⟩,
    ⟨"m12", (.inst .observable), none⟩,
    ⟨"m13", (.inst .observable), none⟩,
    ⟨"eventNumber", (.inst .eventNumber), none⟩,
    ⟨"decay", (.inst .decayInfo3t), none⟩,
    ⟨"r", (.ptr .mixingTimeResolution), none⟩,
    ⟨"eff", (.ptr .gooPdf), none⟩,
    ⟨"mistag", (.ptr .observable), (some (.atom .none))⟩,
    ⟨"charmtag", (.ptr .observable), (some (.atom .none))⟩ ],
  [ ⟨"n", .str, none⟩,
    ⟨"_dtime", (.inst .observable), none⟩,
    ⟨"_sigmat", (.inst .observable), none⟩,
    ⟨"m12", (.inst .observable), none⟩,
    ⟨"m13", (.inst .observable), none⟩,
    ⟨"eventNumber", (.inst .eventNumber), none⟩,
    ⟨"decay", (.inst .decayInfo3t), none⟩,
    ⟨"r", (.vecPtr .mixingTimeResolution), none⟩,
    ⟨"eff", (.ptr .gooPdf), none⟩,
    ⟨"md0", (.inst .observable), none⟩,
    ⟨"mistag", (.ptr .observable), (some (.atom .none))⟩,
    ⟨"charmtag", (.ptr .observable), (some (.atom .none))⟩ ],
  [ ⟨"n", .str, none⟩,
    ⟨"_dtime", (.inst .observable), none⟩,
    ⟨"_sigmat", (.inst .observable), none⟩,
    ⟨"m12", (.inst .observable), none⟩,
    ⟨"m13", (.inst .observable), none⟩,
    ⟨"eventNumber", (.inst .eventNumber), none⟩,
    ⟨"decay", (.inst .decayInfo3t), none⟩,
    ⟨"r", (.vecPtr .mixingTimeResolution), none⟩,
    ⟨"eff", (.ptr .gooPdf), none⟩,
    ⟨"md0", (.inst .observable), none⟩,
    ⟨"mistag", (.ptr .observable), (some (.atom .none))⟩,
    ⟨"charmtag", (.ptr .observable), (some (.atom .none))⟩ ] ]

/-- `include/goofit/PDFs/physics/Amp4Body.h:31-35`; `include/goofit/PDFs/physics/Amp4Body.h:31-35`. -/
def hdAmp4Body : List (List Declared) := [
  [ ⟨"n", .str, none⟩,
    ⟨"observables", (.vecInst .observable), none⟩,
    ⟨"decay", (.inst .decayInfo4), none⟩,
    ⟨"eff", (.ptr .gooPdf), none⟩,
    ⟨"MCeventsNorm", .uint, (some (.atom (.float 5000000)))⟩ ],
  [ ⟨"n", .str, none⟩,
    ⟨"observables", (.vecInst .observable), none⟩,
    ⟨"decay", (.inst .decayInfo4), none⟩,
    ⟨"eff", (.ptr .gooPdf), none⟩,
    ⟨"MCeventsNorm", .uint, (some (.atom (.float 5000000)))⟩ ] ]

/-- `include/goofit/PDFs/physics/Amp4Body_TD.h:59-66`. -/
def hdAmp4Body_TD : List (List Declared) := [
  [ ⟨"n", .str, none⟩,
    ⟨"observables", (.vecInst .observable), none⟩,
    ⟨"decay", (.inst .decayInfo4t), none⟩,
    ⟨"Tres", (.ptr .mixingTimeResolution), none⟩,
    ⟨"efficiency", (.ptr .gooPdf), none⟩,
    ⟨"mistag", (.ptr .observable), none⟩,
    ⟨"normSeed", .long, none⟩,
    ⟨"numNormEventsToGen", .uint, none⟩ ] ]

/-- `include/goofit/PDFs/physics/DalitzPlotHelpers.h:106-106`. -/
def hdDecayInfo3t : List (List Declared) := [
  [ ⟨"_tau", (.inst .variable), none⟩,
    ⟨"_xmixing", (.inst .variable), none⟩,
    ⟨"_ymixing", (.inst .variable), none⟩,
    ⟨"_deltax", (.inst .variable), none⟩,
    ⟨"_deltay", (.inst .variable), none⟩ ] ]

/-- `include/goofit/PDFs/physics/DalitzPlotHelpers.h:128-128`. -/
def hdDecayInfo4t : List (List Declared) := [
  [ ⟨"_tau", (.inst .variable), none⟩,
    ⟨"_xmixing", (.inst .variable), none⟩,
    ⟨"_ymixing", (.inst .variable), none⟩,
    ⟨"_SqWStoRSrate", (.inst .variable), none⟩ ] ]

/-- `include/goofit/PDFs/physics/DalitzPlotter.h:30-30`. -/
def hdDalitzPlotter : List (List Declared) := [
  [ ⟨"overallSignal", (.ptr .gooPdf), none⟩,
    ⟨"signalDalitz", (.ptr .amp3Body), none⟩ ] ]

/-- `include/goofit/PDFs/physics/lineshapes/One.h:10-16`. -/
def hdLineshapes_One : List (List Declared) := [
  [ ⟨"name", .str, none⟩,
    ⟨"mass", (.inst .variable), none⟩,
    ⟨"width", (.inst .variable), none⟩,
    ⟨"L", .uint, none⟩,
    ⟨"Mpair", .uint, none⟩,
    ⟨"FormFac", (.enum .ff), (some (.atom (.enumerator .ff 2)))⟩,
    ⟨"radius", .flt, (some (.atom (.float (3/2))))⟩ ] ]

/-- `include/goofit/PDFs/physics/lineshapes/LASS.h:10-16`. -/
def hdLineshapes_LASS : List (List Declared) := [
  [ ⟨"name", .str, none⟩,
    ⟨"mass", (.inst .variable), none⟩,
    ⟨"width", (.inst .variable), none⟩,
    ⟨"L", .uint, none⟩,
    ⟨"Mpair", .uint, none⟩,
    ⟨"FormFac", (.enum .ff), (some (.atom (.enumerator .ff 2)))⟩,
    ⟨"radius", .flt, (some (.atom (.float (3/2))))⟩ ] ]

/-- `include/goofit/PDFs/physics/lineshapes/kMatrix.h:15-31`. -/
def hdLineshapes_kMatrix : List (List Declared) := [
  [ ⟨"name", .str, none⟩,
    ⟨"a_r", (.inst .variable), none⟩,
    ⟨"a_i", (.inst .variable), none⟩,
    ⟨"sA0", (.inst .variable), none⟩,
    ⟨"sA", (.inst .variable), none⟩,
    ⟨"s0_prod", (.inst .variable), none⟩,
    ⟨"s0_scatt", (.inst .variable), none⟩,
    ⟨"beta_r", (.vecInst .variable), none⟩,
    ⟨"beta_i", (.vecInst .variable), none⟩,
    ⟨"f_prod_r", (.vecInst .variable), none⟩,
    ⟨"f_prod_i", (.vecInst .variable), none⟩,
    ⟨"fscat", (.vecInst .variable), none⟩,
    ⟨"poles", (.vecInst .variable), none⟩,
    ⟨"L", .uint, none⟩,
    ⟨"Mpair", .uint, none⟩,
    ⟨"FormFac", (.enum .ff), none⟩,
    ⟨"radius", .flt, none⟩ ] ]

/-- `include/goofit/PDFs/physics/lineshapes/NonRes.h:10-16`. -/
def hdLineshapes_NonRes : List (List Declared) := [
  [ ⟨"name", .str, none⟩,
    ⟨"mass", (.inst .variable), none⟩,
    ⟨"width", (.inst .variable), none⟩,
    ⟨"L", .uint, none⟩,
    ⟨"Mpair", .uint, none⟩,
    ⟨"FormFac", (.enum .ff), (some (.atom (.enumerator .ff 2)))⟩,
    ⟨"radius", .flt, (some (.atom (.float (3/2))))⟩ ] ]

/-- `include/goofit/PDFs/physics/lineshapes/Flatte.h:10-16`. -/
def hdLineshapes_Flatte : List (List Declared) := [
  [ ⟨"name", .str, none⟩,
    ⟨"mass", (.inst .variable), none⟩,
    ⟨"width", (.inst .variable), none⟩,
    ⟨"L", .uint, none⟩,
    ⟨"Mpair", .uint, none⟩,
    ⟨"FormFac", (.enum .ff), (some (.atom (.enumerator .ff 2)))⟩,
    ⟨"radius", .flt, (some (.atom (.float (3/2))))⟩ ] ]

/-- `include/goofit/PDFs/physics/lineshapes/Bugg.h:10-16`. -/
def hdLineshapes_Bugg : List (List Declared) := [
  [ ⟨"name", .str, none⟩,
    ⟨"mass", (.inst .variable), none⟩,
    ⟨"width", (.inst .variable), none⟩,
    ⟨"L", .uint, none⟩,
    ⟨"Mpair", .uint, none⟩,
    ⟨"FormFac", (.enum .ff), (some (.atom (.enumerator .ff 2)))⟩,
    ⟨"radius", .flt, (some (.atom (.float (3/2))))⟩ ] ]

/-- `include/goofit/PDFs/physics/lineshapes/Bugg3.h:10-16`. -/
def hdLineshapes_Bugg3 : List (List Declared) := [
  [ ⟨"name", .str, none⟩,
    ⟨"mass", (.inst .variable), none⟩,
    ⟨"width", (.inst .variable), none⟩,
    ⟨"L", .uint, none⟩,
    ⟨"Mpair", .uint, none⟩,
    ⟨"FormFac", (.enum .ff), (some (.atom (.enumerator .ff 2)))⟩,
    ⟨"radius", .flt, (some (.atom (.float (3/2))))⟩ ] ]

/-- `include/goofit/PDFs/physics/lineshapes/RBW.h:10-16`. -/
def hdLineshapes_RBW : List (List Declared) := [
  [ ⟨"name", .str, none⟩,
    ⟨"mass", (.inst .variable), none⟩,
    ⟨"width", (.inst .variable), none⟩,
    ⟨"L", .uint, none⟩,
    ⟨"Mpair", .uint, none⟩,
    ⟨"FormFac", (.enum .ff), (some (.atom (.enumerator .ff 2)))⟩,
    ⟨"radius", .flt, (some (.atom (.float (3/2))))⟩ ] ]

/-- `include/goofit/PDFs/physics/lineshapes/SBW.h:10-16`. -/
def hdLineshapes_SBW : List (List Declared) := [
  [ ⟨"name", .str, none⟩,
    ⟨"mass", (.inst .variable), none⟩,
    ⟨"width", (.inst .variable), none⟩,
    ⟨"L", .uint, none⟩,
    ⟨"Mpair", .uint, none⟩,
    ⟨"FormFac", (.enum .ff), (some (.atom (.enumerator .ff 2)))⟩,
    ⟨"radius", .flt, (some (.atom (.float (3/2))))⟩ ] ]

/-- `include/goofit/PDFs/physics/lineshapes/GLASS.h:12-19`. -/
def hdLineshapes_GLASS : List (List Declared) := [
  [ ⟨"name", .str, none⟩,
    ⟨"mass", (.inst .variable), none⟩,
    ⟨"width", (.inst .variable), none⟩,
    ⟨"L", .uint, none⟩,
    ⟨"Mpair", .uint, none⟩,
    ⟨"FormFac", (.enum .ff), none⟩,
    ⟨"radius", .flt, none⟩,
    ⟨"AdditionalVars", (.vecInst .variable), none⟩ ] ]

/-- `include/goofit/PDFs/physics/lineshapes/GSpline.h:16-24`. -/
def hdLineshapes_GSpline : List (List Declared) := [
  [ ⟨"name", .str, none⟩,
    ⟨"mass", (.inst .variable), none⟩,
    ⟨"width", (.inst .variable), none⟩,
    ⟨"L", .uint, none⟩,
    ⟨"Mpair", .uint, none⟩,
    ⟨"FormFac", (.enum .ff), none⟩,
    ⟨"radius", .flt, none⟩,
    ⟨"AdditionalVars", (.vecInst .variable), none⟩,
    ⟨"SplineInfo", .spline, none⟩ ] ]

/-- `include/goofit/PDFs/physics/Amplitude.h:19-24`. -/
def hdAmplitude : List (List Declared) := [
  [ ⟨"uniqueDecayStr", .str, none⟩,
    ⟨"ar", (.inst .variable), none⟩,
    ⟨"ai", (.inst .variable), none⟩,
    ⟨"LS", (.vecPtr .lineshape), none⟩,
    ⟨"SF", (.vecPtr .spinFactor), none⟩,
    ⟨"nPerm", .uint, (some (.atom (.int 1)))⟩ ] ]

/-- `include/goofit/PDFs/physics/MixingTimeResolution.h:20-22`, with an empty pack of arguments. -/
def hdMixingTimeResolution : List (List Declared) := [
  [ ⟨"pdf_name", .str, none⟩ ] ]

/-- `include/goofit/PDFs/physics/resonances/RBW.h:12-20`. -/
def hdResonances_RBW : List (List Declared) := [
  [ ⟨"name", .str, none⟩,
    ⟨"ar", (.inst .variable), none⟩,
    ⟨"ai", (.inst .variable), none⟩,
    ⟨"mass", (.inst .variable), none⟩,
    ⟨"width", (.inst .variable), none⟩,
    ⟨"sp", .uint, none⟩,
    ⟨"cyc", .uint, none⟩,
    ⟨"norm", .bool, (some (.atom (.bool true)))⟩,
    ⟨"sym", .bool, (some (.atom (.bool false)))⟩ ] ]

/-- `include/goofit/PDFs/physics/resonances/GS.h:12-20`. -/
def hdResonances_GS : List (List Declared) := [
  [ ⟨"name", .str, none⟩,
    ⟨"ar", (.inst .variable), none⟩,
    ⟨"ai", (.inst .variable), none⟩,
    ⟨"mass", (.inst .variable), none⟩,
    ⟨"width", (.inst .variable), none⟩,
    ⟨"sp", .uint, none⟩,
    ⟨"cyc", .uint, none⟩,
    ⟨"norm", .bool, (some (.atom (.bool true)))⟩,
    ⟨"sym", .bool, (some (.atom (.bool false)))⟩ ] ]

/-- `include/goofit/PDFs/physics/resonances/RhoOmegaMix.h:12-25`. -/
def hdResonances_RhoOmegaMix : List (List Declared) := [
  [ ⟨"name", .str, none⟩,
    ⟨"ar", (.inst .variable), none⟩,
    ⟨"ai", (.inst .variable), none⟩,
    ⟨"omega_mass", (.inst .variable), none⟩,
    ⟨"omega_width", (.inst .variable), none⟩,
    ⟨"rho_mass", (.inst .variable), none⟩,
    ⟨"rho_width", (.inst .variable), none⟩,
    ⟨"real", (.inst .variable), none⟩,
    ⟨"imag", (.inst .variable), none⟩,
    ⟨"delta", (.inst .variable), none⟩,
    ⟨"sp", .uint, none⟩,
    ⟨"cyc", .uint, none⟩,
    ⟨"norm", .bool, none⟩,
    ⟨"sym", .bool, none⟩ ] ]

/-- `include/goofit/PDFs/physics/resonances/LASS.h:12-25`. -/
def hdResonances_LASS : List (List Declared) := [
  [ ⟨"name", .str, none⟩,
    ⟨"ar", (.inst .variable), none⟩,
    ⟨"ai", (.inst .variable), none⟩,
    ⟨"mass", (.inst .variable), none⟩,
    ⟨"width", (.inst .variable), none⟩,
    ⟨"_a", (.inst .variable), none⟩,
    ⟨"_r", (.inst .variable), none⟩,
    ⟨"_R", (.inst .variable), none⟩,
    ⟨"_phiR", (.inst .variable), none⟩,
    ⟨"_B", (.inst .variable), none⟩,
    ⟨"_phiB", (.inst .variable), none⟩,
    ⟨"sp", .uint, none⟩,
    ⟨"cyc", .uint, none⟩,
    ⟨"norm", .bool, (some (.atom (.bool true)))⟩ ] ]

/-- `include/goofit/PDFs/physics/resonances/kMatrix.h:16-30`. -/
def hdResonances_kMatrix : List (List Declared) := [
  [ ⟨"name", .str, none⟩,
    ⟨"a_r", (.inst .variable), none⟩,
    ⟨"a_i", (.inst .variable), none⟩,
    ⟨"sA0", (.inst .variable), none⟩,
    ⟨"sA", (.inst .variable), none⟩,
    ⟨"s0_prod", (.inst .variable), none⟩,
    ⟨"s0_scatt", (.inst .variable), none⟩,
    ⟨"beta_r", (.vecInst .variable), none⟩,
    ⟨"beta_i", (.vecInst .variable), none⟩,
    ⟨"f_prod_r", (.vecInst .variable), none⟩,
    ⟨"f_prod_i", (.vecInst .variable), none⟩,
    ⟨"fscat", (.vecInst .variable), none⟩,
    ⟨"poles", (.vecInst .variable), none⟩,
    ⟨"L", .uint, none⟩,
    ⟨"Mpair", .uint, none⟩ ] ]

/-- `include/goofit/PDFs/physics/resonances/NonRes.h:12-12`. -/
def hdResonances_NonRes : List (List Declared) := [
  [ ⟨"name", .str, none⟩,
    ⟨"ar", (.inst .variable), none⟩,
    ⟨"ai", (.inst .variable), none⟩ ] ]

/-- `include/goofit/PDFs/physics/resonances/Gauss.h:12-12`. -/
def hdResonances_Gauss : List (List Declared) := [
  [ ⟨"name", .str, none⟩,
    ⟨"ar", (.inst .variable), none⟩,
    ⟨"ai", (.inst .variable), none⟩,
    ⟨"mean", (.inst .variable), none⟩,
    ⟨"sigma", (.inst .variable), none⟩,
    ⟨"cyc", .uint, none⟩ ] ]

/-- `include/goofit/PDFs/physics/resonances/FLATTE.h:12-19`. -/
def hdResonances_FLATTE : List (List Declared) := [
  [ ⟨"name", .str, none⟩,
    ⟨"ar", (.inst .variable), none⟩,
    ⟨"ai", (.inst .variable), none⟩,
    ⟨"mean", (.inst .variable), none⟩,
    ⟨"g1", (.inst .variable), none⟩,
    ⟨"rg2og1", (.inst .variable), none⟩,
    ⟨"cyc", .uint, none⟩,
    ⟨"symmDP", .bool, none⟩ ] ]

/-- `include/goofit/PDFs/physics/resonances/Spline.h:12-19`. -/
def hdResonances_Spline : List (List Declared) := [
  [ ⟨"name", .str, none⟩,
    ⟨"ar", (.inst .variable), none⟩,
    ⟨"ai", (.inst .variable), none⟩,
    ⟨"HH_bin_limits", .vecFlt, none⟩,
    ⟨"pwa_coefs_reals", (.vecInst .variable), none⟩,
    ⟨"pwa_coefs_imags", (.vecInst .variable), none⟩,
    ⟨"cyc", .uint, none⟩,
    ⟨"symmDP", .bool, (some (.atom (.bool false)))⟩ ] ]

/-- `include/goofit/PDFs/physics/SpinFactors.h:50-51`; `include/goofit/PDFs/physics/SpinFactors.h:53-53`. -/
def hdSpinFactor : List (List Declared) := [
  [ ⟨"name", .str, none⟩,
    ⟨"SF", (.enum .sf), none⟩,
    ⟨"mD0", .flt, none⟩,
    ⟨"P0", .uint, none⟩,
    ⟨"P1", .uint, none⟩,
    ⟨"P2", .uint, none⟩,
    ⟨"P3", .uint, none⟩ ],
  [ ⟨"name", .str, none⟩,
    ⟨"SF", (.enum .sf), none⟩,
    ⟨"P0", .uint, none⟩,
    ⟨"P1", .uint, none⟩,
    ⟨"P2", .uint, none⟩,
    ⟨"P3", .uint, none⟩ ] ]

/-- `include/goofit/PDFs/physics/SquareDalitzEffPdf.h:17-27`. -/
def hdSquareDalitzEffPdf : List (List Declared) := [
  [ ⟨"n", .str, none⟩,
    ⟨"m12", (.inst .observable), none⟩,
    ⟨"m13", (.inst .observable), none⟩,
    ⟨"c0", (.inst .variable), none⟩,
    ⟨"c1", (.inst .variable), none⟩,
    ⟨"c2", (.inst .variable), none⟩,
    ⟨"c3", (.inst .variable), none⟩,
    ⟨"c4", (.inst .variable), none⟩,
    ⟨"c5", (.inst .variable), none⟩,
    ⟨"c6", (.inst .variable), none⟩,
    ⟨"c7", (.inst .variable), none⟩ ] ]

/-- `include/goofit/PDFs/physics/ThreeGaussResolution.h:21-33`. -/
def hdThreeGaussResolution : List (List Declared) := [
  [ ⟨"cf", (.inst .variable), none⟩,
    ⟨"tf", (.inst .variable), none⟩,
    ⟨"cb", (.inst .variable), none⟩,
    ⟨"cs", (.inst .variable), none⟩,
    ⟨"tb", (.inst .variable), none⟩,
    ⟨"ts", (.inst .variable), none⟩,
    ⟨"ob", (.inst .variable), none⟩,
    ⟨"os", (.inst .variable), none⟩,
    ⟨"sb", (.inst .variable), none⟩,
    ⟨"common_bias_offset", (.inst .variable), none⟩,
    ⟨"common_width_scale", (.inst .variable), none⟩,
    ⟨"common_bias_offset2", (.inst .variable), none⟩,
    ⟨"common_width_scale2", (.inst .variable), none⟩ ] ]

/-- `include/goofit/PDFs/physics/ThreeGaussResolutionExt.h:21-32`. -/
def hdThreeGaussResolutionExt : List (List Declared) := [
  [ ⟨"cf", (.inst .variable), none⟩,
    ⟨"tf", (.inst .variable), none⟩,
    ⟨"cb", (.inst .variable), none⟩,
    ⟨"cs", (.inst .variable), none⟩,
    ⟨"tb", (.inst .variable), none⟩,
    ⟨"ts", (.inst .variable), none⟩,
    ⟨"ob", (.inst .variable), none⟩,
    ⟨"os", (.inst .variable), none⟩,
    ⟨"sb_low", (.inst .variable), none⟩,
    ⟨"sb_high", (.inst .variable), none⟩,
    ⟨"Tthres", (.inst .variable), none⟩,
    ⟨"constantC", (.inst .variable), none⟩ ] ]

/-- `include/goofit/PDFs/physics/ThreeGaussResolutionSplice.h:21-37`. -/
def hdThreeGaussResolutionSplice : List (List Declared) := [
  [ ⟨"cf", (.inst .variable), none⟩,
    ⟨"tf", (.inst .variable), none⟩,
    ⟨"cb", (.inst .variable), none⟩,
    ⟨"cs", (.inst .variable), none⟩,
    ⟨"tb", (.inst .variable), none⟩,
    ⟨"ts", (.inst .variable), none⟩,
    ⟨"ob", (.inst .variable), none⟩,
    ⟨"os", (.inst .variable), none⟩,
    ⟨"knots", (.vecInst .variable), none⟩,
    ⟨"a0", (.vecInst .variable), none⟩,
    ⟨"a1", (.vecInst .variable), none⟩,
    ⟨"a2", (.vecInst .variable), none⟩,
    ⟨"a3", (.vecInst .variable), none⟩,
    ⟨"common_bias_offset", (.inst .variable), none⟩,
    ⟨"common_width_scale", (.inst .variable), none⟩,
    ⟨"common_bias_offset2", (.inst .variable), none⟩,
    ⟨"common_width_scale2", (.inst .variable), none⟩ ] ]

/-- `include/goofit/PDFs/utilities/VariableBinTransform1DPdf.h:12-12`. -/
def hdVariableBinTransform1DPdf : List (List Declared) := [
  [ ⟨"n", .str, none⟩,
    ⟨"_x", (.inst .observable), none⟩,
    ⟨"binlimits", .vecFlt, none⟩ ] ]

/-- `include/goofit/fitting/FCN.h:17-17`. -/
def hdFCN : List (List Declared) := [
  [ ⟨"params", (.inst .params), none⟩ ] ]

/-- `include/goofit/fitting/Params.h:32-32`. -/
def hdParams : List (List Declared) := [
  [ ⟨"pdf", (.inst .pdfBase), none⟩ ] ]

/-- `include/goofit/fitting/FitManagerMinuit2.h:19-19`. -/
def hdFitManagerMinuit2 : List (List Declared) := [
  [ ⟨"dat", (.ptr .pdfBase), none⟩ ] ]

/-- `include/goofit/Variable.h:120-120`. -/
def hdObservable : List (List Declared) := [
  [ ⟨"name", .str, none⟩,
    ⟨"lowerlimit", .flt, none⟩,
    ⟨"upperlimit", .flt, none⟩ ] ]

/-- `include/goofit/Variable.h:164-164`; `include/goofit/Variable.h:171-171`; `include/goofit/Variable.h:178-178`; `include/goofit/Variable.h:183-183`. -/
def hdVariable : List (List Declared) := [
  [ ⟨"n", .str, none⟩,
    ⟨"v", .flt, none⟩ ],
  [ ⟨"n", .str, none⟩,
    ⟨"v", .flt, none⟩,
    ⟨"err", .flt, none⟩ ],
  [ ⟨"n", .str, none⟩,
    ⟨"v", .flt, none⟩,
    ⟨"dn", .flt, none⟩,
    ⟨"up", .flt, none⟩ ],
  [ ⟨"n", .str, none⟩,
    ⟨"v", .flt, none⟩,
    ⟨"e", .flt, none⟩,
    ⟨"dn", .flt, none⟩,
    ⟨"up", .flt, none⟩,
    ⟨"fix", .bool, (some (.atom (.bool false)))⟩ ] ]

/-- `include/goofit/Variable.h:250-250`. -/
def hdEventNumber : List (List Declared) := [
  [ ⟨"name", .str, none⟩,
    ⟨"min", .flt, (some (.atom (.int 0)))⟩,
    ⟨"max", .flt, (some (.atom (.float 9007199254740992)))⟩ ] ]

/-- `include/goofit/PdfBase.h:181`. -/
def hd_setData : List (List Declared) := [
  [ ⟨"data", (.ptr .dataSet), none⟩ ] ]

/-- `include/goofit/PdfBase.h:193`. -/
def hd_fillMCDataSimple : List (List Declared) := [
  [ ⟨"events", .size, none⟩,
    ⟨"seed", .uint, (some (.atom (.int 0)))⟩ ] ]

/-- `include/goofit/PdfBase.h:196`. -/
def hd_fitTo : List (List Declared) := [
  [ ⟨"data", (.ptr .dataSet), none⟩,
    ⟨"verbosity", .int, (some (.atom (.int 3)))⟩ ] ]

/-- `include/goofit/PdfBase.h:199`. -/
def hd_fit : List (List Declared) := [
  [ ⟨"verbosity", .int, (some (.atom (.int 3)))⟩ ] ]

/-- `include/goofit/PDFs/physics/Amp3Body.h:50`. -/
def hd_Amp3Body_setDataSize : List (List Declared) := [
  [ ⟨"dataSize", .uint, none⟩,
    ⟨"evtSize", .uint, (some (.atom (.int 3)))⟩,
    ⟨"offset", .uint, (some (.atom (.int 0)))⟩ ] ]

/-- `include/goofit/PDFs/physics/Amp3Body_TD.h:127`. -/
def hd_Amp3Body_TD_setDataSize : List (List Declared) := [
  [ ⟨"dataSize", .uint, none⟩,
    ⟨"evtSize", .uint, (some (.atom (.int 5)))⟩,
    ⟨"offset", .uint, (some (.atom (.int 0)))⟩ ] ]

/-- `include/goofit/PDFs/physics/Amp4Body.h:41`. -/
def hd_Amp4Body_setDataSize : List (List Declared) := [
  [ ⟨"dataSize", .uint, none⟩,
    ⟨"evtSize", .uint, (some (.atom (.int 6)))⟩ ] ]

/-- `include/goofit/PDFs/physics/Amp4Body.h:42`. -/
def hd_setForceIntegrals : List (List Declared) := [
  [ ⟨"f", .bool, (some (.atom (.bool true)))⟩ ] ]

/-- `include/goofit/PDFs/physics/Amp3Body.h:53`. -/
def hd_setGenerationOffset : List (List Declared) := [
  [ ⟨"off", .int, none⟩ ] ]

/-- `include/goofit/PDFs/physics/Amp3Body_TD.h:128`. -/
def hd_setD0Fraction : List (List Declared) := [
  [ ⟨"d0fraction", .flt, none⟩ ] ]

/-- `include/goofit/UnbinnedDataSet.h:42`. -/
def hd_loadEvent : List (List Declared) := [
  [ ⟨"idx", .size, none⟩ ] ]

/-- `include/goofit/PDFs/physics/DalitzPlotter.h:109`. -/
def hd_getVal : List (List Declared) := [
  [ ⟨"event", .size, none⟩,
    ⟨"num", .size, (some (.atom (.int 0)))⟩ ] ]

/-- `include/goofit/BinnedDataSet.h:45`. -/
def hd_setBinContent : List (List Declared) := [
  [ ⟨"bin", .uint, none⟩,
    ⟨"value", .flt, none⟩ ] ]

/-- `include/goofit/BinnedDataSet.h:46`. -/
def hd_setBinError : List (List Declared) := [
  [ ⟨"bin", .uint, none⟩,
    ⟨"value", .flt, none⟩ ] ]

/-- `include/goofit/PDFs/combine/ConvolutionPdf.h:39`. -/
def hd_setIntegrationConstants : List (List Declared) := [
  [ ⟨"lo", .flt, none⟩,
    ⟨"hi", .flt, none⟩,
    ⟨"step", .flt, none⟩ ] ]

/-- `include/goofit/UnbinnedDataSet.h:49`. -/
def hd_from_matrix : List (List Declared) := [
  [ ⟨"input", (.inst .ndarray), none⟩,
    ⟨"filter", .bool, (some (.atom (.bool false)))⟩ ] ]

/-- `include/goofit/PDFs/physics/DalitzPlotter.h:64`. -/
def hd_fillDataSetMC : List (List Declared) := [
  [ ⟨"dataset", (.inst .unbinnedDataSet), none⟩,
    ⟨"nTotal", .size, none⟩ ] ]

/-- The declarations of the C++ functions the bindings call, by the name in Python. -/
def headers : List (String × List (List Declared)) := [
  ("ArgusPdf", hdArgusPdf),
  ("BWPdf", hdBWPdf),
  ("BernsteinPdf", hdBernsteinPdf),
  ("BifurGaussPdf", hdBifurGaussPdf),
  ("BinTransformPdf", hdBinTransformPdf),
  ("CorrGaussianPdf", hdCorrGaussianPdf),
  ("CrystalBallPdf", hdCrystalBallPdf),
  ("ExpGausPdf", hdExpGausPdf),
  ("ExpPdf", hdExpPdf),
  ("GaussianPdf", hdGaussianPdf),
  ("InterHistPdf", hdInterHistPdf),
  ("JohnsonSUPdf", hdJohnsonSUPdf),
  ("KinLimitBWPdf", hdKinLimitBWPdf),
  ("LandauPdf", hdLandauPdf),
  ("NovosibirskPdf", hdNovosibirskPdf),
  ("PolynomialPdf", hdPolynomialPdf),
  ("ScaledGaussianPdf", hdScaledGaussianPdf),
  ("SmoothHistogramPdf", hdSmoothHistogramPdf),
  ("StepPdf", hdStepPdf),
  ("TrigThresholdPdf", hdTrigThresholdPdf),
  ("VoigtianPdf", hdVoigtianPdf),
  ("AddPdf", hdAddPdf),
  ("CompositePdf", hdCompositePdf),
  ("ConvolutionPdf", hdConvolutionPdf),
  ("EventWeightedAddPdf", hdEventWeightedAddPdf),
  ("MappedPdf", hdMappedPdf),
  ("ProdPdf", hdProdPdf),
  ("Amp3Body", hdAmp3Body),
  ("Amp3Body_IS", hdAmp3Body_IS),
  ("Amp3Body_TD", hdAmp3Body_TD),
  ("Amp4Body", hdAmp4Body),
  ("Amp4Body_TD", hdAmp4Body_TD),
  ("DecayInfo3t", hdDecayInfo3t),
  ("DecayInfo4t", hdDecayInfo4t),
  ("DalitzPlotter", hdDalitzPlotter),
  ("Lineshapes.One", hdLineshapes_One),
  ("Lineshapes.LASS", hdLineshapes_LASS),
  ("Lineshapes.kMatrix", hdLineshapes_kMatrix),
  ("Lineshapes.NonRes", hdLineshapes_NonRes),
  ("Lineshapes.Flatte", hdLineshapes_Flatte),
  ("Lineshapes.Bugg", hdLineshapes_Bugg),
  ("Lineshapes.Bugg3", hdLineshapes_Bugg3),
  ("Lineshapes.RBW", hdLineshapes_RBW),
  ("Lineshapes.SBW", hdLineshapes_SBW),
  ("Lineshapes.GLASS", hdLineshapes_GLASS),
  ("Lineshapes.GSpline", hdLineshapes_GSpline),
  ("Amplitude", hdAmplitude),
  ("MixingTimeResolution", hdMixingTimeResolution),
  ("Resonances.RBW", hdResonances_RBW),
  ("Resonances.GS", hdResonances_GS),
  ("Resonances.RhoOmegaMix", hdResonances_RhoOmegaMix),
  ("Resonances.LASS", hdResonances_LASS),
  ("Resonances.kMatrix", hdResonances_kMatrix),
  ("Resonances.NonRes", hdResonances_NonRes),
  ("Resonances.Gauss", hdResonances_Gauss),
  ("Resonances.FLATTE", hdResonances_FLATTE),
  ("Resonances.Spline", hdResonances_Spline),
  ("SpinFactor", hdSpinFactor),
  ("SquareDalitzEffPdf", hdSquareDalitzEffPdf),
  ("ThreeGaussResolution", hdThreeGaussResolution),
  ("ThreeGaussResolutionExt", hdThreeGaussResolutionExt),
  ("ThreeGaussResolutionSplice", hdThreeGaussResolutionSplice),
  ("VariableBinTransform1DPdf", hdVariableBinTransform1DPdf),
  ("FCN", hdFCN),
  ("Params", hdParams),
  ("FitManagerMinuit2", hdFitManagerMinuit2),
  ("Observable", hdObservable),
  ("Variable", hdVariable),
  ("EventNumber", hdEventNumber),
  ("PdfBase.setData", hd_setData),
  ("PdfBase.fillMCDataSimple", hd_fillMCDataSimple),
  ("PdfBase.fitTo", hd_fitTo),
  ("PdfBase.fit", hd_fit),
  ("Amp3Body.setDataSize", hd_Amp3Body_setDataSize),
  ("Amp3Body_TD.setDataSize", hd_Amp3Body_TD_setDataSize),
  ("Amp4Body.setDataSize", hd_Amp4Body_setDataSize),
  ("Amp4Body.setForceIntegrals", hd_setForceIntegrals),
  ("Amp3Body.setGenerationOffset", hd_setGenerationOffset),
  ("Amp3Body_TD.setD0Fraction", hd_setD0Fraction),
  ("UnbinnedDataSet.loadEvent", hd_loadEvent),
  ("DalitzPlotter.getVal", hd_getVal),
  ("BinnedDataSet.setBinContent", hd_setBinContent),
  ("BinnedDataSet.setBinError", hd_setBinError),
  ("ConvolutionPdf.setIntegrationConstants", hd_setIntegrationConstants),
  ("UnbinnedDataSet.from_matrix", hd_from_matrix),
  ("DalitzPlotter.fillDataSetMC", hd_fillDataSetMC) ]

/-- Keywords that differ from the name of the parameter in the header by more than a leading underscore. -/
def renamed : List (String × String) := [("name", "n"), ("mean", "m"), ("Gamma", "s"), ("obs", "vars"),
  ("coefs", "weights"), ("value", "v"), ("error", "e"), ("error", "err"), ("fixed", "fix"),
  ("min", "dn"), ("max", "up"), ("min", "lowerlimit"), ("max", "upperlimit"), ("n", "pdf_name"),
  ("r", "Tres"), ("eff", "efficiency"), ("MCeventsNorm", "numNormEventsToGen"), ("ptr", "data"),
  ("fset", "f"), ("event_number", "idx")]

/-- The keyword names the parameter that the header calls `h`. -/
def SameName (k h : String) : Prop := k = h ∨ h = "_" ++ k ∨ (k, h) ∈ renamed

/-- A bound signature is the declaration: its parameters are the first ones declared, in the same order,
each keyword names its parameter and each type is the declared one, a default in Python stands for the
same value as a default in the header, and the parameters that are not bound have a default. -/
structure Declares (h : List Declared) (s : Sig) : Prop where
  size : s.length ≤ h.length
  names : ∀ (j : Nat) (p : Param) (d : Declared) (k : String), s[j]? = some p → h[j]? = some d →
    p.kw = some k → SameName k d.name
  types : ∀ (j : Nat) (p : Param) (d : Declared), s[j]? = some p → h[j]? = some d → p.ty = d.ty
  defaults : ∀ (j : Nat) (p : Param) (d : Declared) (v w : PyVal), s[j]? = some p → h[j]? = some d →
    p.dflt = some v → d.dflt = some w → ∃ x, Means p.ty v x ∧ Means p.ty w x
  rest : ∀ (j : Nat) (d : Declared), s.length ≤ j → h[j]? = some d → d.dflt ≠ none

end GooFit.Spec
