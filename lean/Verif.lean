import Verif.Props.Variable
import Verif.Props.DataSet
import Verif.Props.Binned
import Verif.Props.Tree
import Verif.Props.Fit
import Verif.Props.Norm
import Verif.Props.Basic
import Verif.Props.BasicReal
import Verif.Props.Poly
import Verif.Props.Region
import Verif.Props.Integrate
import Verif.Props.Hist
import Verif.Props.Utils
import Verif.Props.Minuit
import Verif.Props.SmartVector
import Verif.Props.Files
import Verif.Props.Convolution
import Verif.Props.Cache
import Verif.Props.Amp3Body
import Verif.Props.Toy
import Verif.Props.World
import Verif.Props.Amp4Body
import Verif.Props.FourBody
import Verif.Props.SpinFactor
import Verif.Props.KMatrix
import Verif.Props.SplineRes
import Verif.Props.Resonance
import Verif.Props.ResonanceShapes
import Verif.Model.Mixing
import Verif.Model.ExtRes
import Verif.Model.SpliceRes
import Verif.Spec.Mixing
import Verif.Spec.Acceptance
import Verif.Lemmas.Mixing
import Verif.Lemmas.GaussRes
import Verif.Lemmas.TrigBounds
import Verif.Props.Mixing
import Verif.Props.GaussRes
import Verif.Model.TimeDalitz
import Verif.Spec.TimeDalitz
import Verif.Props.TimeDalitz
import Verif.Props.TimeDalitzCache
import Verif.Model.Incoherent
import Verif.Spec.Incoherent
import Verif.Props.Incoherent
import Verif.Model.TimeFourBody
import Verif.Model.TimeGenerate
import Verif.Spec.TimeFourBody
import Verif.Lemmas.TimeFourBody
import Verif.Lemmas.TimeFourBodyRun
import Verif.Props.TimeFourBody
import Verif.Props.TimeGenerate
import Verif.Model.Globals
import Verif.Spec.Globals
import Verif.Props.Globals
import Verif.Model.Lineshape4
import Verif.Spec.Lineshape4
import Verif.Lemmas.Lineshape4
import Verif.Props.Lineshape4
import Verif.Props.LineshapeChannels
import Verif.Model.FitManager
import Verif.Spec.FitManager
import Verif.Lemmas.FitManager
import Verif.Props.FitManager
import Verif.Model.FitManager1
import Verif.Props.FitManager1
import Verif.Lemmas.ExtRes
import Verif.Lemmas.SpliceRes
import Verif.Props.ExtRes
import Verif.Props.SpliceRes
import Verif.Model.GSpline
import Verif.Model.Component4
import Verif.Spec.Component4
import Verif.Spec.GSpline
import Verif.Props.Component4
import Verif.Props.GSpline
import Verif.Model.TimeComponent4
import Verif.Spec.TimeComponent4
import Verif.Props.TimeComponent4
import Verif.Model.Dalitz3
import Verif.Spec.Dalitz3
import Verif.Props.Dalitz3
import Verif.Props.Faddeeva
import Verif.Props.Landau
import Verif.Props.Python
import Verif.Props.Numpy
import Verif.Props.Likelihood
import Verif.Props.LikelihoodReal
import Verif.Props.BinnedFit
import Verif.Props.Values
import Verif.Model.Generate3
import Verif.Spec.Generate3
import Verif.Props.Generate3
import Verif.Props.GenerateAccept
import Verif.Spec.Momenta4
import Verif.Lemmas.Momenta4
import Verif.Props.Momenta4
import Verif.Model.Inverse5
import Verif.Props.Inverse5
import Verif.Model.Plotter
import Verif.Spec.Plotter
import Verif.Props.Plotter
import Verif.Model.Coefficient
import Verif.Spec.Coefficient
import Verif.Props.Coefficient
import Verif.Model.Fit3
import Verif.Spec.Fit3
import Verif.Props.Fit3
import Verif.Model.Fit4
import Verif.Spec.Fit4
import Verif.Props.Fit4
import Verif.Model.Lookup
import Verif.Props.Lookup
import Verif.Model.Application
import Verif.Spec.Application
import Verif.Props.Application
import Verif.Model.TimeDalitz3
import Verif.Spec.TimeDalitz3
import Verif.Props.TimeDalitz3
import Verif.Props.FitTime3
import Verif.Model.Printed
import Verif.Spec.Printed
import Verif.Props.Printed
import Verif.Model.AmpListing
import Verif.Props.AmpListing
import Verif.Model.ConvFit
import Verif.Spec.ConvFit
import Verif.Props.ConvFit
import Verif.Model.NormEvents4
import Verif.Spec.NormEvents4
import Verif.Props.NormEvents4
import Verif.Model.Measured4
import Verif.Spec.Measured4
import Verif.Props.Measured4
import Verif.Props.Mix3
import Verif.Props.TimeTree
import Verif.Props.Wrapped3
import Verif.Props.PyBind
import Verif.Props.PyArrays
import Verif.Props.OfferedIntegrals
import Verif.Props.SmearedDalitz
import Verif.Props.ResolutionError
