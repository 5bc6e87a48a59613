{"id": "C01", "title": "Variable handles alias faithfully", "statement": "Two Variable/Observable handles compare equal exactly when they descend by copying from the same construction, and then every attribute written through one (value, limits, error, fixed, blind, number of bins, index) is read back through the other; handles from different constructions never influence each other.", "quantifier": "every finite history of constructing, copying and setting handles, and every pair of handles in it", "why_tests_cant": "Aliasing is a property of all histories of copies; a test samples a few copies and a few setters.", "anchors": ["include/goofit/Variable.h: Indexable, Variable, Observable, EventNumber"]}
{"id": "C02", "title": "Constructors give the documented fit status and limits", "statement": "Variable(name,v) is a constant; Variable(name,v,err) is a free parameter without limits; Variable(name,v,lo,hi) and Variable(name,v,err,lo,hi) are free parameters limited to [lo,hi]; a freshly built variable whose value lies in its limits (or that has no limits) tests true as in-range.", "quantifier": "every name and every numeric argument", "why_tests_cant": "Needs all numeric arguments, including ones where limits coincide with the value.", "anchors": ["include/goofit/Variable.h: Variable::Variable, Indexable::operator bool"]}
{"id": "C03", "title": "An unbinned dataset is a list of events", "statement": "After any sequence of addEvent / addEvent(values...) / loadEvent / setValueForAllEvents / clear calls, getNumEvents and getValue(observable, i) answer as if the dataset were the list of event rows accepted so far; loadEvent(i) makes the observables hold row i; out-of-range rows throw and nothing else does.", "quantifier": "every finite sequence of operations on any dataset with any number of distinct observables and arbitrary values", "why_tests_cant": "Unbounded operation histories, column/row bookkeeping must stay consistent after every one of them.", "anchors": ["src/goofit/UnbinnedDataSet.cpp", "include/goofit/UnbinnedDataSet.h", "src/goofit/DataSet.cpp", "include/goofit/DataSet.h: DataSet::addEvent"]}
{"id": "C04", "title": "A rejected event leaves the dataset unchanged", "statement": "If addEvent (plain, variadic or weighted) throws, the dataset's events, bin contents, bin errors and event counter are what they were before the call.", "quantifier": "every dataset state, every observable state and every argument list", "why_tests_cant": "Must hold at every possible throw point for every state.", "anchors": ["src/goofit/UnbinnedDataSet.cpp: addEvent", "src/goofit/BinnedDataSet.cpp: addEvent, addWeightedEvent", "src/goofit/DataSet.cpp: checkAllVars"]}
{"id": "C05", "title": "Stored values are inside the observable limits", "statement": "Every value in an unbinned dataset built by addEvent, from_matrix or fillWithGrid was inside its observable's limits when it was added (an observable whose limits coincide counts as unlimited).", "quantifier": "every history of insertions, and every event and observable in the result", "why_tests_cant": "Quantifies over all histories including those with exceptions half-way.", "anchors": ["src/goofit/DataSet.cpp: checkAllVars", "src/goofit/UnbinnedDataSet.cpp: addEvent, from_matrix, fillWithGrid"]}
{"id": "C06", "title": "Matrix import/export round trip", "statement": "from_matrix on an empty dataset followed by to_matrix returns the matrix; when the matrix lacks the last row, that observable becomes the event's index; with filtering, exactly the in-range columns are kept in order and the added event number is the event's row in the dataset.", "quantifier": "every matrix size and contents, every filter setting, every starting dataset", "why_tests_cant": "All sizes, all contents; index bookkeeping under filtering is easily wrong only on mixed inputs.", "anchors": ["src/goofit/UnbinnedDataSet.cpp: from_matrix, to_matrix"]}
{"id": "C07", "title": "Evaluation grid covers every bin exactly once", "statement": "fillWithGrid / makeGrid on observables with n1..nk bins yields exactly n1*...*nk events; event g holds the centre of global bin g of the matching binned dataset, so each bin centre occurs exactly once.", "quantifier": "every list of observables, bin counts and limits", "why_tests_cant": "Recursion over any number of dimensions and bins.", "anchors": ["src/goofit/UnbinnedDataSet.cpp: fillWithGrid, make_a_grid", "src/PDFs/GooPdf.cpp: makeGrid"]}
{"id": "C08", "title": "Binned dataset: local and global bin numbers are inverse", "statement": "globalToLocal and localToGlobal are mutually inverse bijections between the numbers below getNumBins and the tuples of valid local bins.", "quantifier": "every number of dimensions, every bin-count vector and every bin", "why_tests_cant": "All dimensions and sizes, including products beyond 32 bits.", "anchors": ["src/goofit/BinnedDataSet.cpp: localToGlobal, globalToLocal, getNumBins"]}
{"id": "C09", "title": "A binned event lands in the bin that contains it", "statement": "An event accepted by addEvent or addWeightedEvent increases the content of exactly the bin whose half-open (last one closed) cell contains the observables' values, by its weight, and changes no other bin.", "quantifier": "every in-range value tuple including the limits themselves, every binning, every previous contents", "why_tests_cant": "Boundary values, in every dimension and binning; an off-by-one only shows at measure-zero points.", "anchors": ["src/goofit/BinnedDataSet.cpp: getBinNumber, convertValuesToBins, addEvent, addWeightedEvent"]}
{"id": "C10", "title": "Binned contents add up to the weights", "statement": "The sum of all bin contents equals the sum of the weights accepted; getNumEvents is the number of accepted events and getNumWeightedEvents is the sum of the weights.", "quantifier": "every finite history of addEvent / addWeightedEvent calls with arbitrary real weights", "why_tests_cant": "Unbounded histories and arbitrary weights; integer truncation only shows for fractional weights.", "anchors": ["src/goofit/BinnedDataSet.cpp: addEvent, addWeightedEvent", "src/goofit/BinnedDataSet.cpp: getNumWeightedEvents"]}
{"id": "C11", "title": "Bin errors are the square root of content until set, and setting one leaves the others", "statement": "getBinError(i) is sqrt(content i) for every bin whose error was never set and the last value set otherwise.", "quantifier": "every history of setBinError, setBinContent and addEvent calls and every bin", "why_tests_cant": "Interaction of bins across a history.", "anchors": ["src/goofit/BinnedDataSet.cpp: getBinError, setBinError, setBinContent"]}
{"id": "C12", "title": "Bins tile the observable range", "statement": "Bin centres lie in the middle of their cells, cells are disjoint and cover the box, and bin volume times number of bins is the volume of the box.", "quantifier": "every number of dimensions, limits and bin counts", "why_tests_cant": "All dimensions and sizes.", "anchors": ["src/goofit/BinnedDataSet.cpp: getBinCenter, getBinSize, getBinVolume"]}
{"id": "C13", "title": "A PDF tree evaluates to its mathematical definition", "statement": "Whatever way PDFs are nested with AddPdf (fractions or extended), ProdPdf, MappedPdf, CompositePdf, EventWeightedAddPdf, Amp3Body (simple efficiency, see C42) and ConvolutionPdf (plain form; the sharing form is C46), evaluating the top PDF at an event returns the value of the recursive definition (weighted sum, product, selected branch, composition ...) with each node using its own parameters, constants, observables and normalisation.", "quantifier": "every finite PDF tree, every parameter and event value, bit-exactly for any arithmetic", "why_tests_cant": "Trees are unbounded; flattened indices must line up for each shape, and one wrong increment in one node corrupts unrelated siblings.", "anchors": ["src/PDFs/PdfBase.cu: populateArrays, recursiveSetIndices, setIndices", "src/PDFs/ParameterContainer.cu", "include/goofit/PDFs/ParameterContainer.h", "src/PDFs/combine/*.cu"]}
{"id": "C14", "title": "The fit metric, not another function, is applied to the PDF value", "statement": "After the whole tree has been evaluated for an event, the function applied to its value is the metric selected by the fit control, for every tree shape (amplitudes with composite efficiency are C42, sharing convolutions C46).", "quantifier": "every finite PDF tree and every event", "why_tests_cant": "The metric is found by the cursor position left by the tree evaluation, so every leaf on every path counts.", "anchors": ["src/PDFs/MetricTaker.cu: MetricTaker::operator()", "src/PDFs/GooPdf.cu: setIndices"]}
{"id": "C15", "title": "Every PDF consumes exactly what it registered", "statement": "Each basic PDF's evaluation reads only parameters, constants and observables it registered and leaves the cursor at the next PDF, on every evaluation path.", "quantifier": "every basic PDF class, every constructor argument size, every event and parameter value", "why_tests_cant": "Every early-return path for every event and every number of coefficients.", "anchors": ["src/PDFs/basic/*.cu", "src/PDFs/utilities/*.cu", "src/PDFs/physics/DalitzVetoPdf.cu"]}
{"id": "C16", "title": "Parameter updates reach every use", "statement": "After the minimiser sets parameter values, the next evaluation uses the new value at every place the variable occurs in the tree, and nothing else changes.", "quantifier": "every tree, every sharing pattern of variables and every value vector", "why_tests_cant": "All sharing patterns and trees.", "anchors": ["src/PDFs/PdfBase.cu: updateVariable, updateParameters", "src/goofit/Params.cpp: from_minuit_vector"]}
{"id": "C17", "title": "getParameters lists every variable once", "statement": "getParameters of a PDF returns each distinct variable used anywhere in its tree exactly once, and nothing else; getObservables likewise.", "quantifier": "every PDF tree and every sharing or repetition of variables, inside one PDF or across PDFs", "why_tests_cant": "All sharing patterns.", "anchors": ["src/goofit/PdfBase.cpp: getParameters, getObservables, registerParameter, registerObservable"]}
{"id": "C18", "title": "Every PDF reads its own observable of the event", "statement": "After setData with an unbinned dataset, evaluating event i gives every node of the tree the values of its own observables in row i of the dataset, whatever the order in which the dataset or the PDFs list them.", "quantifier": "every tree, every dataset order, every event", "why_tests_cant": "All permutations and subsets of observables across the tree.", "anchors": ["src/PDFs/PdfBase.cu: setData, setupObservables, populateArrays"]}
{"id": "C19", "title": "Queries do not change what a later fit minimises", "statement": "Calling getValue, evaluateAtPoints, getCompProbsAtDataPoints or normalize leaves the fit metric and data of the PDF as they were, so that a later calculateNLL on the same data and parameters returns the same value.", "quantifier": "every finite history of queries between two calculateNLL calls", "why_tests_cant": "Histories; hidden state (fit control, indices) survives calls.", "anchors": ["src/PDFs/GooPdf.cu: evaluateAtPoints, getValue, getCompProbsAtDataPoints, setFitControl"]}
{"id": "C20", "title": "Event addressing matches the data layout", "statement": "When the metric is summed or evaluated over a dataset, the k-th evaluation reads exactly the k-th event (or bin) of the data given to setData: no evaluation reads outside the event array or across events.", "quantifier": "every sequence of setData (binned/unbinned) and setFitControl calls, every number of events and observables", "why_tests_cant": "Histories that switch between binned and unbinned data.", "anchors": ["src/PDFs/GooPdf.cu: reduce_with_metric, evaluate_with_metric, get_event_size", "src/PDFs/PdfBase.cu: setData", "src/PDFs/MetricTaker.cu"]}
{"id": "C21", "title": "The NLL is a sum over events, whatever the split or order", "statement": "The total returned by calculateNLL is the sum of the metric over all events; it does not depend on the order of events, on how the reduction is scheduled, nor on how many MPI ranks share the work (exact arithmetic).", "quantifier": "every dataset, every permutation, every reduction tree and every number of ranks", "why_tests_cant": "All schedules and partitions.", "anchors": ["src/PDFs/GooPdf.cu: reduce_with_metric, sumOfNll, calculateNLL", "src/PDFs/PdfBase.cu: setData (MPI)"]}
{"id": "C22", "title": "MPI ranks partition the data", "statement": "With any number of ranks, each event is assigned to exactly one rank, ranks hold consecutive runs in order, and an event-number observable counts from 0 on each rank.", "quantifier": "every number of events, ranks, observables, and both unbinned and binned data", "why_tests_cant": "All (n, ranks) combinations including n < ranks.", "anchors": ["src/PDFs/PdfBase.cu: setData (MPI branches)"]}
{"id": "C23", "title": "Fit metrics compute their formulas", "statement": "The NLL metric is -log(p) for p>0; the probability metric is p; the binned metrics are expected - n*log(expected), ((p-n)/err)^2 and (expected-n)^2/max(n,1) where expected = p * bin volume * number of events.", "quantifier": "every PDF value, normalisation, bin content and error, every dataset", "why_tests_cant": "All values, including the guards at 0.", "anchors": ["src/PDFs/MetricPointer.cu", "src/PDFs/PdfBase.cu: setData (c_totalEvents)"]}
{"id": "C24", "title": "A normalised PDF integrates to one over its grid", "statement": "After normalize(), value times normalisation summed over the integration grid times cell volume is one, for PDFs of any number of observables without analytic integral.", "quantifier": "every number of observables, bin counts, limits and every PDF function with a positive grid sum", "why_tests_cant": "All grids and dimensions; all functions.", "anchors": ["src/PDFs/GooPdf.cu: normalize, reduce_with_bins", "src/PDFs/MetricTaker.cu: grid operator", "src/PDFs/PdfBase.cu: generateNormRange"]}
{"id": "C25", "title": "Sums of PDFs are normalised mixtures", "statement": "The value of an AddPdf is the mixture of its components' normalised values with the given fractions (the last one being one minus the others, or all divided by their sum when extended), so its integral is one whenever the components' are; with a common normalisation the integral of the sum is one.", "quantifier": "every number of components, fractions and component functions, every nesting", "why_tests_cant": "All component functions and nestings.", "anchors": ["src/PDFs/combine/AddPdf.cu"]}
{"id": "C26", "title": "Products of independent PDFs are normalised; dependent ones are detected", "statement": "A ProdPdf whose components share no observable is the product of its normalised components and integrates to one; if any two components share an observable the product is integrated as a whole instead.", "quantifier": "every number of components and every assignment of observables", "why_tests_cant": "All overlap patterns, e.g. first and third component sharing.", "anchors": ["src/PDFs/combine/ProdPdf.cu"]}
{"id": "C27", "title": "Extended likelihood term", "statement": "calculateNLL of an extended AddPdf is the NLL of its shape plus N_exp - N_obs*log(N_exp), where N_exp is the sum of its weights; of any other PDF it is the NLL alone.", "quantifier": "every weight vector, dataset and parameter value", "why_tests_cant": "All values.", "anchors": ["src/PDFs/combine/AddPdf.cu: calculateNLL, AddPdf::AddPdf"]}
{"id": "C28", "title": "MappedPdf evaluates the branch chosen by the map", "statement": "MappedPdf returns the normalised value of target number round(map(x)) when that number is a valid target; every event whose map value is out of range is reported rather than evaluated with another branch or memory outside the PDF.", "quantifier": "every list of (arbitrarily nested) targets, every map value", "why_tests_cant": "All nestings of targets before the selected one must be skipped exactly.", "anchors": ["src/PDFs/combine/MappedPdf.cu"]}
{"id": "C29", "title": "Minuit vectors and variables round-trip", "statement": "Building the minimiser vector from the variables and pushing it back leaves every variable unchanged; pushing values v makes the PDF see v minus the blinding offset; evaluating the FCN without arguments repeatedly gives the same result.", "quantifier": "every set of variables with distinct names, every blinding, any number of repetitions", "why_tests_cant": "Arbitrary repetitions; blinding drift only shows in repeated calls.", "anchors": ["src/goofit/Params.cpp", "src/goofit/FCN.cpp", "include/goofit/Variable.h: blind"]}
{"id": "C30", "title": "Cached work is redone whenever a parameter it depends on has changed", "statement": "A quantity cached across evaluations (convolution workspaces, resonance waves and integrals) equals what a fresh computation with the current parameter values would give, at every evaluation of a fit.", "quantifier": "every history of parameter updates, every model tree under the cache", "why_tests_cant": "Histories in which only some parameter changes, at any depth of the tree.", "anchors": ["src/PDFs/combine/ConvolutionPdf.cu: normalize", "src/goofit/PdfBase.cpp: parametersChanged", "src/goofit/Params.cpp: from_minuit_vector", "src/PDFs/physics/Amp3Body.cu: normalize"]}
{"id": "C31", "title": "Convolution stays inside its workspaces", "statement": "Evaluating a ConvolutionPdf at any point of its range reads model and resolution workspaces only inside the range that was filled, and computes the discrete convolution sum of the two at the right offsets.", "quantifier": "every range, step, and evaluation point", "why_tests_cant": "Integer rounding of offsets for all ranges and steps.", "anchors": ["src/PDFs/combine/ConvolutionPdf.cu"]}
{"id": "C32", "title": "Device copies equal host arrays at every kernel launch", "statement": "After sync or smart_sync, the device copy of a parameter array equals the host array.", "quantifier": "every finite history of pushes, writes, clears, syncs, smart syncs and device clears", "why_tests_cant": "Histories, including clearing the device between two smart syncs.", "anchors": ["include/goofit/detail/SmartVectorGPU.h", "include/goofit/detail/SmartVectorCPU.h", "src/PDFs/detail/Globals.cu: cleanup"]}
{"id": "C33", "title": "Toy generation stays in range", "statement": "fillMCDataSimple(n) adds exactly n events, each inside the observable's limits and in a bin of non-zero probability, and restores the PDF's dataset.", "quantifier": "every PDF with non-negative values and positive sum on the grid, every random stream", "why_tests_cant": "All random streams.", "anchors": ["src/goofit/PdfBase.cpp: fillMCDataSimple"]}
{"id": "C34", "title": "Saving and restoring parameters", "statement": "writeToFile followed by readFromFile restores every parameter's value, error and limits (to the printed precision), leaves unknown names alone and always terminates; list files round-trip.", "quantifier": "every PDF, parameter names and values, and every file content", "why_tests_cant": "Termination and recovery for every file content.", "anchors": ["src/goofit/FunctorWriter.cpp"]}
{"id": "C35", "title": "Compensated summation returns the sum", "statement": "The compensated summation of a vector equals its sum in exact arithmetic for any length and order.", "quantifier": "every vector", "why_tests_cant": "All lengths and sign patterns.", "anchors": ["src/goofit/MathUtils.cpp: doNeumaierSummation"]}
{"id": "C36", "title": "Uncertainty propagation", "statement": "Uncertain arithmetic propagates values exactly, and the (linear) uncertainties: sums and differences add absolute uncertainties; products and quotients add relative ones; no operation yields a negative uncertainty.", "quantifier": "every pair of values with uncertainties, any sign", "why_tests_cant": "All values and signs.", "anchors": ["include/goofit/utilities/Uncertain.h"]}
{"id": "C37", "title": "Polynomial-type PDFs compute their polynomials", "statement": "PolynomialPdf, its offset and multi-dimensional forms, BernsteinPdf and ExpPdf evaluate the polynomial described by their coefficients, with every coefficient used exactly once.", "quantifier": "every degree, number of observables, coefficient vector and point", "why_tests_cant": "All degrees and dimensions.", "anchors": ["src/PDFs/basic/PolynomialPdf.cu", "src/PDFs/basic/BernsteinPdf.cu", "src/PDFs/basic/ExpPdf.cu"]}
{"id": "C38", "title": "Analytic integrals match the functions", "statement": "When a PDF declares an analytic integral, integrate(lo,hi) equals the integral of its evaluation function over [lo,hi].", "quantifier": "every parameter value and every lo<=hi", "why_tests_cant": "Real integrals over all ranges.", "anchors": ["src/PDFs/basic/StepPdf.cu", "src/PDFs/basic/ExpPdf.cu", "src/PDFs/basic/GaussianPdf.cu", "src/PDFs/basic/PolynomialPdf.cu"]}
{"id": "C39", "title": "Exceptions never leave a PDF pointing at a dead dataset", "statement": "If evaluateAtPoints, fillMCDataSimple or fitTo is abandoned by an exception, the PDF's dataset is one the user supplied and still owns.", "quantifier": "every crash point inside those calls", "why_tests_cant": "All crash points.", "anchors": ["src/PDFs/GooPdf.cu: evaluateAtPoints", "src/goofit/PdfBase.cpp: fillMCDataSimple, fitTo"]}
{"id": "C40", "title": "Histogram PDFs read their own histogram", "statement": "Each SmoothHistogramPdf reads the histogram that was copied for it, at the bin containing the event, and its neighbours are only averaged inside the histogram.", "quantifier": "every history of creating histogram PDFs (with or without immediate data), every event and smoothing", "why_tests_cant": "Histories of registrations into shared device tables.", "anchors": ["src/PDFs/basic/SmoothHistogramPdf.cu"]}
{"id": "C41", "title": "Coherent amplitude normalisation is real and non-negative", "statement": "The normalisation integral of a coherent three-body amplitude is a non-negative real number equal to the grid sum of |sum of amplitudes|^2 times efficiency; fit fractions sum to one and the interference matrix is symmetric.", "quantifier": "every number of resonances, coefficients, waves, grid and non-negative efficiency", "why_tests_cant": "All coefficients and waves.", "anchors": ["src/PDFs/physics/Amp3Body.cu: normalize, fit_fractions"]}
{"id": "C42", "title": "Amplitude evaluation leaves the cursor after its whole subtree", "statement": "Evaluating a three-body amplitude advances past its resonances and its efficiency function, whether or not the event lies in the Dalitz region and however the efficiency is built.", "quantifier": "every number of resonances, every efficiency tree and every event", "why_tests_cant": "Paths that return early for some events only.", "anchors": ["src/PDFs/physics/Amp3Body.cu: device_DalitzPlot"]}
{"id": "C43", "title": "Constructor parameter order is respected", "statement": "A PDF uses each parameter in the role its constructor documents (e.g. VoigtianPdf's third argument is the Gaussian resolution and its fourth the Breit-Wigner width).", "quantifier": "every basic PDF class and every parameter value", "why_tests_cant": "Symmetric-looking parameters only differ for generic values; all values are needed.", "anchors": ["src/PDFs/basic/VoigtianPdf.cu", "src/PDFs/basic/*.cu"]}
{"id": "C44", "title": "Vetoes remove exactly the vetoed region", "statement": "A DalitzVetoPdf is 1 exactly at the points of the Dalitz region lying in none of the veto windows and 0 elsewhere, whatever the order of vetoes.", "quantifier": "every list of vetoes and every point", "why_tests_cant": "Unbounded veto lists.", "anchors": ["src/PDFs/physics/DalitzVetoPdf.cu", "src/PDFs/physics/DalitzPlotHelpers.cu: inDalitz"]}
{"id": "C45", "title": "Bin transforms number bins consecutively and consistently", "statement": "BinTransformPdf maps each in-range point to the row-major number of its bin, in [0, product of bins), and VariableBinTransform1DPdf to the number of limits not above |x|.", "quantifier": "every number of observables, limits, bin sizes, counts and points", "why_tests_cant": "All dimensions and boundaries.", "anchors": ["src/PDFs/basic/BinTransformPdf.cu", "src/PDFs/utilities/VariableBinTransform1DPdf.cu"]}
{"id": "C46", "title": "Sharing convolutions evaluate like plain ones", "statement": "A ConvolutionPdf built with the constructor that shares model caches has the same value as the plain one (convolution sum times the normalisations of model and resolution) and lets the evaluation continue with the PDF or metric that follows it.", "quantifier": "every model, resolution, number of sharing convolutions, position in a tree and event", "why_tests_cant": "whether the wrong array entry is read or the wrong function is called next depends on what follows the convolution in the flattened tree; every tree must be considered", "anchors": ["src/PDFs/combine/ConvolutionPdf.cu: device_ConvolveSharedPdfs, ConvolutionPdf(n, x, m, r, numOthers)"]}
{"id": "C47", "title": "Two PDFs used alternately do not disturb each other", "statement": "Evaluating, normalising or fitting one PDF gives the same result whether or not another PDF was constructed, given data or evaluated in between.", "quantifier": "every sequence of constructions, setData calls and evaluations of two or more PDFs", "why_tests_cant": "All interleavings of uses of global arrays shared by every PDF.", "anchors": ["src/PDFs/PdfBase.cu: setIndices, setData", "src/PDFs/GooPdf.cu: setIndices, calculateNLL, evaluateAtPoints", "include/goofit/PDFs/detail/Globals.h"]}
{"id": "C48", "title": "The Dalitz-region test accepts exactly the kinematically possible points", "statement": "The membership test used by the Dalitz-plot PDFs accepts a pair of invariant masses squared exactly when some decay of the mother into the three daughters, with momentum and energy conserved, has those pair masses.", "quantifier": "every mother mass, daughter masses and point", "why_tests_cant": "A continuum of masses and points; existence of momenta.", "anchors": ["src/PDFs/physics/DalitzPlotHelpers.cu: inDalitz"]}
{"id": "C49", "title": "A four-body PDF evaluates with the current parameters after any history", "statement": "After any sequence of new data sets, parameter changes and evaluations, the value of a four-body amplitude PDF at an event is the squared modulus of the coherent sum of its amplitudes (for each the sum over permutations of products of line shapes and spin factors, divided by the square root of their number), for the current parameters, times the efficiency; and no evaluation writes outside its arrays.", "quantifier": "every list of amplitudes, with line shapes and spin factors shared in any way, every data set and every history", "why_tests_cant": "The staleness of a cached amplitude depends on which parameter moved between two calls and on how line shapes are shared; a test sees one decay model and one history.", "anchors": ["src/PDFs/physics/Amp4Body.cu: Amp4Body::Amp4Body, setDataSize, normalize, device_DP, GenerateSig", "src/PDFs/physics/detail/AmpCalc.cu: AmpCalc::operator()"]}
{"id": "C50", "title": "A four-body PDF is normalised to the function it evaluates", "statement": "The normalisation of a four-body amplitude PDF is the mean, over its normalisation events, of the very function it evaluates at the data, for the current parameters, at every evaluation.", "quantifier": "every list of amplitudes, every set of normalisation events and every history, including toy generation", "why_tests_cant": "A wrong normalisation shifts the fit without any single value being obviously wrong; needs all histories.", "anchors": ["src/PDFs/physics/Amp4Body.cu: normalize, GenerateSig", "src/PDFs/physics/detail/NormIntegrator.cu: NormIntegrator::operator()"]}
{"id": "C51", "title": "Four-body variables and momenta correspond", "statement": "For every point strictly inside the four-body phase space (the two pair masses, the two helicity cosines, the angle between the decay planes), the momenta the library builds from the five variables are those of a decay of the mother at rest: every particle has its own mass and positive energy, momentum and energy are conserved, and the two pairs have the given masses. Turning those momenta back into the five variables gives exactly the variables one started from (cosines strictly between -1 and 1, angle in (-pi, pi]).", "quantifier": "all masses of the mother and the four daughters, all points strictly inside the phase space, over the real numbers", "why_tests_cant": "A five-dimensional continuum of points with square roots and arc cosines: a test checks some points, and a sign error of an angle or a boost shows up only in part of the phase space.", "anchors": ["src/PDFs/physics/DalitzPlotHelpers.cu: get4Vecs", "include/goofit/PDFs/physics/detail/Dim5.h: Dim5, cosHELANG, phi"]}
{"id": "C52", "title": "Each four-body line shape is evaluated at the mass of the system it names", "statement": "A four-body line shape names a system of two or three daughters and how it splits in two (M_12, ..., M_12_3, ..., M_34_2). For every event, the mass at which the line shape is evaluated is the invariant mass of that system and the two daughter masses it is given are the invariant masses of the two parts; no name outside the eighteen has a mass.", "quantifier": "all eighteen names, all points of the phase space, over the real numbers", "why_tests_cant": "Eighteen hand-written cases over a continuum of events: a swapped index gives a plausible number.", "anchors": ["include/goofit/PDFs/physics/DalitzPlotHelpers.h: DaughterPair names", "src/PDFs/physics/DalitzPlotHelpers.cu: getmass, Mass", "src/PDFs/physics/detail/LSCalculator.cu", "src/PDFs/physics/detail/NormLSCalculator.cu"]}
{"id": "C53", "title": "Spin factors do not depend on the frame", "statement": "A four-body spin factor or form factor evaluated on the same four momenta seen from any other inertial frame (any Lorentz transformation, any rotation) has the same value; under a reflection of space only the three factors with an odd parity (D to V1 V2 in P wave, D to V1 P1 with V1 to V2 P2, D to T P1) change sign, and they change exactly the sign.", "quantifier": "all sixteen kinds of factor, all assignments of particles, all momenta, all Lorentz transformations, over the real numbers", "why_tests_cant": "Invariance under a six-parameter continuous group of functions of sixteen numbers.", "anchors": ["src/PDFs/physics/SpinFactors.cu", "include/goofit/PDFs/physics/detail/SpinHelper.h"]}
{"id": "C54", "title": "Spin factors are the amplitudes of the decay chains they are named after", "statement": "For momenta of massive particles each spin factor equals the covariant amplitude of its decay chain: orbital tensors of rank 1 and 2, spin-1 and spin-2 projectors and the totally antisymmetric tensor, contracted as the chain prescribes. Exchanging the two daughters of a vector changes the sign, exchanging the two daughters of a scalar does not, exchanging two vectors with their daughters changes nothing. The form factors are the barrier factors of the momentum of the two parts in the rest frame of the mother.", "quantifier": "all kinds of factor, all assignments of particles, all momenta of massive particles, over the real numbers", "why_tests_cant": "Sixteen numbers in, long products of tensors inside: a sign or an index that is wrong still gives plausible numbers.", "anchors": ["src/PDFs/physics/SpinFactors.cu", "include/goofit/PDFs/physics/detail/SpinHelper.h"]}
{"id": "C55", "title": "The K-matrix amplitude solves the coupled-channel equation", "statement": "For the parameters the user passes, the K-matrix line shape and resonance equal the first component of (1 - i K rho)^-1 P, with K the sum of poles and slowly varying background times the Adler factor, rho the phase-space factors of the five channels and P the production vector. The matrix inversion used inside returns the inverse of every invertible matrix; when all channels are open the amplitude exists.", "quantifier": "all parameters, all energies, all matrices of every size over every field, all contents of work arrays, over the real numbers", "why_tests_cant": "The inversion is correct on an open dense set of matrices, so random tests never meet a zero pivot; the parameters are 59 numbers passed by position.", "anchors": ["src/PDFs/physics/kMatrixUtils.cu: luInverse, luDecomposition, inverse, adjoint, getCofactor, getPropagator, phsp_twoBody, phsp_fourPi", "include/goofit/PDFs/physics/kMatrixUtils.h: determinant", "src/PDFs/physics/lineshapes/kMatrix.cu", "src/PDFs/physics/resonances/kMatrix.cu"]}
{"id": "C56", "title": "A spline resonance is the smooth curve through its coefficients", "statement": "At every moment of a fit the amplitude of a spline resonance takes, at each knot, the current coefficient of that knot, is zero outside the knots, and is twice continuously differentiable in between; with a symmetric Dalitz plot it is the sum of both pairs.", "quantifier": "all numbers and positions of knots, all coefficients, all histories of constructing splines and changing coefficients, all Dalitz points, over the real numbers", "why_tests_cant": "Depends on the history: a fresh spline passes every test, one whose coefficients moved or that shares the program with another does not.", "anchors": ["src/PDFs/physics/resonances/Spline.cu: cubicspline, Spline, recalculateCache", "include/goofit/detail/ComplexUtils.h: complex_derivative", "include/goofit/PDFs/physics/resonances/Spline.h"]}
{"id": "C57", "title": "Relativistic Breit-Wigner resonances of a three-body decay follow the textbook", "statement": "The RBW amplitude of a resonance of spin 0, 1 or 2 in a pair of daughters equals the Breit-Wigner propagator with mass-dependent width, times the Blatt-Weisskopf form factors of resonance and mother, times the Zemach angular distribution of the event. It depends only on the physical decay, not on how the daughters are numbered; with the symmetrisation flag it is symmetric (up to the sign (-1)^spin) under exchange of the identical daughters.", "quantifier": "all masses, momenta of the three daughters, spins 0-2, pairs, radii, resonance parameters", "why_tests_cant": "Tests evaluate a handful of Dalitz points with one mass assignment; the angular distribution and the barrier factors have to be right for all kinematics, and mistakes show only as a slightly wrong fit.", "anchors": ["src/PDFs/physics/resonances/RBW.cu: plainBW", "src/PDFs/physics/resonances/Resonance.cu: twoBodyCMmom, twoBodyCMMothermom, dampingFactorSquare, dampingFactorSquareNorm, spinFactor"]}
{"id": "C58", "title": "The Gounaris-Sakurai amplitude is centred at the nominal mass with the slope of a Breit-Wigner", "statement": "At the nominal mass the mass shift of the Gounaris-Sakurai amplitude and its derivative vanish, and the amplitude is i(1 + d G/m)/(m G) times the angular factor, for a resonance in any pair of daughters of equal mass; the amplitude uses the masses of the daughters of the resonance and honours the symmetrisation flag.", "quantifier": "all nominal masses above threshold, widths, daughter masses, spins, pairs", "why_tests_cant": "A derivative and a limit at every nominal mass; the existing tests use only pairs of pions in one order.", "anchors": ["src/PDFs/physics/resonances/GS.cu: gouSak", "src/PDFs/physics/resonances/Resonance.cu: hFun, dh_dsFun, fsFun, dFun"]}
{"id": "C59", "title": "The LASS amplitude is elastic and uses the daughters of its own pair", "statement": "For an S wave with unit strengths the LASS amplitude obeys elastic unitarity (its S matrix is a pure phase) at every mass above threshold, and its momenta are those of the two daughters of the resonance, whatever pair is chosen.", "quantifier": "all masses above threshold, all parameters a, r, phases, all pairs", "why_tests_cant": "Unitarity is an identity over all masses and parameters; wrong signs in the propagator are invisible in a single fit.", "anchors": ["src/PDFs/physics/resonances/LASS.cu: lass"]}
{"id": "C60", "title": "The Flatte amplitude is the two-channel propagator, continued below the kaon threshold", "statement": "The Flatte amplitude equals 1/(m0^2 - s - i m0 (g1 rho_pipi + g2 rho_KK)) with the isospin-weighted phase space of charged and neutral pions and kaons, continued analytically below each threshold; with the flag for a symmetric Dalitz plot it is the sum over both pairings and symmetric under their exchange.", "quantifier": "all pair masses, couplings and nominal masses", "why_tests_cant": "Four thresholds split the mass range into regions; the continuation has to be right in each for every coupling.", "anchors": ["src/PDFs/physics/resonances/FLATTE.cu: flatte"]}
{"id": "C61", "title": "Rho-omega mixing multiplies the rho by one plus the omega propagator", "statement": "The rho-omega amplitude is the Gounaris-Sakurai rho times 1 + B Delta (m_rho + m_omega) times the omega propagator; it reduces to the rho without mixing, and for a spin-1 pair at fixed mass it is proportional to the angular factor.", "quantifier": "all parameters, spins, pairs and Dalitz points", "why_tests_cant": "Proportionality in the angle at every mass cannot be sampled; the interference term is a small correction near one mass.", "anchors": ["src/PDFs/physics/resonances/RhoOmegaMix.cu: rhoomgamix"]}
{"id": "C62", "title": "With a perfect decay-time resolution a time-dependent amplitude has the rate of neutral-meson mixing", "statement": "For a perfect resolution the value of a time-dependent three-body amplitude, from the decay amplitudes A and B of the two flavours, the lifetime and the mixing parameters x and y, is twice the squared decay amplitude at the measured time of a meson that propagates in two mass eigenstates; it is never negative; the normalisation the resolution reports is the integral of that rate over all positive times, and the average decay time it reports is the mean of that distribution.", "quantifier": "all complex amplitudes, lifetimes > 0, |y| < 1, all x and all decay times", "why_tests_cant": "Equalities of functions of time and an integral to infinity for all amplitudes and mixing parameters; with the small x and y of real data a wrong sign changes single values by parts per thousand.", "anchors": ["src/PDFs/physics/TruthResolution.cu: device_truth_resolution, device_truth_resolution_average_tau, TruthResolution::normalization", "src/PDFs/physics/Amp3Body_TD.cu: device_Tddp"]}
{"id": "C63", "title": "The three-Gaussian decay-time resolution is the mixing rate folded with three Gaussians, and is normalised", "statement": "With the three-Gaussian resolution the value at a measured time is the rate of neutral-meson mixing, times the exponential selection bias, folded with the sum of three normal distributions with the configured fractions, offsets and widths; it is therefore never negative, and the reported normalisation is its integral over all measured times.", "quantifier": "all amplitudes, parameters of the resolution, measured times and errors, lifetimes and mixing parameters", "why_tests_cant": "Convolution integrals over an infinite range for all parameters; tests compare single values, and the approximation made for the oscillation is good only near x = 0.", "anchors": ["src/PDFs/physics/ThreeGaussResolution.cu: gaussian, device_threegauss_resolution, ThreeGaussResolution::normalization"]}
{"id": "C64", "title": "The time-dependent three-body amplitude has the rate of a tagged, possibly wrongly tagged, neutral meson and is normalised", "statement": "For an event inside the Dalitz plot the value is the efficiency times (1-w) times the mixing rate with amplitudes A at the point and B at the reversed point plus w times the rate with the two exchanged, where w is the probability of a wrong tag of the event and the mixing parameters are shifted according to the flavour tag; outside it is zero; it is not negative. The normalisation is the bin size times the sum over the grid of the time integral of the value, averaged over the flavours with the D0 fraction. The optional arguments may be left out, and the constructor with the mass of the mother gives the same values.", "quantifier": "all numbers of resonances, coefficients, lifetimes, mixing parameters, tags, mistag probabilities, grids, efficiencies and event times", "why_tests_cant": "An integral over all decay times and a double sum over any number of resonances; the usual fits have the lifetime of the D0, for which the built-in constants happen to be right.", "anchors": ["src/PDFs/physics/Amp3Body_TD.cu: device_Tddp, Amp3Body_TD::Amp3Body_TD, Amp3Body_TD::normalize", "src/PDFs/physics/detail/SpecialDalitzIntegrator.cu: device_Tddp_calcIntegrals, operator()", "src/PDFs/physics/detail/SpecialWaveCalculator.cu: operator()"]}
{"id": "C65", "title": "Fit fractions of a time-dependent amplitude are right and asking for them changes nothing", "statement": "Whatever the history of evaluations, changed parameters, forced recomputations and calls of getFractions, the normalisation of an evaluation is that of a freshly constructed PDF with the same parameters. getFractions returns for each pair of resonances the share of the efficiency-weighted intensity that is due to their product; the shares add up to one.", "quantifier": "all histories, numbers of resonances, coefficients, grids and efficiencies", "why_tests_cant": "Stale or overwritten cached integrals show only for particular sequences of calls on plots that are not symmetric.", "anchors": ["src/PDFs/physics/Amp3Body_TD.cu: Amp3Body_TD::normalize, Amp3Body_TD::getFractions, Amp3Body_TD::setDataSize"]}
{"id": "C66", "title": "An incoherent sum of resonances is the sum of squared moduli and is normalised", "statement": "Amp3Body_IS evaluates at an event to the sum over the resonances of |alpha_i B_i|^2 times the efficiency, with the current amplitudes alpha_i of the resonances, and its normalisation is the bin size times the sum of that function over the grid, wherever the PDF stands in a tree and whatever the number of resonances. Evaluation leaves the cursor after all its PDFs.", "quantifier": "all numbers of resonances, amplitudes, resonance shapes, efficiencies, grids, events and positions in a tree", "why_tests_cant": "Any number of resonances in any tree; a test with one resonance and a free overall scale cannot tell an amplitude from another number, nor one integral from another.", "anchors": ["src/PDFs/physics/Amp3Body_IS.cu: device_incoherent, Amp3Body_IS::Amp3Body_IS, Amp3Body_IS::normalize", "src/PDFs/physics/detail/SpecialIncoherentIntegrator.cu: operator()", "src/PDFs/physics/detail/SpecialIncoherentResonanceCalculator.cu: operator()", "include/goofit/PDFs/physics/Amp3Body_IS.h: Amp3Body_IS"]}
{"id": "C67", "title": "A time-dependent four-body PDF evaluates to the rate of its amplitudes at the current parameters", "statement": "For any two lists of amplitudes for the two flavours of the mother, in which an amplitude may occur in both lists and amplitudes may share line shapes and spin factors, Amp4Body_TD evaluates at an event to the efficiency times what the decay-time resolution makes of the two coherent sums A and B (with perfect resolution: the rate of a mixing meson), at the current values of all parameters, after any sequence of setting data, fitting steps with only some parameters changed, forced recomputations and generation of events.", "quantifier": "all lists of amplitudes and how they share components, all parameter values, all data, all histories of calls in which changed line shapes are reported as changed", "why_tests_cant": "How amplitudes share components and which caches are refreshed depends on the decay and on the history; a test covers one decay and a few steps.", "anchors": ["src/PDFs/physics/Amp4Body_TD.cu: device_Amp4Body_TD, Amp4Body_TD::Amp4Body_TD, Amp4Body_TD::normalize, Amp4Body_TD::computeCachedValues, Amp4Body_TD::setDataSize", "src/PDFs/physics/detail/AmpCalc_TD.cu: operator()", "include/goofit/PDFs/physics/DalitzPlotHelpers.h: DecayInfo4t"]}
{"id": "C68", "title": "The normalisation of a time-dependent four-body PDF is the mean over the normalisation events", "statement": "The normalisation is the mean over all normalisation events of the rate integrated over the decay time, or for weighted events of the rate at their decay time with their weights, whatever their split into batches, the kind of cache and the history of parameter changes.", "quantifier": "all decays, all collections of batches of normalisation events and weights, all histories", "why_tests_cant": "Caches of several kinds and any number of batches; a test with one batch and weights of one cannot tell whether weights are summed as numbers.", "anchors": ["src/PDFs/physics/Amp4Body_TD.cu: Amp4Body_TD::normalize", "src/PDFs/physics/detail/NormEvents_4Body_Base.cu: computeCachedLSValuesForBatch_TD, computeCachedSFValuesForBatch_TD, doNormIntegral_TD", "src/PDFs/physics/detail/NormEvents_4Body_HostCached.cu", "src/PDFs/physics/detail/NormEvents_4Body_DeviceCached.cu", "src/PDFs/physics/detail/NormEvents_4Body_Weighted.cu", "src/PDFs/physics/detail/NormEvents_4Body_WeightedDevice.cu", "src/PDFs/physics/detail/NormIntegrator_TD.cu: operator()", "src/PDFs/physics/detail/NormIntegrator_TD_Weighted.cu: operator()"]}
{"id": "C69", "title": "Generated four-body events have decay times distributed as the PDF", "statement": "GenerateSig of Amp4Body_TD returns, for the points that the phase-space generator accepted, decay times and accept flags such that at every kinematic point the accepted times are distributed as the PDF, with the same factor at all points and in all calls; if the envelope would have to change between calls the call throws.", "quantifier": "all amplitudes, parameters, previous states, points, offsets and uniform random numbers", "why_tests_cant": "The claim is about the distribution over all random numbers and about late decay times that are rare in a sample.", "anchors": ["src/PDFs/physics/Amp4Body_TD.cu: Amp4Body_TD::GenerateSig, genExp, exp_functor", "include/goofit/PDFs/physics/Amp4Body_TD.h: setMaxWeight, setGenerationOffset"]}
{"id": "C70", "title": "Amplitude PDFs in one program do not disturb each other", "statement": "Whatever other amplitude PDFs a program constructs and gives data to, and in whatever order, each amplitude PDF evaluates with the masses and radii of its own decay, its own composition of amplitudes and its own cached waves.", "quantifier": "all histories of constructing amplitude PDFs of any of the five classes, giving them data and resetting the cache counter", "why_tests_cant": "The state shared between PDFs depends on the whole history of the program; tests construct one amplitude PDF at a time.", "anchors": ["src/PDFs/physics/Amp3Body.cu: Amp3Body::Amp3Body, Amp3Body::setDataSize", "src/PDFs/physics/Amp3Body_TD.cu: Amp3Body_TD::Amp3Body_TD, Amp3Body_TD::setDataSize", "src/PDFs/physics/Amp3Body_IS.cu: Amp3Body_IS::Amp3Body_IS, Amp3Body_IS::setDataSize", "src/PDFs/physics/Amp4Body.cu: Amp4Body::Amp4Body, Amp4Body::setDataSize", "src/PDFs/physics/Amp4Body_TD.cu: Amp4Body_TD::Amp4Body_TD, Amp4Body_TD::setDataSize", "src/PDFs/physics/Amp4BodyGlobals.cu: AmpIndices", "src/PDFs/detail/Globals.cu: c_motherMass, c_meson_radius"]}
{"id": "C71", "title": "Breit-Wigner line shapes of four-body amplitudes are relativistic Breit-Wigners", "statement": "RBW and SBW return, for every mass of the pair above threshold, every nominal mass and width, every orbital angular momentum and every choice of form factor, a relativistic Breit-Wigner with running (RBW) or constant (SBW) width times the root of the chosen Blatt-Weisskopf form factor and of a constant; the phase is 90 degrees at the nominal mass, and the constant normalises the line to one.", "quantifier": "all real masses, widths and radii, all angular momenta and form factors", "why_tests_cant": "An equality of functions of real variables, and an integral over all masses; tests evaluate a few points with a tolerance.", "anchors": ["src/PDFs/physics/lineshapes/BW.cu: BW, SBW", "src/PDFs/physics/lineshapes/Common.cu: BL_PRIME, BL, BL2", "src/PDFs/physics/lineshapes/NonRes.cu: nonres_DP", "src/PDFs/physics/lineshapes/One.cu: LS_ONE"]}
{"id": "C72", "title": "The LASS line shapes of four-body amplitudes are elastic", "statement": "LASS and GLASS (with F = 1) describe elastic scattering: up to the conventional factor the S matrix computed from the amplitude has absolute value one at every mass above threshold; GLASS with both phases zero is LASS.", "quantifier": "all masses above threshold, all nominal masses, widths, effective-range parameters and phases", "why_tests_cant": "Unitarity is an equation that has to hold at every mass for all parameters.", "anchors": ["src/PDFs/physics/lineshapes/BW.cu: lass_MINT", "src/PDFs/physics/lineshapes/GLASS.cu: glass_MINT3"]}
{"id": "C73", "title": "Line shapes with several channels use the widths of their channels", "statement": "Flatte and Bugg line shapes return the inverse of m0^2 - s - (dispersive term) - i m0 (sum of the widths of the channels), each channel with its phase space, continued below its threshold; the parameters given to the constructor enter the line shape; the loss to every channel is positive; both Bugg implementations describe the same amplitude.", "quantifier": "all masses above the first threshold and all parameters", "why_tests_cant": "Equality of analytic functions over all energies including every threshold.", "anchors": ["src/PDFs/physics/lineshapes/Flatte.cu: Flatte_MINT, aSqrtTerm", "src/PDFs/physics/lineshapes/Bugg.cu: bugg_MINT, bugg_MINT3, bugg_rho2, bugg_j1, bugg_Gamma_4pi"]}
{"id": "C74", "title": "The FOCUS line shapes solve their K-matrix equation and are unitary", "statement": "The FOCUS line shapes Kpi and KEta are the elements of T = K + i K rho T for the channels K pi and K eta', the matrix can be inverted, what is lost from K pi goes to the open channels (so that scattering is elastic below the K eta' threshold), and the isospin 3/2 line shape has the phase of elastic K pi scattering; the threshold of K eta' is at the sum of the masses.", "quantifier": "all energies above the K pi threshold", "why_tests_cant": "Unitarity and invertibility of a matrix for every energy.", "anchors": ["src/PDFs/physics/lineshapes/FOCUS.cu: FOCUSFunction, phsp_FOCUS", "src/PDFs/physics/lineshapes/Common.h: mKPlus, mPiPlus, mEtap"]}
{"id": "C75", "title": "A fit starts from the variables, honours fixed flags and limits, and reports values, errors and status", "statement": "When fit() is called on a fit manager, it starts from the values of the variables at that time; variables that are fixed at that time keep their value at every point tried and afterwards, and variables with limits stay within them; afterwards every parameter has the value and error of the minimum and no other variable has changed; errors are standard deviations for the metric of the PDF (one half for likelihoods, one for chi-square); Minos errors are those of this fit, one pair per free variable; the status is \"not run\" before the first fit and afterwards tells whether the last fit was valid. Both managers evaluate the PDF at the same point and do what their settings say.", "quantifier": "all PDFs, variables, histories of fits, calls and setters, and all behaviours of the minimiser that respect its declarations", "why_tests_cant": "Ranges over every behaviour of the minimiser and every history of setters and fits; a test sees a few fits that converge.", "anchors": ["src/goofit/FitManagerMinuit2.cpp: FitManagerMinuit2::fit", "include/goofit/fitting/FitManagerMinuit2.h: operator bool, operator int, setMinos", "include/goofit/fitting/FCN.h: Up", "src/goofit/Params.cpp: Params::Params, SetGooFitParams", "src/goofit/FitManagerMinuit1.cpp: Minuit1::Eval, FitManagerMinuit1::fit"]}
{"id": "C76", "title": "A decay-time resolution with an efficiency that changes its slope at a threshold is a folding, and its normalisation is the integral", "statement": "The value that the three-Gaussian resolution with a selection bias of two slopes gives for an event with amplitudes A and B, measured at time T with error sigma, is the mixing decay rate at the true time, times the efficiency (exponential with one slope before the threshold and another one after it, continuous, equal to the constant at the threshold), folded with the weighted sum of the three Gaussians. The number it reports as normalisation is the integral of that value over all measured times, whatever the error of the event.", "quantifier": "all fractions, biases, scale factors, errors, slopes, thresholds, lifetimes, mixing parameters, amplitudes and measured times", "why_tests_cant": "A closed form for an integral over true times with ten real parameters; a test compares a few points and would not see an error in terms proportional to powers of the small mixing parameter x.", "anchors": ["src/PDFs/physics/ThreeGaussResolutionExt.cu: gaussian_low, gaussian_high, device_threegauss_resolutionext, ThreeGaussResolutionExt::normalization", "include/goofit/PDFs/physics/ThreeGaussResolutionExt.h: ThreeGaussResolutionExt"]}
{"id": "C77", "title": "A decay-time resolution with a spline efficiency is a folding, and its normalisation is the integral", "statement": "The value that the three-Gaussian resolution with a cubic spline for the efficiency gives for an event with amplitudes A and B, measured at time T with error sigma, is the mixing decay rate at the true time, times the efficiency (the given cubic polynomials between the given knots, nothing before the first knot, and after the last one the exponential that continues the last polynomial with the same value and slope), folded with the weighted sum of the three Gaussians. The number it reports as normalisation is the integral of that value over all measured times, whatever the error of the event. This holds for any number of knots.", "quantifier": "all knots and coefficients, fractions, biases, scale factors, errors, lifetimes, mixing parameters, amplitudes and measured times", "why_tests_cant": "The closed form is assembled from moments of cut Gaussians up to the eighth power, one set per gap between knots, and some 30 real parameters; tests compare a few points, and errors in powers of the small mixing parameter x are far below any tolerance.", "anchors": ["src/PDFs/physics/ThreeGaussResolutionSplice.cu: BigPhi, SmallPhi, DoubleFactorial, EvaluateConvo, EvaluateAcceptance, EvaluateKnot, EvaluateKnotSinCos, gaussian_splice, mygaussian_high, device_threegauss_resolutionSplice, NormTermY, ThreeGaussResolutionSplice::normalization", "include/goofit/PDFs/physics/ThreeGaussResolutionSplice.h: ThreeGaussResolutionSplice"]}
{"id": "C78", "title": "A four-body amplitude uses each component as it was constructed, and shares only interchangeable ones", "statement": "Every line shape and spin factor of a four-body PDF is evaluated as the function of its class, with the spin, form factor, radius, pair of particles and order of particles given to its constructor, at the current values of the variables given to its constructor, whatever else is in the PDF and wherever in it the component stands. The PDF keeps one copy of components that compare equal; two components compare equal only if they are interchangeable at every event for all later values of all variables, and every amplitude uses a component interchangeable with its own. So the value at an event is the squared modulus of the sum over the amplitudes of coefficient times amplitude, as the constructor calls describe it, and the normalisation is the average of that over the normalisation events.", "quantifier": "all lists of amplitudes and constructor calls, all masses, all histories of data and evaluations, all values of variables, all events", "why_tests_cant": "A component is found through positions in flat lists that depend on every other component of the program; a wrong position, or two different components taken for the same one, gives plausible numbers, and only for some combinations of components.", "anchors": ["src/PDFs/physics/lineshapes/BW.cu: RBW, SBW, LASS", "src/PDFs/physics/lineshapes/GLASS.cu: GLASS", "src/PDFs/physics/lineshapes/kMatrix.cu: kMatrix", "src/PDFs/physics/lineshapes/FOCUS.cu: FOCUS", "src/PDFs/physics/lineshapes/Flatte.cu: Flatte", "src/PDFs/physics/lineshapes/Lineshape.cu: Lineshape::Lineshape, Lineshape::isEqualByValue", "src/PdfBase.cpp: areParamsandConstantsEqualByVal", "src/PDFs/physics/SpinFactors.cu: SpinFactor::SpinFactor", "include/goofit/PDFs/physics/SpinFactors.h: SpinFactor::operator==", "src/PDFs/physics/detail/LSCalculator.cu: LSCalculator", "src/PDFs/physics/detail/SFCalculator.cu: SFCalculator", "src/PDFs/physics/detail/NormLSCalculator.cu: NormLSCalculator", "src/PDFs/physics/detail/NormSpinCalculator.cu: NormSpinCalculator", "src/PDFs/physics/Amp4Body.cu: Amp4Body::Amp4Body"]}
{"id": "C79", "title": "The width of a spline line shape follows the spline through the given values", "statement": "The line shape with a spline for its width is the relativistic amplitude with nominal mass and width given by its variables, whose width at a squared pair mass s is the nominal width times S(s)/S(mass squared), where S is the natural cubic spline through the given values at equally spaced points of the given range, and continues with its end values. It follows the variables that hold these values.", "quantifier": "all numbers of knots, values, ranges, masses and widths, and all pair masses", "why_tests_cant": "The shape of a spline is fixed by a linear system in all the values; an error in it leaves smooth plausible curves, and uninitialised or foreign memory gives different numbers from one program to the next.", "anchors": ["src/PDFs/physics/lineshapes/GSpline.cu: getSpline, kFactor, Spline_TDP, make_spline_curvatures, GSpline", "include/goofit/PDFs/physics/lineshapes/GSpline.h: GSpline"]}
{"id": "C80", "title": "A time-dependent four-body PDF is the mixing rate of the decay its constructor calls describe", "statement": "Given two lists of amplitudes of a decay to four particles, each made of line shapes and spin factors by constructor calls, and the lifetime, the two mixing parameters and the ratio of the two sums, the value of the time-dependent PDF at an event is the efficiency times the rate of a meson that mixes, at its decay time, with the two decay amplitudes those calls describe at the current values of all variables; with a resolution, it is that rate folded with the resolution. The normalisation is the average of the integrated rate over the normalisation events. This holds after every history of data, parameter changes and evaluations.", "quantifier": "all lists of amplitudes and constructor calls, all masses, all histories of data, evaluations, forced recomputations and generation, all values of variables, all events, all batches of normalisation events", "why_tests_cant": "Values depend on positions in shared flat arrays, on which components were recomputed when, and on flags that say to which of two sums an amplitude belongs; tests cover a few amplitudes and a few calls.", "anchors": ["src/PDFs/physics/Amp4Body_TD.cu: Amp4Body_TD::Amp4Body_TD, Amp4Body_TD::normalize, device_Amp4Body_TD", "src/PDFs/physics/Amplitude.cu: Amplitude", "src/PDFs/physics/detail/LSCalculator_TD.cu: LSCalculator_TD", "src/PDFs/physics/detail/SFCalculator_TD.cu: SFCalculator_TD", "src/PDFs/physics/detail/AmpCalc_TD.cu: AmpCalc_TD", "src/PDFs/physics/detail/NormEvents_4Body_Base.cu: NormEvents_4Body_Base"]}
{"id": "C81", "title": "A three-body amplitude PDF is the coherent sum its constructor calls describe", "statement": "Given a decay to three particles and resonances made by constructor calls, the value of the amplitude PDF at an event is the efficiency times the squared modulus of the sum of coefficient times resonance, each resonance being the function of its class with the arguments of its constructor call at the current values of the variables, where the decay is possible, and zero elsewhere. The normalisation is the integral of that density over the current grid, and the fit fractions are those of that sum on the data. This holds after every history of data, grids, parameter changes and evaluations.", "quantifier": "all decays, lists of resonances and constructor calls, all efficiencies, all earlier histories, all data sets, all sequences of evaluations with changing values and any honest marks of what has changed", "why_tests_cant": "Arguments travel through flat lists read by position, waves and integrals are cached and recomputed one by one, and events find their waves by number; tests evaluate a few resonances once.", "anchors": ["src/PDFs/physics/Amp3Body.cu: Amp3Body::Amp3Body, Amp3Body::setDataSize, Amp3Body::normalize, device_DalitzPlot, Amp3Body::fit_fractions", "src/PDFs/physics/resonances/RBW.cu: RBW::RBW, plainBW", "src/PDFs/physics/resonances/GS.cu: GS::GS", "src/PDFs/physics/resonances/LASS.cu: LASS::LASS", "src/PDFs/physics/resonances/FLATTE.cu: FLATTE::FLATTE", "src/PDFs/physics/resonances/Gauss.cu: Gauss::Gauss", "src/PDFs/physics/resonances/RhoOmegaMix.cu: RhoOmegaMix::RhoOmegaMix", "src/PDFs/physics/resonances/kMatrix.cu: kMatrix::kMatrix", "src/PDFs/physics/detail/SpecialResonanceCalculator.cu: SpecialResonanceCalculator", "src/PDFs/physics/detail/SpecialResonanceIntegrator.cu: SpecialResonanceIntegrator"]}
{"id": "C82", "title": "VoigtianPdf and cpuvoigtian compute the Voigt profile", "statement": "For a positive width and resolution VoigtianPdf is the convolution of a Breit-Wigner of that width with a Gaussian of that resolution, to nine digits relative to the inverse resolution, positive and symmetric about the mean; the host function cpuvoigtian computes the same from the same arguments, and both fall back to the Breit-Wigner or the Gaussian when the resolution or the width is zero. The complex error function both are built on is accurate to nine digits everywhere above the real line, and never divides by zero there.", "quantifier": "all points above the real line; all observables, means, positive widths and resolutions", "why_tests_cant": "The algorithm is a trapezoid rule with tabulated nodes, a correction for the pole and a rational approximation near zero, stitched together by thresholds; tests compare values at a few points, not the error between and beyond the nodes.", "anchors": ["src/PDFs/basic/VoigtianPdf.cu: device_Faddeeva_2, device_Voigtian", "src/goofit/Faddeeva.cpp: Faddeeva_2, cpuvoigtian", "include/goofit/PDFs/basic/VoigtianPdf.h: VoigtianPdf"]}
{"id": "C83", "title": "The Landau density, its convolution with a Gaussian and its quantiles are consistent", "statement": "LandauPdf and the Python function landauPDF compute one and the same density for all arguments: never negative, zero for a width that is not positive, moved by the location and stretched by the width, and without visible steps where its eight formulas meet. landauGaussPDF is its convolution with a Gaussian and behaves like a density under a change of units. landau_quantile grows with the probability, is proportional to the width, infinite at probabilities 0 and 1, and its steps agree with the density.", "quantifier": "all observables, locations, widths, resolutions and probabilities", "why_tests_cant": "The density is put together from eight fits with about sixty constants that exist in two copies, and the quantile from a table of 982 entries and three fits; tests compare a few values and see neither a wrong digit between them, nor a step at a seam, nor a pole.", "anchors": ["src/PDFs/basic/LandauPdf.cu: device_Landau", "include/goofit/cpp/landau.h: landauPDF, gaussPDF, landauGaussPDF, landau_quantile, landau_quantile_c", "python/extras/landau.cpp"]}
{"id": "C84", "title": "Objects made from Python live as long as anything can touch them", "statement": "Whatever a Python program still holds (a PDF, a decay, a fit manager, its parameters) can be used, no matter in which order it drops the objects it was built from and in which order the interpreter destroys them: every component, resonance, efficiency, resolution and data set that the use touches still exists, and no object is deleted that belongs to another.", "quantifier": "all sequences of constructor calls, list operations, setData, descriptions of decays, member accesses, dropped variables and collections, of any length", "why_tests_cant": "Whether a dangling pointer is left depends on the history of references and on when the collector runs; a test keeps its objects in local variables to the end of the function, where nothing can dangle, and reading freed memory usually still gives the old values.", "anchors": ["python/PDFs: all py::init with py::keep_alive", "python/goofit/PdfBase.cpp: setData, getData", "python/goofit/FitManager.cpp: FCN, Params, FitManager", "python/PDFs/physics/DalitzPlotHelpers.cpp: resonances, add_resonance, amplitudes", "python/PDFs/physics/Amp3Body_TD.cpp", "python/include/goofit/PyProps.h: ADD_PROP_RO", "python/Minuit2/MnMigrad.cpp"]}
{"id": "C85", "title": "Tables of numbers go in and out of a dataset unchanged from Python", "statement": "from_numpy reads a table with one row per observable and one column per event: with filter=True exactly the columns within the limits are appended, in order, without it all are, or the call throws at the first one outside; a table of another shape is refused. to_numpy returns the events as such a table, the same as to_matrix and indexing; importing and exporting are inverse to each other. bin_centers are the points at which grids and histograms of the observable are evaluated.", "quantifier": "all datasets, tables of any size, values (NaN included), limits, with and without filter", "why_tests_cant": "The code walks a table by rows and columns whose roles are easily exchanged, and partial effects appear only when a later column or row is wrong; tests import one well-formed table.", "anchors": ["python/goofit/UnbinnedDataSet.cpp: from_numpy, to_numpy, __getitem__", "python/goofit/Variable.cpp: bin_centers", "include/goofit/UnbinnedDataSet.h: to_matrix"]}
{"id": "C86", "title": "The minimiser sees the likelihood of the model, at every call", "statement": "Whatever points the minimiser asked for before, each call of the fit function at given parameter values returns the sum over the data of the fit control's formula with the normalised density that the tree of PDFs stands for at those values, plus the Poisson term of the total yield for an extended sum; nothing depends on earlier calls. For a Gaussian plus an exponential it is minus the log-likelihood.", "quantifier": "all trees of basic PDFs combined by sums, extended sums, sums with common normalisation, event-weighted sums, maps, products and composites, parameter values, datasets, fit controls taking a normalised PDF, and histories of earlier calls", "why_tests_cant": "The value passes through global arrays in which every PDF keeps its normalisation, with separate copies on host and device, refreshed in part at each call; a stale or misplaced entry changes the likelihood only for particular trees and histories.", "anchors": ["src/goofit/FCN.cpp: FCN::operator()", "src/PDFs/GooPdf.cu: calculateNLL, normalize", "src/PDFs/combine/AddPdf.cu: normalize, calculateNLL", "src/PDFs/combine/ProdPdf.cu: normalize", "src/PDFs/PdfBase.cu: updateParameters, setIndices", "src/goofit/PdfBase.cpp: recursiveSetNormalization", "src/PDFs/combine/CompositePdf.cu: normalize", "src/PDFs/combine/MappedPdf.cu: normalize", "src/PDFs/combine/EventWeightedAddPdf.cu: normalize"]}
{"id": "C87", "title": "Generated events carry the density as weights, and the accepted ones follow it", "statement": "GenerateSig of a three-body PDF returns, for every phase-space event, the masses squared of its pairs of particles, its phase-space weight times the normalised density the user has described at that point, and a flag that is set with a probability equal to the ratio of its weight to the largest; the same for four bodies without the normalisation. So for every quantity the expected sum over accepted events is the weighted sum over all events divided by the largest weight. What was done with the PDF before does not matter.", "quantifier": "all three-body resonance lists and four-body amplitude lists, parameter values, efficiencies, states of the PDF, phase-space events and weights, and uniform numbers", "why_tests_cant": "A toy sample is random; a test can only compare histograms of one seed within errors, and a wrong pairing of the columns or a stale cache distorts the sample only for some models and histories.", "anchors": ["src/PDFs/physics/Amp3Body.cu: GenerateSig", "src/PDFs/physics/Amp4Body.cu: GenerateSig", "src/PDFs/physics/Amp3BodyBase.cu: fillMCFlags", "src/PDFs/physics/Amp4BodyBase.cu: fillMCFlags", "include/goofit/PDFs/physics/detail/Dim2.h: Dim2", "src/PDFs/MetricPointer.cu: calculateProb"]}
{"id": "C88", "title": "The five variables of a four-body decay determine the momenta up to a rotation, and the PDF is the intensity of the momenta", "statement": "For the momenta of any decay of a particle at rest into four particles, the five variables computed from them lie inside the phase space; two decays have the same variables exactly when one is the other turned; the mirror image of a decay has the opposite angle between the planes and otherwise the same variables. The intensity the PDF computes from the five variables, by building momenta from them again, is the intensity of the momenta of the decay: every line shape at the invariant mass of the particles it names, every spin factor of the momenta it names. So the weights of generated events are those of their momenta.", "quantifier": "all masses, all momenta of a decay in which neither pair has its momenta along one line, all rotations and reflections, all lists of amplitudes and parameter values", "why_tests_cant": "The momenta built from the variables are in another frame than those of the event, so a test must compare invariants; a sign of the angle, or a cosine with the wrong direction, gives the right masses of the pairs (1,2) and (3,4) and goes unnoticed in their histograms.", "anchors": ["include/goofit/PDFs/physics/detail/Dim5.h: Dim5, cosHELANG, phi", "src/PDFs/physics/DalitzPlotHelpers.cu: get4Vecs, getmass", "src/PDFs/physics/SpinFactors.cu", "src/PDFs/physics/Amp4Body.cu: GenerateSig"]}
{"id": "C89", "title": "The closed-form inverse of a 5x5 matrix is the inverse", "statement": "compute_inverse5, for complex 5x5 matrices whose entries (0,2) and (1,2) are zero, has a finite result exactly when the matrix can be inverted, and the result times the matrix is the unit matrix.", "quantifier": "all 5x5 matrices of this shape over every field", "why_tests_cant": "The expression has 90 products of up to five entries for each of the 25 entries; a test multiplies a few matrices, and a wrong sign in one product shows only for matrices that have these entries.", "anchors": ["include/goofit/detail/compute_inverse5.h: compute_inverse5"]}
{"id": "C90", "title": "A PDF asked for values answers with its density", "statement": "getValue returns the normalised density, the unnormalised value or minus the logarithm of the density at the present values of observables and parameters; evaluateAtPoints returns the densities at the bin centres of an observable; plotToROOT makes a histogram proportional to them with the area asked for; getCompProbsAtDataPoints returns the density of the PDF and of each component at every event; scan returns the function minimised at the points it visits; with several processes everyone gets all values in order. Asking changes neither the data nor the observables.", "quantifier": "all trees of PDFs as in C86, all parameter and observable values, all data, whatever was computed with the arrays and cached by the objects before", "why_tests_cant": "The answers pass through global arrays that earlier calls have filled and through normalisations that every object keeps; a test asks one PDF a few times in one order.", "anchors": ["src/PDFs/GooPdf.cu: GooPdf::getValue, GooPdf::evaluateAtPoints, GooPdf::getCompProbsAtDataPoints, GooPdf::evaluate_with_metric", "src/PDFs/GooPdf.cpp: GooPdf::plotToROOT, GooPdf::scan, GooPdf::setFitControl", "src/PDFs/PdfBase.cu: PdfBase::populateArrays, PdfBase::setData"]}
{"id": "C91", "title": "A Dalitz plotter shows the density of the decay", "statement": "A DalitzPlotter has exactly one point per bin of the two squared masses whose centre is kinematically allowed; getX, getY, getXval, getYval give the bin and centre of the point, getZval the third squared mass, getVal the normalised density of the PDF (or a component) there; make2D puts these values in the right bins and zero elsewhere; fillDataSetMC adds the number of events asked for, in allowed places, with probability proportional to the density. Making a plotter leaves the PDF as it was.", "quantifier": "all pairs of binned observables, all decays, all PDFs and components, all earlier states of the PDF, all random numbers", "why_tests_cant": "The points depend on which bins the boundary of the decay cuts out, and the values on caches of the amplitude that are refilled for the plot; a test looks at a few bins of one plot.", "anchors": ["include/goofit/PDFs/physics/DalitzPlotter.h: DalitzPlotter, getX, getY, getXval, getYval, getZval, getVal, make2D, fillDataSetMC", "src/PDFs/GooPdf.cu: GooPdf::getCompProbsAtDataPoints"]}
{"id": "C92", "title": "A polynomial PDF reports its coefficients", "statement": "PolynomialPdf::getCoefficient(k) gives the coefficient of the k-th power in the curve the PDF stands for: its current weight for that power, divided by the current normalisation of the PDF, and zero for powers the polynomial does not have.", "quantifier": "all polynomials (any lowest power, any weights), all PDF trees they are part of, all histories of fits, all powers", "why_tests_cant": "The weight is found by arithmetic on positions in the parameter array, which depend on the whole tree; a test sees one tree and one power.", "anchors": ["src/PDFs/basic/PolynomialPdf.cu: PolynomialPdf::getCoefficient", "include/goofit/PDFs/basic/PolynomialPdf.h"]}
{"id": "C93", "title": "A fit of a three-body amplitude minimises its likelihood", "statement": "In a fit of an Amp3Body, every value the minimiser receives is minus the logarithm of the likelihood of the events given with setData, under the density the user has described with the resonances and coefficients, normalised over the grid, with the parameters at the values the minimiser has just asked for; it does not depend on the values asked for before, on earlier fits or on what the object was used for.", "quantifier": "all decays, resonances, data sets, grids, earlier histories of the PDF and the fit manager, and all sequences of points the minimiser visits", "why_tests_cant": "The value rests on caches of waves and integrals which are refreshed by flags set while the parameters are copied; only particular sequences of points leave a cache out of date, and a test visits a few.", "anchors": ["src/goofit/FCN.cpp: FCN::operator()", "src/goofit/Params.cpp: Params::from_minuit_vector", "src/PDFs/physics/Amp3Body.cu: Amp3Body::normalize", "src/PDFs/GooPdf.cu: GooPdf::calculateNLL, GooPdf::reduce_with_metric"]}
{"id": "C94", "title": "A fit of a four-body amplitude minimises its likelihood", "statement": "In a fit of an Amp4Body or Amp4Body_TD, every value the minimiser receives is minus the logarithm of the likelihood of the events given with setData, under the intensity or time-dependent rate the user has described with line shapes, spin factors and coefficients, normalised to its mean over the normalisation events, with the parameters at the values the minimiser has just asked for; it does not depend on the values asked for before or on earlier data sets. Everything that intensity or rate depends on is among the parameters of the fit.", "quantifier": "all decays, lists of amplitudes, data sets, normalisation events, earlier histories of the PDF and the fit manager, and all sequences of points the minimiser visits", "why_tests_cant": "The value rests on caches of line shapes and spin factors, for the data and for every batch of normalisation events, which are refreshed by flags set while the parameters are copied; only particular sequences of points leave one out of date, and a test visits a few.", "anchors": ["src/goofit/FCN.cpp: FCN::operator()", "src/PDFs/physics/Amp4Body.cu: Amp4Body::normalize", "src/PDFs/physics/Amp4Body_TD.cu: Amp4Body_TD::normalize", "src/PDFs/GooPdf.cu: GooPdf::calculateNLL, GooPdf::reduce_with_metric"]}
{"id": "C95", "title": "The parameters of a PDF can be looked up, fixed and removed as a group", "statement": "getParameterByName finds a variable exactly when some PDF of the tree has a parameter of that name, and returns the first. setParameterConstantness fixes or releases exactly the variables the PDF and its components use and changes nothing else; parameters fixed this way before a fit keep their values in the fit, whatever the PDF is a component of. After unregisterParameter the PDF does not list that variable and lists all others.", "quantifier": "all trees of PDFs, names, variables (shared or not) and lives of the fit manager", "why_tests_cant": "The traversals depend on the shape of the tree and on which variables are shared; examples use them on single resonances only.", "anchors": ["src/goofit/PdfBase.cpp: PdfBase::getParameterByName, PdfBase::unregisterParameter", "src/PDFs/GooPdf.cpp: GooPdf::setParameterConstantness"]}
{"id": "C96", "title": "The application picks an existing device and finds files where they are looked for", "statement": "In an MPI program every process uses a GPU that exists on its node, and the processes of a node share its GPUs evenly; without a GPU an exception is thrown. get_filename returns an existing file from the best of the places the documentation names (as given, next to the program, in the given directory of the sources, next to the sources) and throws only if there is none.", "quantifier": "all numbers of processes, nodes and devices and all ranks; all program names, file names and file systems", "why_tests_cant": "The choice depends on the machine the program runs on; tests run on one node with one process.", "anchors": ["src/goofit/Application.cpp: Application::Application, Application::get_filename"]}
{"id": "C97", "title": "A fit of a time-dependent three-body amplitude minimises the likelihood of a mixing meson", "statement": "For an Amp3Body_TD with a perfect resolution and correctly tagged events: after any history, once data are given, the value at every event is the rate at which a mixing meson of that flavour, which decays with the described resonances (its other flavour at the reversed point), decays at that time and point; the normalisation is its integral over all times, the flavours in their given proportion and the grid; every value the minimiser gets in a fit is minus the logarithm of the likelihood of the data under that rate at the parameters asked for; and everything the rate depends on is among the parameters of the fit.", "quantifier": "all sets of resonances (no splines, at most 16), coefficients, lifetimes and mixing parameters, efficiencies without parameters, data sets, orders of giving data, histories of evaluations and fits, and sequences of parameter vectors", "why_tests_cant": "The waves and integrals are cached by resonance and by event; whether a cached number is still right depends on the whole history of evaluations and data.", "anchors": ["src/PDFs/physics/Amp3Body_TD.cu: Amp3Body_TD::Amp3Body_TD, Amp3Body_TD::setDataSize, Amp3Body_TD::normalize, device_Tddp", "src/PDFs/physics/detail/SpecialWaveCalculator.cu", "src/PDFs/physics/detail/SpecialDalitzIntegrator.cu", "src/goofit/FCN.cpp: FCN::operator()"]}
{"id": "C98", "title": "A printed value with its uncertainty can be read back to within a fifth of the uncertainty", "statement": "Printing an Uncertain whose uncertainty is positive gives a decimal number, \" +/- \", and another decimal number, both with the same number of digits after the point. Read back, the first differs from the value and the second from the uncertainty by at most a fifth of the uncertainty. No more digits are printed than that needs to within a factor of ten, and none after the point if the uncertainty is 2.5 or more.", "quantifier": "all values and all positive uncertainties", "why_tests_cant": "The number of digits is the rounded-up logarithm of an arbitrary real number; the boundary cases are at infinitely many values.", "anchors": ["include/goofit/utilities/Uncertain.h: operator<<"]}
{"id": "C99", "title": "The amplitudes a time-dependent four-body PDF lists are those it was given", "statement": "When an Amp4Body_TD is constructed it prints a listing with one entry per amplitude: those of the first list in their order, then those of the second list that are not in the first. Each entry has the name of the amplitude and its line shapes and spin factors in the order in which they were given. Throughout the listing two line shapes, and two spin factors, have the same number if and only if they are the same one.", "quantifier": "all pairs of lists of amplitudes, with any sharing of amplitudes, line shapes and spin factors", "why_tests_cant": "The listing is read back from a packed table of indices; its layout depends on the sharing in the whole model.", "anchors": ["src/PDFs/physics/Amp4Body_TD.cu: Amp4Body_TD::printAmpMappings, printSelectedLineshapes, printSelectedSFs", "src/PDFs/physics/detail/AmpCalc_TD.cu: getLineshapeIndices, getSpinFactorIndices", "src/PDFs/utilities/DebugTools.cu: copyAmpIndicesToHost"]}
{"id": "C100", "title": "A fit of a convolution minimises the likelihood of the smeared distribution", "statement": "Once the integration range of a ConvolutionPdf has been set and it has been given data, every value the minimiser gets is minus the logarithm of the likelihood of the data given last, under the convolution of model and resolution, normalised over the observable, with the parameters at the values the minimiser has asked for; and all parameters of model and resolution are among those fitted.", "quantifier": "all models, resolutions, ranges and steps; all interleavings of data sets given and calls of the FCN; all earlier histories of the PDF and of the fit manager", "why_tests_cant": "The workspaces are caches that are refilled only when parameters are marked as changed; the result of a call depends on all calls before it.", "anchors": ["src/PDFs/combine/ConvolutionPdf.cu: device_ConvolvePdfs, ConvolutionPdf::setIntegrationConstants, ConvolutionPdf::normalize", "src/PDFs/GooPdf.cu: GooPdf::calculateNLL, GooPdf::normalize, reduce_with_bins, reduce_with_metric", "src/PDFs/PdfBase.cu: PdfBase::setData, populateArrays, generateNormRange", "src/goofit/FCN.cpp: FCN::operator()"]}
{"id": "C101", "title": "A four-body PDF is normalised with the accepted phase-space events", "statement": "The events a four-body PDF generates when it is constructed to normalise itself are the accepted ones of the generated phase-space events, so that they represent the phase space without weights; and the normalisation is the mean over them of the intensity (time-dependent: of the rate integrated over the decay time) of a decay into the momenta of the event.", "quantifier": "all numbers of generated events, all outcomes of the acceptance, all lists of seeds; all amplitudes, parameter values and histories of the PDF; for the expectation, all uniform numbers", "why_tests_cant": "The events are drawn at random and never shown to the user; a wrong choice only changes the normalisation by an amount that looks like statistics.", "anchors": ["src/PDFs/physics/detail/NormEvents_4Body_Base.cu: NormEvents_4Body_Base::generate4BodyNormEvents", "src/PDFs/physics/detail/NormEvents_4Body_HostCached.cu: NormEvents_4Body_HostCached::buildBatches", "src/PDFs/physics/detail/NormEvents_4Body_DeviceCached.cu: NormEvents_4Body_DeviceCached::buildBatches", "src/PDFs/physics/Amp4Body.cu: Amp4Body::Amp4Body", "src/PDFs/physics/Amp4Body_TD.cu: Amp4Body_TD::Amp4Body_TD"]}
{"id": "C102", "title": "Measured momenta converted and fitted have the likelihood of the measured decays", "statement": "to_5param turns every column of sixteen numbers (px, py, pz, E of the four particles) into the five variables of that decay, in the same column; imported into a dataset and given to a four-body PDF, every event is evaluated with its own variables and its own cached amplitudes, and the value the minimiser gets is the negative log-likelihood of the measured momenta under the described intensity. The result does not depend on the frame in which the momenta were measured.", "quantifier": "all numbers of columns, all momenta (for the likelihood: decays in the rest frame of the decaying particle, no two momenta of a pair along one line); all changes of frame; all amplitudes, parameter values, calls of the minimiser and histories of the PDF", "why_tests_cant": "A swapped row or a wrong frame gives plausible variables and a fit that converges; a test on a few events cannot tell them from a different model.", "anchors": ["include/goofit/PDFs/physics/detail/UserUtils.h: to_5param", "include/goofit/PDFs/physics/detail/Dim5.h: Dim5", "include/goofit/UnbinnedDataSet.h: UnbinnedDataSet::from_matrix", "src/PDFs/PdfBase.cu: PdfBase::setData", "src/PDFs/physics/Amp4Body.cu: device_Amp4Body"]}
{"id": "C103", "title": "A fit to a histogram maximises the Poisson likelihood of its contents", "statement": "A BinnedDataSet filled event by event and given to a PDF for a binned likelihood fit makes the function that the minimiser gets equal, up to a constant that depends on the data only, to minus the logarithm of the product over the bins of the Poisson probabilities of the numbers of events in them, where the expected numbers are the density at the bin centre times the bin size times the number of events (or the sum of the yields of an extended sum). A chi-square fit gets chi-square of the same expected numbers.", "quantifier": "all datasets (numbers of bins, events, order of filling), all trees of sums, products and basic PDFs, all parameter values, all sequences of calls of the minimiser", "why_tests_cant": "A wrong total or bin size in the expected numbers scales or shifts the function; fits converge to plausible values and a test on one histogram cannot tell the right minimum from a near one.", "anchors": ["src/PDFs/PdfBase.cu: PdfBase::setData", "src/PDFs/MetricPointer.cu: calculateBinAvg, calculateChisq", "src/goofit/BinnedDataSet.cpp: BinnedDataSet::addEvent, getBinCenter, getBinContent, getBinVolume", "src/PDFs/GooPdf.cu: GooPdf::calculateNLL", "src/PDFs/combine/AddPdf.cu: AddPdf::calculateNLL"]}
{"id": "C104", "title": "A fit of a three-body amplitude with backgrounds minimises the likelihood of the sum", "statement": "When an AddPdf of an Amp3Body and any number of other PDFs of m12 and m13 is fitted, then after the sum has been given the data and the amplitude their number (in either order), every value the minimiser receives is minus the logarithm of the likelihood of these data under the density of the sum: each component divided by its own integral over the normalisation grid and weighted with its share (fractions with the rest for the last component, or yields divided by their sum), or, with setCommonNorm, the weighted functions divided by the integral of the weighted sum; with as many weights as components the term of the total yield is added. The shares, the coefficients and all other parameters are at the values of the call, whatever was done with the PDFs, the variables and the fit manager before. This density depends on no other variable than the parameters the minimiser was given, and its integral over the grid is one.", "quantifier": "every list of resonances and components, every number and position of components, every list of weights the constructor accepts, every earlier history of the program, every list of events, every sequence of calls of the minimiser", "why_tests_cant": "The values of a call depend on cached waves and integrals and on the change marks left by the earlier calls; a test sees some call sequences of some sums, the claim is for all of them.", "anchors": ["src/PDFs/combine/AddPdf.cu: device_AddPdfs, device_AddPdfsExt, AddPdf::AddPdf, AddPdf::normalize, AddPdf::calculateNLL", "src/PDFs/physics/Amp3Body.cu: Amp3Body::normalize, Amp3Body::setDataSize, device_DalitzPlot", "src/PDFs/GooPdf.cu: GooPdf::calculateNLL", "src/goofit/FCN.cpp: FCN::operator()"]}
{"id": "C105", "title": "Evaluating a time-dependent three-body amplitude steps over exactly its own PDFs", "statement": "Inside a larger PDF, or as the fitted PDF, an Amp3Body_TD returns at every event the decay rate computed from its own parameters, resonances and resolution times the value of its own efficiency (0 outside the Dalitz region), and the next PDF or the metric is evaluated with its own data, however the efficiency is composed and whatever else the larger PDF contains.", "quantifier": "every list of resonances, every resolution, every efficiency tree, every place in the arrays, every event in or outside the Dalitz region", "why_tests_cant": "Which data a PDF reads depends on how many array entries every PDF evaluated before it stepped over; a test sees some trees and events, and a wrong step reads other numbers without failing.", "anchors": ["src/PDFs/physics/Amp3Body_TD.cu: device_Tddp, Amp3Body_TD::Amp3Body_TD, Amp3Body_TD::populateArrays", "src/PDFs/ParameterContainer.cu: ParameterContainer::incrementIndex"]}
{"id": "C106", "title": "Fits of sums and products around a three-body amplitude minimise the likelihood of their combined density", "statement": "When a three-body amplitude (with or without decay time) is put inside ProdPdf, AddPdf and EventWeightedAddPdf, in any nesting and with other PDFs beside it, every value a fit hands to the minimiser is minus the logarithm of the likelihood of the data under the combined density: products multiply the densities of their components, sums add them with their fractions or yields, taken from the parameters or, for EventWeightedAddPdf, from the columns of the event; the amplitude enters divided by its integral for the present parameters, and a sum with yields at the top adds the term of the total yield.", "quantifier": "every nesting of the three combinations around the amplitude, every order and number of other components, every list of weights the constructors accept, every event list, every earlier history of the PDFs, variables and fit manager, and every sequence of calls of the minimiser", "why_tests_cant": "The caches of the amplitude, the normalisations of all components and the per-event weights have to be right together at every call, for every nesting; a test fits one combination to one sample.", "anchors": ["src/PDFs/combine/EventWeightedAddPdf.cu: EventWeightedAddPdf::EventWeightedAddPdf, EventWeightedAddPdf::normalize, device_EventWeightedAddPdfs, device_EventWeightedAddPdfsExt", "src/PDFs/combine/ProdPdf.cu: ProdPdf::ProdPdf, ProdPdf::normalize, device_ProdPdfs", "src/PDFs/combine/AddPdf.cu: AddPdf::normalize, AddPdf::calculateNLL", "src/PDFs/physics/Amp3Body_TD.cu: Amp3Body_TD::normalize, Amp3Body_TD::setDataSize", "src/PDFs/physics/Amp3Body.cu: Amp3Body::normalize", "src/goofit/PdfBase.cpp: PdfBase::registerObservable, PdfBase::getObservables"]}
{"id": "C107", "title": "A call from Python reaches the C++ function it is meant for, with each value in its place", "statement": "A constructor or method called from Python, with values by position and by keyword in any order, runs the C++ overload whose parameters the call fills: each C++ parameter receives what the value given for it stands for, a parameter left out receives the default the header declares, each keyword is the name of its parameter in the header, and a call that fills no overload is refused with a TypeError.", "quantifier": "everything bound in python/ that takes arguments, every call (every list of positional values, every list of keywords in every order, every kind of value) and every overload bound under the same name", "why_tests_cant": "Overloads are tried in turn, with conversions, on values of any type; a test calls one overload with one set of values, and a wrong overload or a swapped keyword gives a working PDF with other parameters.", "anchors": ["python/PDFs/basic/PolynomialPdf.cpp: init_PolynomialPdf", "python/PDFs/basic/ExpPdf.cpp: init_ExpPdf", "python/PDFs/basic/ArgusPdf.cpp: init_ArgusPdf", "python/PDFs/physics/ResonancePdf.cpp: init_ResonancePdf", "python/PDFs/physics/Lineshapes.cpp: init_Lineshapes", "python/PDFs/physics/Amp4Body_TD.cu: init_Amp4Body_TD", "python/goofit/Variable.cpp: init_Variable", "python/goofit/UnbinnedDataSet.cpp: init_UnbinnedDataSet", "include/goofit/PDFs/physics/resonances/RBW.h: RBW"]}
{"id": "C108", "title": "Python gets the generated events and the plot exactly as they were computed", "statement": "GenerateSig called from Python returns arrays in which entry j of each belongs to the same event: the four-momentum of every daughter as energy, px, py, pz, the variables in their order, the weight and the acceptance flag that the amplitude PDF gives for that event, every entry written and none from another event. make2D of a DalitzPlotter returns an array with the density at the centre of bin (i, j) in entry [i, j], zero outside the decay region, and never writes outside the array.", "quantifier": "every three- and four-body amplitude PDF, with or without decay time, every state it may be in, every number and choice of generated events, all parameter values; every binning and limits of the plot and every density", "why_tests_cant": "The copies are index loops over uninitialised memory with hard-coded sizes; a wrong bound or order shows only for events and components a test does not look at, and entries left unwritten may happen to hold plausible numbers.", "anchors": ["python/PDFs/physics/Amp3Body.cpp: init_Amp3Body", "python/PDFs/physics/Amp4Body.cu: init_Amp4Body", "python/PDFs/physics/Amp4Body_TD.cu: init_Amp4Body_TD", "python/PDFs/physics/DalitzPlotter.cpp: init_DalitzPlotter", "src/PDFs/physics/Amp3Body.cu: Amp3Body::GenerateSig", "src/PDFs/physics/Amp4Body.cu: Amp4Body::GenerateSig", "src/PDFs/physics/Amp4Body_TD.cu: Amp4Body_TD::GenerateSig"]}
{"id": "C109", "title": "integrate(lo, hi) of every PDF that has one is the integral of its function", "statement": "The public integrate(lo, hi) of CrystalBallPdf, BifurGaussPdf, ArgusPdf and PolynomialPdf, which override it without declaring an analytic integral, returns the integral of the function the PDF evaluates over [lo, hi].", "quantifier": "every parameter value of each class and every lo<=hi", "why_tests_cant": "Statements about real integrals over all ranges and shapes; nothing in the library calls these functions, so tests of fits never reach them.", "anchors": ["src/PDFs/basic/CrystalBallPdf.cu: CrystalBallPdf::integrate", "src/PDFs/basic/BifurGaussPdf.cu: BifurGaussPdf::integrate", "src/PDFs/basic/ArgusPdf.cu: ArgusPdf::integrate", "src/PDFs/basic/PolynomialPdf.cu: PolynomialPdf::integrate", "include/goofit/PDFs/GooPdf.h: integrate"]}
{"id": "C110", "title": "A time-dependent three-body amplitude with a finite time resolution is the folded rate, and is normalised", "statement": "With ThreeGaussResolution or ThreeGaussResolutionExt the value of a time-dependent three-body amplitude is the efficiency times the true decay rate, weighted with the selection bias in time, folded with the sum of the three Gaussians of the event's time error; its normalisation is the size of a bin times the sum over the Dalitz grid of the integral of that value over all measured times, averaged over the two tags, and does not depend on the time error.", "quantifier": "every set of resonances and coefficients, efficiency, lifetime, mixing parameters, resolution parameters, grid, tag, measured time and time error", "why_tests_cant": "Improper real integrals over all measured times, for a continuum of amplitudes, lifetimes and errors; a fit only compares ratios at its own events.", "anchors": ["src/PDFs/physics/Amp3Body_TD.cu: device_Tddp, Amp3Body_TD::normalize", "src/PDFs/physics/ThreeGaussResolution.cu: device_threegauss_resolution, ThreeGaussResolution::normalization", "src/PDFs/physics/ThreeGaussResolutionExt.cu: device_threegauss_resolutionext, ThreeGaussResolutionExt::normalization"]}
{"id": "C111", "title": "The three-Gaussian time resolution is exact up to the fourth power of the mass difference", "statement": "With ThreeGaussResolution, for every mass difference x, the value of a rightly tagged event differs from the exactly folded decay rate by at most an explicit multiple of (x/(tau k))^4 and (x/(tau k))^5, where k = 1/tau + selection bias; the reported normalisation exceeds the integral of the value over all measured times by an explicit amount of fourth order in x; and the same holds for the value and the normalisation of the time-dependent three-body amplitude that uses it.", "quantifier": "every x, y, lifetime, amplitudes, efficiency that is not negative, grid, resolution parameters with positive widths, measured time and time error for which the rate falls with time", "why_tests_cant": "An error bound over all real parameters and improper integrals; a test can only compare a few points with a numerical integral.", "anchors": ["src/PDFs/physics/ThreeGaussResolution.cu: device_threegauss_resolution, ThreeGaussResolution::normalization", "src/PDFs/physics/Amp3Body_TD.cu: device_Tddp, Amp3Body_TD::normalize"]}
