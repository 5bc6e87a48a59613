# Formal model of GooFit in Lean 4 — design

## 1. Layout

* `lean/Verif/Model/*.lean` — the model: total executable functions, one module per part of
  the code. Every definition cites the file and lines of `/repo` it models and states its
  simplifications.
* `lean/Verif/Spec/*.lean` — small independent specifications (what a user would write down),
  not mentioning the model's helpers.
* `lean/Verif/Lemmas/*.lean` — helper lemmas.
* `lean/Verif/Props/*.lean` — the property theorems, named `Cnn_...`, each followed by an
  `example` that a concrete non-trivial case meets its hypotheses. Violations of a property by
  the code are theorems named `Cnn_violation_...` (a concrete witness); what is still true is
  `Cnn_..._partial`.
* `properties.jsonl`, `MANIFEST.json`, `seeded/LOG.jsonl` — property list, claims, record of
  seeded-bug experiments.

How far to trust `seeded/LOG.jsonl`. Most experiments were run by pasting the edited model and the modules
that depend on it into one file. Late in the work this was found to be unsound: names of unrelated modules
could clash in the pasted file, so that theorems failed without any edit and were counted as failing because
of it. 14 rows produced that way were deleted and their experiments repeated; one of them had been an
equivalent edit and one did not affect its claim, and these two are not in the log for that claim. The older
rows were then audited. A failure that does not depend on the edit is in every row of a batch, so a row is
accepted if one of the failing theorems of its claim is not in every row of its batch, or of the consecutive
rows on the same file; this says nothing about the other theorems in its list, some of which may be clashes.
Rows this did not settle were repeated against a baseline without the edit that builds cleanly:
116 rows reproduced (`"baseline": "clean, rerun"`) and 13 could not be repeated in time
(`"baseline": "not rechecked"`; do not count them). All 39 rows on `Model/Likelihood.lean` (C86) and
`Model/BinnedFit.lean` (C103) that needed it had an unclean baseline originally; those were repeated by
compiling the real modules, and there `theorems_failed` lists the theorems of the claim in modules that no
longer build, `first_module_broken` where the build stopped. A failing theorem shows that a proof script no
longer goes through, which an equivalent edit can also cause.

## 2. Trusted base

* Lean 4.33.0's kernel; axioms `propext`, `Classical.choice`, `Quot.sound` at most. No axioms of
  our own, no `sorry`, no `native_decide`/`bv_decide`.
* The reading of the C++ source into Lean (by hand; the code is never run here).
* C++ library facts used: `std::vector`, `std::shared_ptr`, `std::map`, `std::accumulate`,
  `std::lower_bound`, `std::ifstream` behave per the standard; `thrust::transform_reduce` with a
  sum computes the sum of the images in *some* association/order; Minuit2's
  `MnUserParameters::Add` rejects a duplicate name and numbers parameters consecutively.
* Numbers. Where the result does not depend on arithmetic laws, the model is generic in the
  number type and its operations (so the theorem holds for IEEE doubles bit for bit, including
  NaN). Where arithmetic laws are needed, `fptype` is an exact ordered field (`ℚ`, `ℝ` or any
  linearly ordered field): floating point rounding, overflow to infinity and NaN are **not**
  modelled there, and the theorem says so in its header. Integer widths are modelled (wrap at
  32 bits, conversion to `int`) where the property is about them.
* Undefined behaviour (out-of-bounds read, dangling pointer, reading an uninitialised value,
  integer division by zero) is a distinct outcome in the models, never a default value.

## 3. Per-property plan

| id | model | proof |
|---|---|---|
| C01 | heap of shared cells; handles are records of cell pointers; `construct`, `copy`, `assign`, `set` as operations | invariant over operation lists: equal value pointers ⇔ same origin ⇔ all pointers equal; disjointness otherwise |
| C02 | constructors as records | direct; violation theorems for the 2- and 3-argument forms |
| C03 | column store `UDS` + observable store, operations with exceptions | refinement to a list of rows, lifted to operation lists |
| C04 | same, plus `BDS` | case analysis on the throwing branches; for all states |
| C05 | same | invariant over histories |
| C06 | `fromMatrix`, `toMatrix` | induction on columns; violation for filtered event numbers |
| C07 | `makeAGrid` recursion | induction on the observable list; equality with the bin centres of the binned data set |
| C08 | `localToGlobal` (32-bit), `globalToLocal`, `getNumBins` (int accumulator) | induction on dimensions; violation beyond 2^32 |
| C09 | `convertValuesToBins`, `addEvent` | floor arithmetic in an ordered field; violation at the upper limit |
| C10 | history of weighted adds | induction; violation of `getNumWeightedEvents` |
| C11 | `getBinError`/`setBinError` histories | violation + partial |
| C12 | bin geometry | field arithmetic |
| C13, C14 | PDF trees, `populateArrays` flattening into the five global arrays, device functions as an interpreter over a cursor | refinement: interpreter on flattened arrays = recursive denotation, cursor ends right after the subtree; induction on trees |
| C15 | table of leaf PDFs: registered counts vs. increments on each path | case analysis; violation theorems for the offenders |
| C16 | `updateVariable` by name, `updateParameters` writing into the flat array | flatten-after-update = update-in-place; induction on trees |
| C17 | `getParameters`, `getObservables` | induction; violation for repeats inside one PDF |
| C18 | `setData` layout and observable indices | induction on trees/lists |
| C19 | state machine of fit control / data / queries | violation witness + partial over restricted histories |
| C20 | stride of the event array vs. stride used by the metric | violation witnesses + partial |
| C21 | sums over any reduction tree / permutation / partition | induction on reduction trees |
| C22 | MPI split | list arithmetic; violation for the binned branch |
| C23 | metric functions | direct, over ℝ; violation for `c_totalEvents` |
| C24 | `normalize`, grid operator | 1-D proof; violation in ≥2-D |
| C25, C26, C27, C28 | `AddPdf`, `ProdPdf`, `MappedPdf` over linear integral functionals | field arithmetic and induction; violations |
| C29 | Minuit vector round trip with blinding | violation + partial |
| C30, C31 | convolution cache and index bounds | invariant over update histories; violations |
| C32 | `SmartVector` | invariant over histories; violation after `clear_device` |
| C33 | toy MC | order arithmetic over all random streams |
| C34 | token-level file model | round trip by induction; violation: non-termination |
| C35 | Neumaier | induction |
| C36 | Uncertain | field arithmetic; violations |
| C37 | polynomial PDFs | induction on degree; violations |
| C38 | analytic integrals | Mathlib interval integrals; violations |
| C39 | exception points | state machine; violation |
| C40 | histogram tables | invariant over histories; violation |
| C41 | coherent sums over ℂ | finite sums |
| C42 | three-body device function as another tree node | as C13; violation for composite efficiencies |
| C43 | Voigtian parameter order | violation |
| C44 | veto | induction on the veto list |
| C45 | bin transforms | induction on dimensions |
| C46 | convolutions with shared caches as tree nodes | comparison with the plain convolution; violations |
| C48 | the Dalitz-region test over ℝ | equivalence with existence of momenta |
| C47 | programs with several PDFs sharing the global device arrays and the fit control | invariant over histories; violations |
| C49, C50 | four-body amplitude caches (line shapes, spin factors, redo marks) and normalisation events | invariant over histories of evaluations and parameter changes; violations |
| C51, C52 | four-body kinematics over ℝ: momenta from five variables, invariant masses of named systems | algebra over ℝ; round trip |
| C53, C54 | spin factors as contractions of tensors | invariance under every Lorentz matrix; equality with covariant amplitudes; violation |
| C55 | LU and cofactor inverses over any field and size, K-matrix amplitude over ℂ | loop invariants; leading minors; positive definiteness argument for open channels; violations |
| C56 | cubic spline with shared derivative table, histories of constructing and changing | tridiagonal recurrences; piecewise calculus; violations |
| C57 | three-body resonances: momenta, form factors, angular factor, RBW over ℝ and ℂ | rest-frame kinematics from momenta of a decay, rational identities; violations |
| C58 | Gounaris-Sakurai functions over ℝ | `HasDerivAt`; violations with bounds on logarithms |
| C59 | LASS amplitude over ℂ | factorisation of the S matrix, norms; violations |
| C60 | Flatté amplitude over ℂ | principal square root, field identity |
| C61 | rho-omega mixing over ℂ | unfolding; violation |
| C62 | mixing rate with perfect time resolution over ℝ and ℂ | two mass eigenstates, complex exponentials, integrals over a half line |
| C63 | three-Gaussian time resolution over ℝ | Gaussian moments on a half line, Fubini; bounds on the truncated series; violations |
| C64 | time-dependent Dalitz amplitude over ℝ and ℂ: value, tags, normalisation | sums exchanged, C62 at each grid point; violations by integrating |
| C65 | its cached integrals as a state machine over calls | invariant over histories, loops of `getFractions`; violations |
| C66 | `Amp3Body_IS`: device function through the cursor, registered arrays, grid sums | reads of the flattened arrays, grid sum identities; violations |
| C67 | `Amp4Body_TD` as a state machine: index arrays, caches, flags, value | reads of the flattened arrays, invariant over histories; violation |
| C68 | its normalisation over any number of batches | freshness of the caches from C67, C62 at each point; violations |
| C69 | `GenerateSig`: times, weights, envelope, flags | volume between graphs, substitution in an integral, norms; violation by a limit |
| C70 | constants, index arrays and pointer arrays of the device, written by constructors and `setDataSize` of the five amplitude classes | invariant over histories (every PDF has a number of its own), frame argument; violations by witnesses |
| C71 | `BW`, `SBW`, `nonres_DP`, `LS_ONE` and the form factors of `Common.cu` over the reals | algebra against the formula of a Breit-Wigner; improper integral by antiderivatives for the normalisation; witness for spin 3 |
| C72 | `lass_MINT`, `glass_MINT3` | S matrix computed from the amplitude, absolute value by algebra of phases; LASS refuted for every k other than 1 |
| C73 | `Flatte_MINT`, `bugg_MINT`, `bugg_MINT3` with their constants | equality with a separate formula of the denominators, sign of the imaginary part, difference of the two versions |
| C74 | `FOCUSFunction` | the two-channel equation T = K + i K rho T, unitarity from it, determinant; violations by sign of imaginary parts |
| C75 | `FitManagerMinuit2`, `FCN::Up`, `Minuit1` (constructor, `Eval`), `FitManagerMinuit1` (`fit`, settings); Minuit is a record of what it calls and reports | invariants over histories; the contract of Minuit as a hypothesis; Cauchy-Schwarz for the errors of a parabola; violations by runs |
| C76 | `gaussian_low`, `gaussian_high`, the resolution function and `normalization` of `ThreeGaussResolutionExt.cu`, over ℝ | substitution in the folding integral from a given time on, moments of the Gaussian tail, an antiderivative of the damped rate; violations from the explicit excess term and its integral |
| C77 | every function of `ThreeGaussResolutionSplice.cu` that is called, over ℝ (the local arrays of eight knots as an explicit limit) | induction on the power for the moments of the cut Gaussian, binomial shift to each gap, induction on the gaps, then the tail as in C76; violations from the exact expression for all `x` and from one-piece splines |
| C78 | the constructors, the comparison, the device functions' reading of parameters and constants and the calculators of every line shape and spin factor; the PDF of `Amp4Body.lean` instantiated with them | case analysis over the classes; equality of objects from equality of members because the class fixes the function; `C49`/`C50` with the abstract functions replaced by the concrete ones; violations from the definitions |
| C79 | `GSpline.cu` over ℝ, with the content of uninitialised memory as an argument and a read outside the own constants as an outcome | counting the registered constants; explicit inverses for three and four knots; closed form of a cell; one-sided limits |
| C80 | constructors of C78 joined to the time-dependent PDF of C67 | from C67, C68 and C78 by equality of the described and the stored components |
| C81 | constructors and device functions of the resonances by position, state machine of `Amp3Body` (waves, integrals, force flag, data, grid), fit fractions | invariant over evaluations: stored waves and integrals are those of the last values; then C41, C48, C55 |
| C82 | `device_Faddeeva_2`, `Faddeeva_2`, `cpuvoigtian` with their tables over the reals; `device_Voigtian` on top | trapezoid rule by Poisson summation: error = pole term + Gaussian tails + truncation + table digits, each bounded; Padé branch against the Taylor expansion; substitution to the convolution |
| C83 | `landauPDF`, `gaussPDF`, `landauGaussPDF`, `landau_quantile` with their constants and the table over the reals; `device_Landau` from C43 | signs of the fits by bounding polynomials, steps at the seams by rational bounds and bounds of exp and log; the loop of the convolution as a midpoint sum; growth of the quantile from facts about the table checked in the kernel; the pole explicitly |
| C84 | a heap of Python objects with the raw pointers of their C++ side, what `keep_alive` and lists hold, ownership of returned members; roles and `keep_alive` numbers of every constructor binding; statements including drop and collect | invariant over programs: every raw pointer is covered by a path of kept references and everything reachable from a variable is alive; table of bindings by cases; violations by concrete programs |
| C85 | `from_numpy`, `to_numpy`, `bin_centers` on top of the dataset model of C03-C06 | loop invariant as for `from_matrix`; export read off the columns; bin centres from the grid and histogram theorems of C07 |
| C86 | `FCN::operator()` down to the kernel: parameter update, `normalize` of every class of node through the host arrays, copies to the device, `calculateNLL` | invariant relating the arrays to the tree and to the numbers last stored for each object, kept by every step; normalisation by induction over the tree, with the grid and evaluation theorems (C13, C18); history by induction over the calls |
| C87 | `GenerateSig` of three and four bodies: the strided event array, the data replaced, `normalize`, the normalised value of each event, weights, `fillMCFlags`; phase-space events and uniform numbers are arguments | reads of the array by induction over columns; value and normalisation from C81 and C78; acceptance as the measure of a set of uniform numbers, expectation by linearity; concrete run for the replaced data |
| C88 | No new model: `get4Vecs`, `dim5` (C51), the pair masses (C52), the spin factors (C53, C54) and the constructed components (C78). | A rotation brings the momenta of a decay into the frame of `get4Vecs`; there variables are found that give the momenta, and `C51_round_trip` identifies them with `dim5`; masses and spin factors do not change under rotations (`C53_frame`). Partial: momenta of a pair along one line, and the limits of C87 for generated events. |
| C89 | The one specialisation of `compute_inverse5`: numerator and denominator as written; all 25 entries have the same text | determinant and cofactor by expansion, `ring` over any field; the result has equal rows, so it is never the inverse |
| C90 | `getValue`, `evaluateAtPoints`, `getCompProbsAtDataPoints`, `plotToROOT`, `scan` as sequences of flattening, normalising, copying and evaluating on the global arrays, with `cachedNormalization` of every object; the MPI exchange of results | the invariant of C86 from arbitrary arrays and caches: normalising makes cache and array agree, so that flattening again keeps the density; the second metric pointer that the loop over components pushes is never reached; `scan` reduced to C86; violations by evaluation of the model |
| C91 | The constructor (both loops, the event number, the values obtained through `getCompProbsAtDataPoints`), the getters, `make2D`, `fillDataSetMC` (exact arithmetic; the random numbers are a stream), and what the constructor does to a three-body amplitude (`D3.plot` on the cached model of C81) | Loop invariant: the dataset, both lists of bins and the event number describe the allowed cells seen so far; histogram by induction over the points; toys by the lemma on `lower_bound` of C33; amplitude by composing with C81. Violations by concrete witnesses |
| C92 | `PolynomialPdf::getCoefficient` on the machine of C86 (parameter array, normalisation) | the invariant of C86 (where each node keeps its parameters and what they are) gives what is read; the specification is a Mathlib polynomial; violation by 1+2x |
| C93 | `FCN::operator()` on an `Amp3Body`: the manager of C29, the change marks of C30, the caches of C81 and the metric of C23 in one machine | induction over the calls: the history of evaluations the caches have seen is one with true marks (C81), so each sum is the described likelihood; a zero sum aborts (violation) |
| C94 | `FCN::operator()` on an `Amp4Body` and an `Amp4Body_TD`: the change marks of C30, the caches of C78 and C80 and the metric of C23 in one machine; the tree of objects whose variables are fitted | induction over the calls: the history the caches have seen is one with true marks (C78, C80), so each sum is the described likelihood; the described intensity and rate depend only on the fitted variables |
| C95 | `getParameterByName`, `unregisterParameter`, `setParameterConstantness` on trees of PDFs, with the manager of C75 | structural induction over the tree (preorder list); fits through C75; double registration is a violation |
| C96 | the choice of the device in the constructor of `Application` with MPI and CUDA, in C integer arithmetic; `get_filename` over an arbitrary file system | case analysis with truncated division; `rfind` by induction; off-by-one and division by zero are violations |
| C97 | `Amp3Body_TD`: constructor, `setDataSize`, `normalize` (caches of waves and integrals, the grid copied once), `device_Tddp` with `TruthResolution`, and `FCN::operator()` on it | invariant: after each evaluation every cached wave and integral is that of the described resonance at the last parameters; with C62 (rate) and C64 (grid) the value and the normalisation are the described ones; induction over the calls of the minimiser as in C93; the default row length and the grid copied once are violations |
| C98 | `operator<<` of `Uncertain` with the fixed-point formatting of `fmt` on exact reals | induction on the digits: the text read back is the rounded number; the rounded-up logarithm bounds the unit of the last digit by two fifths of the uncertainty |
| C99 | `printAmpMappings`, `getLineshapeIndices`, `getSpinFactorIndices` on the packed table of the constructor of `Amp4Body_TD` (C67), with the copy of 500 entries | the start of each block and the entries in it by induction over the amplitudes; blocks of permutations concatenate to all entries; remainder and overflow are violations |
| C100 | `setIntegrationConstants`, `setData`, `normalize`, `calculateNLL` and the FCN on a `ConvolutionPdf`, with host and device copies of the constants and the flag `workspacesFilled` | invariant over interleavings of data and calls: filled workspaces are those of the present values; value by C31; stale constants and limits are violations |
| C101 | `generate4BodyNormEvents`, `buildBatches` and the normalisation events of the `Amp4Body` constructor, on arbitrary generated events and flags; `Dim5`; the normalisations of C78 and C80 | compaction by flags = accepted events by induction; C88 turns variables into momenta; expectation over product of uniform measures; for `Amp4Body`, whose compaction is commented out, a witness |
| C102 | `to_5param` on matrices, `from_matrix`, the events and cache rows the four-body PDF reads | columns by evaluation of the array at a position, import from C06, momenta from C88, likelihood from C94 and C101; frame invariance of masses and cosines by Lorentz algebra, a boosted decay as witness that the angle is not |
| C103 | `setData` with a `BinnedDataSet` (`readBinned`), filling of the dataset (C09), the binned metrics (C23) and the fit function (C86) | a general form of C86 with any formula per entry; the counts by induction over the events, the sum of the densities over the bins by structural induction over the tree; the logarithm of the product of Poisson probabilities term by term; witnesses for empty bins and an analytic integral |
| C104 | `AddPdf` with an `Amp3Body` among its components: constructor, device functions, `normalize`, `calculateNLL` and `FCN::operator()` over the state of the amplitude (`Model/Mix3.lean`); the other components are functions of their parameters | Induction on the calls with the invariant of C93 (`one_state`); the weighted sums in the code are shown equal to shares by lemmas on lists, the integral of the sum by linearity |
| C105 | `device_Tddp`, the constants and observables of both constructors and `populateArrays` with its rewriting of the constants (Model/TimeTree), over the arrays of Model/Tree | the rewritten arrays are those of the tree with the filled-in constant; the tree is stored at the cursor; step through the function |
| C106 | `AddPdf`, `EventWeightedAddPdf` and `ProdPdf` nested around one amplitude object, `normalize`, the device functions, `registerObservable`, `calculateNLL` and the FCN (Model/Wrapped3), over Model/TimeDalitz3 and Model/Dalitz3 | induction over the nesting for the density; the state of the amplitude at each call from C97 and C93, induction over the calls |
| C107 | the signatures of `python/` with their keywords and defaults (Model/PyBindings, generated from the sources and checked against them), pybind11's filling of parameters, casters and choice of overload (Model/PyBind, trusted: pybind11 is not in the repository) | the filling is the declarative one by induction over the parameters; casters are sound and complete for proper values; two overloads bound under one name are apart by a criterion the kernel evaluates on the table, and the criterion is proved to exclude every call for all values; headers against bindings by kernel evaluation of the two tables |
| C108 | the loops that copy a generated sample into numpy arrays and those of Python's `make2D` (Model/PyArrays), on top of the models of `GenerateSig` (Model/Generate3, Model/TimeGenerate) and of the plotter (Model/Plotter); arrays start without entries, reads outside a vector are undefined, writes outside the shape raise | a loop invariant (the indices written so far hold the value belonging to the index) for one, two and three nested loops; composed with C87, C69 and C91; violation: reversing all pz leaves every array the same |
| C109 | the overrides of `integrate` in CrystalBallPdf, BifurGaussPdf, ArgusPdf and PolynomialPdf with their literal constants (Model/OfferedIntegrals); `erf` is an argument, the real error function in the theorems | real integrals by substitution and the fundamental theorem; the rounded constants bounded pointwise with twenty digits of π; Riemann sums of a monotone function; violations for each class |
| C110 | the value and normalisation of Amp3Body_TD (Model/TimeDalitz), which take the resolution as an argument, with the models of ThreeGaussResolution (Model/Mixing) and ThreeGaussResolutionExt (Model/ExtRes) | one theorem for every resolution whose normalisation is linear in the four integrals and is the time integral of its value; C63 and C76 supply both for each class; violation for every x other than zero |
| C111 | no new model: ThreeGaussResolution (Model/Mixing) and Amp3Body_TD (Model/TimeDalitz) for every x | remainders of the cut series against the damping, then folded with densities of total one; partial fractions for the exact difference of the normalisation; linearity over the grid |

None of the properties is inexpressible; the runtime side (real GPU scheduling, floating point,
MPI transport, file system) is outside the model and is named in the theorem headers.

## 4. Disagreements between code and property

Each line is a theorem: a concrete witness (or a family of them) on which the modelled code
does not do what the property says.

* `C02_violation_three_arg_is_constant` (`Props/Variable.lean`): **C02 is violated**: `Variable(name, v, err)`, documented as "a free variable without limits", is handed to the minimiser as a constant — for every argument.
* `C02_violation_two_arg_out_of_range` (`Props/Variable.lean`): **C02 is violated**: a constant built by `Variable(name, v)` never tests in-range (its limits are inverted).
* `C06_violation_filtered_event_number` (`Props/DataSet.lean`): **C06 is violated** by the code when filtering: the number given to an event is its column in the matrix, not its row in the dataset. Witness: two columns of which the first is out of range; the single event stored gets number 1 instead of 0.
* `C08_violation_wraps` (`Props/Binned.lean`): **C08 is violated** by the code for large binnings: with 65536 × 65537 bins the constructor succeeds with only 65536 bins, and the distinct cells (0,0) and (0,65536) share global number 0.
* `C08_violation_negative_size` (`Props/Binned.lean`): **C08 is violated** in another way just above 2^31 cells: the constructor throws.
* `C09_violation_upper_limit_1d` (`Props/Binned.lean`): **C09 is violated** at the upper limit in one dimension: the value 2 of an observable limited to [0,2] is in range, but adding the event throws `std::out_of_range`.
* `C09_violation_upper_limit_2d` (`Props/Binned.lean`): **C09 is violated** at the upper limit in two dimensions: the event (2, 0) in the box [0,2]×[0,2] with 2×2 bins is filed in bin 2, whose cell is [0,1)×[1,2), not in bin 1.
* `C10_violation_weighted_count` (`Props/Binned.lean`): **C10 is violated** by `getNumWeightedEvents`: contents 1/2 and 1/2 give 0.
* `C11_violation_first_set_zeroes_others` (`Props/Binned.lean`): **C11 is violated**: after setting the error of bin 0, the error of bin 1 (content 9) is 0 instead of its square root, for every square-root function with `sqrt 9 = 3`.
* `C15_violation_cursor_unmoved` (`Props/Basic.lean`): **C15 (violated by the code).** Whenever `VariableBinTransform1DPdf` or `InterHistPdf` returns a value, it leaves the cursor at its own data, so the next PDF is evaluated with this one's data.
* `C15_violation_interhist_constant` (`Props/Basic.lean`): **C15 (violated by the code).** An `InterHistPdf` over one to four observables ignores the event: it always returns `0·(first bin) / 0`.
* `C15_violation_duplicate_observable` (`Props/Basic.lean`): **C15 (violated by the code) for an observable passed twice.** `registerObservable` drops the second one, the device function still reads two: with the same own data, the value depends on what happens to be stored behind it.
* `C16_violation_shared_component` (`Props/Tree.lean`): **C16 (violated by the code).** When one PDF object is used at two places, its index members describe only the last place, so an update writes only there: the square of `v1·x` with `v1` changed from 2 to 5 at `x = 10` evaluates to `20·50` instead of `50·50`.
* `C17_violation_repeated_parameter` (`Props/Tree.lean`): **C17 (violated by the code).** A PDF given the same variable for two of its parameters lists it twice (registering does not check, `src/goofit/PdfBase.cpp:41`).
* `C18_violation_convolution` (`Props/Tree.lean`): **C18 (violated by the code)** when the top PDF is such a convolution: after `setData` the second component's observable still has no position in the event (index -1), and evaluating the PDF reads outside the event.
* `C19_violation_getValue` (`Props/Fit.lean`): **C19 (violated by the code).** One event at `x = e` and the PDF `f(x) = x` with normalisation 1: `calculateNLL` is `-log e = -1`. After `getValue()` the control is `ProbFit` (`src/PDFs/GooPdf.cu:315-316`, never restored) and `calculateNLL` returns the sum of probabilities, `e`.
* `C19_violation_binned_error` (`Props/Fit.lean`): **C19 (violated by the code).** With binned data under `BinnedErrorFit`, any `getValue` or `evaluateAtPoints` turns the fit into a binned likelihood fit for good and replaces the bin errors (2) in the event array by the bin volumes (1/2).
* `C20_violation_unbinned_after_binned` (`Props/Fit.lean`): **C20 (violated by the code).** Unbinned data given after binned data: the binned control stays installed (`src/PDFs/PdfBase.cu:344-346` has no counterpart of 444-445), the event sum steps by three numbers per event through an array holding one number per event, and reads past its end.
* `C20_violation_evaluate_binned` (`Props/Fit.lean`): **C20 (violated by the code).** `evaluate_with_metric` always steps by the number of observables (`src/PDFs/GooPdf.cu:116`): with binned data, `getCompProbsAtDataPoints` evaluates entry 1 at the content (3) of bin 0 instead of at the centre (6) of bin 1.
* `C20_violation_null_data` (`Props/Fit.lean`): **C20 (violated by the code).** After `setData(nullptr)` the number of entries is kept (`src/PDFs/PdfBase.cu:348-350`), so the event sum still runs over entries of a freed array.
* `C22_violation_float` (`Props/Fit.lean`): **C22 (violated by the code)** on a rank of more than `2^24 + 1` events: the event number is converted to single precision (`src/PDFs/PdfBase.cu:412`), and events `2^24` and `2^24 + 1` of the rank get the same number.
* `C23_violation_total_events` (`Props/Fit.lean`): **C23 (violated by the code).** Binned chi-square of a flat PDF `p = 1` over two bins of volume 1/2 with 3 and 4 events: with 7 events expected in total each bin expects 3.5. The code uses the number of bins for the number of events (`src/PDFs/PdfBase.cu:527`), expects 1 event per bin, and returns `(1-3)²/3` for the first bin instead of `(3.5-3)²/3`.
* `C23_violation_error_column` (`Props/Fit.lean`): **C23 (violated by the code).** `BinnedErrorFit` installed after `setData`: the last column holds the bin volume (1/2), and the metric divides by it instead of by the bin error (2).
* `C24_violation_two_observables` (`Props/Norm.lean`): **C24 (violated by the code).** With two observables the grid operator writes the coordinates of both into the first one's slot (the position is read once, before the loop over observables), and the second one's slot stays uninitialised: the sum is undefined although the PDF has a value everywhere.
* `C24_violation_only_first_slot` (`Props/Norm.lean`): **C24 (violated by the code).** In general: whatever the number of observables, limits and bins, the operator's buffer has a value at the first observable's position only.
* `C24_violation_wrong_coordinate` (`Props/Norm.lean`): **C24 (violated by the code).** And that slot holds the last observable's coordinate: at grid point 1 of two cells of `[0, 2]` and two cells of `[0, 40]` the first observable is `1.5` and the second `10`; the buffer has 10 at the first one's position.
* `C24_violation_position_ten` (`Props/Norm.lean`): **C24 (violated by the code).** A single observable at event position 10 or beyond (an eleventh observable of the tree) is written outside the ten-entry buffer.
* `C25_violation_nested_common` (`Props/Norm.lean`): **C25 (violated by the code).** With a common normalisation of a sum that has a sum among its components the result is not normalised: the inner sum reports the weighted sum of its components' integrals, although its value is already divided by them.
* `C25_violation_sum_in_product` (`Props/Norm.lean`): **C25 (violated by the code).** A sum inside a product with shared observables is no longer a mixture of normalised components: the product sets all normalisations below it to one and integrates once. With integrals 16 and 8 the components' normalisations should be `1/16` and `1/8`.
* `C26_violation_not_adjacent` (`Props/Norm.lean`): **C26 (violated by the code).** If the first and the third component share an observable, the overlap is not noticed, and the product of the normalised components does not integrate to one.
* `C28_violation_negative` (`Props/Tree.lean`): **C28 (violated by the code).** A negative map value (-3) is evaluated with target 0 and no error.
* `C28_violation_too_large` (`Props/Tree.lean`): **C28 (violated by the code).** A map value beyond the last target (2, with targets 0 and 1) steps the cursor past the whole PDF and reads outside its data.
* `C28_violation_other_pdf` (`Props/Tree.lean`): **C28 (violated by the code).** Inside a larger tree the same map value is silently evaluated with a PDF that is not one of the targets: the sibling after the `MappedPdf`.
* `C29_violation_drift` (`Props/Minuit.lean`): **C29 (violated by the code).** With a blinded parameter the same call changes the model every time: no two of any number of repetitions see the same value.
* `C29_violation_changed` (`Props/Minuit.lean`): **C29 (violated by the code).** With blinding the flag is wrong in both directions: a value pushed twice counts as changed, and pushing the blinded image of the previous value changes the model while the flag says it did not.
* `C29_violation_repeated_variable` (`Props/Minuit.lean`): **C29 (violated by the code).** A PDF in which one variable serves as two parameters cannot be fitted: the manager's constructor throws.
* `C29_violation_two_managers` (`Props/Minuit.lean`): **C29 (violated by the code).** Positions are stored in the shared variables, so a second fit manager that uses a variable at another position breaks the first: after constructing the manager of a PDF of variable `b` alone, pushing `[7, 8, 9]` through the first manager gives `b` the entry of `a`.
* `C30_violation_nested` (`Props/Cache.lean`): **Violation of C30.** If the model of a convolution is itself a combination, a change of a component's parameter is not noticed: after two calls of the FCN the workspace still holds the first value.
* `C30_violation_after_fit` (`Props/Cache.lean`): **Violation of C30.** The results of a fit are written into the variables without marking them; evaluating the PDF after the fit (for a plot) uses the workspace of the last call of the FCN.
* `C30_violation_set_value` (`Props/Cache.lean`): **Violation of C30.** A value set by the user after a fit is not noticed either.
* `C30_violation_blinded` (`Props/Cache.lean`): **Violation of C30.** With a blinded parameter, a call of the FCN that changes the value can look like no change: the offset is 1, and after 2 the minimiser tries 1.
* `C30_violation_two_pdfs` (`Props/Cache.lean`): **Violation of C30.** Two convolutions that share a variable: a value pushed through the first is not marked as changed when it is pushed through the second, whose workspace then stays behind.
* `C30_violation_efficiency` (`Props/Cache.lean`): **Violation of C30.** A change of a parameter of the efficiency does not cause the integrals to be redone.
* `C30_violation_new_data` (`Props/Cache.lean`): **Violation of C30.** New data without a call of `setDataSize`: the waves are those of the old data.
* `C31_violation_shared_constants` (`Props/Convolution.lean`): **Violation of C31.** A cooperative convolution built, as the comment suggests, with `numOthers = 0` reads a constant it does not have, at every point.
* `C31_violation_register_others` (`Props/Convolution.lean`): **Violation of C31.** For `numOthers > 0`, `registerOthers` called with the expected number of PDFs writes past the end of the constants.
* `C31_violation_unaligned` (`Props/Convolution.lean`): **Violation of C31.** The default integration range and step, with an observable in `[0.006, 5]`: evaluating close to the lower limit reads past the end of the resolution workspace.
* `C31_violation_unaligned_integration` (`Props/Convolution.lean`): **Violation of C31.** The same for an integration range that does not begin at a multiple of the step, although the observable's limits are multiples.
* `C31_violation_negative_upper` (`Props/Convolution.lean`): **Violation of C31.** And for an observable with a negative upper limit between two multiples of the step: the offset is rounded towards zero.
* `C31_violation_mirrored` (`Props/Convolution.lean`): **Violation of C31.** The resolution is used mirrored: a model concentrated in `[0, 1)` smeared by a resolution that adds between 1 and 2 should give something at `x = 2` and nothing at `x = -1`; the code gives the opposite.
* `C32_violation_cleared` (`Props/SmartVector.lean`): **C32 (violated by the code).** Destroying any PDF gives up the device memory of the global arrays, but the record of what is on the device is kept. The next `smart_sync` of an unchanged array copies nothing and the device reads through a dangling pointer; of a changed array, it writes beyond the end of the empty device vector.
* `C32_violation_cpu_growth` (`Props/SmartVector.lean`): **C32 (violated by the code).** On the CPU the pointer stored by `sync` is left dangling when the array grows and moves (noted in the code as a warning).
* `C33_violation_zero_draw` (`Props/Toy.lean`): **Violation of C33.** If the number drawn is exactly zero the first bin is chosen, even if its probability is zero.
* `C33_violation_other_observable` (`Props/Toy.lean`): **Violation of C33.** If another observable of the dataset is out of range, no event is added, the call throws, and the PDF is left with the dead grid as its dataset.
* `C34_violation_missing_file` (`Props/Files.lean`): **Violation of C34.** If the file does not exist, `readFromFile` never returns.
* `C34_violation_long_line` (`Props/Files.lean`): **Violation of C34.** If the file contains, for a name the PDF does not have, a line with 1000 characters after the name, `readFromFile` never returns.
* `C34_violation_not_a_number` (`Props/Files.lean`): **Violation of C34.** A parameter whose value prints as something that is not read back as a number (`nan`, `inf`) makes reading its own file use uninitialised variables.
* `C34_violation_blank_in_name` (`Props/Files.lean`): **Violation of C34.** A name with a blank: the file is read without complaint and the parameter is not restored.
* `C34_violation_last_number` (`Props/Files.lean`): **Violation of C34.** In a list file that does not end with white space, the last number is ignored.
* `C34_violation_missing_list` (`Props/Files.lean`): **Violation of C34.** Reading a list from a file that does not exist never returns.
* `C36_violation_negative_scale` (`Props/Utils.lean`): Multiplying or dividing by a negative number throws, unless the uncertainty is zero.
* `C36_violation_negative_values` (`Props/Utils.lean`): A product or quotient of two negative values throws unless both uncertainties are zero.
* `C36_violation_product` (`Props/Utils.lean`): `(10 ± 1) * (20 ± 2)` comes out as `200 ± 0.2`; adding relative uncertainties gives `200 ± 40`.
* `C36_violation_mixed_signs` (`Props/Utils.lean`): `(-10 ± 1) * (5 ± 1)`: no exception, and an uncertainty of `1/10` where `15` is right.
* `C37_violation_expPolyOffset` (`Props/Poly.lean`): **C37, violated**: an exponential of the constant polynomial `α₀` with an offset depends on the observable.
* `C37_violation_offsetPolynomial` (`Props/Poly.lean`): **C37, violated**: a first-degree polynomial about a centre ignores both coefficients and returns the centre.
* `C38_violation_step` (`Props/Integrate.lean`): **C38, violated for StepPdf** when the step lies below the range.
* `C38_violation_expPoly` (`Props/Integrate.lean`): **C38, violated for ExpPdf with a list of one coefficient**: it declares an analytic integral, but the function is the constant `exp α₀` while `integrate` treats `α₀` as a slope.
* `C38_violation_gaussian` (`Props/Integrate.lean`): **C38, violated for GaussianPdf** on every finite range.
* `C38_violation_johnsonSU` (`Props/Integrate.lean`): **C38, violated for JohnsonSUPdf**: on every range shorter than `2σ/δ` the integral is below the returned 1.
* `C39_violation_evaluate` (`Props/Toy.lean`): **Violation of C39.** If evaluating a PDF throws, after the local dataset was installed, the PDF keeps a pointer to it.
* `C40_violation_late_copy` (`Props/Hist.lean`): **C40, violated**: a histogram PDF created empty and filled after another one was created shows the histogram of the other one.
* `C40_violation_second_copy` (`Props/Hist.lean`): **C40, violated**: filling the same histogram PDF a second time does not change what it shows.
* `C40_violation_upper_limit` (`Props/Hist.lean`): **C40, violated**: an event at the upper limit of a one-dimensional histogram makes the PDF read past the end of its histogram.
* `C41_violation_bins` (`Props/Amp3Body.lean`): **Violation of C41.** With one bin in `m12` and two in `m13`, a constant amplitude that is one all over the square, the normalisation should be 1 and is 1/2: the second bin is evaluated outside the range.
* `C41_violation_efficiency` (`Props/Amp3Body.lean`): **Violation of C41.** An efficiency that is a product of two PDFs: the function used as efficiency is its last factor.
* `C42_violation_composite_efficiency` (`Props/Tree.lean`): **C42 (violated by the code).** Outside the Dalitz region (`m13 = 7`) the code steps over one PDF only where the efficiency has three (`src/PDFs/physics/Amp3Body.cu:72-81`): the definition gives 0, but the cursor ends inside the efficiency, and the function then called as the metric is one of the efficiency's PDFs, which is undefined.
* `C43_violation_scaledGaussian_sign` (`Props/BasicReal.lean`): **C43 (the documented formula is violated).** The header gives `exp(-(x+b-m)²/(2(σ(1+ε))²))`; with `m = 0`, `σ = 1`, `b = 1`, `ε = 0` the documented value at `x = 1` is `exp(-2)`, the code returns 1.
* `C43_violation_voigtian_swapped` (`Props/BasicReal.lean`): **C43 (violated by the code).** VoigtianPdf(x, m, σ, Γ) documents its third argument as the Gaussian resolution and its fourth as the Breit-Wigner width. With no resolution (`σ = 0`) the result should be a Breit-Wigner of width `Γ`; the code returns a Gaussian of width `Γ`, which is not proportional to one. With no Breit-Wigner width (`Γ = 0`) it returns a Breit-Wigner of width `σ`.
* `C46_violation_shared_value` (`Props/Tree.lean`): **C46 (violated by the code).** The definition gives the convolution (here `x + 1 = 11`) times the two components' normalisations `1/2` and `1/3`; the sharing form multiplies by its own normalisation and by the `1` stored after it instead.
* `C46_violation_shared_metric` (`Props/Tree.lean`): **C46 (violated by the code).** Because the sharing form leaves the cursor where it was, the function looked up as the metric is the convolution itself: calling it as a metric is undefined.
* `C47_violation_construct` (`Props/World.lean`): **Violation of C47.** PDF 0 has its data, another PDF is constructed: PDF 0 now has the values of the other PDF.
* `C47_violation_set_data` (`Props/World.lean`): **Violation of C47.** The same if another PDF is given data, and the total number of events is the other's.
* `C47_violation_copy_params` (`Props/World.lean`): **Violation of C47.** Copying the parameters of another PDF overwrites those of the PDF in use.
* `C47_violation_renumbered` (`Props/World.lean`): **Violation of C47.** PDF 5 has the same observables in the other order. After it was given data, PDF 2 reads `y` for `x`, even if its fit control is set anew.
* `C47_violation_component` (`Props/World.lean`): **Violation of C47.** Setting the fit control of a PDF changes that of its components, for good.
* `C49_violation_overflow` (`Props/Amp4Body.lean`): **C49 violated** A PDF with more line shapes than amplitudes writes past the end of an array at its first evaluation, and at every other.
* `C49_violation_stale` (`Props/Amp4Body.lean`): **C49 violated** The first amplitude uses the second line shape. When that changes, the first amplitude keeps the value for the parameters before: the value at the event is not that of the current parameters.
* `C50_violation_generate` (`Props/Amp4Body.lean`): **C50 violated** After toy generation the normalisation is 1, whatever the parameters, for the rest of the PDF's life.
* `C50_violation_efficiency` (`Props/Amp4Body.lean`): **C50 violated** The normalisation does not know the efficiency: with one that is not constant, the values at the normalisation events do not average to it.
* `C54_violation_tensor_decay` (`Props/SpinFactor.lean`): **C54** The factor for the decay of a tensor is not the amplitude: the part of the mother's tensor along its momentum is divided by the mass of the tensor squared instead of the mother's (`src/PDFs/physics/SpinFactors.cu:560`).
* `C55_violation_pivot` (`Props/KMatrix.lean`): **C55, violation.** The inverse used by the amplitude has no pivoting: for every size from two up there is an invertible matrix it fails on.
* `C55_violation_amplitude` (`Props/KMatrix.lean`): **C55, violation (the amplitude).** A K-matrix model and an energy in the physical ππ region (0.698 GeV) at which `1 - i K ρ` is invertible, so the amplitude is well defined, but the code divides by a zero pivot.
* `C56_violation_stale` (`Props/SplineRes.lean`): **C56, violation (stale derivatives).** After the fit has changed the coefficients the amplitude is no longer the smooth curve through them: the second derivatives of the values at construction are still in use.
* `C56_violation_shared` (`Props/SplineRes.lean`): **C56, violation (shared table).** Constructing a second spline overwrites the derivatives of the first.
* `C56_violation_last_knot` (`Props/SplineRes.lean`): **C56, violation (last knot).** At the last knot the amplitude is zero, whatever coefficient the user gave there.
* `C56_violation_line` (`Props/SplineRes.lean`): **C56, violation (straight line).** Coefficients on a straight line do not give a straight line: the slope at the ends is twice that of the chord.
* `C57_violation_form_factor` (`Props/Resonance.lean`): **C57, violation (form factors without normalisation).** The Blatt-Weisskopf factors are bounded by 2 and 13; the ones of the code grow without bound with the momentum.
* `C57_violation_mother_momentum` (`Props/Resonance.lean`): **C57, violation (momentum in the normalised factor of the mother).** At every point of phase space the momentum used is `s / (2 M)`, whatever the mass of the bachelor; in the decay `lightDecay` it is 1/4 where the bachelor has momentum 3/2 in the frame of the resonance and 3/4 in the frame of the mother.
* `C57_violation_exchange` (`Props/Resonance.lean`): **C57, violation (identical particles).** For spin 1 the symmetrised amplitude changes sign when the identical daughters are exchanged, and it is not zero: the intensity of its sum with any symmetric amplitude is not symmetric.
* `C58_violation_width` (`Props/ResonanceShapes.lean`): **C58, violation (width).** Away from the nominal mass the amplitude is not the one of Gounaris and Sakurai with the running width `Γ0 (k/k0)³ (m0/√s)` times the squared barrier factor (the width the Breit-Wigner amplitude uses): the program leaves out `m0/√s`.
* `C58_violation_pair` (`Props/ResonanceShapes.lean`): **C58, violation (pair).** The same decay, the same resonance and the same event, with the daughters renumbered cyclically, give another amplitude: the mass shift and the constant `d` of the amplitude of a resonance in daughters 1 and 2 are computed with the masses of daughters 2 and 3.
* `C58_violation_symmetric` (`Props/ResonanceShapes.lean`): **C58, violation (symmetric amplitudes).** With identical daughters 2 and 3 and the flag for a symmetric amplitude, exchanging the two identical daughters changes the amplitude.
* `C59_violation_unitarity` (`Props/ResonanceShapes.lean`): **C59, violation (unitarity).** With the resonance at full strength the S matrix is larger than one at every mass above threshold and for all parameters: the imaginary part of the propagator has the wrong sign (LASS.cu:105; compare RBW.cu:71-74).
* `C59_violation_daughters` (`Props/ResonanceShapes.lean`): **C59, violation (daughters).** The same decay, resonance and event, with the daughters renumbered cyclically, give another amplitude: for a resonance in daughters 1 and 3 the momenta are computed with the masses of daughters 1 and 2.
* `C61_violation_angular` (`Props/ResonanceShapes.lean`): **C61, violation (angle).** For a spin-1 pair at a fixed mass, doubling the angular factor does not double the amplitude.
* `C63_violation_norm` (`Props/GaussRes.lean`): **C63, violation (normalisation).** For every `x ≠ 0` the reported normalisation is not the integral of the value over the measured times: the value uses the cut series of the cosine, the normalisation the cosine. Here for the simplest rate, `A` alone.
* `C63_violation_negative` (`Props/GaussRes.lean`): **C63, violation (sign).** With the cut series the density becomes negative: for a large mixing parameter there is a measured time at which the value for an event with `A = 1` and `B = 0` is negative.
* `C64_violation_mistag` (`Props/TimeDalitz.lean`): **C64, violation (wrong tags).** For every probability `w > 0` of a wrong tag and every lifetime and mixing parameter that are not, in the combination `τ / (1 - y²)`, the numbers written in the code, there is a decay time at which the value is not the rate of a wrongly tagged event: the contribution of wrong tags is computed with `τ = 0.4101`, `x = 0.0039` and `y = 0.0065` (Amp3Body_TD.cu:229-245), whatever the parameters of the PDF.
* `C64_violation_event_mistag` (`Props/TimeDalitz.lean`): **C64, violation (probability of a wrong tag given event by event).** The normalisation uses the value that happens to be stored in the observable, not those of the events. If it holds zero then for every `w > 0` events with that probability are not normalised, for all lifetimes and mixing parameters that are not the numbers in the code.
* `C64_violation_default_arguments` (`Props/TimeDalitz.lean`): **C64, violation (default arguments).** A PDF constructed without the optional observables for wrong tags and flavour, as the declaration allows, reads through a null pointer.
* `C64_violation_md0` (`Props/TimeDalitz.lean`): **C64, violation (mass of the mother).** In a PDF constructed with an observable for the mass of the mother the mass is read as the probability of a wrong tag, and the latter as the flavour: for an event at time zero with any tags the value is `2 ((1 - m) |A|² + m |B|²)` times the efficiency, negative for a D meson of 1.86 GeV where `B` vanishes.
* `C65_violation_asymmetric` (`Props/TimeDalitzCache.lean`): **C65, violation (asymmetric plots).** For a plot that is not treated alike in `m12` and `m13`, here by the ranges of the two observables, asking for the fractions right after construction changes the integrals, and with them the normalisation, of all later evaluations with unchanged parameters: the integral of `A_i B_j*` is filled in as the conjugate of the one of `A_j B_i*`.
* `C65_violation_fractions` (`Props/TimeDalitzCache.lean`): **C65, violation (not fractions).** The returned numbers are not divided by the total: for a single resonance, whose fraction is one, the result is the grid sum of its intensity, here four.
* `C66_violation_amplitudes` (`Props/Incoherent.lean`): **C66 (violated by the code).** The value does not depend on the amplitude at all: whatever the amplitude is, a resonance of value 1 and efficiency 1 give 1, the number of parameters of the resonance, instead of the square of the amplitude.
* `C66_violation_linear` (`Props/Incoherent.lean`): **C66 (violated by the code).** The numbers are used as they are, not squared: with the amplitude 2 as the number read, a resonance of value 1 gives 2 instead of 4.
* `C66_violation_norm` (`Props/Incoherent.lean`): **C66 (violated by the code).** Two resonances, constant 1 and constant 2, both of strength 1, on a unit square: the function evaluated is 5 everywhere, the normalisation is 8.
* `C66_violation_nested` (`Props/Incoherent.lean`): **C66 (violated by the code).** As second component of another PDF, with the resonance stored after it, the incoherent sum calls itself as a resonance: undefined.
* `C67_violation_duplicate` (`Props/TimeFourBody.lean`): **C67 (violation).** If an amplitude is twice in the first list and once in the second, it is counted twice in the second sum as well.
* `C68_violation_weights` (`Props/TimeFourBody.lean`): **C68 (violation).** If every weight is at least 0 and less than 1, the sum of weights that the normalisation is divided by is 0, however many events there are.
* `C68_violation_generate` (`Props/TimeFourBody.lean`): **C68 (violation).** After events have been generated with the PDF, its normalisation is 1, whatever the parameters.
* `C68_violation_efficiency` (`Props/TimeFourBody.lean`): **C68 (violation).** The efficiency is a factor of the value but not of the normalisation: with a constant efficiency `ε` the mean over the plain points of the integrated value is `ε` times the normalisation, not the normalisation.
* `C69_violation_envelope` (`Props/TimeGenerate.lean`): **C69 (violation).** For `y > 0` the envelope that the largest weight at time zero makes is too low at late times wherever `|A - B|²` exceeds `4.4 |A|²`, for example for decays that are only possible after mixing.
* `C70_violation_constants` (`Props/Globals.lean`): **C70 (violation).** A second three-body PDF replaces the masses and radii of the first, whatever they are.
* `C70_violation_radius` (`Props/Globals.lean`): **C70 (violation).** A four-body PDF replaces the radius of a three-body PDF.
* `C70_violation_mother_radius` (`Props/Globals.lean`): **C70 (violation).** The radius of the mother of an incoherent sum is never used: it is zero, or that of a PDF constructed before.
* `C70_violation_seventeenth` (`Props/Globals.lean`): **C70 (violation).** The seventeenth wave of a three-body PDF is the first wave of the next one.
* `C70_violation_overflow` (`Props/Globals.lean`): **C70 (violation).** The limits are sharp: when more PDFs of a class are constructed, the pointers of the last are written behind the end of the array.
* `C70_violation_region` (`Props/Globals.lean`): **C70 (violation, seen from outside).** A PDF for a particle of mass 2 that decays to three photons, then one whose decay has two heavy daughters: the point with both squared masses 1, which the first decay reaches, is now outside the region, so that the first PDF is zero there.
* `C70_violation_index` (`Props/Globals.lean`): **C70 (violation, seen from outside).** Two time-dependent four-body PDFs with one amplitude each, the first with an amplitude of the first flavour, the second of the other: once the second has been constructed, the first PDF adds its amplitude to the wrong sum.
* `C71_violation_spin` (`Props/Lineshape4.lean`): **C71 (violation).** A resonance of spin 3 without form factor has no width: the amplitude is real, with a pole.
* `C72_violation_lass` (`Props/Lineshape4.lean`): **C72 (violation).** In all other cases it is not elastic at any mass: the resonance is too strong or too weak compared to the background.
* `C73_violation_ignored` (`Props/LineshapeChannels.lean`): **C73 (violation).** The width and the form factor given to a Flatté line shape have no effect, and neither have the mass and the width given to a Bugg line shape.
* `C73_violation_bugg` (`Props/LineshapeChannels.lean`): **C73 (violation).** Above it they are not: the four-pion widths differ.
* `C74_violation_isospin` (`Props/LineshapeChannels.lean`): **C74 (violation).** Between the thresholds the isospin 3/2 line shape is real, although elastic K pi scattering with its own K matrix has a phase there (Watson's theorem): the code uses the phase space of K eta'.
* `C74_violation_etap` (`Props/LineshapeChannels.lean`): **C74 (violation).** The mass of the eta' is 0.95778; with the mass in the code the channel K eta' is still closed at masses where it is open.
* `C75_violation_chisq` (`Props/FitManager.lean`): **C75 (violated by the code).** `Up` is one half for every metric. In a chi-square fit with covariance matrix `C` the error reported is too small by a factor of the square root of two.
* `C75_violation_minuit1` (`Props/FitManager.lean`): **C75 (violated by the code).** Minuit1 is left with its default `Up` of one, so the errors of a likelihood fit are too large by the square root of two.
* `C75_violation_minuit1_settings` (`Props/FitManager.lean`): **C75 (violated by the code).** Without a call limit, all of these settings are ignored: asking Minuit1 for Minos errors has no effect.
* `C75_violation_fixed_later` (`Props/FitManager.lean`): **C75 (violated by the code).** A variable that is fixed after the manager has been constructed is fitted all the same, by a minimiser that respects all it was told: `a` is fixed at 0, and is 7 after the fit.
* `C75_violation_start` (`Props/FitManager.lean`): **C75 (violated by the code).** A value set after the construction is not where the fit starts.
* `C75_violation_minos` (`Props/FitManager.lean`): **C75 (violated by the code).** The Minos errors of a second fit come behind those of the first, so the list begins with the errors of a fit that is over.
* `C75_violation_minuit1_names` (`Props/FitManager1.lean`): **C75 (violated by the code).** The manager of Minuit1 does not refuse two different variables with the same name, as that of Minuit2 does: it declares two parameters to Minuit1, but at every point gives both variables the number, and the blinding offset, of the later one. So what the PDF returns never depends on the earlier parameter.
* `C76_violation_after` (`Props/ExtRes.lean`): **C76, violation (after the threshold).** For every `x ≠ 0` the second number is not the folded cut cosine, except at one measured time: what is computed differs from it by the given term.
* `C76_violation_norm` (`Props/ExtRes.lean`): **C76, violation (normalisation).** For every `x ≠ 0`, every positive efficiency and Gaussians of width below `√2` lifetimes (that is, below `√2 / (1/τ + s)`), the integral of the value over the measured times is smaller than the reported normalisation. Here for the simplest rate, `A` alone.
* `C77_violation_powers` (`Props/SpliceRes.lean`): **C77, violation (powers of `x`).** Between the knots the second number is not the cosine cut after three terms: the factor `x σ/τ` is squared instead of multiplied, and the third term comes out too small by the factor `(x σ/τ)⁴`.
* `C77_violation_norm` (`Props/SpliceRes.lean`): **C77, violation (oscillating terms).** For an unmixed decay (`A = 1`, `B = 0`), `x ≠ 0`, Gaussians that are not wider than `τ/|x|`, fractions that are not negative, a first knot at 0, an efficiency that is not negative and positive after the last knot, the reported normalisation is greater than the integral of the value over all measured times.
* `C77_violation_first_knot` (`Props/SpliceRes.lean`): **C77, violation (first knot).** The value moves the first knot to 0, the normalisation does not: with the knots 1 and 2 and an efficiency of 1, one Gaussian and an unmixed decay of lifetime 1, the integral of the value over all measured times is 2 and the reported normalisation is `2/e`.
* `C77_violation_last_piece` (`Props/SpliceRes.lean`): **C77, violation (last polynomial).** The normalisation continues the last polynomial with only its two lower coefficients: with the single piece `2 - t²` between 0 and 1, which ends at 1 with the slope -2, an efficiency of 2 is integrated after the last knot.
* `C77_violation_many_knots` (`Props/SpliceRes.lean`): **C77, violation (number of knots).** More than eight knots are accepted, and the value then writes behind the local arrays.
* `C78_violation_ignored` (`Props/Component4.lean`): **C78 (violation).** Some classes do not use variables their constructors ask for: these variables are not parameters of the PDF, and objects made with different ones are the same.
* `C78_violation_radius` (`Props/Component4.lean`): **C78 (violation).** The number called the mass of the mother (`mD0`) in the constructor of a spin factor is a radius: the form factor of the same four momenta changes with it, and the constructor without this argument takes the mass of the D⁰, in GeV, for a radius in 1/GeV.
* `C79_violation_out_of_range` (`Props/GSpline.lean`): **C79 (violation).** The values of the spline at its knots never reach the device function, which expects them before the second derivatives: strictly inside the range of the spline it reads constants that are not its own, whatever the arguments of the constructor.
* `C79_violation_width` (`Props/GSpline.lean`): **C79 (violation).** The width is never the one the user asked for. If the nominal mass is inside the range of the spline, every evaluation reads constants that are not the line shape's; if not, the width is zero wherever the evaluation does not.
* `C79_violation_values` (`Props/GSpline.lean`): **C79 (violation).** The values at the knots enter only through the second derivatives, at construction: values that differ by a straight line give the same line shape.
* `C79_violation_curvature` (`Props/GSpline.lean`): **C79 (violation).** With three knots, where the matrix is in order, the second derivative at the middle one is 9/4 of that of the natural cubic spline: the distance of the knots is taken to be a third of the range, it is a half.
* `C79_violation_uninitialised` (`Props/GSpline.lean`): **C79 (violation).** With four knots the second derivatives depend on what happened to be in memory.
* `C79_violation_jump` (`Props/GSpline.lean`): **C79 (violation).** Even with the right constants the spline jumps at a knot, unless the second derivative at the knot before is zero.
* `C81_violation_many` (`Props/Dalitz3.lean`): **C81, violation (many resonances).** A decay with more than 16 resonances has no evaluation: the 17th is written outside the array of the cached waves.
* `C81_violation_efficiency` (`Props/Dalitz3.lean`): **C81, violation (efficiency).** When a parameter of the efficiency takes a new value (and no resonance has changed) the next evaluation returns the integral with the old efficiency.
* `C81_violation_grid` (`Props/Dalitz3.lean`): **C81, violation (grid).** When the limits of the observables are changed after an evaluation, the next one returns the old sum times the new bin size.
* `C81_violation_number` (`Props/Dalitz3.lean`): **C81, violation (event numbers).** The value at an event is that of the event its number names: with the numbers of two events exchanged, an event in the middle of the decay region has the value 0.
* `C81_violation_data` (`Props/Dalitz3.lean`): **C81, violation (new data).** `setData` alone is not enough: the waves of the old events are used for the new ones.
* `C82_violation_negative` (`Props/Faddeeva.lean`): **C82 (violated by the code): a negative density.** A VoigtianPdf of positive width and resolution is negative in its tail: with mean 0, resolution 0.707106781187 and width `2·10⁻¹²` its value at 6.5 is below `-10⁻⁸`, while the Voigt profile is positive. The twelve tabulated nodes end at 6, the correction for the pole does not.
* `C82_violation_cpu_limits` (`Props/Faddeeva.lean`): **C82 (violated by the host copy).** `cpuvoigtian` is documented to fall back to a Breit-Wigner when the resolution is zero and to a Gaussian when the width is zero (`src/goofit/Faddeeva.cpp:136-143`); its argument check throws in both cases.
* `C83_violation_langaus_scale` (`Props/Landau.lean`): **C83, disagreement**: a density of something measured in other units (here: all arguments doubled) is half as high; `landauGaussPDF` returns a quarter, because `landauPDF` has already divided by the width when the convolution divides by it.
* `C83_violation_langaus_steps` (`Props/Landau.lean`): **C83, disagreement**: when the Gaussian is `3·2³⁰` times as wide as the Landau, the number of steps overflows to zero and the step is a division by zero.
* `C83_violation_quantile_decreasing` (`Props/Landau.lean`): **C83, disagreement**: the quantile is not increasing: from 0.999 to `0.999 + 10⁻⁹` it falls.
* `C83_violation_quantile_pole` (`Props/Landau.lean`): **C83, disagreement**: the formula for small probabilities has a pole: there are probabilities below `10⁻¹⁴` whose quantile, which should be negative, exceeds any bound.
* `C84_violation_forgotten` (`Props/Python.lean`): Violation: after each of the five constructors that forget to keep an argument, a program that made its objects properly and dropped the argument is left with a pointer to a destroyed object: a PDF behind `Params`, the parameters behind `FCN`, the function behind `MnMigrad` and `MnMinos`, the resonances of the decay behind the constructor of `Amp3Body_TD` that takes a list of resolutions and a mass but no tags.
* `C84_violation_list` (`Props/Python.lean`): Violation: the list given to a constructor is kept alive, its elements are not. A product of the PDFs in a list is left with a pointer to a destroyed PDF when that PDF is taken out of the list.
* `C84_violation_decay` (`Props/Python.lean`): Violation: the description of the decay that `getDecayInfo` returns has pointers to the resonances, and keeps neither them nor the PDF.
* `C84_violation_member` (`Props/Python.lean`): Violation: a member obtained from a fit manager by a method (`getParams()`, `getFCN()`) is owned by Python, which deletes memory inside the manager when the variable goes away; obtained by the property of the same name it is not (`C84_alive_partial`). It does not keep the manager either.
* `C85_violation_missing_row` (`Props/Numpy.lean`): C85 is violated by `from_numpy` when the table lacks a row: nothing is refused, every event gets the value the last observable happened to have. `from_matrix` numbers the events instead.
* `C86_violation_shared_component` (`Props/Likelihood.lean`): **C86 (violated by the code)** when one PDF object is used twice in the tree: `normalize()` writes the normalisation to the object's last place in the arrays only, the first keeps the one, so that the sum of a PDF with itself is not that PDF.
* `C87_violation_later` (`Props/Generate3.lean`): **C87, violation (a fit after generating).** A user gives the PDF an event outside the decay region, where the density is 0, evaluates, and generates an event at rest. The next evaluation gives, for the user's event, the density at the generated one.
* `C87_violation_none` (`Props/Generate3.lean`): **C87, violation (no events).** Without events the maximum of nothing is read.
* `C87_violation_few` (`Props/Generate3.lean`): **C87, violation (few events).** The four-body PDF reads the first six results to print them, however many there are.
* `C89_violation_entries` (`Props/Inverse5.lean`): **C89, violation.** For every matrix the other 24 entries repeat the first one.
* `C89_violation_never` (`Props/Inverse5.lean`): **C89, violation.** The result is never the inverse, whatever the matrix.
* `C90_violation_scan` (`Props/Values.lean`): **C90 (violated by the code)**, `scan`: it visits the bin centres of the observable, one after the other, but what it returns is, for every one of them, the same number: the function minimised at the present values of the parameters. The events are not touched when the value of an observable is set.
* `C90_violation_no_data` (`Props/Values.lean`): **C90 (violated by the code)** for a PDF that was never given data: the observables have no numbers yet, `getValue` normalises before it makes them, and the grid operator writes outside the array of the event.
* `C90_violation_observable_moved` (`Props/Values.lean`): **C90 (violated by the code)**: asking for the curve moves the observable. Asked at 1, the PDF's value differs from what it is after a plot was drawn, although nobody set anything.
* `C91_violation_z` (`Props/Plotter.lean`): **Violation of C91.** `getZval` is to be the third squared mass, `M² + m₁² + m₂² + m₃² - x - y`; the plotter squares the squared masses once more and forgets the daughters: -23 instead of 4.
* `C91_violation_outside` (`Props/Plotter.lean`): **Violation of C91.** A toy event may lie where the decay is impossible, although the centre of its bin does not.
* `C91_violation_left_behind` (`Props/Plotter.lean`): **Violation of C91.** After the plotter has been made, the amplitude has its data again, but the cache holds the points of the plot and is as long: with two events and a plot of one point, evaluating the second event reads past the end.
* `C92_violation_getCoefficient` (`Props/Coefficient.lean`): **C92, violated.** The polynomial `1 + 2x`, fitted as a curve: `getCoefficient(0)` returns 2, and `getCoefficient(1)` reads outside the array.
* `C93_violation_zero` (`Props/Fit3.lean`): **C93, violation (no event counts).** When the sum is zero, for instance because there are no events, because all of them lie outside the decay region, or because the likelihood is exactly one, the first call does not return: the program aborts.
* `C95_violation_unregister_twice` (`Props/Lookup.lean`): **C95 (violated by the code).** A variable that a PDF has been given for two of its parameters is removed only once: it is still listed, and fitted, afterwards.
* `C96_violation_device` (`Props/Application.lean`): **C96 (violated by the code).** With two or more devices on the node and more processes than devices, the process whose number on the node is the number of devices picks a device that does not exist.
* `C96_violation_nodes` (`Props/Application.lean`): **C96 (violated by the code).** With fewer processes than nodes the remainder by zero is taken.
* `C97_violation_event_size` (`Props/TimeDalitz3.lean`): **C97, violation (the length of a row).** `setDataSize` without a second argument sets the length of a row to five, but the PDF has seven observables, whatever the user says: the resonances are then evaluated at other columns. Two equal events: the value at the second is zero.
* `C97_violation_grid` (`Props/TimeDalitz3.lean`): **C97, violation (grid).** The limits of the observables are copied at the first evaluation only. When they are changed later and new data are given, so that everything is computed again, the points of the grid are still the old ones.
* `C99_violation_remainder` (`Props/AmpListing.lean`): **C99 (violation).** One amplitude with three line shapes, one spin factor and two permutations: the last line shape and the spin factor are not listed.
* `C99_violation_size` (`Props/AmpListing.lean`): **C99 (violation).** An amplitude with 500 line shapes or more, of one permutation: the listing reads past the end of the copy of the table.
* `C100_violation_range_after_data` (`Props/ConvFit.lean`): **C100, violation (range set after the data).** A range of integration with fewer steps, set after the data, is not known to the device before the next `setData`: every call reads outside the workspaces.
* `C100_violation_limits` (`Props/ConvFit.lean`): **C100, violation (limits changed).** The workspaces are made for the limits the observable had when the range was set (at the latest in the constructor). When the upper limit is raised afterwards, no fit to data with an event a step or more above the old limit is possible: no call returns a value.
* `C101_violation_flags` (`Props/NormEvents4.lean`): **C101 (violation).** The normalisation events of the time-independent PDF do not depend on which of the generated events are accepted, but only on their number. In a PDF with two generated events, of which the second is accepted, the normalisation is the intensity of the first one and not that of the accepted one.
* `C102_violation_boost` (`Props/Measured4.lean`): **C102 (violation).** The angle between the planes is not computed in the rest frame of the decaying particle: for the same decay, measured by an observer who sees the particle fly, `to_5param` gives another angle (and the same masses and cosines), without an error. The momenta must be boosted into the rest frame by the caller.
* `C103_violation_empty_bins` (`Props/BinnedFit.lean`): **C103 (violated by the code).** A chi-square fit with empty bins does not find the parameters of least chi-square: the counts are 0, 0, 5, 2 and the densities `X/8` and `X²/21`. Chi-square prefers the fraction 1 to the fraction 0, whether empty bins are left out or count with error one; the fit function prefers 0.
* `C103_violation_analytic_integral` (`Props/BinnedFit.lean`): **C103 (violated by the code).** A `GaussianPdf`, which is divided by its integral over the whole line, is fitted to a histogram of one bin of size one that holds two events. The fit function prefers a width that is half the most likely one: the number of bins stands for the number of events, and nothing holds the normalisation in place.
* `C104_violation_size` (`Props/Mix3.lean`): **C104, violation (number of events).** When the sum is given the data but the amplitude was never given their number, the first evaluation reads arrays that do not exist.
* `C105_violation_mass_outside` (`Props/TimeTree.lean`): **C105 (violated by the code).** The constructor with the mother's mass registers `SPECIAL_RESOLUTION_FLAG` where the function index after the efficiency is read from (`src/PDFs/physics/Amp3Body_TD.cu:61, 416`): for every event outside the Dalitz region, every such amplitude used as the fitted PDF runs past the end of the arrays, whatever its resolutions and efficiency are.
* `C105_violation_two_resolutions` (`Props/TimeTree.lean`): **C105 (violated by the code).** With two resolutions the second one is called as the efficiency, also in the region (`src/PDFs/physics/Amp3Body_TD.cu:249-252`): undefined, where with one resolution the value is defined.
* `C106_violation_weights` (`Props/Wrapped3.lean`): **C106, violation (weights).** When two weights of an event are the same observable, the second is registered once only, and the weight of the second component is read from the first observable of the components: here the density is 7/4 and not 3/2.
* `C106_violation_product` (`Props/Wrapped3.lean`): **C106, violation (product).** A product of a three-body amplitude and a PDF of one of its observables is not normalised: the amplitude asks for separate normalisations, and the product follows, although the two share an observable. Here both are normalised to one, and the product has the integral 1/2.
* `C107_violation_default` (`Props/PyBind.lean`): **C107, violated**: an `Amp4Body_TD` cannot be made from Python without saying how many events its normalisation uses: the default `5e6` is a float and the parameter an `unsigned int`, so every call that leaves it out is refused.
* `C107_violation_keyword` (`Props/PyBind.lean`): **C107, violated**: `from_matrix(matrix=…)`, `fillDataSetMC(dataset=…)` and `setIntegrationConstants(lo=…, hi=…, step=…)` are refused whatever else the call says, although the bindings mean to offer those keywords.
* `C107_violation_truth` (`Props/PyBind.lean`): **C107, violated**: `ArgusPdf("a", x, m, s, power)` forgets `upper` and fits neither constructor, but it is not refused: a variable has a truth value (whether it is within its limits), so it is taken for `upper` and the plain Argus function is made, without the power.
* `C107_violation_degree` (`Props/PyBind.lean`): **C107, violated**: `BernsteinPdf` is bound with an `int` for a parameter the header declares `unsigned int`, so a negative lowest degree, which no `unsigned int` is, is not refused.
* `C108_violation_momentum` (`Props/PyArrays.lean`): **C108, violation.** Python gets three of the four components of the momenta of a three-body decay: energy, px and py. For every PDF and all events, the events with all pz reversed give the same arrays, although these are other decays of the same mother. The momenta cannot be found from what is returned.
* `C109_violation_crystal` (`Props/OfferedIntegrals.lean`): **C109, violated for CrystalBallPdf**: at mean 0, width 1, `α = 1` and power 2 the integral over the tail between 1 and 3 is `exp(-1/2)`, and `integrate(1, 3)` misses more than a tenth of it.
* `C109_violation_bifur` (`Props/OfferedIntegrals.lean`): **C109, violated for BifurGaussPdf**: over two ranges, one a proper part of the other, it returns the same number, so that it cannot be right for both; over an empty range it returns a positive number.
* `C109_violation_argus_default` (`Props/OfferedIntegrals.lean`): **C109, violated for ArgusPdf** with the settings it is built with: without `setIntegrationFineness` the number of bins is -1 and `integrate` returns 0 for every range, although the integral above the threshold is positive.
* `C109_violation_argus_upper` (`Props/OfferedIntegrals.lean`): **C109, violated for ArgusPdf with `upper = true`**: whatever the number of bins, `integrate` sums the other function, which is zero up to the threshold; on a range between 0 and the threshold it returns 0 although the integral is positive.
* `C109_violation_polynomial` (`Props/OfferedIntegrals.lean`): **C109, violated for PolynomialPdf**: with one weight, whatever the lowest degree and with or without an offset, `integrate` returns 0; without an offset the integral over a range of positive numbers is not zero unless the weight is.
* `C110_violation_mixing` (`Props/SmearedDalitz.lean`): **C110, violation (normalisation with `x ≠ 0`).** On a plot of one bin with one resonance that is `1` where `m12 < m13` and `0` elsewhere, rightly tagged, the normalisation is larger than the integral of the value over all measured times for every `x ≠ 0`, every fraction of D0 and every three-Gaussian resolution: the value uses the cut series of the cosine and sine of `x t`.

Disagreements between header comments and code, found while reading (recorded in the comments of
the models where the function is modelled):

* `BWPdf.h` gives the prefactor 1/(2√π), the code uses 1/(2π).
* `CorrGaussianPdf.h`: the formula of the header is not the one evaluated.
* `CrystalBallPdf.h`: the prose puts the tail on the other side for positive alpha.
* `NovosibirskPdf.h`: typographical errors in the formula.
* `KinLimitBWPdf.h`: x0' in the header, x0'² in the code.
* `ScaledGaussianPdf.h`: opposite sign of the bias.
* `ExpGausPdf.h`: the "lifetime" is used as a rate.
* `VoigtianPdf.h`: sigma and width exchanged with respect to the constructor (C43).
* `ExpPdf`: with an offset the polynomial coefficients are shifted by one power.
* `PolynomialPdf`: with a centre, two coefficients are dropped (C37).
* `ConvolutionPdf.h`: f(t) g(x−t) in the header, M(t) R(t−x) in the code (C31).
* `SpinFactors.cu:560`: `DtoTP1_TtoVP2` divides by pT² where the amplitude has pD² (C54).
* `SpinFactors.h`: the default 1.86484 (the D mass) is used as a radius by the FF factors.
* `SpinHelper.h`: `VecDot` of the unused kind has a sign error.
* `compute_inverse5.h` is not used by anything.
* `Amp3Body_TD.h`: |A+B|² and |A−B|² in the header, |A|²+|B|² and |A|²−|B|² in the code; the mistag variable is described both as
  probability of the right and of the wrong sign, the code uses the latter.
* `Amp3Body_TD::getFractions` recomputes cached waves from event 0 instead of the offset of the data set.

## 5. What is modelled, what is not

Generated from the citations in `lean/Verif/Model`. Lines are cited beside each definition.

| file in /repo | modelled in |
|---|---|
| `include/goofit/BinnedDataSet.h` | Binned.lean |
| `include/goofit/DataSet.h` | Binned.lean, DataSet.lean |
| `include/goofit/FitControl.h` | Fit.lean |
| `include/goofit/GlobalCudaDefines.h` | Integrate.lean, Tree.lean |
| `include/goofit/Log.h` | Generate3.lean |
| `include/goofit/PDFs/GooPdf.h` | Integrate.lean |
| `include/goofit/PDFs/MetricPointer.h` | Tree.lean |
| `include/goofit/PDFs/ParameterContainer.h` | KMatrix.lean, TimeFourBody.lean, Tree.lean |
| `include/goofit/PDFs/basic/ArgusPdf.h` | Integrate.lean |
| `include/goofit/PDFs/basic/BernsteinPdf.h` | Integrate.lean |
| `include/goofit/PDFs/basic/ExpPdf.h` | Integrate.lean |
| `include/goofit/PDFs/basic/GaussianPdf.h` | Integrate.lean |
| `include/goofit/PDFs/basic/JohnsonSUPdf.h` | Integrate.lean, LikelihoodBasic.lean |
| `include/goofit/PDFs/basic/KinLimitBWPdf.h` | Integrate.lean |
| `include/goofit/PDFs/basic/ScaledGaussianPdf.h` | Integrate.lean |
| `include/goofit/PDFs/basic/SmoothHistogramPdf.h` | SmoothHist.lean |
| `include/goofit/PDFs/basic/StepPdf.h` | Integrate.lean |
| `include/goofit/PDFs/combine/ConvolutionPdf.h` | Cache.lean, ConvFit.lean |
| `include/goofit/PDFs/detail/ComplexUtils.h` | SplineRes.lean |
| `include/goofit/PDFs/detail/Globals.h` | Globals.lean, Likelihood.lean, Tree.lean, World.lean |
| `include/goofit/PDFs/physics/Amp3Body.h` | Cache.lean, Dalitz3.lean, Globals.lean, Python.lean |
| `include/goofit/PDFs/physics/Amp3Body_TD.h` | Globals.lean, TimeDalitz.lean, TimeDalitz3.lean |
| `include/goofit/PDFs/physics/Amp4Body.h` | Amp4Body.lean |
| `include/goofit/PDFs/physics/Amp4BodyGlobals.h` | Amp4Body.lean, Globals.lean |
| `include/goofit/PDFs/physics/Amp4Body_TD.h` | TimeFourBody.lean |
| `include/goofit/PDFs/physics/Amplitude.h` | Amp4Body.lean, TimeFourBody.lean |
| `include/goofit/PDFs/physics/DalitzPlotHelpers.h` | Amp4Body.lean, Basic.lean, Globals.lean, Resonance.lean, TimeComponent4.lean, TimeDalitz.lean, TimeDalitz3.lean, TimeFourBody.lean |
| `include/goofit/PDFs/physics/DalitzPlotter.h` | Plotter.lean, Python.lean, Toy.lean |
| `include/goofit/PDFs/physics/DalitzVetoPdf.h` | BasicCtor.lean |
| `include/goofit/PDFs/physics/MixingTimeResolution.h` | TimeDalitz.lean, TimeTree.lean |
| `include/goofit/PDFs/physics/SpinFactors.h` | Amp4Body.lean, Component4.lean, SpinFactor.lean |
| `include/goofit/PDFs/physics/detail/Dim2.h` | Generate3.lean |
| `include/goofit/PDFs/physics/detail/Dim5.h` | FourBody.lean, NormEvents4.lean |
| `include/goofit/PDFs/physics/detail/NormEvents_4Body_Base.h` | TimeFourBody.lean |
| `include/goofit/PDFs/physics/detail/SpinHelper.h` | FourBody.lean, SpinFactor.lean |
| `include/goofit/PDFs/physics/detail/UserUtils.h` | Measured4.lean |
| `include/goofit/PDFs/physics/kMatrixUtils.h` | KMatrix.lean |
| `include/goofit/PDFs/physics/lineshapes/FOCUS.h` | Component4.lean, Lineshape4.lean |
| `include/goofit/PDFs/physics/lineshapes/Lineshape.h` | Amp4Body.lean, Component4.lean, Lineshape4.lean |
| `include/goofit/PDFs/physics/resonances/Resonance.h` | Dalitz3.lean |
| `include/goofit/PdfBase.h` | BasicCtor.lean, Cache.lean, ConvFit.lean, Dalitz3.lean, Fit.lean, Likelihood.lean, Mix3.lean, Norm.lean, OfferedIntegrals.lean, Toy.lean, Tree.lean, Values.lean, World.lean, Wrapped3.lean |
| `include/goofit/UnbinnedDataSet.h` | DataSet.lean, Measured4.lean |
| `include/goofit/Variable.h` | Amp3Body.lean, ConvFit.lean, DataSet.lean, Minuit.lean, Numpy.lean, TimeDalitz.lean, Toy.lean, Tree.lean, Values.lean, Variable.lean |
| `include/goofit/detail/Complex.h` | Complex.lean |
| `include/goofit/detail/SmartVectorCPU.h` | Coefficient.lean, SmartVector.lean |
| `include/goofit/detail/SmartVectorGPU.h` | SmartVector.lean |
| `include/goofit/detail/compute_inverse5.h` | Inverse5.lean |
| `include/goofit/fitting/FCN.h` | FitManager.lean, Python.lean |
| `include/goofit/fitting/FitManagerMinuit1.h` | FitManager.lean, FitManager1.lean |
| `include/goofit/fitting/FitManagerMinuit2.h` | FitManager.lean, Python.lean |
| `include/goofit/fitting/Params.h` | Minuit.lean, Python.lean |
| `include/goofit/utilities/Uncertain.h` | MathUtils.lean, Printed.lean |
| `python/Minuit2/MnMigrad.cpp` | Python.lean |
| `python/Minuit2/MnMinos.cpp` | Python.lean |
| `python/PDFs/GooPdf.cpp` | ConvFit.lean, Fit.lean, Integrate.lean, Lookup.lean, Norm.lean, Toy.lean, Values.lean, World.lean |
| `python/PDFs/basic/ArgusPdf.cpp` | PyBindings.lean |
| `python/PDFs/basic/BWPdf.cpp` | PyBindings.lean |
| `python/PDFs/basic/BernsteinPdf.cpp` | PyBindings.lean |
| `python/PDFs/basic/BifurGaussPdf.cpp` | PyBindings.lean |
| `python/PDFs/basic/BinTransformPdf.cpp` | PyBindings.lean |
| `python/PDFs/basic/CorrGaussianPdf.cpp` | PyBindings.lean |
| `python/PDFs/basic/CrystalBallPdf.cpp` | PyBindings.lean |
| `python/PDFs/basic/ExpGausPdf.cpp` | PyBindings.lean |
| `python/PDFs/basic/ExpPdf.cpp` | PyBindings.lean |
| `python/PDFs/basic/GaussianPdf.cpp` | PyBindings.lean |
| `python/PDFs/basic/InterHistPdf.cpp` | PyBindings.lean, Python.lean |
| `python/PDFs/basic/JohnsonSUPdf.cpp` | PyBindings.lean |
| `python/PDFs/basic/KinLimitBWPdf.cpp` | PyBindings.lean |
| `python/PDFs/basic/LandauPdf.cpp` | PyBindings.lean |
| `python/PDFs/basic/NovosibirskPdf.cpp` | PyBindings.lean |
| `python/PDFs/basic/PolynomialPdf.cpp` | PyBindings.lean |
| `python/PDFs/basic/ScaledGaussianPdf.cpp` | PyBindings.lean |
| `python/PDFs/basic/SmoothHistogramPdf.cpp` | PyBindings.lean, Python.lean |
| `python/PDFs/basic/StepPdf.cpp` | PyBindings.lean |
| `python/PDFs/basic/TrigThresholdPdf.cpp` | PyBindings.lean |
| `python/PDFs/basic/VoigtianPdf.cpp` | PyBindings.lean |
| `python/PDFs/combine/AddPdf.cpp` | PyBindings.lean, Python.lean |
| `python/PDFs/combine/CompositePdf.cpp` | PyBindings.lean, Python.lean |
| `python/PDFs/combine/ConvolutionPdf.cpp` | PyBindings.lean, Python.lean |
| `python/PDFs/combine/EventWeightedAddPdf.cpp` | PyBindings.lean, Python.lean |
| `python/PDFs/combine/MappedPdf.cpp` | PyBindings.lean, Python.lean |
| `python/PDFs/combine/ProdPdf.cpp` | PyBindings.lean, Python.lean |
| `python/PDFs/physics/Amp3Body.cpp` | PyArrays.lean, PyBindings.lean, Python.lean |
| `python/PDFs/physics/Amp3Body_IS.cpp` | PyBindings.lean, Python.lean |
| `python/PDFs/physics/Amp3Body_TD.cpp` | PyBindings.lean, Python.lean |
| `python/PDFs/physics/Amp4Body.cu` | Amp4Body.lean, Component4.lean, Fit4.lean, Generate3.lean, Globals.lean, Measured4.lean, NormEvents4.lean, PyArrays.lean, PyBindings.lean, Python.lean |
| `python/PDFs/physics/Amp4Body_TD.cu` | AmpListing.lean, Component4.lean, Fit4.lean, Globals.lean, NormEvents4.lean, PyArrays.lean, PyBindings.lean, Python.lean, TimeComponent4.lean, TimeFourBody.lean, TimeGenerate.lean |
| `python/PDFs/physics/DalitzPlotHelpers.cpp` | PyBind.lean, PyBindings.lean, Python.lean |
| `python/PDFs/physics/DalitzPlotter.cpp` | PyArrays.lean, PyBindings.lean, Python.lean |
| `python/PDFs/physics/Lineshapes.cpp` | PyBind.lean, PyBindings.lean, Python.lean |
| `python/PDFs/physics/MixingTimeResolution.cpp` | PyBindings.lean |
| `python/PDFs/physics/ResonancePdf.cpp` | PyBindings.lean, Python.lean |
| `python/PDFs/physics/SpinFactors.cpp` | PyBind.lean, PyBindings.lean |
| `python/PDFs/physics/SquareDalitzEffPdf.cpp` | PyBindings.lean |
| `python/PDFs/physics/ThreeGaussResolution.cpp` | PyBindings.lean |
| `python/PDFs/physics/ThreeGaussResolutionExt.cpp` | PyBindings.lean |
| `python/PDFs/physics/ThreeGaussResolutionSplice.cpp` | PyBindings.lean |
| `python/PDFs/utilities/VariableBinTransform1DPdf.cpp` | PyBindings.lean |
| `python/extras/landau.cpp` | Landau.lean |
| `python/goofit/Application.cpp` | Application.lean |
| `python/goofit/BinnedDataSet.cpp` | Binned.lean, BinnedFit.lean, PyBindings.lean |
| `python/goofit/DataSet.cpp` | DataSet.lean, Values.lean |
| `python/goofit/FitManager.cpp` | PyBindings.lean, Python.lean |
| `python/goofit/PdfBase.cpp` | BasicCtor.lean, Cache.lean, Component4.lean, ConvFit.lean, Dalitz3.lean, Fit3.lean, Fit4.lean, Likelihood.lean, Lookup.lean, Norm.lean, OfferedIntegrals.lean, PyBindings.lean, Python.lean, TimeDalitz3.lean, Toy.lean, TreeHost.lean, Values.lean, Wrapped3.lean |
| `python/goofit/UnbinnedDataSet.cpp` | DataSet.lean, Grid.lean, Numpy.lean, PyBindings.lean, Values.lean |
| `python/goofit/Variable.cpp` | Component4.lean, Minuit.lean, Numpy.lean, PyBind.lean, PyBindings.lean |
| `python/include/goofit/PyProps.h` | Python.lean |
| `src/PDFs/GooPdf.cpp` | ConvFit.lean, Fit.lean, Integrate.lean, Lookup.lean, Norm.lean, Toy.lean, Values.lean, World.lean |
| `src/PDFs/GooPdf.cu` | Coefficient.lean, ConvFit.lean, Fit.lean, Fit3.lean, Fit4.lean, Likelihood.lean, Mix3.lean, Mpi.lean, Norm.lean, Plotter.lean, SmartVector.lean, TimeDalitz3.lean, Toy.lean, Tree.lean, Values.lean, World.lean, Wrapped3.lean |
| `src/PDFs/MetricPointer.cu` | ConvFit.lean, Fit.lean, Fit3.lean, Fit4.lean, Generate3.lean, Likelihood.lean, TimeDalitz3.lean |
| `src/PDFs/MetricTaker.cu` | ConvFit.lean, Convolution.lean, Fit.lean, Fit3.lean, Fit4.lean, Norm.lean, TimeDalitz3.lean, Tree.lean, TreeHost.lean, World.lean |
| `src/PDFs/ParameterContainer.cu` | Tree.lean |
| `src/PDFs/PdfBase.cu` | BinnedFit.lean, ConvFit.lean, Dalitz3.lean, Fit.lean, Likelihood.lean, Measured4.lean, Minuit.lean, Mix3.lean, Mpi.lean, Norm.lean, Plotter.lean, Python.lean, TimeDalitz3.lean, Toy.lean, Tree.lean, TreeHost.lean, Values.lean, World.lean, Wrapped3.lean |
| `src/PDFs/basic/ArgusPdf.cu` | Basic.lean, BasicCtor.lean, OfferedIntegrals.lean |
| `src/PDFs/basic/BWPdf.cu` | Basic.lean, BasicCtor.lean |
| `src/PDFs/basic/BernsteinPdf.cu` | Basic.lean, BasicCtor.lean |
| `src/PDFs/basic/BifurGaussPdf.cu` | Basic.lean, BasicCtor.lean, OfferedIntegrals.lean |
| `src/PDFs/basic/BinTransformPdf.cu` | Basic.lean, BasicCtor.lean |
| `src/PDFs/basic/CorrGaussianPdf.cu` | Basic.lean, BasicCtor.lean |
| `src/PDFs/basic/CrystalBallPdf.cu` | Basic.lean, BasicCtor.lean, OfferedIntegrals.lean |
| `src/PDFs/basic/ExpGausPdf.cu` | Basic.lean, BasicCtor.lean |
| `src/PDFs/basic/ExpPdf.cu` | Basic.lean, BasicCtor.lean, Integrate.lean, Likelihood.lean, LikelihoodBasic.lean |
| `src/PDFs/basic/GaussianPdf.cu` | Basic.lean, BasicCtor.lean, Integrate.lean, Likelihood.lean, LikelihoodBasic.lean, Tree.lean |
| `src/PDFs/basic/InterHistPdf.cu` | Basic.lean, BasicCtor.lean, Python.lean |
| `src/PDFs/basic/JohnsonSUPdf.cu` | Basic.lean, BasicCtor.lean |
| `src/PDFs/basic/KinLimitBWPdf.cu` | Basic.lean, BasicCtor.lean |
| `src/PDFs/basic/LandauPdf.cu` | Basic.lean, BasicCtor.lean |
| `src/PDFs/basic/NovosibirskPdf.cu` | Basic.lean, BasicCtor.lean |
| `src/PDFs/basic/PolynomialPdf.cu` | Basic.lean, BasicCtor.lean, Coefficient.lean, OfferedIntegrals.lean |
| `src/PDFs/basic/ScaledGaussianPdf.cu` | Basic.lean, BasicCtor.lean |
| `src/PDFs/basic/SmoothHistogramPdf.cu` | Basic.lean, BasicCtor.lean, Python.lean, SmoothHist.lean |
| `src/PDFs/basic/StepPdf.cu` | Basic.lean, BasicCtor.lean, Integrate.lean, LikelihoodBasic.lean |
| `src/PDFs/basic/TrigThresholdPdf.cu` | Basic.lean, BasicCtor.lean |
| `src/PDFs/basic/VoigtianPdf.cu` | Basic.lean, BasicCtor.lean, Faddeeva.lean, FpReal.lean |
| `src/PDFs/combine/AddPdf.cu` | Likelihood.lean, Mix3.lean, Norm.lean, Python.lean, Tree.lean, Values.lean, Wrapped3.lean |
| `src/PDFs/combine/CompositePdf.cu` | Likelihood.lean, Norm.lean, Python.lean, Tree.lean |
| `src/PDFs/combine/ConvolutionPdf.cu` | Cache.lean, ConvFit.lean, Convolution.lean, Norm.lean, Python.lean, Tree.lean |
| `src/PDFs/combine/EventWeightedAddPdf.cu` | Likelihood.lean, Norm.lean, Python.lean, Tree.lean, Wrapped3.lean |
| `src/PDFs/combine/MappedPdf.cu` | Likelihood.lean, Norm.lean, Python.lean, Tree.lean |
| `src/PDFs/combine/ProdPdf.cu` | Likelihood.lean, Norm.lean, Python.lean, Tree.lean, Values.lean, Wrapped3.lean |
| `src/PDFs/detail/Globals.cpp` | Dalitz3.lean, TimeDalitz3.lean |
| `src/PDFs/detail/Globals.cu` | Globals.lean, Resonance.lean, SmartVector.lean |
| `src/PDFs/physics/Amp3Body.cu` | Amp3Body.lean, Cache.lean, Dalitz3.lean, Fit3.lean, Generate3.lean, Globals.lean, Mix3.lean, PyArrays.lean, Python.lean, Tree.lean, Wrapped3.lean |
| `src/PDFs/physics/Amp3BodyBase.cu` | Generate3.lean |
| `src/PDFs/physics/Amp3Body_IS.cu` | Globals.lean, Incoherent.lean, Python.lean |
| `src/PDFs/physics/Amp3Body_TD.cu` | Globals.lean, Mixing.lean, Python.lean, TimeDalitz.lean, TimeDalitz3.lean, TimeTree.lean, Wrapped3.lean |
| `src/PDFs/physics/Amp4Body.cu` | Amp4Body.lean, Component4.lean, Fit4.lean, Generate3.lean, Globals.lean, Measured4.lean, NormEvents4.lean, PyArrays.lean, PyBindings.lean, Python.lean |
| `src/PDFs/physics/Amp4BodyBase.cu` | Generate3.lean |
| `src/PDFs/physics/Amp4BodyGlobals.cu` | Globals.lean |
| `src/PDFs/physics/Amp4Body_TD.cu` | AmpListing.lean, Component4.lean, Fit4.lean, Globals.lean, NormEvents4.lean, PyArrays.lean, PyBindings.lean, Python.lean, TimeComponent4.lean, TimeFourBody.lean, TimeGenerate.lean |
| `src/PDFs/physics/Amplitude.cu` | Component4.lean, Fit4.lean, Python.lean, TimeComponent4.lean, TimeFourBody.lean |
| `src/PDFs/physics/DalitzPlotHelpers.cu` | Basic.lean, FourBody.lean |
| `src/PDFs/physics/DalitzVetoPdf.cu` | Basic.lean, BasicCtor.lean |
| `src/PDFs/physics/SpinFactors.cu` | Component4.lean, SpinFactor.lean |
| `src/PDFs/physics/SquareDalitzEffPdf.cu` | Basic.lean, BasicCtor.lean |
| `src/PDFs/physics/ThreeGaussResolution.cu` | ExtRes.lean, Mixing.lean, SpliceRes.lean, TimeTree.lean |
| `src/PDFs/physics/ThreeGaussResolutionExt.cu` | ExtRes.lean, TimeTree.lean |
| `src/PDFs/physics/ThreeGaussResolutionSplice.cu` | ExtRes.lean, SpliceRes.lean, TimeTree.lean |
| `src/PDFs/physics/TruthResolution.cu` | Mixing.lean, TimeDalitz.lean, TimeDalitz3.lean, TimeTree.lean |
| `src/PDFs/physics/detail/AmpCalc.cu` | Amp4Body.lean |
| `src/PDFs/physics/detail/AmpCalc_TD.cu` | AmpListing.lean, TimeFourBody.lean |
| `src/PDFs/physics/detail/LSCalculator.cu` | Component4.lean, FourBody.lean |
| `src/PDFs/physics/detail/LSCalculator_TD.cu` | Component4.lean, TimeComponent4.lean |
| `src/PDFs/physics/detail/NormEvents_4Body_Base.cu` | NormEvents4.lean, TimeFourBody.lean |
| `src/PDFs/physics/detail/NormEvents_4Body_DeviceCached.cu` | NormEvents4.lean, TimeFourBody.lean |
| `src/PDFs/physics/detail/NormEvents_4Body_HostCached.cu` | NormEvents4.lean, TimeFourBody.lean |
| `src/PDFs/physics/detail/NormEvents_4Body_Weighted.cu` | TimeFourBody.lean |
| `src/PDFs/physics/detail/NormEvents_4Body_WeightedDevice.cu` | TimeFourBody.lean |
| `src/PDFs/physics/detail/NormIntegrator.cu` | Amp4Body.lean |
| `src/PDFs/physics/detail/NormIntegrator_TD.cu` | TimeFourBody.lean |
| `src/PDFs/physics/detail/NormIntegrator_TD_Weighted.cu` | TimeFourBody.lean |
| `src/PDFs/physics/detail/NormLSCalculator.cu` | Component4.lean, FourBody.lean |
| `src/PDFs/physics/detail/NormLSCalculator_TD.cu` | Component4.lean, TimeComponent4.lean |
| `src/PDFs/physics/detail/NormSpinCalculator.cu` | Component4.lean |
| `src/PDFs/physics/detail/NormSpinCalculator_TD.cu` | Component4.lean, TimeComponent4.lean |
| `src/PDFs/physics/detail/SFCalculator.cu` | Component4.lean |
| `src/PDFs/physics/detail/SFCalculator_TD.cu` | Component4.lean, TimeComponent4.lean |
| `src/PDFs/physics/detail/SpecialDalitzIntegrator.cu` | TimeDalitz.lean, TimeDalitz3.lean |
| `src/PDFs/physics/detail/SpecialIncoherentIntegrator.cu` | Incoherent.lean |
| `src/PDFs/physics/detail/SpecialIncoherentResonanceCalculator.cu` | Incoherent.lean |
| `src/PDFs/physics/detail/SpecialResonanceCalculator.cu` | Amp3Body.lean, Dalitz3.lean |
| `src/PDFs/physics/detail/SpecialResonanceIntegrator.cu` | Amp3Body.lean, Dalitz3.lean |
| `src/PDFs/physics/detail/SpecialWaveCalculator.cu` | TimeDalitz.lean, TimeDalitz3.lean |
| `src/PDFs/physics/kMatrixUtils.cu` | KMatrix.lean |
| `src/PDFs/physics/lineshapes/BW.cu` | Component4.lean, Lineshape4.lean |
| `src/PDFs/physics/lineshapes/Bugg.cu` | Component4.lean, Lineshape4.lean |
| `src/PDFs/physics/lineshapes/Common.cu` | Lineshape4.lean |
| `src/PDFs/physics/lineshapes/Common.h` | KMatrix.lean, Lineshape4.lean |
| `src/PDFs/physics/lineshapes/FOCUS.cu` | Component4.lean, Lineshape4.lean |
| `src/PDFs/physics/lineshapes/Flatte.cu` | Component4.lean, Lineshape4.lean |
| `src/PDFs/physics/lineshapes/GLASS.cu` | Component4.lean, Lineshape4.lean |
| `src/PDFs/physics/lineshapes/GSpline.cu` | Component4.lean, GSpline.lean |
| `src/PDFs/physics/lineshapes/Lineshape.cu` | Component4.lean |
| `src/PDFs/physics/lineshapes/NonRes.cu` | Component4.lean, Dalitz3.lean, Lineshape4.lean, Resonance.lean |
| `src/PDFs/physics/lineshapes/One.cu` | Component4.lean, Lineshape4.lean |
| `src/PDFs/physics/lineshapes/kMatrix.cu` | Component4.lean, Dalitz3.lean, KMatrix.lean |
| `src/PDFs/physics/resonances/FLATTE.cu` | Dalitz3.lean, Resonance.lean |
| `src/PDFs/physics/resonances/GS.cu` | Dalitz3.lean, Resonance.lean |
| `src/PDFs/physics/resonances/Gauss.cu` | Dalitz3.lean, Resonance.lean |
| `src/PDFs/physics/resonances/LASS.cu` | Dalitz3.lean, Resonance.lean |
| `src/PDFs/physics/resonances/NonRes.cu` | Component4.lean, Dalitz3.lean, Lineshape4.lean, Resonance.lean |
| `src/PDFs/physics/resonances/RBW.cu` | Dalitz3.lean, Resonance.lean |
| `src/PDFs/physics/resonances/Resonance.cu` | Resonance.lean |
| `src/PDFs/physics/resonances/RhoOmegaMix.cu` | Dalitz3.lean, Resonance.lean |
| `src/PDFs/physics/resonances/Spline.cu` | Dalitz3.lean, SplineRes.lean |
| `src/PDFs/physics/resonances/kMatrix.cu` | Component4.lean, Dalitz3.lean, KMatrix.lean |
| `src/PDFs/utilities/DebugTools.cu` | AmpListing.lean |
| `src/PDFs/utilities/VariableBinTransform1DPdf.cu` | Basic.lean, BasicCtor.lean |
| `src/goofit/Application.cpp` | Application.lean |
| `src/goofit/BinnedDataSet.cpp` | Binned.lean, BinnedFit.lean, PyBindings.lean |
| `src/goofit/DataSet.cpp` | DataSet.lean, Values.lean |
| `src/goofit/FCN.cpp` | ConvFit.lean, Fit3.lean, Fit4.lean, FitManager.lean, Likelihood.lean, Minuit.lean, Mix3.lean, TimeDalitz3.lean, Wrapped3.lean |
| `src/goofit/Faddeeva.cpp` | Faddeeva.lean |
| `src/goofit/FitManagerMinuit1.cpp` | FitManager.lean, FitManager1.lean |
| `src/goofit/FitManagerMinuit2.cpp` | FitManager.lean |
| `src/goofit/FunctorWriter.cpp` | FunctorWriter.lean |
| `src/goofit/MathUtils.cpp` | MathUtils.lean |
| `src/goofit/Params.cpp` | FitManager.lean, Likelihood.lean, Minuit.lean, Variable.lean |
| `src/goofit/PdfBase.cpp` | BasicCtor.lean, Cache.lean, Component4.lean, ConvFit.lean, Dalitz3.lean, Fit3.lean, Fit4.lean, Likelihood.lean, Lookup.lean, Norm.lean, OfferedIntegrals.lean, PyBindings.lean, Python.lean, TimeDalitz3.lean, Toy.lean, TreeHost.lean, Values.lean, Wrapped3.lean |
| `src/goofit/UnbinnedDataSet.cpp` | DataSet.lean, Grid.lean, Numpy.lean, PyBindings.lean, Values.lean |
| `src/goofit/Variable.cpp` | Component4.lean, Minuit.lean, Numpy.lean, PyBind.lean, PyBindings.lean |

Files no definition cites (not modelled):

* `include/goofit/`: Application.h, Color.h, Eigen.h, Error.h, Faddeeva.h, FitManager.h, FunctorWriter.h, MathUtils.h, Version.h.in, VersionGit.h.in
* `include/goofit/PDFs/`: CombinePdf.h, ComplexComponent.h, Component.h, MetricTaker.h, SimplePdf.h
* `include/goofit/PDFs/basic/`: BWPdf.h, BifurGaussPdf.h, BinTransformPdf.h, CorrGaussianPdf.h, CrystalBallPdf.h, ExpGausPdf.h, InterHistPdf.h, LandauPdf.h, NovosibirskPdf.h, PolynomialPdf.h, TrigThresholdPdf.h, VoigtianPdf.h
* `include/goofit/PDFs/combine/`: AddPdf.h, CompositePdf.h, EventWeightedAddPdf.h, MappedPdf.h, ProdPdf.h
* `include/goofit/PDFs/physics/`: Amp3BodyBase.h, Amp3Body_IS.h, Amp4BodyBase.h, AmpComponent.h, AmpNBodyBase.h, DP4Pdf.h, DalitzPlotPdf.h, IncoherentSumPdf.h, Lineshapes.h, ResonancePdf.h, SquareDalitzEffPdf.h, Tddp4Pdf.h, TddpPdf.h, ThreeGaussResolution.h, ThreeGaussResolutionExt.h, ThreeGaussResolutionSplice.h, ThreeGaussResolution_Aux.h, TruthResolution.h, TruthResolution_Aux.h
* `include/goofit/PDFs/physics/detail/`: AmpCalc.h, AmpCalc_TD.h, EvalVar.h, FourDblTupleAdd.h, LSCalculator.h, LSCalculator_TD.h, NormEvents_4Body_DeviceCached.h, NormEvents_4Body_HostCached.h, NormEvents_4Body_Weighted.h, NormEvents_4Body_WeightedDevice.h, NormIntegrator.h, NormIntegrator_TD.h, NormIntegrator_TD_Weighted.h, NormLSCalculator.h, NormLSCalculator_TD.h, NormSpinCalculator.h, NormSpinCalculator_TD.h, SFCalculator.h, SFCalculator_TD.h, SpecialComplexSum.h, SpecialDalitzIntegrator.h, SpecialIncoherentIntegrator.h, SpecialIncoherentResonanceCalculator.h, SpecialResonanceCalculator.h, SpecialResonanceIntegrator.h, SpecialWaveCalculator.h
* `include/goofit/PDFs/physics/lineshapes/`: Bugg.h, Bugg3.h, Flatte.h, GLASS.h, GSpline.h, LASS.h, NonRes.h, One.h, RBW.h, SBW.h, kMatrix.h
* `include/goofit/PDFs/physics/resonances/`: FLATTE.h, GS.h, Gauss.h, LASS.h, NonRes.h, RBW.h, RhoOmegaMix.h, Spline.h, kMatrix.h
* `include/goofit/PDFs/utilities/`: VariableBinTransform1DPdf.h
* `include/goofit/cpp/`: landau.h
* `include/goofit/detail/`: Abort.h, Backtrace.h.in, CpuFeatures.h, SmartVector.h, ThrustForwardCompat.h, ThrustOverride.h, ThrustOverrideConfig.h.in, fenv.h
* `include/goofit/utilities/`: DebugTools.h, Style.h
* `python/`: goofit.cpp
* `python/Minuit2/`: FCNBase.cpp, FunctionMinimum.cpp, MinuitParameter.cpp, MnApplication.cpp, MnPrint.cpp, MnScan.cpp, MnUserCovariance.cpp, MnUserParameterState.cpp, MnUserParameters.cpp, main.cpp, setup.py
* `python/PDFs/`: CombinePdf.cpp
* `python/PDFs/physics/`: Amp3BodyBase.cpp, Amp4BodyBase.cpp, AmpNBodyBase.cpp, DalitzVetoPdf.cpp, TruthResolution.cpp
* `python/examples/`: DP4.py, SigGen.py, TDDP4.py, addition.py, chisquare.py, convolution.py, dalitz.py, exponential.py, generate_sig_example.py, plot_2d.py, product.py, quad1f.py, simpleFit.py, zachFit.py
* `python/goofit/`: FitControl.cpp, HelpPrinter.cpp, Version.cpp
* `python/include/goofit/`: Python.h
* `python/tests/`: test_comb_conv.py, test_exp.py, test_min_conv.py
* `src/PDFs/physics/`: MixingTimeResolution.cu
* `src/PDFs/physics/detail/`: FourDblTupleAdd.cu
* `src/goofit/`: Abort.cpp

Not modelled anywhere: floating-point rounding (unless a theorem is generic in the number type),
the GPU memory model and thread scheduling beyond "a reduction adds the terms in some order and
grouping", MPI transport, Minuit's minimiser itself (its calls of the FCN are an arbitrary
sequence), ROOT, Eigen, MCBooster (taken to generate arbitrary points), the file system, and the
sources of pybind11 (its dispatcher and casters are modelled from their documented behaviour in C107).

A citation says that at least one function of the file is modelled; the comments of the
definitions say which lines. A header is listed under the model that cites it or its
implementation.

## 6. Axioms of each theorem in the manifest

Output of `#print axioms`, grouped.

* no axioms (3): `C32_violation_cpu_growth`, `C39_restored`, `C64_violation_default_arguments`

* `propext` (18): `C06_wrong_rows`, `C06_violation_filtered_event_number`, `C20_binned_matches_partial`, `C20_unbinned_matches_partial`, `C21_schedule`, `C22_violation_float`, `C30_reset_forces`, `C32_violation_cleared`, `C34_violation_missing_list`, `C39_fit`, `C70_violation_constants`, `C70_violation_radius`, `C70_violation_mother_radius`, `C70_violation_seventeenth`, `C75_minuit1_partial`, `C75_violation_minuit1_settings`, `C85_violation_missing_row`, `C96_violation_nodes`

* `Quot.sound`, `propext` (47): `C02_violation_three_arg_is_constant`, `C04_binned_rejected_event_no_effect`, `C09_add_event_weight_one`, `C17_getObservables`, `C17_getParameters_partial`, `C17_violation_repeated_parameter`, `C18_gathering_covers`, `C19_only_control_changes_partial`, `C19_harmless_queries_partial`, `C22_binned_loop`, `C24_violation_only_first_slot`, `C24_violation_position_ten`, `C27_extended_term`, `C29_declared`, `C30_reset`, `C31_register_others`, `C31_violation_register_others`, `C32_cpu`, `C34_list_round_trip`, `C34_violation_last_number`, `C35_exact`, `C36_never_negative`, `C36_values`, `C39_fill_partial`, `C41_real`, `C41_efficiency_partial`, `C41_violation_efficiency`, `C66_norm_strengths`, `C66_density_partial`, `C70_constants_partial`, `C70_index_partial`, `C70_violation_overflow`, `C75_status`, `C75_declaration_frozen`, `C75_minos_switch`, `C75_same_point`, `C75_minuit1_declared`, `C75_minuit1_results`, `C75_minuit1_point_partial`, `C84_kept`, `C85_too_many_rows`, `C89_violation_entries`, `C95_lookup`, `C95_constantness`, `C95_constantness_others`, `C95_violation_unregister_twice`, `C96_no_device`

* `Classical.choice`, `Quot.sound`, `propext` (593): `C01_handles_are_names`, `C01_write_visible_iff_equal`, `C02_constructors_partial`, `C02_fields_partial`, `C02_violation_two_arg_out_of_range`, `C03_unbinned_is_event_list`, `C04_unbinned_rejected_event_no_effect`, `C05_stored_values_were_in_limits`, `C05_from_matrix_in_limits`, `C05_grid_in_limits`, `C06_from_matrix`, `C06_round_trip`, `C06_event_number_partial`, `C07_grid`, `C07_grid_is_bin_centers`, `C08_local_global_inverse_partial`, `C08_violation_wraps`, `C08_violation_negative_size`, `C09_event_lands_in_its_cell_partial`, `C09_violation_upper_limit_1d`, `C09_violation_upper_limit_2d`, `C09_add_event_values`, `C10_contents_sum`, `C10_weighted_count_partial`, `C10_violation_weighted_count`, `C11_bin_errors_exact`, `C11_bin_errors_partial`, `C11_violation_first_set_zeroes_others`, `C12_cells_tile`, `C12_bin_center`, `C12_volume`, `C13_tree_value`, `C13_component_value`, `C14_metric_applied`, `C15_protocol_partial`, `C15_wellformed_partial`, `C15_violation_cursor_unmoved`, `C15_violation_interhist_constant`, `C15_violation_duplicate_observable`, `C16_update_equals_reflatten_partial`, `C16_update_evaluates_partial`, `C16_violation_shared_component`, `C18_own_observable`, `C18_violation_convolution`, `C19_violation_getValue`, `C19_violation_binned_error`, `C20_addressing_partial`, `C20_violation_unbinned_after_binned`, `C20_violation_evaluate_binned`, `C20_violation_null_data`, `C21_event_order`, `C21_ranks_equal_serial`, `C22_partition`, `C22_event_numbers`, `C22_float_exact`, `C22_binned_partition`, `C23_metric_formula_partial`, `C23_tree_metric`, `C23_violation_total_events`, `C23_violation_error_column`, `C23_objective_partial`, `C24_one_observable_partial`, `C24_violation_two_observables`, `C24_violation_wrong_coordinate`, `C25_fractions`, `C25_extended`, `C25_nested_partial`, `C25_common_partial`, `C25_violation_nested_common`, `C25_violation_sum_in_product`, `C26_independent`, `C26_detection_partial`, `C26_overlapping`, `C26_violation_not_adjacent`, `C27_which_are_extended`, `C28_branch_partial`, `C28_violation_negative`, `C28_violation_too_large`, `C28_violation_other_pdf`, `C28_nearest`, `C29_accepts`, `C29_pushed`, `C29_short_vector`, `C29_pdf_sees_partial`, `C29_read_back`, `C29_changed_exact`, `C29_repeated_calls`, `C29_round_trip_partial`, `C29_violation_drift`, `C29_changed_partial`, `C29_violation_changed`, `C29_violation_repeated_variable`, `C29_violation_two_managers`, `C30_convolution_partial`, `C30_amplitude_partial`, `C30_fcn_here`, `C30_violation_nested`, `C30_violation_after_fit`, `C30_violation_set_value`, `C30_violation_blinded`, `C30_violation_two_pdfs`, `C30_violation_efficiency`, `C30_violation_new_data`, `C31_in_bounds_iff`, `C31_value_partial`, `C31_shared_partial`, `C31_violation_shared_constants`, `C31_violation_unaligned`, `C31_violation_unaligned_integration`, `C31_violation_negative_upper`, `C31_violation_mirrored`, `C32_device_equals_host_partial`, `C32_identical_partial`, `C33_toy_partial`, `C33_violation_zero_draw`, `C33_violation_other_observable`, `C33_shares`, `C34_round_trip_partial`, `C34_terminates_partial`, `C34_violation_missing_file`, `C34_violation_long_line`, `C34_violation_not_a_number`, `C34_violation_blank_in_name`, `C35_rounded`, `C36_sum`, `C36_scale_partial`, `C36_violation_negative_scale`, `C36_product_partial`, `C36_violation_negative_values`, `C36_violation_product`, `C36_violation_mixed_signs`, `C37_polynomial`, `C37_expPoly`, `C37_bernstein`, `C37_bernstein_unity`, `C37_exponents`, `C37_multiPolynomial`, `C37_expPolyOffset_partial`, `C37_violation_expPolyOffset`, `C37_offsetPolynomial_partial`, `C37_violation_offsetPolynomial`, `C38_declared`, `C38_exp`, `C38_step_partial`, `C38_violation_step`, `C38_violation_expPoly`, `C38_gaussian_partial`, `C38_violation_gaussian`, `C38_johnsonSU_partial`, `C38_violation_johnsonSU`, `C38_unit`, `C39_evaluate_partial`, `C39_plotter_partial`, `C39_evaluate_pdf_partial`, `C39_violation_evaluate`, `C40_reads_cell`, `C40_smoothing`, `C40_own_histogram_partial`, `C40_violation_late_copy`, `C40_violation_second_copy`, `C40_violation_upper_limit`, `C41_normalize_partial`, `C41_nonneg`, `C41_unit_partial`, `C41_fit_fractions`, `C41_fit_fractions_sum`, `C41_violation_bins`, `C42_amplitude_cursor_partial`, `C42_violation_composite_efficiency`, `C43_gaussian`, `C43_bw`, `C43_bifurGauss`, `C43_argus_upper`, `C43_argus_lower`, `C43_corrGaussian`, `C43_crystalBall`, `C43_exp`, `C43_expOffset`, `C43_johnsonSU`, `C43_novosibirsk`, `C43_novosibirsk_small`, `C43_scaledGaussian`, `C43_violation_scaledGaussian_sign`, `C43_step`, `C43_trigThreshold`, `C43_trigThreshold2`, `C43_landau_partial`, `C43_kinLimitBW`, `C43_squareDalitz`, `C43_expGaus_partial`, `C43_violation_voigtian_swapped`, `C43_voigtian_partial`, `C44_veto`, `C44_order`, `C45_binTransform`, `C45_distinct`, `C45_onto`, `C45_varBin`, `C46_shared_value_partial`, `C46_violation_shared_value`, `C46_violation_shared_metric`, `C47_own_data_partial`, `C47_alternating_partial`, `C47_value_partial`, `C47_violation_construct`, `C47_violation_set_data`, `C47_violation_copy_params`, `C47_violation_renumbered`, `C47_violation_component`, `C48_dalitz_region`, `C48_bounds`, `C49_values_partial`, `C49_new_data_partial`, `C49_no_overflow`, `C49_violation_overflow`, `C49_violation_stale`, `C50_normalization_partial`, `C50_consistent_partial`, `C50_violation_generate`, `C50_violation_efficiency`, `C51_decay`, `C51_pair_masses`, `C51_round_trip`, `C52_masses_of_named_systems`, `C53_frame`, `C53_mirror`, `C54_tensor_amplitude_partial`, `C54_tensor_decay_partial`, `C54_violation_tensor_decay`, `C54_exchange_last_pair`, `C54_exchange_first_pair`, `C54_exchange_vectors`, `C54_form_factor`, `C55_lu_inverse`, `C55_cofactor_inverse`, `C55_open_channels`, `C55_phase_space`, `C55_parameters`, `C55_amplitude`, `C55_amplitude_open`, `C55_violation_pivot`, `C55_violation_amplitude`, `C56_interpolates`, `C56_outside`, `C56_continuous`, `C56_smooth_partial`, `C56_symmetric`, `C56_violation_stale`, `C56_violation_shared`, `C56_violation_last_knot`, `C56_violation_line`, `C57_angular`, `C57_momentum`, `C57_form_factor`, `C57_violation_form_factor`, `C57_rbw_partial`, `C57_rbw_unnormalised_partial`, `C57_violation_mother_momentum`, `C57_pole`, `C57_relabel`, `C57_exchange_partial`, `C57_violation_exchange`, `C57_gauss`, `C57_nonres`, `C58_derivative`, `C58_gs_partial`, `C58_amplitude_partial`, `C58_violation_width`, `C58_violation_pair`, `C58_violation_symmetric`, `C59_background_partial`, `C59_amplitude_partial`, `C59_relabel_partial`, `C59_violation_unitarity`, `C59_violation_daughters`, `C60_flatte`, `C60_symmetric`, `C61_mixing_partial`, `C61_violation_angular`, `C62_rate`, `C62_nonneg`, `C62_norm`, `C62_average_time`, `C63_gaussian_partial`, `C63_error_bound`, `C63_resolution_partial`, `C63_norm_partial`, `C63_violation_norm`, `C63_violation_negative`, `C64_value_partial`, `C64_outside`, `C64_nonneg`, `C64_coherent`, `C64_grid`, `C64_norm_partial`, `C64_violation_mistag`, `C64_violation_event_mistag`, `C64_violation_md0`, `C64_observables`, `C64_mistag_limits`, `C65_integrals_partial`, `C65_integrals_no_fractions`, `C65_fractions_partial`, `C65_violation_asymmetric`, `C65_violation_fractions`, `C66_value_partial`, `C66_first_strength`, `C66_norm_exact`, `C66_norm_partial`, `C66_violation_amplitudes`, `C66_violation_linear`, `C66_violation_norm`, `C66_violation_nested`, `C67_value_partial`, `C67_rate_partial`, `C67_violation_duplicate`, `C68_norm_partial`, `C68_plain`, `C68_violation_weights`, `C68_violation_generate`, `C68_violation_efficiency`, `C69_distribution`, `C69_density_partial`, `C69_envelope`, `C69_generate`, `C69_throws`, `C69_rate_partial`, `C69_violation_envelope`, `C70_caches_partial`, `C70_no_overflow`, `C70_violation_region`, `C70_violation_index`, `C70_limits`, `C71_rbw_partial`, `C71_sbw_partial`, `C71_pole`, `C71_unitarity`, `C71_norm_rbw`, `C71_norm_sbw`, `C71_nonres`, `C71_violation_spin`, `C72_spec_unitary`, `C72_lass_partial`, `C72_violation_lass`, `C72_glass`, `C72_glass_lass`, `C73_flatte_partial`, `C73_violation_ignored`, `C73_bugg`, `C73_bugg3_partial`, `C73_bugg_positive`, `C73_bugg_same`, `C73_violation_bugg`, `C74_kmatrix`, `C74_pole`, `C74_unitarity`, `C74_invertible`, `C74_invertible_elastic`, `C74_elastic`, `C74_violation_isospin`, `C74_violation_etap`, `C74_adler`, `C75_results`, `C75_respected`, `C75_minos_partial`, `C75_errors`, `C75_violation_chisq`, `C75_violation_minuit1`, `C75_violation_fixed_later`, `C75_violation_start`, `C75_violation_minos`, `C75_violation_minuit1_names`, `C76_before_partial`, `C76_after_partial`, `C76_resolution_partial`, `C76_norm`, `C76_norm_partial`, `C76_violation_after`, `C76_violation_norm`, `C77_moments`, `C77_layout`, `C77_resolution_partial`, `C77_norm_series_partial`, `C77_norm_partial`, `C77_total_partial`, `C77_violation_powers`, `C77_violation_norm`, `C77_violation_first_knot`, `C77_violation_last_piece`, `C77_violation_many_knots`, `C78_equal`, `C78_spin_equal`, `C78_function_partial`, `C78_line_shape_partial`, `C78_spin_factor`, `C78_depends`, `C78_shared`, `C78_spin_shared`, `C78_stored`, `C78_value_partial`, `C78_new_data_partial`, `C78_normalization_partial`, `C78_violation_ignored`, `C78_violation_radius`, `C79_evaluation_partial`, `C79_outside_partial`, `C79_line_shape_partial`, `C79_violation_out_of_range`, `C79_violation_width`, `C79_violation_values`, `C79_violation_curvature`, `C79_violation_uninitialised`, `C79_violation_jump`, `C80_value_partial`, `C80_rate_partial`, `C80_normalization_partial`, `C81_function_partial`, `C81_depends`, `C81_value_partial`, `C81_normalization_partial`, `C81_fractions_partial`, `C81_violation_many`, `C81_violation_efficiency`, `C81_violation_grid`, `C81_violation_number`, `C81_violation_data`, `C82_faddeeva_partial`, `C82_defined`, `C82_reflection`, `C82_cpuvoigtian_partial`, `C82_cpuvoigtian_throws`, `C82_voigtian_partial`, `C82_voigtian_symmetric`, `C82_voigt_pos`, `C82_violation_negative`, `C82_violation_cpu_limits`, `C83_agree`, `C83_sign`, `C83_scale`, `C83_seams`, `C83_langaus_partial`, `C83_langaus_units`, `C83_quantile_ends`, `C83_quantile_partial`, `C83_quantile_width`, `C83_quantile_density`, `C83_violation_langaus_scale`, `C83_violation_langaus_steps`, `C83_violation_quantile_decreasing`, `C83_violation_quantile_pole`, `C84_alive_partial`, `C84_holding`, `C84_violation_forgotten`, `C84_violation_list`, `C84_violation_decay`, `C84_violation_member`, `C85_from_numpy`, `C85_to_numpy`, `C85_round_trip`, `C85_copy`, `C85_bin_centers`, `C86_objective_partial`, `C86_every_call_partial`, `C86_signal_and_background_partial`, `C86_violation_shared_component`, `C86_analytic_integrals`, `C87_generated_partial`, `C87_decays_partial`, `C87_inside`, `C87_four_partial`, `C87_acceptance`, `C87_unweighted`, `C87_left_behind_partial`, `C87_violation_later`, `C87_violation_none`, `C87_violation_few`, `C88_momenta`, `C88_same_variables`, `C88_mirror`, `C88_intensity`, `C88_generated_partial`, `C89_when`, `C89_first_entry_partial`, `C89_violation_never`, `C90_value_partial`, `C90_points_partial`, `C90_plot_partial`, `C90_components_partial`, `C90_gathered`, `C90_violation_scan`, `C90_violation_no_data`, `C90_violation_observable_moved`, `C91_points`, `C91_histogram`, `C91_toys_partial`, `C91_amplitude_partial`, `C91_violation_z`, `C91_violation_outside`, `C91_violation_left_behind`, `C92_getCoefficient_partial`, `C92_curve_partial`, `C92_violation_getCoefficient`, `C93_likelihood_partial`, `C93_violation_zero`, `C93_parameters`, `C94_likelihood_partial`, `C94_time_likelihood_partial`, `C94_parameters`, `C94_time_parameters`, `C95_fixed_in_fit`, `C95_unregister_partial`, `C96_device_partial`, `C96_violation_device`, `C96_file`, `C97_value_partial`, `C97_normalization_partial`, `C97_parameters`, `C97_likelihood_partial`, `C97_violation_event_size`, `C97_violation_grid`, `C98_printed`, `C99_listing_partial`, `C99_violation_remainder`, `C99_violation_size`, `C100_likelihood_partial`, `C100_parameters`, `C100_violation_range_after_data`, `C100_violation_limits`, `C101_events`, `C101_time_partial`, `C101_representative`, `C101_plain_partial`, `C101_violation_flags`, `C102_columns`, `C102_data`, `C102_frame_partial`, `C102_violation_boost`, `C102_likelihood_partial`, `C102_time_likelihood_partial`, `C103_calls_partial`, `C103_likelihood_partial`, `C103_chisquare_partial`, `C103_fit_partial`, `C103_resonance_partial`, `C103_violation_empty_bins`, `C103_violation_analytic_integral`, `C104_likelihood_partial`, `C104_normalized`, `C104_parameters`, `C104_violation_size`, `C105_amplitude_cursor_partial`, `C105_violation_mass_outside`, `C105_violation_two_resolutions`, `C106_density`, `C106_time_likelihood_partial`, `C106_likelihood_partial`, `C106_parameters`, `C106_violation_weights`, `C106_violation_product`, `C107_call`, `C107_accepted_partial`, `C107_defaults_partial`, `C107_declared_partial`, `C107_violation_default`, `C107_violation_keyword`, `C107_violation_truth`, `C107_violation_degree`, `C108_three_partial`, `C108_four_partial`, `C108_time_partial`, `C108_time_raises`, `C108_plot`, `C108_plot_fewer`, `C108_violation_momentum`, `C109_crystal_partial`, `C109_crystal_symmetric_partial`, `C109_bifur_partial`, `C109_argus_partial`, `C109_polynomial_partial`, `C109_violation_crystal`, `C109_violation_bifur`, `C109_violation_argus_default`, `C109_violation_argus_upper`, `C109_violation_polynomial`, `C110_three_value_partial`, `C110_ext_value_partial`, `C110_three_norm_partial`, `C110_ext_norm_partial`, `C110_violation_mixing`, `C111_value`, `C111_norm`, `C111_amplitude`, `C111_amplitude_norm`
