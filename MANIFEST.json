{
 "claims": [
  {
   "property": "C01",
   "status": "proved",
   "theorems": [
    "GooFit.C01_handles_are_names",
    "GooFit.C01_write_visible_iff_equal"
   ],
   "note": "All histories of construct/copy/set."
  },
  {
   "property": "C02",
   "status": "partial",
   "theorems": [
    "GooFit.C02_constructors_partial",
    "GooFit.C02_fields_partial",
    "GooFit.C02_violation_three_arg_is_constant",
    "GooFit.C02_violation_two_arg_out_of_range"
   ],
   "note": "The code violates the property for the 2- and 3-argument constructors (witnesses proved); the remaining constructors and attributes are proved."
  },
  {
   "property": "C03",
   "status": "proved",
   "theorems": [
    "GooFit.C03_unbinned_is_event_list"
   ],
   "note": "Refinement to a list of events for every program of calls, number type without laws."
  },
  {
   "property": "C04",
   "status": "proved",
   "theorems": [
    "GooFit.C04_unbinned_rejected_event_no_effect",
    "GooFit.C04_binned_rejected_event_no_effect"
   ],
   "note": "Unbinned: every reachable state; binned: every state."
  },
  {
   "property": "C05",
   "status": "proved",
   "theorems": [
    "GooFit.C05_stored_values_were_in_limits",
    "GooFit.C05_from_matrix_in_limits",
    "GooFit.C05_grid_in_limits"
   ],
   "note": "setValueForAllEvents is excluded: it writes without checking and is not an insertion."
  },
  {
   "property": "C06",
   "status": "partial",
   "theorems": [
    "GooFit.C06_from_matrix",
    "GooFit.C06_wrong_rows",
    "GooFit.C06_round_trip",
    "GooFit.C06_event_number_partial",
    "GooFit.C06_violation_filtered_event_number"
   ],
   "note": "Everything but the event number under filtering, where the code violates the property (witness)."
  },
  {
   "property": "C07",
   "status": "proved",
   "theorems": [
    "GooFit.C07_grid",
    "GooFit.C07_grid_is_bin_centers"
   ],
   "note": "Exact arithmetic."
  },
  {
   "property": "C08",
   "status": "partial",
   "theorems": [
    "GooFit.C08_local_global_inverse_partial",
    "GooFit.C08_violation_wraps",
    "GooFit.C08_violation_negative_size"
   ],
   "note": "Proved for binnings whose number of cells is below 2^31; beyond that the code violates it (witnesses)."
  },
  {
   "property": "C09",
   "status": "partial",
   "theorems": [
    "GooFit.C09_event_lands_in_its_cell_partial",
    "GooFit.C09_add_event_weight_one",
    "GooFit.C09_violation_upper_limit_1d",
    "GooFit.C09_violation_upper_limit_2d",
    "GooFit.C09_add_event_values"
   ],
   "note": "Proved for values in [lower, upper); at the upper limit the code violates it (witnesses)."
  },
  {
   "property": "C10",
   "status": "partial",
   "theorems": [
    "GooFit.C10_contents_sum",
    "GooFit.C10_weighted_count_partial",
    "GooFit.C10_violation_weighted_count"
   ],
   "note": "Sum and count proved; getNumWeightedEvents truncates to int (witness), proved for integer contents."
  },
  {
   "property": "C11",
   "status": "partial",
   "theorems": [
    "GooFit.C11_bin_errors_exact",
    "GooFit.C11_bin_errors_partial",
    "GooFit.C11_violation_first_set_zeroes_others"
   ],
   "note": "Exact behaviour proved for all histories; it contradicts the property for bins never set (witness)."
  },
  {
   "property": "C12",
   "status": "proved",
   "theorems": [
    "GooFit.C12_cells_tile",
    "GooFit.C12_bin_center",
    "GooFit.C12_volume"
   ],
   "note": "Exact arithmetic."
  },
  {
   "property": "C13",
   "status": "proved",
   "theorems": [
    "GooFit.C13_tree_value",
    "GooFit.C13_component_value"
   ],
   "note": "Refinement from flattened arrays and cursor to the recursive definition, arbitrary arithmetic. Basic PDFs enter through LeafOK (C15)."
  },
  {
   "property": "C14",
   "status": "proved",
   "theorems": [
    "GooFit.C14_metric_applied"
   ],
   "note": "Follows from the cursor part of the refinement."
  },
  {
   "property": "C15",
   "status": "partial",
   "theorems": [
    "GooFit.C15_protocol_partial",
    "GooFit.C15_wellformed_partial",
    "GooFit.C15_violation_cursor_unmoved",
    "GooFit.C15_violation_interhist_constant",
    "GooFit.C15_violation_duplicate_observable"
   ],
   "note": "All 31 other basic device functions, every list size, event and parameter value, arbitrary arithmetic. InterHistPdf and VariableBinTransform1DPdf never move the cursor; an observable passed twice is read past the end (violations)."
  },
  {
   "property": "C16",
   "status": "partial",
   "theorems": [
    "GooFit.C16_update_equals_reflatten_partial",
    "GooFit.C16_update_evaluates_partial",
    "GooFit.C16_violation_shared_component"
   ],
   "note": "Holds when no PDF object occurs at two places of the tree; violated otherwise (witness)."
  },
  {
   "property": "C17",
   "status": "partial",
   "theorems": [
    "GooFit.C17_getObservables",
    "GooFit.C17_getParameters_partial",
    "GooFit.C17_violation_repeated_parameter"
   ],
   "note": "Observables fully; parameters listed twice when one PDF registers a variable twice (witness)."
  },
  {
   "property": "C18",
   "status": "partial",
   "theorems": [
    "GooFit.C18_own_observable",
    "GooFit.C18_gathering_covers",
    "GooFit.C18_violation_convolution"
   ],
   "note": "Holds for every top PDF whose observables cover the tree (all gathering constructors); a ConvolutionPdf at the top does not gather (witness)."
  },
  {
   "property": "C19",
   "status": "partial",
   "theorems": [
    "GooFit.C19_only_control_changes_partial",
    "GooFit.C19_harmless_queries_partial",
    "GooFit.C19_violation_getValue",
    "GooFit.C19_violation_binned_error"
   ],
   "note": "Queries keep data and event array, but getValue and evaluateAtPoints leave their own fit control installed (violations)."
  },
  {
   "property": "C20",
   "status": "partial",
   "theorems": [
    "GooFit.C20_addressing_partial",
    "GooFit.C20_binned_matches_partial",
    "GooFit.C20_unbinned_matches_partial",
    "GooFit.C20_violation_unbinned_after_binned",
    "GooFit.C20_violation_evaluate_binned",
    "GooFit.C20_violation_null_data"
   ],
   "note": "Holds whenever the installed fit control fits the kind of data; the code does not ensure that (violations)."
  },
  {
   "property": "C21",
   "status": "proved",
   "theorems": [
    "GooFit.C21_schedule",
    "GooFit.C21_event_order",
    "GooFit.C21_ranks_equal_serial"
   ],
   "note": "Exact arithmetic: any commutative monoid of values."
  },
  {
   "property": "C22",
   "status": "partial",
   "theorems": [
    "GooFit.C22_partition",
    "GooFit.C22_event_numbers",
    "GooFit.C22_float_exact",
    "GooFit.C22_violation_float",
    "GooFit.C22_binned_partition",
    "GooFit.C22_binned_loop"
   ],
   "note": "Partition proved for all sizes; event numbers count from 0 on ranks 1.. up to 2^24 events, beyond which single precision repeats them."
  },
  {
   "property": "C23",
   "status": "partial",
   "theorems": [
    "GooFit.C23_metric_formula_partial",
    "GooFit.C23_tree_metric",
    "GooFit.C23_violation_total_events",
    "GooFit.C23_violation_error_column",
    "GooFit.C23_objective_partial"
   ],
   "note": "Formulas hold except that the binned metrics use the number of bins as number of events, and BinnedErrorFit set after setData uses volumes as errors."
  },
  {
   "property": "C24",
   "status": "partial",
   "theorems": [
    "GooFit.C24_one_observable_partial",
    "GooFit.C24_violation_two_observables",
    "GooFit.C24_violation_only_first_slot",
    "GooFit.C24_violation_wrong_coordinate",
    "GooFit.C24_violation_position_ten"
   ],
   "note": "Proved for one observable at positions 0-9, end to end from the flattened tree; with several observables the grid operator fills only the first one's slot (violations)."
  },
  {
   "property": "C25",
   "status": "partial",
   "theorems": [
    "GooFit.C25_fractions",
    "GooFit.C25_extended",
    "GooFit.C25_nested_partial",
    "GooFit.C25_common_partial",
    "GooFit.C25_violation_nested_common",
    "GooFit.C25_violation_sum_in_product"
   ],
   "note": "Any linear integral, any nesting; common normalisation only over basic PDFs (violation for nested sums); sums inside overlapping products lose their components' normalisation (violation)."
  },
  {
   "property": "C26",
   "status": "partial",
   "theorems": [
    "GooFit.C26_independent",
    "GooFit.C26_detection_partial",
    "GooFit.C26_overlapping",
    "GooFit.C26_violation_not_adjacent"
   ],
   "note": "Any number of components and observables; overlap between non-neighbouring components is missed (violation)."
  },
  {
   "property": "C27",
   "status": "proved",
   "theorems": [
    "GooFit.C27_extended_term",
    "GooFit.C27_which_are_extended"
   ],
   "note": "All histories of calls."
  },
  {
   "property": "C28",
   "status": "partial",
   "theorems": [
    "GooFit.C28_branch_partial",
    "GooFit.C28_violation_negative",
    "GooFit.C28_violation_too_large",
    "GooFit.C28_violation_other_pdf",
    "GooFit.C28_nearest"
   ],
   "note": "In-range map values select the right branch; out-of-range values are evaluated silently (witnesses)."
  },
  {
   "property": "C29",
   "status": "partial",
   "theorems": [
    "GooFit.C29_accepts",
    "GooFit.C29_declared",
    "GooFit.C29_pushed",
    "GooFit.C29_short_vector",
    "GooFit.C29_pdf_sees_partial",
    "GooFit.C29_read_back",
    "GooFit.C29_changed_exact",
    "GooFit.C29_repeated_calls",
    "GooFit.C29_round_trip_partial",
    "GooFit.C29_violation_drift",
    "GooFit.C29_changed_partial",
    "GooFit.C29_violation_changed",
    "GooFit.C29_violation_repeated_variable",
    "GooFit.C29_violation_two_managers"
   ],
   "note": "Every history of one fit manager; pushing is right. With blinding, evaluating the FCN without arguments drifts by the offset at every call and the changed flag is wrong; a second manager over shared variables breaks the first; a variable used twice in one PDF cannot be fitted (violations)."
  },
  {
   "property": "C30",
   "status": "partial",
   "theorems": [
    "GooFit.C30_convolution_partial",
    "GooFit.C30_amplitude_partial",
    "GooFit.C30_reset",
    "GooFit.C30_reset_forces",
    "GooFit.C30_fcn_here",
    "GooFit.C30_violation_nested",
    "GooFit.C30_violation_after_fit",
    "GooFit.C30_violation_set_value",
    "GooFit.C30_violation_blinded",
    "GooFit.C30_violation_two_pdfs",
    "GooFit.C30_violation_efficiency",
    "GooFit.C30_violation_new_data"
   ],
   "note": "Every history of a fit for convolutions of simple PDFs and amplitudes of simple resonances; after a reset, or the FCN without arguments, every history whatsoever. Parameters of components or of the efficiency, blinded parameters, values set or read back outside the FCN and shared variables go unnoticed (violations)."
  },
  {
   "property": "C31",
   "status": "partial",
   "theorems": [
    "GooFit.C31_in_bounds_iff",
    "GooFit.C31_value_partial",
    "GooFit.C31_shared_partial",
    "GooFit.C31_violation_shared_constants",
    "GooFit.C31_register_others",
    "GooFit.C31_violation_register_others",
    "GooFit.C31_violation_unaligned",
    "GooFit.C31_violation_unaligned_integration",
    "GooFit.C31_violation_negative_upper",
    "GooFit.C31_violation_mirrored"
   ],
   "note": "Exact condition for every read to be in bounds, for every setup in exact arithmetic; value is the Riemann sum when limits are multiples of the step. Otherwise reads go out of bounds, the resolution is used mirrored, and the cooperative version reads and writes past its constants (violations)."
  },
  {
   "property": "C32",
   "status": "partial",
   "theorems": [
    "GooFit.C32_device_equals_host_partial",
    "GooFit.C32_identical_partial",
    "GooFit.C32_cpu",
    "GooFit.C32_violation_cleared",
    "GooFit.C32_violation_cpu_growth"
   ],
   "note": "Every history of the GPU and the CPU version. After clear_device, which the destructor of every PDF triggers, smart_sync leaves a dangling device pointer or writes out of bounds (violations)."
  },
  {
   "property": "C33",
   "status": "partial",
   "theorems": [
    "GooFit.C33_toy_partial",
    "GooFit.C33_violation_zero_draw",
    "GooFit.C33_violation_other_observable",
    "GooFit.C33_shares"
   ],
   "note": "Every stream of random numbers, every PDF of one observable and every dataset whose other observables are in range, in exact arithmetic; a draw of exactly zero selects the first bin whatever its probability, and another observable out of range makes the call throw half way (violations)."
  },
  {
   "property": "C34",
   "status": "partial",
   "theorems": [
    "GooFit.C34_round_trip_partial",
    "GooFit.C34_terminates_partial",
    "GooFit.C34_list_round_trip",
    "GooFit.C34_violation_missing_file",
    "GooFit.C34_violation_long_line",
    "GooFit.C34_violation_not_a_number",
    "GooFit.C34_violation_blank_in_name",
    "GooFit.C34_violation_last_number",
    "GooFit.C34_violation_missing_list"
   ],
   "note": "Round trip for every set of parameters, file and receiving PDF, and termination for every existing file without lines of 1000 characters, with printing and parsing of one number as parameters. Missing files, long lines, unreadable numbers, names with blanks and list files without trailing white space violate it."
  },
  {
   "property": "C35",
   "status": "proved",
   "theorems": [
    "GooFit.C35_exact",
    "GooFit.C35_rounded"
   ],
   "note": "Exact arithmetic in any ordered field; and in binary floating point of any precision with unbounded exponent, error bound of second order in the unit roundoff for every length."
  },
  {
   "property": "C36",
   "status": "partial",
   "theorems": [
    "GooFit.C36_never_negative",
    "GooFit.C36_values",
    "GooFit.C36_sum",
    "GooFit.C36_scale_partial",
    "GooFit.C36_violation_negative_scale",
    "GooFit.C36_product_partial",
    "GooFit.C36_violation_negative_values",
    "GooFit.C36_violation_product",
    "GooFit.C36_violation_mixed_signs"
   ],
   "note": "Values and sums proved; products and quotients store the relative uncertainty as the absolute one, and negative factors or values throw (violations)."
  },
  {
   "property": "C37",
   "status": "partial",
   "theorems": [
    "GooFit.C37_polynomial",
    "GooFit.C37_expPoly",
    "GooFit.C37_bernstein",
    "GooFit.C37_bernstein_unity",
    "GooFit.C37_exponents",
    "GooFit.C37_multiPolynomial",
    "GooFit.C37_expPolyOffset_partial",
    "GooFit.C37_violation_expPolyOffset",
    "GooFit.C37_offsetPolynomial_partial",
    "GooFit.C37_violation_offsetPolynomial"
   ],
   "note": "One-dimensional, exponential, Bernstein and multivariate polynomials proved for every degree and dimension over the reals; the two forms with an offset are violated (ExpPdf shifts every power by one, PolynomialPdf drops two coefficients and treats the centre as a coefficient)."
  },
  {
   "property": "C38",
   "status": "partial",
   "theorems": [
    "GooFit.C38_declared",
    "GooFit.C38_exp",
    "GooFit.C38_step_partial",
    "GooFit.C38_violation_step",
    "GooFit.C38_violation_expPoly",
    "GooFit.C38_gaussian_partial",
    "GooFit.C38_violation_gaussian",
    "GooFit.C38_johnsonSU_partial",
    "GooFit.C38_violation_johnsonSU",
    "GooFit.C38_unit"
   ],
   "note": "Lebesgue integral over the reals. ExpPdf with one slope: every range. StepPdf: when the step is inside the range (violated outside). Gaussian and JohnsonSU return the whole-line integral whatever the range (violations on finite ranges); ExpPdf built from a list of one coefficient integrates another function (violation)."
  },
  {
   "property": "C39",
   "status": "partial",
   "theorems": [
    "GooFit.C39_fit",
    "GooFit.C39_fill_partial",
    "GooFit.C39_evaluate_partial",
    "GooFit.C39_plotter_partial",
    "GooFit.C39_evaluate_pdf_partial",
    "GooFit.C39_restored",
    "GooFit.C39_violation_evaluate"
   ],
   "note": "Every crash point. fitTo is safe everywhere; evaluateAtPoints, getValue, fillMCDataSimple, the Dalitz plotter and Python's evaluatePdf leave a dangling dataset exactly for the crash points listed (violation)."
  },
  {
   "property": "C40",
   "status": "partial",
   "theorems": [
    "GooFit.C40_reads_cell",
    "GooFit.C40_smoothing",
    "GooFit.C40_own_histogram_partial",
    "GooFit.C40_violation_late_copy",
    "GooFit.C40_violation_second_copy",
    "GooFit.C40_violation_upper_limit"
   ],
   "note": "Every history that fills each histogram PDF at or right after its creation, any dimension, over the reals. Late or repeated filling goes to another row of the table, and events at the upper limit read past the end (violations)."
  },
  {
   "property": "C41",
   "status": "partial",
   "theorems": [
    "GooFit.C41_normalize_partial",
    "GooFit.C41_real",
    "GooFit.C41_nonneg",
    "GooFit.C41_unit_partial",
    "GooFit.C41_fit_fractions",
    "GooFit.C41_fit_fractions_sum",
    "GooFit.C41_violation_bins",
    "GooFit.C41_efficiency_partial",
    "GooFit.C41_violation_efficiency"
   ],
   "note": "Every number of resonances, coefficients, waves, efficiency and grid, in exact complex arithmetic; the normalisation needs equal numbers of bins in both masses (the kernel reads the wrong slot, violation) and a simple efficiency PDF (violation for composites)."
  },
  {
   "property": "C42",
   "status": "partial",
   "theorems": [
    "GooFit.C42_amplitude_cursor_partial",
    "GooFit.C42_violation_composite_efficiency"
   ],
   "note": "Holds inside the Dalitz region or for a single-PDF efficiency; violated otherwise (witness)."
  },
  {
   "property": "C43",
   "status": "partial",
   "theorems": [
    "GooFit.C43_gaussian",
    "GooFit.C43_bw",
    "GooFit.C43_bifurGauss",
    "GooFit.C43_argus_upper",
    "GooFit.C43_argus_lower",
    "GooFit.C43_corrGaussian",
    "GooFit.C43_crystalBall",
    "GooFit.C43_exp",
    "GooFit.C43_expOffset",
    "GooFit.C43_johnsonSU",
    "GooFit.C43_novosibirsk",
    "GooFit.C43_novosibirsk_small",
    "GooFit.C43_scaledGaussian",
    "GooFit.C43_violation_scaledGaussian_sign",
    "GooFit.C43_step",
    "GooFit.C43_trigThreshold",
    "GooFit.C43_trigThreshold2",
    "GooFit.C43_landau_partial",
    "GooFit.C43_kinLimitBW",
    "GooFit.C43_squareDalitz",
    "GooFit.C43_expGaus_partial",
    "GooFit.C43_violation_voigtian_swapped",
    "GooFit.C43_voigtian_partial"
   ],
   "note": "Formula of each basic PDF in terms of its constructor arguments, over the reals, through the argument protocol. Violated for Voigtian (width and sigma exchanged) and ScaledGaussian (sign of the bias); Landau, ExpGaus and Voigtian are stated with the special function left as modelled."
  },
  {
   "property": "C44",
   "status": "proved",
   "theorems": [
    "GooFit.C44_veto",
    "GooFit.C44_order"
   ],
   "note": "Over the reals, for physical masses; the region is the set of kinematically possible points (C48)."
  },
  {
   "property": "C45",
   "status": "proved",
   "theorems": [
    "GooFit.C45_binTransform",
    "GooFit.C45_distinct",
    "GooFit.C45_onto",
    "GooFit.C45_varBin"
   ],
   "note": "Over the reals; the limits of VariableBinTransform1DPdf are taken to be increasing."
  },
  {
   "property": "C46",
   "status": "partial",
   "theorems": [
    "GooFit.C46_shared_value_partial",
    "GooFit.C46_violation_shared_value",
    "GooFit.C46_violation_shared_metric"
   ],
   "note": "The sharing form uses the wrong normalisations and never moves the cursor (witnesses)."
  },
  {
   "property": "C47",
   "status": "partial",
   "theorems": [
    "GooFit.C47_own_data_partial",
    "GooFit.C47_alternating_partial",
    "GooFit.C47_value_partial",
    "GooFit.C47_violation_construct",
    "GooFit.C47_violation_set_data",
    "GooFit.C47_violation_copy_params",
    "GooFit.C47_violation_renumbered",
    "GooFit.C47_violation_component"
   ],
   "note": "Every history of any number of PDFs, provided the PDF is given its data, or its fit control is set, right before it is used. Otherwise constructing, giving data to or copying parameters of another PDF changes its values (violations). Cached normalisations are held fixed."
  },
  {
   "property": "C48",
   "status": "proved",
   "theorems": [
    "GooFit.C48_dalitz_region",
    "GooFit.C48_bounds"
   ],
   "note": "Over the reals; the point s12=0 with two massless daughters, where the code divides by zero, is excluded."
  },
  {
   "property": "C49",
   "status": "partial",
   "theorems": [
    "GooFit.C49_values_partial",
    "GooFit.C49_new_data_partial",
    "GooFit.C49_no_overflow",
    "GooFit.C49_violation_overflow",
    "GooFit.C49_violation_stale"
   ],
   "note": "The statement in full fails: a PDF with more line shapes than amplitudes writes past redoIntegral at every evaluation, and an amplitude is refreshed according to the mark of the line shape with its own number. Proved: with as many amplitudes as line shapes, for amplitudes that use the line shape of their number, for every history; and for all amplitudes right after new data. Line shapes and spin factors that compare equal are taken to be the same; the bounds 500 and 10 of the device tables are not modelled."
  },
  {
   "property": "C50",
   "status": "partial",
   "theorems": [
    "GooFit.C50_normalization_partial",
    "GooFit.C50_consistent_partial",
    "GooFit.C50_violation_generate",
    "GooFit.C50_violation_efficiency"
   ],
   "note": "The statement in full fails: the efficiency is not part of the normalisation, and after GenerateSig the normalisation stays 1. Proved for constant efficiency one and every history without generation, whatever the amplitudes share."
  },
  {
   "property": "C51",
   "status": "proved",
   "theorems": [
    "GooFit.C51_decay",
    "GooFit.C51_pair_masses",
    "GooFit.C51_round_trip"
   ],
   "note": "Over the real numbers. Vector4R of the MCBooster submodule is not in the repository: its products are taken to be the usual ones."
  },
  {
   "property": "C52",
   "status": "proved",
   "theorems": [
    "GooFit.C52_masses_of_named_systems"
   ],
   "note": "Over the real numbers."
  },
  {
   "property": "C53",
   "status": "proved",
   "theorems": [
    "GooFit.C53_frame",
    "GooFit.C53_mirror"
   ],
   "note": "Over the real numbers."
  },
  {
   "property": "C54",
   "status": "partial",
   "theorems": [
    "GooFit.C54_tensor_amplitude_partial",
    "GooFit.C54_tensor_decay_partial",
    "GooFit.C54_violation_tensor_decay",
    "GooFit.C54_exchange_last_pair",
    "GooFit.C54_exchange_first_pair",
    "GooFit.C54_exchange_vectors",
    "GooFit.C54_form_factor"
   ],
   "note": "Every factor but the decay of a tensor: there the code divides one term by the mass squared of the tensor instead of the mother, and the violation gives momenta at which it differs from the amplitude. Momenta whose subsystems are light-like (division by zero) are outside the hypotheses."
  },
  {
   "property": "C55",
   "status": "partial",
   "theorems": [
    "GooFit.C55_lu_inverse",
    "GooFit.C55_cofactor_inverse",
    "GooFit.C55_open_channels",
    "GooFit.C55_phase_space",
    "GooFit.C55_parameters",
    "GooFit.C55_amplitude",
    "GooFit.C55_amplitude_open",
    "GooFit.C55_violation_pivot",
    "GooFit.C55_violation_amplitude"
   ],
   "note": "Matrices of every size over every field: exact condition for the LU inverse to be the inverse (all leading minors nonzero). It fails on invertible matrices, and there are K-matrix parameters and energies where the amplitude is infinite although the equation has a solution (violations). Energies at a pole of K are outside the hypotheses."
  },
  {
   "property": "C56",
   "status": "partial",
   "theorems": [
    "GooFit.C56_interpolates",
    "GooFit.C56_outside",
    "GooFit.C56_continuous",
    "GooFit.C56_smooth_partial",
    "GooFit.C56_symmetric",
    "GooFit.C56_violation_stale",
    "GooFit.C56_violation_shared",
    "GooFit.C56_violation_last_knot",
    "GooFit.C56_violation_line"
   ],
   "note": "Interpolation and continuity hold in every state; smoothness right after construction. Once coefficients change or another spline is constructed the derivatives in use belong to other values and the amplitude has kinks; the coefficient of the last knot is never used as a value; the slope at the ends is twice the chord's (violations)."
  },
  {
   "property": "C57",
   "status": "partial",
   "theorems": [
    "GooFit.C57_angular",
    "GooFit.C57_momentum",
    "GooFit.C57_form_factor",
    "GooFit.C57_violation_form_factor",
    "GooFit.C57_rbw_partial",
    "GooFit.C57_rbw_unnormalised_partial",
    "GooFit.C57_violation_mother_momentum",
    "GooFit.C57_pole",
    "GooFit.C57_relabel",
    "GooFit.C57_exchange_partial",
    "GooFit.C57_violation_exchange",
    "GooFit.C57_gauss",
    "GooFit.C57_nonres"
   ],
   "note": "All kinematics, spins 0 to 2, over the real numbers. The unnormalised form factor of spin 2, the momentum of the mother in the normalised case and the symmetrised amplitude of some pairs deviate (violations)."
  },
  {
   "property": "C58",
   "status": "partial",
   "theorems": [
    "GooFit.C58_derivative",
    "GooFit.C58_gs_partial",
    "GooFit.C58_amplitude_partial",
    "GooFit.C58_violation_width",
    "GooFit.C58_violation_pair",
    "GooFit.C58_violation_symmetric"
   ],
   "note": "Calculus over the real numbers, for the pair 2-3 of daughters of equal mass; there the whole amplitude is the Gounaris-Sakurai formula except that the running width lacks the factor m0/sqrt(s). Other pairs use the wrong masses and the symmetrisation flag is ignored (violations)."
  },
  {
   "property": "C59",
   "status": "partial",
   "theorems": [
    "GooFit.C59_background_partial",
    "GooFit.C59_amplitude_partial",
    "GooFit.C59_relabel_partial",
    "GooFit.C59_violation_unitarity",
    "GooFit.C59_violation_daughters"
   ],
   "note": "The amplitude in closed form for the pairs 1-2 and 2-3; the background is elastic for all parameters; with the resonance the S matrix exceeds one for all parameters and masses, and the pair 1-3 uses daughters 1-2 (violations)."
  },
  {
   "property": "C60",
   "status": "proved",
   "theorems": [
    "GooFit.C60_flatte",
    "GooFit.C60_symmetric"
   ],
   "note": "Over the real and complex numbers. The symmetric amplitude is stated for pairs 1-2 and 1-3, the ones exchanged by the symmetry."
  },
  {
   "property": "C61",
   "status": "partial",
   "theorems": [
    "GooFit.C61_mixing_partial",
    "GooFit.C61_violation_angular"
   ],
   "note": "Product form for all parameters; the interference term contains angular and form factors twice (violation)."
  },
  {
   "property": "C62",
   "status": "proved",
   "theorems": [
    "GooFit.C62_rate",
    "GooFit.C62_nonneg",
    "GooFit.C62_norm",
    "GooFit.C62_average_time"
   ],
   "note": "Over the real and complex numbers, with integrals over all positive times."
  },
  {
   "property": "C63",
   "status": "partial",
   "theorems": [
    "GooFit.C63_gaussian_partial",
    "GooFit.C63_error_bound",
    "GooFit.C63_resolution_partial",
    "GooFit.C63_norm_partial",
    "GooFit.C63_violation_norm",
    "GooFit.C63_violation_negative"
   ],
   "note": "Exact for x = 0. The code expands cosine and sine to third order in x t/tau: the error is bounded in general, the normalisation is wrong for every x other than zero, and the value can be negative (violations)."
  },
  {
   "property": "C64",
   "status": "partial",
   "theorems": [
    "GooFit.C64_value_partial",
    "GooFit.C64_outside",
    "GooFit.C64_nonneg",
    "GooFit.C64_coherent",
    "GooFit.C64_grid",
    "GooFit.C64_norm_partial",
    "GooFit.C64_violation_mistag",
    "GooFit.C64_violation_event_mistag",
    "GooFit.C64_violation_default_arguments",
    "GooFit.C64_violation_md0",
    "GooFit.C64_observables",
    "GooFit.C64_mistag_limits"
   ],
   "note": "Perfect time resolution, over the real and complex numbers, any number of resonances and grid points. Wrong tags are computed with a lifetime and mixing parameters written in the code, the normalisation uses one stored probability instead of the events', the default arguments are null pointers that are dereferenced, and the constructor with the mother mass reads the mass as mistag probability (violations)."
  },
  {
   "property": "C65",
   "status": "partial",
   "theorems": [
    "GooFit.C65_integrals_partial",
    "GooFit.C65_integrals_no_fractions",
    "GooFit.C65_fractions_partial",
    "GooFit.C65_violation_asymmetric",
    "GooFit.C65_violation_fractions"
   ],
   "note": "All histories that report changes truthfully. On plots that are not symmetric in the two masses getFractions overwrites the interference integrals, and what it returns is not divided by the total (violations). The cached waves, which getFractions recomputes from event 0 whatever the offset of the data, are not part of this model."
  },
  {
   "property": "C66",
   "status": "partial",
   "theorems": [
    "GooFit.C66_value_partial",
    "GooFit.C66_norm_strengths",
    "GooFit.C66_first_strength",
    "GooFit.C66_density_partial",
    "GooFit.C66_norm_exact",
    "GooFit.C66_norm_partial",
    "GooFit.C66_violation_amplitudes",
    "GooFit.C66_violation_linear",
    "GooFit.C66_violation_norm",
    "GooFit.C66_violation_nested"
   ],
   "note": "Exactly what is computed, for every tree and grid. The amplitudes are never registered: the numbers used in their place are the parameter counts and parameters of the components, and they are not squared; the normalisation integrates the last resonance in place of each, and inside another PDF it calls the sum itself as a resonance (violations)."
  },
  {
   "property": "C67",
   "status": "partial",
   "theorems": [
    "GooFit.C67_value_partial",
    "GooFit.C67_rate_partial",
    "GooFit.C67_violation_duplicate"
   ],
   "note": "All pairs of lists without repetitions, all histories that report changes truthfully, over the real and complex numbers. An amplitude repeated in the first list is counted twice in the second sum (violation). Sharing of the index array between several PDFs is not modelled."
  },
  {
   "property": "C68",
   "status": "partial",
   "theorems": [
    "GooFit.C68_norm_partial",
    "GooFit.C68_plain",
    "GooFit.C68_violation_weights",
    "GooFit.C68_violation_generate",
    "GooFit.C68_violation_efficiency"
   ],
   "note": "Perfect time resolution, any number of batches and whole-number weights. Weights are summed as integers, so that weights below one give zero; after a generation of events the normalisation is 1 for ever; the efficiency is in the value but not in the normalisation of plain events (violations)."
  },
  {
   "property": "C69",
   "status": "partial",
   "theorems": [
    "GooFit.C69_distribution",
    "GooFit.C69_density_partial",
    "GooFit.C69_envelope",
    "GooFit.C69_generate",
    "GooFit.C69_throws",
    "GooFit.C69_rate_partial",
    "GooFit.C69_violation_envelope"
   ],
   "note": "Exact distribution of accepted times for every density and envelope, as a volume in the square of the two uniform numbers. The times follow the PDF where 2(|A|^2+|B|^2) times the efficiency is within the envelope; the code bounds only the value at time zero, and for y > 0 and |A-B|^2 > 4.4 |A|^2 the envelope is too low at late times, which is printed but the event kept (violation)."
  },
  {
   "property": "C70",
   "status": "partial",
   "theorems": [
    "GooFit.C70_caches_partial",
    "GooFit.C70_no_overflow",
    "GooFit.C70_constants_partial",
    "GooFit.C70_index_partial",
    "GooFit.C70_violation_constants",
    "GooFit.C70_violation_radius",
    "GooFit.C70_violation_mother_radius",
    "GooFit.C70_violation_seventeenth",
    "GooFit.C70_violation_overflow",
    "GooFit.C70_violation_region",
    "GooFit.C70_violation_index",
    "GooFit.C70_limits"
   ],
   "note": "All histories. Caches are kept apart within the limits of 16 waves and 20 PDFs of a class (10 of the others) and without resetting the counter. Decay constants and index arrays exist once per program, so that a PDF with another decay, or a second four-body PDF, replaces those of the first (violations, also as seen in the region and in the amplitude sums)."
  },
  {
   "property": "C71",
   "status": "partial",
   "theorems": [
    "GooFit.C71_rbw_partial",
    "GooFit.C71_sbw_partial",
    "GooFit.C71_pole",
    "GooFit.C71_unitarity",
    "GooFit.C71_norm_rbw",
    "GooFit.C71_norm_sbw",
    "GooFit.C71_nonres",
    "GooFit.C71_violation_spin"
   ],
   "note": "Real and complex numbers, spins 0 to 2, nominal mass above threshold. Spin 3 and up has width zero (violation); the constant of SBW normalises to pi/(2 sqrt 2) instead of 1 (C71_norm_sbw). Nominal masses below threshold are outside the hypotheses."
  },
  {
   "property": "C72",
   "status": "partial",
   "theorems": [
    "GooFit.C72_spec_unitary",
    "GooFit.C72_lass_partial",
    "GooFit.C72_violation_lass",
    "GooFit.C72_glass",
    "GooFit.C72_glass_lass"
   ],
   "note": "GLASS is elastic for all parameters with F = 1. The resonance of LASS carries the root of the constant k of RBW and the background does not, so that LASS is elastic exactly when k = 1 (violation for every other k, at every mass)."
  },
  {
   "property": "C73",
   "status": "partial",
   "theorems": [
    "GooFit.C73_flatte_partial",
    "GooFit.C73_violation_ignored",
    "GooFit.C73_bugg",
    "GooFit.C73_bugg3_partial",
    "GooFit.C73_bugg_positive",
    "GooFit.C73_bugg_same",
    "GooFit.C73_violation_bugg"
   ],
   "note": "Width and form factor of Flatte and mass and width of Bugg are ignored, with masses and couplings of one resonance written in the code (violation). Bugg3 leaves out the factor M of the four-pion width, so that above the four-pion threshold the two implementations differ (violation); below it they agree up to the factor sqrt(1000)."
  },
  {
   "property": "C74",
   "status": "partial",
   "theorems": [
    "GooFit.C74_kmatrix",
    "GooFit.C74_pole",
    "GooFit.C74_unitarity",
    "GooFit.C74_invertible",
    "GooFit.C74_invertible_elastic",
    "GooFit.C74_elastic",
    "GooFit.C74_violation_isospin",
    "GooFit.C74_violation_etap",
    "GooFit.C74_adler"
   ],
   "note": "All energies where the matrix can be inverted, which are those above both thresholds and those between them where the channels are coupled. The isospin 3/2 line shape uses the phase space of K eta' and is real below its threshold; the mass of the eta' is mistyped, so that the channel opens 10 MeV too high (violations). Energies exactly at the pole of K are outside what the model of division means in the code."
  },
  {
   "property": "C75",
   "status": "partial",
   "theorems": [
    "GooFit.C75_status",
    "GooFit.C75_results",
    "GooFit.C75_respected",
    "GooFit.C75_declaration_frozen",
    "GooFit.C75_minos_partial",
    "GooFit.C75_minos_switch",
    "GooFit.C75_errors",
    "GooFit.C75_same_point",
    "GooFit.C75_minuit1_partial",
    "GooFit.C75_violation_chisq",
    "GooFit.C75_violation_minuit1",
    "GooFit.C75_violation_minuit1_settings",
    "GooFit.C75_violation_fixed_later",
    "GooFit.C75_violation_start",
    "GooFit.C75_violation_minos",
    "GooFit.C75_minuit1_declared",
    "GooFit.C75_minuit1_results",
    "GooFit.C75_minuit1_point_partial",
    "GooFit.C75_violation_minuit1_names"
   ],
   "note": "All histories; the minimiser is any that respects its declarations. What the minimiser is told is frozen when the manager is constructed, so that values and fixed flags set later are ignored; Minos errors pile up over fits; Up is 1/2 for chi-square fits too, and 1 in Minuit1; Minuit1 ignores its settings without a call limit (violations). Errors are proved for functions that are exactly parabolic."
  },
  {
   "property": "C76",
   "status": "partial",
   "theorems": [
    "GooFit.C76_before_partial",
    "GooFit.C76_after_partial",
    "GooFit.C76_resolution_partial",
    "GooFit.C76_norm",
    "GooFit.C76_norm_partial",
    "GooFit.C76_violation_after",
    "GooFit.C76_violation_norm"
   ],
   "note": "Over the reals. The reported normalisation is the integral of rate times efficiency over true times for every x. The value is the folding, and integrates to the normalisation, for x = 0. For x different from 0 the series of cosine and sine are cut after two terms, and after the threshold two moments of the Gaussian tail are wrong (violations): the value then integrates to less than the normalisation. Negative thresholds are excluded."
  },
  {
   "property": "C77",
   "status": "partial",
   "theorems": [
    "GooFit.C77_moments",
    "GooFit.C77_layout",
    "GooFit.C77_resolution_partial",
    "GooFit.C77_norm_series_partial",
    "GooFit.C77_norm_partial",
    "GooFit.C77_total_partial",
    "GooFit.C77_violation_powers",
    "GooFit.C77_violation_norm",
    "GooFit.C77_violation_first_knot",
    "GooFit.C77_violation_last_piece",
    "GooFit.C77_violation_many_knots"
   ],
   "note": "Proved over the reals. The moments of the cut Gaussian are exact for every power (C77_moments). With two to eight increasing knots, the first one at 0, a linear last polynomial that is positive at its end, and x = 0 or no oscillating terms, the value is the folding of efficiency times rate with the three Gaussians, and the normalisation is its integral over all measured times. The normalisation over true times holds for every x with the cosine and sine cut after three terms up to the last knot. Missing because the code does otherwise: the powers of x in the oscillating terms are wrong (C77_violation_powers), so value and normalisation disagree for every x other than 0 (C77_violation_norm); the value moves the first knot to 0 and the normalisation does not; a curved last polynomial is continued by its two lower coefficients only; more than eight knots write behind local arrays."
  },
  {
   "property": "C78",
   "status": "partial",
   "theorems": [
    "GooFit.C78_equal",
    "GooFit.C78_spin_equal",
    "GooFit.C78_function_partial",
    "GooFit.C78_line_shape_partial",
    "GooFit.C78_spin_factor",
    "GooFit.C78_depends",
    "GooFit.C78_shared",
    "GooFit.C78_spin_shared",
    "GooFit.C78_stored",
    "GooFit.C78_value_partial",
    "GooFit.C78_new_data_partial",
    "GooFit.C78_normalization_partial",
    "GooFit.C78_violation_ignored",
    "GooFit.C78_violation_radius"
   ],
   "note": "Proved for all classes of line shapes but the spline (C79), all spin factors, all lists of amplitudes and all histories, over the reals (so constants are never NaN, for which the comparison of the code fails). The values in the middle of a history have the exceptions of C49. Missing because the code does otherwise: some constructors ask for variables that are not used (C78_violation_ignored), and the number called mass of the mother in the constructor of a spin factor is its radius (C78_violation_radius)."
  },
  {
   "property": "C79",
   "status": "partial",
   "theorems": [
    "GooFit.C79_evaluation_partial",
    "GooFit.C79_outside_partial",
    "GooFit.C79_line_shape_partial",
    "GooFit.C79_violation_out_of_range",
    "GooFit.C79_violation_width",
    "GooFit.C79_violation_values",
    "GooFit.C79_violation_curvature",
    "GooFit.C79_violation_uninitialised",
    "GooFit.C79_violation_jump"
   ],
   "note": "The property fails. The constructor does not register the values at the knots, so inside the range of the spline the device function always reads constants of other components (C79_violation_out_of_range), and where it does not the width is zero (C79_violation_width); the values matter only through second derivatives computed at construction (C79_violation_values), from a matrix that is not initialised (C79_violation_uninitialised) and with a wrong distance of the knots (C79_violation_curvature). What is proved for all inputs: with the constants the device function expects it returns the given values at the knots and the cubic plus an extra term between them, which makes it jump (C79_violation_jump); it is constant or zero outside; and the line shape has the width that is described."
  },
  {
   "property": "C80",
   "status": "partial",
   "theorems": [
    "GooFit.C80_value_partial",
    "GooFit.C80_rate_partial",
    "GooFit.C80_normalization_partial"
   ],
   "note": "Proved for all classes of line shapes but the spline (C79), for distinct amplitudes in each list, any resolution and all histories, over the reals. Missing: amplitudes listed twice (C67), weights of normalisation events that are not whole numbers and the normalisation after generation (violations of C68)."
  },
  {
   "property": "C81",
   "status": "partial",
   "theorems": [
    "GooFit.C81_function_partial",
    "GooFit.C81_depends",
    "GooFit.C81_value_partial",
    "GooFit.C81_normalization_partial",
    "GooFit.C81_fractions_partial",
    "GooFit.C81_violation_many",
    "GooFit.C81_violation_efficiency",
    "GooFit.C81_violation_grid",
    "GooFit.C81_violation_number",
    "GooFit.C81_violation_data"
   ],
   "note": "Proved for all classes of resonances but the spline (C56), up to 16 of them, from any earlier state, for all data and all sequences of evaluations, over the reals. Missing because the code does otherwise: more than 16 resonances (C81_violation_many), a changed parameter of the efficiency or a changed grid (C81_violation_efficiency, C81_violation_grid), events whose number is not their position (C81_violation_number), new data without setDataSize (C81_violation_data), different numbers of bins (C41_violation_bins). A K-matrix without amplitude at a point counts as zero in the model, the code divides by zero there."
  },
  {
   "property": "C82",
   "status": "partial",
   "theorems": [
    "GooFit.C82_faddeeva_partial",
    "GooFit.C82_defined",
    "GooFit.C82_reflection",
    "GooFit.C82_cpuvoigtian_partial",
    "GooFit.C82_cpuvoigtian_throws",
    "GooFit.C82_voigtian_partial",
    "GooFit.C82_voigtian_symmetric",
    "GooFit.C82_voigt_pos",
    "GooFit.C82_violation_negative",
    "GooFit.C82_violation_cpu_limits"
   ],
   "note": "Proved over the reals (no rounding) against the integral that defines the complex error function and the convolution that defines the profile: accuracy 1e-9 wherever |Re z| <= 6.4 or Im z >= 1e-9, hence within nine resolutions of the mean or for widths above 3e-9 resolutions. Missing because the code does otherwise: the far tail of narrower peaks, where the density is negative (C82_violation_negative), the documented order of width and resolution (C43_violation_voigtian_swapped), the limits of cpuvoigtian (C82_violation_cpu_limits)."
  },
  {
   "property": "C83",
   "status": "partial",
   "theorems": [
    "GooFit.C83_agree",
    "GooFit.C83_sign",
    "GooFit.C83_scale",
    "GooFit.C83_seams",
    "GooFit.C83_langaus_partial",
    "GooFit.C83_langaus_units",
    "GooFit.C83_quantile_ends",
    "GooFit.C83_quantile_partial",
    "GooFit.C83_quantile_width",
    "GooFit.C83_quantile_density",
    "GooFit.C83_violation_langaus_scale",
    "GooFit.C83_violation_langaus_steps",
    "GooFit.C83_violation_quantile_decreasing",
    "GooFit.C83_violation_quantile_pole"
   ],
   "note": "Proved over the reals (no rounding). That the fits approximate the Landau integral is not proved, and the distance of the convolution rule to the integral is not bounded. Missing because the code does otherwise: landauGaussPDF divides by the width twice (C83_violation_langaus_scale) and its number of steps can overflow to zero (C83_violation_langaus_steps); the quantile falls at 0.999 (C83_violation_quantile_decreasing) and has a pole at small probabilities (C83_violation_quantile_pole)."
  },
  {
   "property": "C84",
   "status": "partial",
   "theorems": [
    "GooFit.C84_alive_partial",
    "GooFit.C84_kept",
    "GooFit.C84_holding",
    "GooFit.C84_violation_forgotten",
    "GooFit.C84_violation_list",
    "GooFit.C84_violation_decay",
    "GooFit.C84_violation_member"
   ],
   "note": "Proved for every program over the modelled statements, except where the code does otherwise: Params, FCN, MnMigrad, MnMinos and one constructor of Amp3Body_TD keep nothing or too little (C84_violation_forgotten), only the list of components is kept (C84_violation_list), getDecayInfo keeps nothing (C84_violation_decay), getParams()/getFCN()/getDataSet() give Python ownership of a member (C84_violation_member). A program that drops nothing is always sound (C84_holding). Exceptions thrown inside a call are not modelled."
  },
  {
   "property": "C85",
   "status": "partial",
   "theorems": [
    "GooFit.C85_from_numpy",
    "GooFit.C85_too_many_rows",
    "GooFit.C85_to_numpy",
    "GooFit.C85_round_trip",
    "GooFit.C85_copy",
    "GooFit.C85_bin_centers",
    "GooFit.C85_violation_missing_row"
   ],
   "note": "Proved for every two-dimensional table, with no assumption on the comparison of numbers; bin centres over an ordered field (no rounding). Missing because the code does otherwise: a table that lacks rows is not refused (C85_violation_missing_row). Arrays with another number of dimensions are not modelled."
  },
  {
   "property": "C86",
   "status": "partial",
   "theorems": [
    "GooFit.C86_objective_partial",
    "GooFit.C86_every_call_partial",
    "GooFit.C86_signal_and_background_partial",
    "GooFit.C86_violation_shared_component",
    "GooFit.C86_analytic_integrals"
   ],
   "note": "Proved end to end (parameters copied, every PDF normalised through the arrays, arrays copied, metric summed) for every tree of distinct PDF objects made of basic PDFs of one observable, sums, extended sums, sums with setCommonNorm of basic PDFs, event-weighted sums, maps, products over different observables, products of basic PDFs of one observable and composites of two basic PDFs of one observable, for every history of calls, over any ordered field; instantiated with GaussianPdf and ExpPdf over the reals. Missing: convolutions and amplitudes, setSeparateNorm, basic PDFs of several observables, more than ten observables, rounding. Violated when one object is used twice (C86_violation_shared_component)."
  },
  {
   "property": "C87",
   "status": "partial",
   "theorems": [
    "GooFit.C87_generated_partial",
    "GooFit.C87_decays_partial",
    "GooFit.C87_inside",
    "GooFit.C87_four_partial",
    "GooFit.C87_acceptance",
    "GooFit.C87_unweighted",
    "GooFit.C87_left_behind_partial",
    "GooFit.C87_violation_later",
    "GooFit.C87_violation_none",
    "GooFit.C87_violation_few"
   ],
   "note": "Proved over the reals for every state of the PDF (three bodies) or history with honest marks (four bodies) and every list of phase-space events, which come from a library that is not in the repository; its accept-reject functor is taken to compare a uniform number times the maximum with the weight. Missing: splines, more than 16 resonances, different numbers of bins, more line shapes than amplitudes. Missing because the code does otherwise: the generated events replace the data of the PDF (C87_violation_later), zero events read the maximum of nothing (C87_violation_none), fewer than six four-body events read past the end of the results to print them (C87_violation_few)."
  },
  {
   "property": "C88",
   "status": "partial",
   "theorems": [
    "GooFit.C88_momenta",
    "GooFit.C88_same_variables",
    "GooFit.C88_mirror",
    "GooFit.C88_intensity",
    "GooFit.C88_generated_partial"
   ],
   "note": "The kinematic statements and the intensity are proved over the reals for all decays in which neither pair of momenta lies along one line (there the angle between the planes is 0/0 in the code). The corollary for generated events has the limits of C87 (splines, more line shapes than amplitudes, fewer than six events)."
  },
  {
   "property": "C89",
   "status": "partial",
   "theorems": [
    "GooFit.C89_when",
    "GooFit.C89_first_entry_partial",
    "GooFit.C89_violation_entries",
    "GooFit.C89_violation_never"
   ],
   "note": "Over every field: there is a result exactly for invertible matrices and its first entry is right, but all 25 entries are assigned the same expression (C89_violation_entries), so the result is never the inverse (C89_violation_never). The function is included by the K-matrix sources and not called there (they use the LU inverse of C55)."
  },
  {
   "property": "C90",
   "status": "partial",
   "theorems": [
    "GooFit.C90_value_partial",
    "GooFit.C90_points_partial",
    "GooFit.C90_plot_partial",
    "GooFit.C90_components_partial",
    "GooFit.C90_gathered",
    "GooFit.C90_violation_scan",
    "GooFit.C90_violation_no_data",
    "GooFit.C90_violation_observable_moved"
   ],
   "note": "Proved for the trees of C86 from arbitrary arrays and cached normalisations, given that data was set (or unset) once. The code violates the rest: scan returns the same number for every point (C90_violation_scan), a PDF that was never given data writes outside the event (C90_violation_no_data), and evaluateAtPoints leaves the observable at its last bin (C90_violation_observable_moved). Missing: convolutions and amplitudes, more than ten observables, components with binned data."
  },
  {
   "property": "C91",
   "status": "partial",
   "theorems": [
    "GooFit.C91_points",
    "GooFit.C91_histogram",
    "GooFit.C91_toys_partial",
    "GooFit.C91_amplitude_partial",
    "GooFit.C91_violation_z",
    "GooFit.C91_violation_outside",
    "GooFit.C91_violation_left_behind"
   ],
   "note": "Points, values and histogram are proved for every region and every PDF over an ordered field; for three-body amplitudes over the reals, from every earlier state, the values are the described density over its integral (limits of C81: splines, more than 16 resonances, different numbers of bins). The code violates the rest: getZval is not the third squared mass (C91_violation_z), toy events may lie outside the decay (C91_violation_outside), and afterwards the amplitude reads past the end of its cache for its own data (C91_violation_left_behind). Missing: contents of ROOT histograms are floats."
  },
  {
   "property": "C92",
   "status": "partial",
   "theorems": [
    "GooFit.C92_getCoefficient_partial",
    "GooFit.C92_curve_partial",
    "GooFit.C92_violation_getCoefficient"
   ],
   "note": "Proved for a polynomial of one observable anywhere in a tree of the kind of C86, after every history of fits, and for trees with a control that does not take a PDF: zero for the powers the polynomial does not have. For the others the code violates the property: it gives the coefficient of the next power, over the normalisation, and for the highest power reads past the parameters if the polynomial is the whole tree (C92_violation_getCoefficient). Missing: polynomials of two observables."
  },
  {
   "property": "C93",
   "status": "partial",
   "theorems": [
    "GooFit.C93_likelihood_partial",
    "GooFit.C93_violation_zero",
    "GooFit.C93_parameters"
   ],
   "note": "Proved over the reals for every sequence of calls of the FCN by the minimiser, after every earlier history of the PDF and of the manager, with the limits of C81 and C30 (no splines, at most 16 resonances, equal numbers of bins, no parameters in the efficiency, no blinding, the values of the variables not read back between the calls: C30_violation_after_fit) and as long as the integral is positive and the sum not zero; when the sum is zero the code aborts (C93_violation_zero). Missing: rounding and several amplitude PDFs (C70)."
  },
  {
   "property": "C94",
   "status": "partial",
   "theorems": [
    "GooFit.C94_likelihood_partial",
    "GooFit.C94_time_likelihood_partial",
    "GooFit.C94_parameters",
    "GooFit.C94_time_parameters"
   ],
   "note": "Proved over the reals for every sequence of calls of the FCN by the minimiser, after every earlier history of the PDF without generation of events and of the manager, with the limits of C78 and C80 (no spline line shapes; time-independent: at most as many line shapes as amplitudes and each at the place of its amplitude, see C49; time-dependent: exactly known decay times and whole weights) and C30 (no blinding, the values of the variables not read back between the calls), as long as the mean is positive and the sum not zero. Missing: rounding; the efficiency is a factor of the density but not of the mean, as in the code."
  },
  {
   "property": "C95",
   "status": "partial",
   "theorems": [
    "GooFit.C95_lookup",
    "GooFit.C95_constantness",
    "GooFit.C95_constantness_others",
    "GooFit.C95_fixed_in_fit",
    "GooFit.C95_unregister_partial",
    "GooFit.C95_violation_unregister_twice"
   ],
   "note": "Look-up and fixing proved for all trees; fits with the manager of C75 and any minimiser that honours its declarations. Removal fails when a PDF has the variable in two roles (violation)."
  },
  {
   "property": "C96",
   "status": "partial",
   "theorems": [
    "GooFit.C96_device_partial",
    "GooFit.C96_no_device",
    "GooFit.C96_violation_device",
    "GooFit.C96_violation_nodes",
    "GooFit.C96_file"
   ],
   "note": "Files proved for all file systems. Devices proved except where the code does otherwise: the process whose number on the node equals the number of devices (two or more) picks a device that does not exist, and fewer processes than nodes divide by zero (violations). Not modelled: overflow of int, and that the rank modulo processes per node is the number on the node only if ranks are distributed in blocks of equal size."
  },
  {
   "property": "C97",
   "status": "partial",
   "theorems": [
    "GooFit.C97_value_partial",
    "GooFit.C97_normalization_partial",
    "GooFit.C97_parameters",
    "GooFit.C97_likelihood_partial",
    "GooFit.C97_violation_event_size",
    "GooFit.C97_violation_grid"
   ],
   "note": "Proved over the reals for a perfect resolution and events whose tags are +1, -1 or 0 and never wrong (the mistag terms of the code are those of C64), without splines, with at most 16 resonances, an efficiency without parameters and no blinding; the likelihood as long as the total is positive and the sum not zero. The row length given to setDataSize must be 7, the default of 5 reads other columns, and limits of the observables changed after the first evaluation are ignored (violations). Missing: other resolutions, several resolutions, rounding."
  },
  {
   "property": "C98",
   "status": "proved",
   "theorems": [
    "GooFit.C98_printed"
   ],
   "note": "Exact real arithmetic for log10 and for the decimal digits that fmt prints (round half to even). With a zero or negative uncertainty both numbers are printed as the stream prints a number by itself, which is not modelled."
  },
  {
   "property": "C99",
   "status": "partial",
   "theorems": [
    "GooFit.C99_listing_partial",
    "GooFit.C99_violation_remainder",
    "GooFit.C99_violation_size"
   ],
   "note": "Proved when the number of permutations is positive and divides the numbers of line shapes and of spin factors, and the table has at most 500 entries. Otherwise the code leaves out the remainder (C99_violation_remainder) or reads past the copy of the table (C99_violation_size). How a line shape or a spin factor prints itself is not modelled."
  },
  {
   "property": "C100",
   "status": "partial",
   "theorems": [
    "GooFit.C100_likelihood_partial",
    "GooFit.C100_parameters",
    "GooFit.C100_violation_range_after_data",
    "GooFit.C100_violation_limits"
   ],
   "note": "Proved over the reals for two basic PDFs, a range and limits that are multiples of the step, a symmetric resolution, events inside the limits, no blinding, as long as the integral is positive and no sum is zero (the code aborts). The convolution is that of the step the event lies in (C31). Missing: the cases where the code does otherwise: C31_violation_unaligned, C31_violation_mirrored, C30_violation_nested, C30_violation_after_fit, C30_violation_set_value, and, here, a range set after the data (C100_violation_range_after_data) and limits changed after the range was set (C100_violation_limits); the cooperative variant; rounding."
  },
  {
   "property": "C101",
   "status": "partial",
   "theorems": [
    "GooFit.C101_events",
    "GooFit.C101_time_partial",
    "GooFit.C101_representative",
    "GooFit.C101_plain_partial",
    "GooFit.C101_violation_flags"
   ],
   "note": "Proved for Amp4Body_TD (perfect resolution, no splines, no two momenta of a pair along one line). Amp4Body does not remove the rejected events (the remove_if is commented out): it is normalised with the first generated events, as many as are accepted, whichever these are (C101_plain_partial, C101_violation_flags). The generator and EvaluateArray are in mcbooster, which is not in the repository: the events and flags are arbitrary, and EvaluateArray is taken to fill the given lists position by position."
  },
  {
   "property": "C102",
   "status": "partial",
   "theorems": [
    "GooFit.C102_columns",
    "GooFit.C102_data",
    "GooFit.C102_frame_partial",
    "GooFit.C102_violation_boost",
    "GooFit.C102_likelihood_partial",
    "GooFit.C102_time_likelihood_partial"
   ],
   "note": "Conversion and import proved for all matrices; likelihood proved for momenta in the rest frame of the decaying particle (with the restrictions of C94 and C101). The angle between the decay planes is computed from the momenta as given, so it changes if the decaying particle moves: C102_violation_boost."
  },
  {
   "property": "C103",
   "status": "partial",
   "theorems": [
    "GooFit.C103_calls_partial",
    "GooFit.C103_likelihood_partial",
    "GooFit.C103_chisquare_partial",
    "GooFit.C103_fit_partial",
    "GooFit.C103_resonance_partial",
    "GooFit.C103_violation_empty_bins",
    "GooFit.C103_violation_analytic_integral"
   ],
   "note": "Proved in exact real arithmetic when the densities at the bin centres times the bin sizes add up to one (so for one observable whenever every component is normalised on the bins of the histogram, C103_fit_partial), are positive, and the sum of the terms is not zero (the code aborts). The code takes the number of bins for the number of events: chi-square comes out scaled by (bins/events)^2, with an empty bin it has another minimum (C103_violation_empty_bins), and a PDF divided by an analytic integral is fitted to the wrong width (C103_violation_analytic_integral). A bin that holds events where the density is zero costs nothing. End to end only for one observable."
  },
  {
   "property": "C104",
   "status": "partial",
   "theorems": [
    "GooFit.C104_likelihood_partial",
    "GooFit.C104_normalized",
    "GooFit.C104_parameters",
    "GooFit.C104_violation_size"
   ],
   "note": "Proved for every sum of one three-body amplitude and other PDFs of m12 and m13, in any order, with fractions or yields, with or without a common normalisation, for every earlier history and every sequence of calls. Missing: the limits of C93 (splines, more than 16 resonances, different numbers of bins, efficiencies with parameters, blinded parameters), components that keep a state of their own, several amplitudes (C70); the other components enter with what their normalisation gives (C13, C24 to C26, C86). Violations: a sum whose amplitude was not told the number of events reads arrays that do not exist; the code aborts when the sum of the logarithms is exactly zero (C93)."
  },
  {
   "property": "C105",
   "status": "partial",
   "theorems": [
    "GooFit.C105_amplitude_cursor_partial",
    "GooFit.C105_violation_mass_outside",
    "GooFit.C105_violation_two_resolutions"
   ],
   "note": "Proved for every amplitude built with the constructor for one resolution, every efficiency tree (unlike C42, also outside the region), every event and every place in the arrays. The constructor with the mass of the mother violates it: SPECIAL_RESOLUTION_FLAG is stored where the end of the efficiency is read from, so every event outside the region runs past the arrays, and with several resolutions the second one is called as the efficiency."
  },
  {
   "property": "C106",
   "status": "partial",
   "theorems": [
    "GooFit.C106_density",
    "GooFit.C106_time_likelihood_partial",
    "GooFit.C106_likelihood_partial",
    "GooFit.C106_parameters",
    "GooFit.C106_violation_weights",
    "GooFit.C106_violation_product"
   ],
   "note": "Proved for every nesting of AddPdf, EventWeightedAddPdf and ProdPdf around one Amp3Body_TD or Amp3Body, for every earlier history and every sequence of calls. Missing: the limits of C97 and C93 (other resolutions than the perfect one, wrong tags, splines, more than 16 resonances, efficiencies with parameters, blinded parameters), common normalisations (C104), products that are integrated numerically (C25), components that keep a state of their own, several amplitudes (C70). Two weights that are the same observable are registered once, and then a weight is read from another column: C106_violation_weights. A product of an amplitude and a PDF of one of its observables is not normalised: C106_violation_product."
  },
  {
   "property": "C107",
   "status": "partial",
   "theorems": [
    "GooFit.C107_call",
    "GooFit.C107_accepted_partial",
    "GooFit.C107_defaults_partial",
    "GooFit.C107_declared_partial",
    "GooFit.C107_violation_default",
    "GooFit.C107_violation_keyword",
    "GooFit.C107_violation_truth",
    "GooFit.C107_violation_degree"
   ],
   "note": "C107_call holds for every binding, overload and fitting call. The other parts fail in the code and are proved with the exceptions named: leaving MCeventsNorm out of Amp4Body_TD is always refused (its default is the float 5e6 for an unsigned int; python/examples/TDDP4.py:174 makes that call); from_matrix(matrix=...), fillDataSetMC(dataset=...) and setIntegrationConstants(lo=...) are always refused (the keyword literal is glued to the documentation string, or is documentation); a variable given for a bool is truth-tested instead of refused, so ArgusPdf without `upper` but with a power makes the plain Argus function; BernsteinPdf takes a negative degree for an unsigned int. pybind11 is not in the repository: its dispatcher and casters are modelled from their documented behaviour and trusted. Floats are exact numbers; nested sequences, bytes and user classes that define __index__ are not modelled."
  },
  {
   "property": "C108",
   "status": "partial",
   "theorems": [
    "GooFit.C108_three_partial",
    "GooFit.C108_four_partial",
    "GooFit.C108_time_partial",
    "GooFit.C108_time_raises",
    "GooFit.C108_plot",
    "GooFit.C108_plot_fewer",
    "GooFit.C108_violation_momentum"
   ],
   "note": "The plot is proved for every binning, density and later values of the observables. Generated events: proved for every number of events below 2^31 (the loops count with int) within the limits of C87 and C69. Amp3Body::GenerateSig gives Python only three components of each momentum, energy, px and py, so that decays with all pz reversed are indistinguishable (C108_violation_momentum). mcbooster, pybind11 and numpy are not in the repository; their behaviour is assumed as stated in Model/PyArrays."
  },
  {
   "property": "C109",
   "status": "partial",
   "theorems": [
    "GooFit.C109_crystal_partial",
    "GooFit.C109_crystal_symmetric_partial",
    "GooFit.C109_bifur_partial",
    "GooFit.C109_argus_partial",
    "GooFit.C109_polynomial_partial",
    "GooFit.C109_violation_crystal",
    "GooFit.C109_violation_bifur",
    "GooFit.C109_violation_argus_default",
    "GooFit.C109_violation_argus_upper",
    "GooFit.C109_violation_polynomial"
   ],
   "note": "The code violates it in all four classes, in exact real arithmetic. CrystalBallPdf: right (to 1e-10 of the length of the range) for the range mirrored about the mean, because integrate puts the tail on the other side; powers within 1e-5 of one, other than one, are not covered. BifurGaussPdf: independent of the range, and for equal widths the reciprocal of the whole integral. ArgusPdf: a left Riemann sum of the lower function, with a proved error for non-negative slope and power; 0 until setIntegrationFineness is called, and wrong for the upper function. PolynomialPdf: integrates without the lowest term and with exponents lowered by two."
  },
  {
   "property": "C110",
   "status": "partial",
   "theorems": [
    "GooFit.C110_three_value_partial",
    "GooFit.C110_ext_value_partial",
    "GooFit.C110_three_norm_partial",
    "GooFit.C110_ext_norm_partial",
    "GooFit.C110_violation_mixing"
   ],
   "note": "Proved for every set of resonances, efficiency, grid, resolution parameters with positive widths and time error, for rightly tagged events and no mass difference (x = 0). For every x other than zero it is false: the value uses the cut series of the cosine and sine, the normalisation the full ones (C110_violation_mixing). Missing: wrong tags (C64_violation_mistag), ThreeGaussResolutionSplice (C77 alone), the caches between calls (proved in C97 for the perfect resolution)."
  },
  {
   "property": "C111",
   "status": "proved",
   "theorems": [
    "GooFit.C111_value",
    "GooFit.C111_norm",
    "GooFit.C111_amplitude",
    "GooFit.C111_amplitude_norm"
   ],
   "note": "For every mass difference and without wrong tags, which the statement excludes. The difference of the normalisation is given exactly, that of the value as a bound."
  }
 ]
}