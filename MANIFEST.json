{
 "claims": [
  {
   "property": "C01",
   "status": "proved",
   "theorems": [
    "N2P2.C01_tokens_are_words",
    "N2P2.C01_tokens_nonempty_blankfree",
    "N2P2.C01_tokens_keep_characters",
    "N2P2.C01_spacing_irrelevant"
   ],
   "note": "Tokens of split(reduce(s)) are exactly the words of s."
  },
  {
   "property": "C02",
   "status": "proved",
   "theorems": [
    "N2P2.C02_reduce_idempotent",
    "N2P2.C02_reduce_is_joined_words",
    "N2P2.C02_reduce_normal_form"
   ],
   "note": "reduce is idempotent and gives the joined words."
  },
  {
   "property": "C03",
   "status": "proved",
   "theorems": [
    "N2P2.C03_pow_int",
    "N2P2.C03_int_min_undefined"
   ],
   "note": "pow_int(x,n) = x^n over the reals for every int except INT_MIN, where -n overflows (C03_int_min_undefined)."
  },
  {
   "property": "C04",
   "status": "proved",
   "theorems": [
    "N2P2.C04_register_bijection",
    "N2P2.C04_register_order_independent",
    "N2P2.C04_register_nonempty_rejected"
   ],
   "note": "Registered elements are numbered by increasing atomic number, independent of order and repetition of the input."
  },
  {
   "property": "C05",
   "status": "partial",
   "theorems": [
    "N2P2.C05_atomic_number_roundtrip_partial",
    "N2P2.C05_last_element_rejected",
    "N2P2.C05_table"
   ],
   "note": "Round trip proved for all atomic numbers accepted by both directions; the claim for all table entries is false: symbolFromAtomicNumber rejects No (102), proved as C05_last_element_rejected."
  },
  {
   "property": "C06",
   "status": "proved",
   "theorems": [
    "N2P2.C06_entries_are_lines",
    "N2P2.C06_entries_in_file_order",
    "N2P2.C06_comment_irrelevant",
    "N2P2.C06_spacing_and_comments",
    "N2P2.C06_line_order"
   ],
   "note": "Entries are exactly the definitions on the lines; comments, spacing and line order do not matter. Stated for non-empty keywords."
  },
  {
   "property": "C07",
   "status": "proved",
   "theorems": [
    "N2P2.C07_no_critical_iff",
    "N2P2.C07_no_problem_iff",
    "N2P2.C07_problem_count"
   ],
   "note": "Sanity check reports exactly unknown, repeated and doubly spelled keywords."
  },
  {
   "property": "C08",
   "status": "proved",
   "theorems": [
    "N2P2.C08_any_spelling",
    "N2P2.C08_absent",
    "N2P2.C08_unregistered",
    "N2P2.C08_never_undefined"
   ],
   "note": "All registered spellings give the same answer; unregistered and absent keywords are reported."
  },
  {
   "property": "C09",
   "status": "proved",
   "theorems": [
    "N2P2.C09_pruned_lines",
    "N2P2.C09_pruned_contents"
   ],
   "note": "Pruned file read back equals the original contents without the pruned lines. The choice of lines to prune is an input."
  },
  {
   "property": "C10",
   "status": "proved",
   "theorems": [
    "N2P2.C10_scale_unscale_inverse"
   ],
   "note": "unscale is the inverse of scale for every scaling type, given Gmin < Gmax resp. nonzero sigma (otherwise the code divides by zero)."
  },
  {
   "property": "C11",
   "status": "proved",
   "theorems": [
    "N2P2.C11_scale_range",
    "N2P2.C11_center_mean",
    "N2P2.C11_scale_slope"
   ],
   "note": "Range, mean and slope of scaled values for each scaling type."
  },
  {
   "property": "C12",
   "status": "proved",
   "theorems": [
    "N2P2.C12_warnings_of_atom",
    "N2P2.C12_stop_iff",
    "N2P2.C12_warning_total",
    "N2P2.C12_warning_values",
    "N2P2.C12_statistics"
   ],
   "note": "Warning counts, stop condition and accumulated statistics over arbitrary runs."
  },
  {
   "property": "C13",
   "status": "proved",
   "theorems": [
    "N2P2.C13_zero_beyond",
    "N2P2.C13_bounds",
    "N2P2.C13_inner_region",
    "N2P2.C13_at_zero",
    "N2P2.C13_continuous"
   ],
   "note": "For every history of setter calls with the parameter set after the radius; bounds, monotonicity, inner region, value at zero, continuity iff not the hard type."
  },
  {
   "property": "C14",
   "status": "proved",
   "theorems": [
    "N2P2.C14_derivative"
   ],
   "note": "True derivative at every real radius, hard type excluded at the cutoff."
  },
  {
   "property": "C15",
   "status": "proved",
   "theorems": [
    "N2P2.C15_combined"
   ],
   "note": "Combined and separate routines agree."
  },
  {
   "property": "C16",
   "status": "partial",
   "theorems": [
    "N2P2.C16_center_symmetric_bounds",
    "N2P2.C16_vanishes_at_ends",
    "N2P2.C16_combined_derivative_partial",
    "N2P2.C16_separate_derivative_negated",
    "N2P2.C16_separate_derivative_wrong"
   ],
   "note": "Values, symmetry, support and the combined routine's derivative proved. CompactFunction::df returns the negative derivative (C16_separate_derivative_negated, C16_separate_derivative_wrong); with the exponential core the end points divide by zero."
  },
  {
   "property": "C17",
   "status": "proved",
   "theorems": [
    "N2P2.C17_numConnections",
    "N2P2.C17_set_get",
    "N2P2.C17_positions",
    "N2P2.C17_get_set"
   ],
   "note": "Round trip both ways, documented positions, parameter count; for any reachable network object."
  },
  {
   "property": "C18",
   "status": "proved",
   "theorems": [
    "N2P2.C18_output",
    "N2P2.C18_activation"
   ],
   "note": "Output equals the layered function for any history (Reachable/Evaluates)."
  },
  {
   "property": "C19",
   "status": "proved",
   "theorems": [
    "N2P2.C19_input_gradient"
   ],
   "note": "HasDerivAt at points where no neuron input is a kink or jump."
  },
  {
   "property": "C20",
   "status": "proved",
   "theorems": [
    "N2P2.C20_parameter_gradient",
    "N2P2.C20_energy"
   ],
   "note": "Partial derivative at each documented position; several outputs: their sum."
  },
  {
   "property": "C21",
   "status": "proved",
   "theorems": [
    "N2P2.C21_force_gradient",
    "N2P2.C21_inner"
   ],
   "note": "True mixed derivative of -sum_k dE/dG_k dG_k/dx."
  },
  {
   "property": "C22",
   "status": "proved",
   "theorems": [
    "N2P2.C22_derivatives",
    "N2P2.C22_neurons",
    "N2P2.C22_relu_kink"
   ],
   "note": "All activation types; excluded points are the jumps of the cut tails and the rectifier kink."
  },
  {
   "property": "C23",
   "status": "proved",
   "theorems": [
    "N2P2.C23_inverse_box",
    "N2P2.C23_volume"
   ],
   "note": "Both directions for every non-singular box; volume is |det|."
  },
  {
   "property": "C24",
   "status": "proved",
   "theorems": [
    "N2P2.C24_remap",
    "N2P2.C24_idempotent",
    "N2P2.C24_defined"
   ],
   "note": "In the box, moved by a lattice vector, idempotent; defined when the cell index fits an int."
  },
  {
   "property": "C25",
   "status": "proved",
   "theorems": [
    "N2P2.C25_minimum_image",
    "N2P2.C25_unique_nearest",
    "N2P2.C25_returns_image"
   ],
   "note": "Image within the cutoff is returned, is unique and nearest."
  },
  {
   "property": "C26",
   "status": "proved",
   "theorems": [
    "N2P2.C26_complete_and_sound",
    "N2P2.C26_no_duplicates"
   ],
   "note": "Exactly once, complete and sound, periodic and non-periodic, with or without sorting; the search ends."
  },
  {
   "property": "C27",
   "status": "proved",
   "theorems": [
    "N2P2.C27_symmetric"
   ],
   "note": "Symmetric in the pair and the sign of the distance vector."
  },
  {
   "property": "C28",
   "status": "partial",
   "theorems": [
    "N2P2.C28_counters",
    "N2P2.C28_rebuild_partial",
    "N2P2.C28_rebuild_negated"
   ],
   "note": "Right on a fresh structure. Rebuilding multiplies the per-element counters (C28_rebuild_negated); the other parts hold for any number of rebuilds."
  },
  {
   "property": "C29",
   "status": "proved",
   "theorems": [
    "N2P2.C29_stored_counts",
    "N2P2.C29_error"
   ],
   "note": "Counts for every requested cutoff, and the neighbours are the first in the list; errors for unsorted lists or missing elements."
  },
  {
   "property": "C30",
   "status": "proved",
   "theorems": [
    "N2P2.C30_normalize_then_physical",
    "N2P2.C30_physical_then_normalize",
    "N2P2.C30_lengths_scaled"
   ],
   "note": "Round trip on the complete structure record in both orders; what happens to derivative arrays is C59."
  },
  {
   "property": "C31",
   "status": "proved",
   "theorems": [
    "N2P2.C31_rigid_motion"
   ],
   "note": "All types; hypotheses: parameters, neighbour list, memory and caches in order (SymFnc.Ready)."
  },
  {
   "property": "C32",
   "status": "proved",
   "theorems": [
    "N2P2.C32_order"
   ],
   "note": "All types, any permutation of the neighbour list."
  },
  {
   "property": "C33",
   "status": "proved",
   "theorems": [
    "N2P2.C33_gradient"
   ],
   "note": "All types including the compact ones, along arbitrary curves of all atoms; excluded are geometries where the formula is not differentiable (SymFnc.Smooth)."
  },
  {
   "property": "C34",
   "status": "proved",
   "theorems": [
    "N2P2.C34_sum_rule"
   ],
   "note": "All types."
  },
  {
   "property": "C35",
   "status": "partial",
   "theorems": [
    "N2P2.C35_total_force_partial",
    "N2P2.C35_own_images_negated"
   ],
   "note": "proved under NoOwnImages (no atom has an own periodic image within a cutoff); without it the code violates the claim (C35_own_images_negated). Build without symmetry function groups."
  },
  {
   "property": "C36",
   "status": "proved",
   "theorems": [
    "N2P2.C36_far_neighbours"
   ],
   "note": "Value and derivatives depend only on the neighbours closer than the cutoff."
  },
  {
   "property": "C37",
   "status": "proved",
   "theorems": [
    "N2P2.C37_offset_inverse",
    "N2P2.C37_offset_is_sum_over_atoms"
   ],
   "note": "Adding and removing the offset are inverse; the offset is the sum over atoms."
  },
  {
   "property": "C38",
   "status": "proved",
   "theorems": [
    "N2P2.C38_known_properties",
    "N2P2.C38_value_roundtrip",
    "N2P2.C38_structure_energy"
   ],
   "note": "Normalised/physical conversion of the known properties is inverse and agrees with structure conversion."
  },
  {
   "property": "C39",
   "status": "proved",
   "theorems": [
    "N2P2.C39_grid",
    "N2P2.C39_coefficient",
    "N2P2.C39_sum"
   ],
   "note": "KspaceGrid::setup on every non-singular box: finite vectors of the grid are exactly one of each +-k pair with |k| < kCut; coefficients and the reciprocal sum agree with the full sum over the ball."
  },
  {
   "property": "C40",
   "status": "proved",
   "theorems": [
    "N2P2.C40_transparent",
    "N2P2.C40_first_argument_wins"
   ],
   "note": "Every access sequence since a reset returns erfc of the first argument used for that slot, hence erfc of the distance if arguments are consistent; the first argument wins otherwise."
  },
  {
   "property": "C41",
   "status": "proved",
   "theorems": [
    "N2P2.C41_each_structure_once",
    "N2P2.C41_even_shares",
    "N2P2.C41_error_iff",
    "N2P2.C41_random_finishes"
   ],
   "note": "For all numbers of structures and processes and all random draws."
  },
  {
   "property": "C42",
   "status": "proved",
   "theorems": [
    "N2P2.C42_every_displacement_once"
   ],
   "note": "For all numbers of atoms and processes."
  },
  {
   "property": "C43",
   "status": "proved",
   "theorems": [
    "N2P2.C43_statistics",
    "N2P2.C43_mean_sigma",
    "N2P2.C43_energy_error",
    "N2P2.C43_force_error",
    "N2P2.C43_charge_error"
   ],
   "note": "For every partition over ranks and every order; error metrics for energy, force and charge."
  },
  {
   "property": "C44",
   "status": "proved",
   "theorems": [
    "N2P2.C44_standard",
    "N2P2.C44_fading",
    "N2P2.C44_information"
   ],
   "note": "Both filter types; also information form of the covariance update. Matrix arithmetic over the reals."
  },
  {
   "property": "C45",
   "status": "proved",
   "theorems": [
    "N2P2.C45_eta",
    "N2P2.C45_q",
    "N2P2.C45_lambda",
    "N2P2.C45_lambda_limit"
   ],
   "note": "Monotone schedules with the exact overshoot bounds, closed forms, limit."
  },
  {
   "property": "C46",
   "status": "proved",
   "theorems": [
    "N2P2.C46_fixed",
    "N2P2.C46_adam",
    "N2P2.C46_bias_correction"
   ],
   "note": "Fixed step and Adam closed forms for any history."
  },
  {
   "property": "C47",
   "status": "proved",
   "theorems": [
    "N2P2.C47_partition",
    "N2P2.C47_candidates",
    "N2P2.C47_force_once",
    "N2P2.C47_patterns"
   ],
   "note": "Every structure gets a set, candidate lists match the training structures, each force component occurs once, pattern counts agree."
  },
  {
   "property": "C48",
   "status": "proved",
   "theorems": [
    "N2P2.C48_schedule"
   ],
   "note": "Epoch schedule contains each property exactly as often as its count, for every shuffle."
  },
  {
   "property": "C49",
   "status": "proved",
   "theorems": [
    "N2P2.C49_cycle",
    "N2P2.C49_epochs_restart",
    "N2P2.C49_grouped"
   ],
   "note": "Candidates are used cyclically within an epoch. C49_epochs_restart records that the position restarts each epoch, so with less than one full cycle some candidates may stay unused."
  },
  {
   "property": "C50",
   "status": "partial",
   "theorems": [
    "N2P2.C50_above",
    "N2P2.C50_none_above_partial",
    "N2P2.C50_used_is_not_worst",
    "N2P2.C50_zero_trials",
    "N2P2.C50_log_force",
    "N2P2.C50_log_used"
   ],
   "note": "Proved: a candidate above threshold found within the trials is used, otherwise the last tried one. The code does not fall back to the worst candidate tried (C50_used_is_not_worst), zero trials dereference a null pointer, and the log always names atom 0 component 0 for ungrouped forces."
  },
  {
   "property": "C51",
   "status": "proved",
   "theorems": [
    "N2P2.Training.C51_layout",
    "N2P2.Training.C51_connection_helpers",
    "N2P2.Training.C51_offsets_without_hardness",
    "N2P2.Training.C51_get",
    "N2P2.Training.C51_set",
    "N2P2.Training.C51_get_set",
    "N2P2.Training.C51_set_get",
    "N2P2.Training.C51_element"
   ],
   "note": "Slots partition the vector, get and set are inverse, also per element. Limits: hardness entries come back as absolute value; getConnectionOffsets ignores hardness entries."
  },
  {
   "property": "C52",
   "status": "partial",
   "theorems": [
    "N2P2.C52_roundtrip_partial",
    "N2P2.C52_undefined",
    "N2P2.C52_too_long"
   ],
   "note": "Exact size and restoration of all transmitted fields for messages below 2 GiB, assuming that passing an int as size_t has no effect. Under the C++ standard this is undefined (C52_undefined); 2 GiB or more cannot be sent (C52_too_long)."
  },
  {
   "property": "C53",
   "status": "proved",
   "theorems": [
    "N2P2.C53_total_charge",
    "N2P2.C53_stationary",
    "N2P2.C53_minimum",
    "N2P2.C53_succeeds",
    "N2P2.C53_succeeds_periodic"
   ],
   "note": "Clusters and periodic structures. The linear solver is an arbitrary function which solves non-singular systems. Stationarity, uniqueness of the minimum and success are separate theorems."
  },
  {
   "property": "C54",
   "status": "proved",
   "theorems": [
    "N2P2.C54_values",
    "N2P2.C54_derivative",
    "N2P2.C54_length_units"
   ],
   "note": "Values, monotonicity, true derivative, combined routine, change of length units."
  },
  {
   "property": "C55",
   "status": "partial",
   "theorems": [
    "N2P2.C55_strict_weak_order",
    "N2P2.C55_equal_iff_incomparable_partial",
    "N2P2.C55_shift_ignored",
    "N2P2.C55_line_order"
   ],
   "note": "Strict weak order and independence of the order of lines are proved for all types. Equality matches incomparability except for the shift of types 3 and 9, which operator== ignores (counterexample)."
  },
  {
   "property": "C56",
   "status": "partial",
   "theorems": [
    "N2P2.C56_partition",
    "N2P2.C56_element_partial",
    "N2P2.C56_evaluate_partial",
    "N2P2.C56_negative_shift_ignored",
    "N2P2.C56_not_negative_shift",
    "N2P2.C56_not_lambda_zero"
   ],
   "note": "Proved: the groups partition the functions of every element set up from settings, and evaluation in groups (default build) gives the same values, derivatives, energies and forces as without groups for all eleven types, all caches and all environments, at the level of the element and of evaluateNNP. Conditions: shift not negative in types 3 and 9 and lambda not zero with derivatives (without them the claim is false, negations proved), nonzero scaling factor, and equal subtypes for equal radii within types 21 and 24."
  },
  {
   "property": "C57",
   "status": "partial",
   "theorems": [
    "N2P2.C57_cache_transparent_partial",
    "N2P2.C57_mixed_caches_wrong"
   ],
   "note": "Proved for functions that have caches for all of their elements or for none, in any order of evaluation. With a cache for only one element the code reads outside a vector (C57_mixed_caches_wrong)."
  },
  {
   "property": "C58",
   "status": "partial",
   "theorems": [
    "N2P2.C58_roundtrip_partial",
    "N2P2.C58_charged",
    "N2P2.C58_long_comment"
   ],
   "note": "Round trip for every structure with known elements, a comment of at most 1014 characters and, if periodic, neutral with non-singular box; whatever follows in the file. Missing: charged periodic structures cannot be read back (C58_charged) and long comments overflow a buffer (C58_long_comment), both proved as disagreements."
  },
  {
   "property": "C59",
   "status": "partial",
   "theorems": [
    "N2P2.C59_derivatives_scaled_partial",
    "N2P2.C59_derivatives_scaled_too_often"
   ],
   "note": "Partial theorem: an atom without neighbours. False in general, see C59_derivatives_scaled_too_often."
  },
  {
   "property": "C60",
   "status": "partial",
   "theorems": [
    "N2P2.C60_radius_after_parameter_wrong",
    "N2P2.C60_setter_order_partial"
   ],
   "note": "Holds if the parameter is set after the radius; false otherwise (C60_radius_after_parameter_wrong)."
  },
  {
   "property": "C61",
   "status": "partial",
   "theorems": [
    "N2P2.C61_stale_counts_negated",
    "N2P2.C61_new_cutoffs_partial"
   ],
   "note": "False (C61_stale_counts_negated); holds for cutoffs without an old stored count."
  },
  {
   "property": "C62",
   "status": "proved",
   "theorems": [
    "N2P2.C62_standard",
    "N2P2.C62_fading"
   ],
   "note": "Both filter types."
  },
  {
   "property": "C63",
   "status": "partial",
   "theorems": [
    "N2P2.Training.C63_central_differences_partial",
    "N2P2.Training.C63_networks_perturbed"
   ],
   "note": "Proved: values and weight vector. The networks are not restored by the code (C63_networks_perturbed)."
  },
  {
   "property": "C64",
   "status": "proved",
   "theorems": [
    "N2P2.Training.C64_updates_per_epoch",
    "N2P2.Training.C64_no_updates",
    "N2P2.Training.C64_full_batch",
    "N2P2.Training.C64_error_slots"
   ],
   "note": "Limit: a fraction below one global batch gives zero updates (C64_no_updates)."
  },
  {
   "property": "C65",
   "status": "partial",
   "theorems": [
    "N2P2.Training.C65_assembly_partial",
    "N2P2.Training.C65_charge_error_lost"
   ],
   "note": "Proved for all cases using +=. For charges with HDNNP-4G the error is assigned instead of added, so in sum and task mode only the last candidate of a batch counts (C65_charge_error_lost). MPI calls enter as their contract."
  },
  {
   "property": "C66",
   "status": "proved",
   "theorems": [
    "N2P2.Training.C66_energy_jacobian",
    "N2P2.Training.C66_setWeights_sync"
   ],
   "note": "US_COMBINED, networks with one output, no neuron input on a jump or kink."
  },
  {
   "property": "C67",
   "status": "proved",
   "theorems": [
    "N2P2.Training.C67_force_jacobian"
   ],
   "note": "US_COMBINED, networks with one output, no neuron input on a jump or kink."
  },
  {
   "property": "C68",
   "status": "proved",
   "theorems": [
    "N2P2.C68_value",
    "N2P2.C68_all_values",
    "N2P2.C68_collinear_wrong"
   ],
   "note": "All eleven types. The condition on collinear triplets is needed (C68_collinear_wrong)."
  },
  {
   "property": "C69",
   "status": "proved",
   "theorems": [
    "N2P2.C69_written_lines",
    "N2P2.C69_written_contents"
   ],
   "note": "written lines and re-read contents"
  },
  {
   "property": "C70",
   "status": "proved",
   "theorems": [
    "N2P2.C70_statistics"
   ],
   "note": "all reachable networks"
  },
  {
   "property": "C71",
   "status": "proved",
   "theorems": [
    "N2P2.C71_zero",
    "N2P2.C71_scaling",
    "N2P2.C71_fan_in_range",
    "N2P2.C71_nguyen_widrow",
    "N2P2.C71_nguyen_widrow_output",
    "N2P2.C71_precondition"
   ],
   "note": "output layer behaviour of Nguyen-Widrow stated as it is"
  },
  {
   "property": "C72",
   "status": "proved",
   "theorems": [
    "N2P2.C72_documented_columns",
    "N2P2.C72_usable"
   ],
   "note": "For all types: documented columns, indices, configured cutoff/compact functions, validity for evaluation. Order of texts is that of character codes (ASCII); the line number is not modelled."
  },
  {
   "property": "C73",
   "status": "proved",
   "theorems": [
    "N2P2.C73_length_unit"
   ],
   "note": "All types, any positive factor; the cutoff function is configured for the converted radius."
  },
  {
   "property": "C74",
   "status": "proved",
   "theorems": [
    "N2P2.C74_well_defined",
    "N2P2.C74_energy"
   ],
   "note": "build without symmetry function groups; new structure, distinct atoms, no collinear triplets for compact angular functions"
  },
  {
   "property": "C75",
   "status": "partial",
   "theorems": [
    "N2P2.C75_forces_partial",
    "N2P2.C75_forces_cluster",
    "N2P2.C75_own_images_negated",
    "N2P2.C75_forces_exact"
   ],
   "note": "Proved under NoOwnImages and differentiability of the functions at the positions; unconditional for non-periodic structures; violated otherwise (C75_own_images_negated). C75_forces_exact gives the force for every structure: the gradient of the energy in which the atom sees its own images fixed. Build without symmetry function groups."
  },
  {
   "property": "C76",
   "status": "proved",
   "theorems": [
    "N2P2.C76_energy_invariant",
    "N2P2.C76_forces_covariant"
   ],
   "note": "C76_energy_invariant, C76_forces_covariant: for all structures that can be evaluated, also if atoms see own images; forces where the functions are differentiable."
  },
  {
   "property": "C77",
   "status": "proved",
   "theorems": [
    "N2P2.C77_no_torque"
   ],
   "note": "non-periodic structures"
  },
  {
   "property": "C78",
   "status": "partial",
   "theorems": [
    "N2P2.C78_cluster",
    "N2P2.C78_own_images",
    "N2P2.C78_periodic_partial",
    "N2P2.C78_negated"
   ],
   "note": "Proved for clusters, and for periodic cells without own images within the screening radius. The code counts the screening of own images twice (C78_own_images gives the exact error, C78_negated shows it is never zero)."
  },
  {
   "property": "C79",
   "status": "partial",
   "theorems": [
    "N2P2.C79_potential_partial",
    "N2P2.C79_cleared",
    "N2P2.C79_repeated",
    "N2P2.C79_repeated_negated"
   ],
   "note": "Holds for structures without earlier dAdrQ (C79_potential_partial) and for any structure after clearElectrostatics (C79_cleared). A second evaluation without it adds the diagonal once more: C79_repeated, C79_repeated_negated."
  },
  {
   "property": "C80",
   "status": "partial",
   "theorems": [
    "N2P2.C80_energy",
    "N2P2.C80_positions_partial",
    "N2P2.C80_charges",
    "N2P2.C80_succeeds",
    "N2P2.C80_periodic"
   ],
   "note": "Energy formula and charge derivatives, position derivatives for structures without earlier dAdrQ (see C79)."
  },
  {
   "property": "C81",
   "status": "proved",
   "theorems": [
    "N2P2.C81_equilibrium",
    "N2P2.C81_electronegativity",
    "N2P2.C81_reciprocity",
    "N2P2.C81_hardness"
   ],
   "note": "derivatives of the charges in equilibrium; existence of an equilibrium nearby is a hypothesis of the curve, met in the examples"
  },
  {
   "property": "C82",
   "status": "partial",
   "theorems": [
    "N2P2.C82_well_defined",
    "N2P2.C82_energy",
    "N2P2.C82_forces_partial"
   ],
   "note": "Energies, charges and electrostatic forces in full. Total forces: missing are atoms with an own periodic image within a cutoff radius of a symmetry function, which the code leaves out (as C75)."
  },
  {
   "property": "C83",
   "status": "proved",
   "theorems": [
    "N2P2.C83_response"
   ],
   "note": ""
  },
  {
   "property": "C84",
   "status": "partial",
   "theorems": [
    "N2P2.C84_energy",
    "N2P2.C84_forces_partial",
    "N2P2.C84_forces_cluster",
    "N2P2.C84_written"
   ],
   "note": "Energy, reference data and reuse complete; forces need that no atom sees its own periodic images (C75), which always holds for clusters."
  },
  {
   "property": "C85",
   "status": "partial",
   "theorems": [
    "N2P2.Lammps.C85_energy",
    "N2P2.Lammps.C85_forces",
    "N2P2.Lammps.C85_ignored",
    "N2P2.Lammps.C85_atomic_partial",
    "N2P2.Lammps.C85_atomic_ignored",
    "N2P2.Lammps.C85_tags_ignored"
   ],
   "note": "Energies and forces are proved in full. Atomic energies only if no local atom is ignored; C85_atomic_ignored and C85_tags_ignored prove that the code fails otherwise."
  },
  {
   "property": "C86",
   "status": "proved",
   "theorems": [
    "N2P2.Lammps.C86_energy",
    "N2P2.Lammps.C86_forces"
   ],
   "note": "Domains are any selections of images in which each atom is local once and neighbours of local atoms are complete. LAMMPS's own communication is not modelled: netForce states what reverse communication adds up."
  },
  {
   "property": "C87",
   "status": "partial",
   "theorems": [
    "N2P2.C87_weights",
    "N2P2.C87_setup",
    "N2P2.C87_names",
    "N2P2.C87_number_not_checked",
    "N2P2.C87_header",
    "N2P2.C87_hardness_partial",
    "N2P2.C87_hardness_changed"
   ],
   "note": "Weights: complete round trip. Hardness is written with six digits only, so it is restored up to a relative error of 5e-6; the loss and the missing check of the number of values are proved as defects."
  },
  {
   "property": "C88",
   "status": "proved",
   "theorems": [
    "N2P2.C88_file",
    "N2P2.C88_data",
    "N2P2.C88_lines_needed",
    "N2P2.C88_element_not_checked",
    "N2P2.C88_function_not_checked",
    "N2P2.C88_both_wrong",
    "N2P2.C88_empty_line",
    "N2P2.C88_surplus_ignored"
   ],
   "note": "Collection over processes, file and keywords end to end. C88_element_not_checked, C88_function_not_checked, C88_empty_line and C88_surplus_ignored record behaviour which differs from what the checks intend."
  },
  {
   "property": "C89",
   "status": "partial",
   "theorems": [
    "N2P2.C89_mapping",
    "N2P2.C89_default",
    "N2P2.C89_ready",
    "N2P2.C89_pair_coeff",
    "N2P2.C89_last_null",
    "N2P2.C89_accepted",
    "N2P2.C89_too_many",
    "N2P2.C89_blank"
   ],
   "note": "C89_pair_coeff needs that the last type is not NULL; C89_last_null proves that this case is undefined behaviour. C89_too_many proves that more types than elements are refused."
  },
  {
   "property": "C90",
   "status": "partial",
   "theorems": [
    "N2P2.C90_predicted",
    "N2P2.C90_runs",
    "N2P2.C90_ref",
    "N2P2.C90_ref_energies",
    "N2P2.C90_force",
    "N2P2.C90_modes",
    "N2P2.C90_settings",
    "N2P2.C90_some_keywords",
    "N2P2.C90_indented",
    "N2P2.C90_charge"
   ],
   "note": "C90_ref, C90_ref_energies, C90_force: statistics after conversion for all data and distributions; C90_predicted: in mode force the forces predicted afterwards have deviation 1; C90_modes, C90_runs: accepted modes; C90_settings: the new settings file gives the same conversion and the same other answers. Partial because the claim about the settings file is false for incomplete or indented keywords and the charge factor. Negations: C90_some_keywords, C90_indented, C90_charge."
  },
  {
   "property": "C91",
   "status": "proved",
   "theorems": [
    "N2P2.C91_energy",
    "N2P2.C91_forces"
   ],
   "note": "C91_energy: same total and atomic energies, and the structure can be evaluated in the new unit; C91_forces: forces divided by the conversion factor, at positions where the functions are differentiable."
  },
  {
   "property": "C92",
   "status": "proved",
   "theorems": [
    "N2P2.C92_run",
    "N2P2.C92_off",
    "N2P2.C92_negative_limit",
    "N2P2.C92_default_limit",
    "N2P2.C92_too_long"
   ],
   "note": "Messages below 2 GiB (C92_too_long); up to the order of lines within a time step."
  },
  {
   "property": "C93",
   "status": "proved",
   "theorems": [
    "N2P2.C93_distributed",
    "N2P2.C93_written",
    "N2P2.C93_blank_line",
    "N2P2.C93_missing_end"
   ],
   "note": "For files in which every structure stands between begin and end without blank lines; blank lines and a missing end are proved deviations."
  },
  {
   "property": "C94",
   "status": "proved",
   "theorems": [
    "N2P2.C94_selected",
    "N2P2.C94_lines",
    "N2P2.C94_fails",
    "N2P2.C94_interval_count",
    "N2P2.C94_negative_interval",
    "N2P2.C94_ratio_bounds",
    "N2P2.C94_ratio_zero",
    "N2P2.C94_trained"
   ],
   "note": "For positive intervals; zero and negative intervals and ratio 0 are proved deviations."
  },
  {
   "property": "C95",
   "status": "proved",
   "theorems": [
    "N2P2.C95_xyz",
    "N2P2.C95_xyz_unique",
    "N2P2.C95_poscar",
    "N2P2.C95_grouped",
    "N2P2.C95_written"
   ],
   "note": "Structures with fewer than 2^31 atoms; for POSCAR comments of at most 1014 characters. POSCAR files of non-periodic structures are unreadable (last part of C95_poscar)."
  },
  {
   "property": "C96",
   "status": "partial",
   "theorems": [
    "N2P2.C96_jackson",
    "N2P2.C96_fixed_partial",
    "N2P2.C96_optimal_partial",
    "N2P2.C96_history",
    "N2P2.C96_units",
    "N2P2.C96_accepted",
    "N2P2.C96_printed",
    "N2P2.C96_unusable",
    "N2P2.C96_method",
    "N2P2.C96_error_once",
    "N2P2.C96_epsilon"
   ],
   "note": "Proved for four_pi_epsilon 1 in exact arithmetic. The keyword four_pi_epsilon is not used by the code for the estimates (C96_epsilon); some accepted settings cannot be used (C96_unusable, C96_method) and errors are reported once only (C96_error_once)."
  },
  {
   "property": "C97",
   "status": "proved",
   "theorems": [
    "N2P2.C97_report_written",
    "N2P2.C97_epoch_column",
    "N2P2.C97_error_columns",
    "N2P2.C97_comparison_files",
    "N2P2.C97_other_files"
   ],
   "note": "Also proved: an empty set is printed as NaN. The numbers are those of real arithmetic, printed as the abstract number text."
  },
  {
   "property": "C98",
   "status": "partial",
   "theorems": [
    "N2P2.C98_functions_partial",
    "N2P2.C98_other_cutoff",
    "N2P2.C98_ignored_types",
    "N2P2.C98_numbers_ignored"
   ],
   "note": "Holds for radial and narrow angular functions with CT_COS or CT_TANHU and no negative shift. Other cutoff functions give constant values, types 9, 12, 13 are ignored, numbers in the scaling file are not checked (proved)."
  },
  {
   "property": "C99",
   "status": "partial",
   "theorems": [
    "N2P2.C99_networks_partial",
    "N2P2.C99_stale_derivatives",
    "N2P2.C99_too_small",
    "N2P2.C99_no_hidden_layer",
    "N2P2.C99_settings_ignored",
    "N2P2.C99_empty_line"
   ],
   "note": "Holds for hyperbolic tangent in the hidden layers, no normalisation, and if no element has more symmetry functions than the last one. Otherwise stale derivatives or undefined behaviour (proved)."
  },
  {
   "property": "C100",
   "status": "partial",
   "theorems": [
    "N2P2.C100_forces_partial"
   ],
   "note": "Forces of the CabanaMD interface are the negative gradient of its energy along every path, for all settings, networks and neighbour lists. Partial because it needs the conditions of C98 and C99 (cutoff functions cos and tanhu, equal sizes of networks) and lambda different from zero, where the code divides by zero."
  },
  {
   "property": "C101",
   "status": "proved",
   "theorems": [
    "N2P2.C101_sets"
   ],
   "note": "Numbers are real: adding the offsets after subtracting them gives back the same energy. All files can be opened."
  },
  {
   "property": "C102",
   "status": "proved",
   "theorems": [
    "N2P2.C102_symmetry_functions",
    "N2P2.C102_all_counted",
    "N2P2.C102_few_bins",
    "N2P2.C102_neighbours"
   ],
   "note": "Values are bounded by DBL_MAX, at least two bins (fewer are a proved disagreement), different atomic numbers. GSL histograms are modelled by their documentation."
  },
  {
   "property": "C103",
   "status": "proved",
   "theorems": [
    "N2P2.C103_order",
    "N2P2.C103_unsorted",
    "N2P2.C103_energy",
    "N2P2.C103_file"
   ],
   "note": "For structures with at least one atom (without atoms the energy per atom is not a number). The conversion factor of the energy is not zero."
  },
  {
   "property": "C104",
   "status": "partial",
   "theorems": [
    "N2P2.C104_neighbor_file",
    "N2P2.C104_environment",
    "N2P2.C104_refused",
    "N2P2.C104_order_partial",
    "N2P2.C104_images_partial",
    "N2P2.C104_cutoffs",
    "N2P2.C104_not_grouped",
    "N2P2.C104_images"
   ],
   "note": "The order of the manual is proved if neighbours of one element are demanded (C104_order_partial), in general it does not hold (C104_not_grouped). Derivatives are those with respect to the atom if no second image is in reach (C104_images_partial), in general not (C104_images). The rest is proved."
  },
  {
   "property": "C105",
   "status": "proved",
   "theorems": [
    "N2P2.C105_units",
    "N2P2.C105_training",
    "N2P2.C105_files",
    "N2P2.C105_refused",
    "N2P2.C105_twice"
   ],
   "note": "Same real arithmetic as C90; evsv.dat is not modelled."
  },
  {
   "property": "C106",
   "status": "proved",
   "theorems": [
    "N2P2.C106_rows",
    "N2P2.C106_all",
    "N2P2.C106_agreement",
    "N2P2.C106_summary"
   ],
   "note": "nnp-checkf lists analytic and numeric forces of all atoms for any number of processes; they agree in the limit of small displacements"
  },
  {
   "property": "C107",
   "status": "partial",
   "theorems": [
    "N2P2.C107_rdf_partial",
    "N2P2.C107_adf_partial",
    "N2P2.C107_crash",
    "N2P2.C107_cells",
    "N2P2.C107_finite",
    "N2P2.C107_adf_integral",
    "N2P2.C107_coordination",
    "N2P2.C107_coordination_counts",
    "N2P2.C107_coordination_wrong",
    "N2P2.C107_adf_integral_wrong"
   ],
   "note": "radial and angular functions are proved if no distance equals the cutoff radius (otherwise the program ends without files, C107_crash); integral 1 of the angular function and the coordination number are refuted (C107_adf_integral_wrong, C107_coordination_wrong), with exact formulas for both"
  },
  {
   "property": "C108",
   "status": "proved",
   "theorems": [
    "N2P2.C108_files",
    "N2P2.C108_largest",
    "N2P2.C108_shares",
    "N2P2.C108_prune",
    "N2P2.C108_kept",
    "N2P2.C108_range",
    "N2P2.C108_mismatch"
   ],
   "note": "shares are those printed with nine digits; an element without sensitivity has no shares, so its functions are kept (C108_kept)"
  },
  {
   "property": "C109",
   "status": "proved",
   "theorems": [
    "N2P2.C109_dataset"
   ],
   "note": "Every execution of nnp-dataset up to the table of errors; evaluation is a parameter that keeps the given data (C74, C79); predicted structures are readable (hypothesis)."
  },
  {
   "property": "C110",
   "status": "proved",
   "theorems": [
    "N2P2.C110_table",
    "N2P2.C110_created",
    "N2P2.C110_first_epoch"
   ],
   "note": "File of every epoch, for all networks and distributions over processes; epoch 0 after other evaluations counts those too (proved)."
  },
  {
   "property": "C111",
   "status": "partial",
   "theorems": [
    "N2P2.C111_parts",
    "N2P2.C111_files_partial",
    "N2P2.C111_weighted_cubed",
    "N2P2.C111_outside_support",
    "N2P2.C111_header"
   ],
   "note": "Files, distances, angles and parts for all types except the radial part of narrow weighted functions and compact functions outside of their support, where the code is proved to write something else."
  },
  {
   "property": "C112",
   "status": "proved",
   "theorems": [
    "N2P2.C112_total",
    "N2P2.C112_loop",
    "N2P2.C112_reset_exists",
    "N2P2.C112_nonneg"
   ],
   "note": "Total and loop time for all histories of calls."
  },
  {
   "property": "C113",
   "status": "proved",
   "theorems": [
    "N2P2.C113_training",
    "N2P2.C113_units",
    "N2P2.C113_predicted",
    "N2P2.C113_files",
    "N2P2.C113_refused",
    "N2P2.C113_twice"
   ],
   "note": "C113_units: statistics after conversion; C113_predicted: predicted forces in the new units; C113_training: same units as training in mode force; C113_files: the new settings and the backup; C113_refused, C113_twice: refused settings."
  },
  {
   "property": "C114",
   "status": "proved",
   "theorems": [
    "N2P2.C114_compare",
    "N2P2.C114_transfer",
    "N2P2.C114_no_forces",
    "N2P2.C114_select",
    "N2P2.C114_hidden"
   ],
   "note": "Comparison with forces and the selection; two defects (no forces, hidden columns) are proved as separate theorems."
  },
  {
   "property": "C115",
   "status": "proved",
   "theorems": [
    "N2P2.C115_files",
    "N2P2.C115_symmetric",
    "N2P2.C115_decay",
    "N2P2.C115_single"
   ],
   "note": "C115_files: for all updaters and epochs each status file has one line per epoch with the stated columns; C115_symmetric, C115_decay and C115_single on the reported values"
  }
 ]
}
