{
 "claims": [
  {
   "property": "C01",
   "status": "proved",
   "theorems": [
    "Suite.C01_iteration_complete",
    "Suite.C01_each_once"
   ],
   "note": ""
  },
  {
   "property": "C02",
   "status": "partial",
   "theorems": [
    "Suite.C02_later_passes_partial",
    "Suite.C02_second_pass_differs"
   ],
   "note": "The property as stated is false of the code: C02_second_pass_differs gives a suite whose second pass differs. C02_later_passes_partial states the exact behaviour of any number of later passes (all active problems but the first)."
  },
  {
   "property": "C03",
   "status": "proved",
   "theorems": [
    "Suite.C03_decode_encode",
    "Suite.C03_encode_decode"
   ],
   "note": ""
  },
  {
   "property": "C04",
   "status": "partial",
   "theorems": [
    "Suite.C04_get_problem_partial",
    "Suite.C04_out_of_range_is_problem_zero",
    "Suite.C04_out_of_range_not_null"
   ],
   "note": "In-range part proved; the out-of-range part is false of the code: out-of-range indices return problem 0 (C04_out_of_range_is_problem_zero, C04_out_of_range_not_null)."
  },
  {
   "property": "C05",
   "status": "proved",
   "theorems": [
    "Suite.C05_lookup"
   ],
   "note": ""
  },
  {
   "property": "C06",
   "status": "proved",
   "theorems": [
    "Suite.C06_filter_indices",
    "Suite.C06_filter_dimensions",
    "Suite.C06_filter_laws",
    "Suite.C06_filter_effect"
   ],
   "note": ""
  },
  {
   "property": "C07",
   "status": "partial",
   "theorems": [
    "Suite.C07_index_getters_partial",
    "Suite.C07_instance_getter_exact",
    "Suite.C07_instance_getter_wrong"
   ],
   "note": "Function and dimension getters proved; the instance getter returns the function number or reads out of bounds (C07_instance_getter_exact, C07_instance_getter_wrong)."
  },
  {
   "property": "C08",
   "status": "partial",
   "theorems": [
    "Construct.C08_later_ignored_partial",
    "Construct.C08_position_zero",
    "Construct.C08_later_not_ignored"
   ],
   "note": "Holds when neither key starts at position 0 (C08_later_ignored_partial). False of the code otherwise: with a key at position 0 both keys are evaluated and 'instances' wins (C08_position_zero, C08_later_not_ignored)."
  },
  {
   "property": "C09",
   "status": "proved",
   "theorems": [
    "Suite.C09_next_item"
   ],
   "note": ""
  },
  {
   "property": "C10",
   "status": "proved",
   "theorems": [
    "Str.C10_parse_ranges",
    "Str.C10_in_bounds"
   ],
   "note": ""
  },
  {
   "property": "C11",
   "status": "proved",
   "theorems": [
    "Str.C11_parse_ranges_safe",
    "Str.C11_zero_count_overrun"
   ],
   "note": "C11_zero_count_overrun records that a maximal count of 0 is outside the safe range."
  },
  {
   "property": "C12",
   "status": "proved",
   "theorems": [
    "Options.C12_read_string",
    "Options.C12_read_quoted",
    "Options.C12_read_size_t",
    "Options.C12_read_int",
    "Options.C12_read_values",
    "Options.C12_absent",
    "Options.C12_items",
    "Options.C12_substring_misread",
    "Options.C12_empty_value_counts_as_given"
   ],
   "note": "C12_substring_misread and C12_empty_value_counts_as_given record the behaviour outside the hypotheses (a key that is a substring of an earlier key or value; an empty value)."
  },
  {
   "property": "C13",
   "status": "proved",
   "theorems": [
    "Str.C13_strfind"
   ],
   "note": ""
  },
  {
   "property": "C14",
   "status": "proved",
   "theorems": [
    "Options.C14_redundant",
    "Options.C14_none_iff",
    "Options.C14_add"
   ],
   "note": ""
  },
  {
   "property": "C15",
   "status": "proved",
   "theorems": [
    "Options.C15_count_numbers",
    "Options.C15_exactly_max_aborts"
   ],
   "note": "C15_exactly_max_aborts records that exactly max_count numbers abort although they fit."
  },
  {
   "property": "C16",
   "status": "proved",
   "theorems": [
    "Str.C16_split",
    "Str.C16_trim"
   ],
   "note": ""
  },
  {
   "property": "C17",
   "status": "proved",
   "theorems": [
    "Problem.C17_counters"
   ],
   "note": ""
  },
  {
   "property": "C18",
   "status": "proved",
   "theorems": [
    "Problem.C18_best_observed",
    "Problem.C18_never_worse"
   ],
   "note": ""
  },
  {
   "property": "C19",
   "status": "proved",
   "theorems": [
    "Problem.C19_nonfinite"
   ],
   "note": ""
  },
  {
   "property": "C20",
   "status": "proved",
   "theorems": [
    "Problem.C20_final_target",
    "Problem.C20_stays_hit"
   ],
   "note": "Exact sum of best value and delta; target below DBL_MAX."
  },
  {
   "property": "C21",
   "status": "proved",
   "theorems": [
    "Utils.C21_initial_solution",
    "Utils.C21_middle"
   ],
   "note": ""
  },
  {
   "property": "C22",
   "status": "proved",
   "theorems": [
    "Problem.C22_id"
   ],
   "note": "The description in the source also allows '.', which the code rejects; the empty id is accepted."
  },
  {
   "property": "C23",
   "status": "proved",
   "theorems": [
    "Problem.C23_stacked_objectives",
    "Problem.C23_stacked_constraints",
    "Problem.C23_associative",
    "Problem.C23_no_failure"
   ],
   "note": ""
  },
  {
   "property": "C24",
   "status": "proved",
   "theorems": [
    "Problem.C24_is_feasible"
   ],
   "note": ""
  },
  {
   "property": "C25",
   "status": "proved",
   "theorems": [
    "Triggers.C25_log_trigger"
   ],
   "note": "Exact real arithmetic, finite values; number of triggers positive and the computed exponents within int."
  },
  {
   "property": "C26",
   "status": "proved",
   "theorems": [
    "Triggers.C26_lin_trigger"
   ],
   "note": "Exact arithmetic, finite values."
  },
  {
   "property": "C27",
   "status": "proved",
   "theorems": [
    "Triggers.C27_any_numbers",
    "Triggers.C27_unit_steps",
    "Triggers.C27_late"
   ],
   "note": "Exact arithmetic. The option number_evaluation_triggers has no effect in the code: the count is fixed at 20 in coco_observer_evaluations."
  },
  {
   "property": "C28",
   "status": "proved",
   "theorems": [
    "Observer.C28_set",
    "Observer.C28_history"
   ],
   "note": ""
  },
  {
   "property": "C29",
   "status": "partial",
   "theorems": [
    "Observer.C29_inactive",
    "Observer.C29_add_remove_partial",
    "Observer.C29_nested_partial",
    "Observer.C29_names",
    "Observer.C29_not_observed_aborts",
    "Observer.C29_parenthesis"
   ],
   "note": "Proved for observer names without '(' and combined names of at most 441 characters; the last part is false of the code: removal from a problem not observed by the observer stops the process (C29_not_observed_aborts), and an accepted observer name with '(' cannot be removed (C29_parenthesis)."
  },
  {
   "property": "C30",
   "status": "proved",
   "theorems": [
    "MO.C30_dominance",
    "MO.C30_swap",
    "MO.C30_trans",
    "MO.C30_off_grid"
   ],
   "note": ""
  },
  {
   "property": "C31",
   "status": "proved",
   "theorems": [
    "MO.C31_normalize",
    "MO.C31_accuracy"
   ],
   "note": ""
  },
  {
   "property": "C32",
   "status": "proved",
   "theorems": [
    "MO.C32_distance"
   ],
   "note": ""
  },
  {
   "property": "C33",
   "status": "proved",
   "theorems": [
    "Avl.C33_ordered_set",
    "Avl.C33_reports",
    "Avl.C33_depth_fits"
   ],
   "note": ""
  },
  {
   "property": "C34",
   "status": "proved",
   "theorems": [
    "Avl.C34_search"
   ],
   "note": ""
  },
  {
   "property": "C35",
   "status": "proved",
   "theorems": [
    "Archive.C35_content",
    "Archive.C35_result"
   ],
   "note": ""
  },
  {
   "property": "C36",
   "status": "proved",
   "theorems": [
    "Archive.C36_number",
    "Archive.C36_hypervolume"
   ],
   "note": ""
  },
  {
   "property": "C37",
   "status": "proved",
   "theorems": [
    "Archive.C37_iteration"
   ],
   "note": ""
  },
  {
   "property": "C38",
   "status": "proved",
   "theorems": [
    "LoggerBiobj.C38_archive",
    "LoggerBiobj.C38_hypervolume"
   ],
   "note": ""
  },
  {
   "property": "C39",
   "status": "proved",
   "theorems": [
    "LoggerBiobj.C39_feed",
    "LoggerBiobj.C39_largest",
    "LoggerBiobj.C39_tdat"
   ],
   "note": ""
  },
  {
   "property": "C40",
   "status": "proved",
   "theorems": [
    "LoggerRw.C40_log"
   ],
   "note": ""
  },
  {
   "property": "C41",
   "status": "proved",
   "theorems": [
    "LoggerBbob.C41_value",
    "LoggerBbob.C41_dat",
    "LoggerBbob.C41_increasing",
    "LoggerBbob.C41_targets",
    "LoggerBbob.C41_last",
    "LoggerBbob.C41_legal_runs"
   ],
   "note": "Exact arithmetic. The first evaluation is logged without consulting the target trigger, so the targets it reaches can be reached again."
  },
  {
   "property": "C42",
   "status": "proved",
   "theorems": [
    "LoggerBbob.C42_tainted",
    "LoggerBbob.C42_fair"
   ],
   "note": "C42_fair asks that the target trigger is never an error; targetsTrigger_ne_error shows this for the trigger of the observer."
  },
  {
   "property": "C43",
   "status": "proved",
   "theorems": [
    "Random.C43_sequence",
    "Random.C43_range",
    "Random.C43_one",
    "Random.C43_zero"
   ],
   "note": "For every monotone rounding that keeps 0, 1 and 2. C43_one refutes the documented [0,1): seed 835344883 yields exactly 1; C43_zero: seed 965395927 yields 0, of which coco_random_normal takes the logarithm."
  },
  {
   "property": "C44",
   "status": "proved",
   "theorems": [
    "Legacy.C44_generator",
    "Legacy.C44_range",
    "Legacy.C44_degenerate",
    "Legacy.C44_large"
   ],
   "note": "Seeds of absolute value below 2^31*127773; beyond that C44_large shows undefined behaviour. Multiples of 2^31-1 degenerate to 1e-99 (C44_degenerate)."
  },
  {
   "property": "C45",
   "status": "proved",
   "theorems": [
    "Legacy.C45_xopt",
    "Legacy.C45_sbox",
    "Legacy.C45_fopt"
   ],
   "note": "Exact arithmetic; seeds in the range of C44, function numbers below 10000, instances up to 10^10."
  },
  {
   "property": "C46",
   "status": "proved",
   "theorems": [
    "Noise.C46_range",
    "Noise.C46_reset"
   ],
   "note": ""
  },
  {
   "property": "C47",
   "status": "proved",
   "theorems": [
    "Noise.C47_limit",
    "Noise.C47_optimum",
    "Noise.C47_penalty"
   ],
   "note": "Exact real arithmetic."
  },
  {
   "property": "C48",
   "status": "proved",
   "theorems": [
    "FileSystem.C48_directory",
    "FileSystem.C48_filename",
    "FileSystem.C48_candidates_distinct",
    "FileSystem.C48_trailing_separator"
   ],
   "note": "Paths of at most 436 characters (numbers are appended in the 444-byte buffer of coco_strdupf). The names end at -9998, not -9999 as documented. C48_trailing_separator: a path with trailing separator gets its numbered directory inside the existing one."
  },
  {
   "property": "C49",
   "status": "proved",
   "theorems": [
    "Permutation.C49_from_sequence",
    "Permutation.C49_random",
    "Permutation.C49_truncated",
    "Permutation.C49_small",
    "Permutation.C49_largescale",
    "Permutation.C49_zero_range"
   ],
   "note": "Exact arithmetic; at most n swaps, swap range positive. C49_zero_range: with swap range 0 memory is freed twice."
  },
  {
   "property": "C50",
   "status": "proved",
   "theorems": [
    "Permutation.C50_forward",
    "Permutation.C50_inverse",
    "Permutation.C50_inverse_of_forward",
    "Permutation.C50_forward_of_inverse"
   ],
   "note": ""
  },
  {
   "property": "C51",
   "status": "proved",
   "theorems": [
    "Rotation.C51_sizes",
    "Rotation.C51_maps",
    "Rotation.C51_blocks",
    "Rotation.C51_apply",
    "Rotation.C51_zero"
   ],
   "note": ""
  },
  {
   "property": "C52",
   "status": "proved",
   "theorems": [
    "Transform.C52_penalize",
    "Transform.C52_boundary"
   ],
   "note": "Exact real arithmetic; the box is not empty."
  },
  {
   "property": "C53",
   "status": "proved",
   "theorems": [
    "Box.C53_boxed"
   ],
   "note": "Exact sum in the assertion. The file comment announces NaN outside the box; the code returns infinity."
  },
  {
   "property": "C54",
   "status": "proved",
   "theorems": [
    "Transform.C54_transformations",
    "Transform.C54_negative_factor",
    "Transform.C54_factor_zero",
    "Transform.C54_not_orthogonal",
    "Transform.C54_tolerance",
    "Transform.C54_norm_by_dim",
    "Transform.C54_conditioning"
   ],
   "note": "Exact real arithmetic, finite points. C54_negative_factor, C54_factor_zero, C54_not_orthogonal, C54_tolerance, C54_norm_by_dim and C54_conditioning show that each condition is needed; the last four are recorded optima that become wrong (or evaluations that abort) in the code."
  },
  {
   "property": "C55",
   "status": "proved",
   "theorems": [
    "Discretize.C55_discretised",
    "Discretize.C55_optimum",
    "Discretize.C55_negative_bounds"
   ],
   "note": "Exact real arithmetic; integer bounds from 0 on (C55_negative_bounds: the creation stops for the bounds -1 and 0)."
  },
  {
   "property": "C56",
   "status": "proved",
   "theorems": [
    "Discretize.C56_cardinalities",
    "Discretize.C56_problem"
   ],
   "note": "Exact real arithmetic for the problem part."
  },
  {
   "property": "C57",
   "status": "proved",
   "theorems": [
    "Transform.C57_oscillation",
    "Transform.C57_asymmetry",
    "Transform.C57_large_parameter"
   ],
   "note": "Exact real arithmetic. The asymmetry map is strictly increasing for parameters up to 7 (0.2 and 0.5 are used); C57_large_parameter refutes it for 100."
  },
  {
   "property": "C58",
   "status": "proved",
   "theorems": [
    "Construct.C58_years_parse",
    "Construct.C58_bbob_rejects",
    "Construct.C58_others_reject",
    "Construct.C58_bbob_latest",
    "Construct.C58_others"
   ],
   "note": ""
  },
  {
   "property": "C59",
   "status": "proved",
   "theorems": [
    "Biobj.C59_original",
    "Biobj.C59_original_unique",
    "Biobj.C59_extended",
    "Biobj.C59_numbers"
   ],
   "note": "The square root formula is over the reals; the table and the formula are checked for the whole finite range by kernel evaluation after the square root was eliminated for all arguments."
  },
  {
   "property": "C60",
   "status": "proved",
   "theorems": [
    "Biobj.C60_instances",
    "Biobj.C60_delivered",
    "Biobj.C60_saved",
    "Biobj.C60_second_call_undefined"
   ],
   "note": "The consistency checks are an arbitrary relation that may also stop the process (the actual one in C92). C60_second_call_undefined: a second call with the same instance variable uses freed memory (no caller does it)."
  },
  {
   "property": "C61",
   "status": "proved",
   "theorems": [
    "Biobj.C61_best_value",
    "Biobj.C61_not_default"
   ],
   "note": "C61_not_default: for an unknown key the last line is returned, although the warning names the default."
  },
  {
   "property": "C62",
   "status": "proved",
   "theorems": [
    "Constrained.C62_counts",
    "Constrained.C62_gradients",
    "Constrained.C62_number",
    "Constrained.C62_internal_error"
   ],
   "note": "Exact real arithmetic, arbitrary random numbers. C62_internal_error: the error of the disguise is reachable when a product lies in the neglected interval. C62_gradients also shows that inactive constraints reuse the random gradients of active ones (the ternary that numbers them is always the active number)."
  },
  {
   "property": "C63",
   "status": "proved",
   "theorems": [
    "Constrained.C63_feasible"
   ],
   "note": "Exact real arithmetic. The inverse of the nonlinear transformations applied to the initial solution (brentq) is not part of this statement."
  },
  {
   "property": "C64",
   "status": "proved",
   "theorems": [
    "Constrained.C64_kkt",
    "Constrained.C64_optimal",
    "Constrained.C64_neglected"
   ],
   "note": "Exact real arithmetic. C64_neglected: because products in (0, 1e-11] are neglected, slightly better points than the origin can satisfy the constraints."
  },
  {
   "property": "C65",
   "status": "proved",
   "theorems": [
    "Constrained.C65_length"
   ],
   "note": "Exact real arithmetic."
  },
  {
   "property": "C66",
   "status": "proved",
   "theorems": [
    "Construct.C66_read_values",
    "Construct.C66_read_absent",
    "Construct.C66_options_select"
   ],
   "note": ""
  },
  {
   "property": "C67",
   "status": "proved",
   "theorems": [
    "Construct.C67_default_suites"
   ],
   "note": ""
  },
  {
   "property": "C68",
   "status": "partial",
   "theorems": [
    "Utils.C68_to_int_partial",
    "Utils.C68_out_of_range",
    "Utils.C68_negative_wrong"
   ],
   "note": "Proved for numbers from -1/2 on (C68_to_int_partial) and for the range check; false of the code for negative numbers (C68_negative_wrong)."
  },
  {
   "property": "C69",
   "status": "proved",
   "theorems": [
    "Triggers.C69_unique",
    "Triggers.C69_exact",
    "Utils.C69_round_up",
    "Utils.C69_multiple_unchanged"
   ],
   "note": ""
  },
  {
   "property": "C70",
   "status": "partial",
   "theorems": [
    "Observer.C70_strdupf_partial",
    "Observer.C70_overflow"
   ],
   "note": "Proved up to 443 characters; C70_overflow shows the buffer overrun for longer texts."
  },
  {
   "property": "C71",
   "status": "proved",
   "theorems": [
    "Observer.C71_given",
    "Observer.C71_ranges",
    "Observer.C71_defaults",
    "Observer.C71_negative_targets"
   ],
   "note": ""
  },
  {
   "property": "C72",
   "status": "proved",
   "theorems": [
    "LoggerBiobj.C72_value",
    "LoggerBiobj.C72_monotone"
   ],
   "note": ""
  },
  {
   "property": "C73",
   "status": "proved",
   "theorems": [
    "LoggerBiobj.C73_all",
    "LoggerBiobj.C73_final"
   ],
   "note": ""
  },
  {
   "property": "C74",
   "status": "proved",
   "theorems": [
    "LoggerBiobj.C74_restarts",
    "LoggerBiobj.C74_dat",
    "LoggerBiobj.C74_last"
   ],
   "note": ""
  },
  {
   "property": "C75",
   "status": "partial",
   "theorems": [
    "LoggerRw.C75_logged_values",
    "LoggerRw.C75_options_partial",
    "LoggerRw.C75_empty_value_undefined"
   ],
   "note": "Proved when every key is absent or given with a value (C75_options_partial); false of the code for a key without value at the end of the options (C75_empty_value_undefined)."
  },
  {
   "property": "C76",
   "status": "proved",
   "theorems": [
    "Triggers.C76_targets",
    "Triggers.C76_linear_only"
   ],
   "note": "Exact arithmetic, finite values; hypotheses of C25 and C26."
  },
  {
   "property": "C77",
   "status": "proved",
   "theorems": [
    "LoggerBbob.C77_tdat",
    "LoggerBbob.C77_tdat_unconstrained",
    "LoggerBbob.C77_last",
    "LoggerBbob.C77_rdat"
   ],
   "note": ""
  },
  {
   "property": "C78",
   "status": "partial",
   "theorems": [
    "LoggerBbob.C78_mdat",
    "LoggerBbob.C78_other_files",
    "LoggerBbob.C78_only_recommendations"
   ],
   "note": "Lines of the file and the other files proved; freeing after recommendations without evaluations is undefined (C78_only_recommendations)."
  },
  {
   "property": "C79",
   "status": "proved",
   "theorems": [
    "LoggerBbob.C79_digit",
    "LoggerBbob.C79_special"
   ],
   "note": ""
  },
  {
   "property": "C80",
   "status": "proved",
   "theorems": [
    "LoggerBiobj.C80_recommendations",
    "LoggerBiobj.C80_only_recommendations"
   ],
   "note": ""
  },
  {
   "property": "C81",
   "status": "proved",
   "theorems": [
    "FileSystem.C81_create",
    "FileSystem.C81_trailing",
    "FileSystem.C81_file_in_the_way"
   ],
   "note": "POSIX behaviour of mkdir; no ancestor of the form 'C:'. C81_file_in_the_way shows the stop."
  },
  {
   "property": "C82",
   "status": "partial",
   "theorems": [
    "FileSystem.C82_joined_partial",
    "FileSystem.C82_bounded",
    "FileSystem.C82_single",
    "FileSystem.C82_truncated"
   ],
   "note": "Exact when the joined path fits with one character to spare (C82_joined_partial), never overruns (C82_bounded), exact or stop for one component (C82_single); false of the code for several components: C82_truncated shows silent truncation."
  },
  {
   "property": "C83",
   "status": "proved",
   "theorems": [
    "Rotation.C83_rotation",
    "Rotation.C83_too_large"
   ],
   "note": "Exact real arithmetic; for a singular random matrix C divides by zero."
  },
  {
   "property": "C84",
   "status": "proved",
   "theorems": [
    "Rotation.C84_orthogonal",
    "Rotation.C84_accepted",
    "Rotation.C84_rejected"
   ],
   "note": "Exact real arithmetic; regular random matrices."
  },
  {
   "property": "C85",
   "status": "proved",
   "theorems": [
    "Bbob.C85_optimum",
    "Bbob.C85_unknown",
    "Bbob.C85_too_large"
   ],
   "note": "Exact real arithmetic; function 20 is excluded (its recorded best parameter is only approximate, see the next property). Regularity of the random matrices is a hypothesis for the functions with rotation matrices; shown for one seed."
  },
  {
   "property": "C86",
   "status": "proved",
   "theorems": [
    "Bbob.C86_schwefel"
   ],
   "note": "Exact real arithmetic."
  },
  {
   "property": "C87",
   "status": "proved",
   "theorems": [
    "LargeScale.C87_optimum",
    "LargeScale.C87_schwefel",
    "LargeScale.C87_unknown"
   ],
   "note": "Exact real arithmetic; function 20 up to 1e-13 (C87_schwefel). Regularity of the random matrices of the blocks is a hypothesis for the functions with rotations; shown for one seed. Function 24 needs fewer than 3000 variables (assertion in the random number code)."
  },
  {
   "property": "C88",
   "status": "proved",
   "theorems": [
    "Mixint.C88_mixint",
    "Mixint.C88_schwefel",
    "Mixint.C88_error",
    "Mixint.C88_dimension_45"
   ],
   "note": "Exact real arithmetic; function 20 up to 1e-14 (C88_schwefel). C88_dimension_45: the switch to the large-scale functions is at 50 but the rotation matrices of the bbob suite end at 44, so dimension 45 (not in the default suite) stops the process."
  },
  {
   "property": "C89",
   "status": "proved",
   "theorems": [
    "Boxed.C89_boxed",
    "Boxed.C89_schwefel",
    "Boxed.C89_unknown"
   ],
   "note": "Exact real arithmetic; function 20 up to 1e-13 (C89_schwefel). Points with NaN or infinite coordinates are treated by C53."
  },
  {
   "property": "C90",
   "status": "proved",
   "theorems": [
    "Noisy.C90_noisy",
    "Noisy.C90_shared",
    "Noisy.C90_noiseless",
    "Noisy.C90_unknown"
   ],
   "note": ""
  },
  {
   "property": "C91",
   "status": "proved",
   "theorems": [
    "ConsSuite.C91_optimum",
    "ConsSuite.C91_created",
    "ConsSuite.C91_unknown",
    "ConsSuite.C91_abort"
   ],
   "note": "Exact real arithmetic; random numbers of the constraints arbitrary. C91_abort: the qualification about neglected products is necessary, for the first function evaluation aborts at feasible points of the region of interest."
  },
  {
   "property": "C92",
   "status": "proved",
   "theorems": [
    "BiobjSuite.C92_points",
    "BiobjSuite.C92_apart",
    "BiobjSuite.C92_no_new_instances"
   ],
   "note": "Exact real arithmetic. C92_no_new_instances: with the default dimensions of bbob-biobj-mixint (up to 160) every instance beyond 15 stops the process. C92_apart is about the problems that are created; no concrete new instance is evaluated in Lean."
  },
  {
   "property": "C93",
   "status": "proved",
   "theorems": [
    "BiobjSuite.C93_points",
    "BiobjSuite.C93_error",
    "BiobjSuite.C93_dimension_45"
   ],
   "note": "Exact real arithmetic; the factors and tolerances as in C88."
  },
  {
   "property": "C94",
   "status": "proved",
   "theorems": [
    "Watched.C94_transparent",
    "Watched.C94_bbob",
    "Watched.C94_bbob_stops",
    "Watched.C94_mark_not_seen"
   ],
   "note": "Constraint evaluations are compared for problems with constraints (without constraints the library stops in coco_evaluate_constraint unless observed and given a non-finite point). The clock and the files of the loggers are not part of this model (see C26-C42, C68-C80)."
  },
  {
   "property": "C95",
   "status": "partial",
   "theorems": [
    "Watched.C95_getters",
    "Watched.C95_no_effect_partial",
    "Watched.C95_recommendation_is_evaluation",
    "Watched.C95_counted"
   ],
   "note": "The observed problem's counters never change (C95_getters); with toy and rw observers nothing changes (C95_no_effect_partial). False for the problem under a bbob or bbob-biobj observer: a recommended solution is evaluated and counted there (C95_recommendation_is_evaluation, C95_counted)."
  },
  {
   "property": "C96",
   "status": "proved",
   "theorems": [
    "Lifecycle.C96_safe",
    "Lifecycle.C96_any_order",
    "Lifecycle.C96_one_at_a_time",
    "Lifecycle.C96_iteration",
    "Lifecycle.C96_remove",
    "Lifecycle.C96_no_leak",
    "Lifecycle.C96_rules_needed"
   ],
   "note": "Memory inside an object (vectors, strings, trees of the loggers) is not modelled, only whole objects, the suite's name in the bbob logger and the log file of the toy observer. C96_rules_needed shows what happens when the rules are broken."
  },
  {
   "property": "C97",
   "status": "proved",
   "theorems": [
    "AvlPtr.C97_memory",
    "AvlPtr.C97_search"
   ],
   "note": ""
  },
  {
   "property": "C98",
   "status": "proved",
   "theorems": [
    "Brent.C98_root_finder",
    "Brent.C98_inverse",
    "Brent.C98_transformations",
    "Brent.C98_created"
   ],
   "note": ""
  },
  {
   "property": "C99",
   "status": "proved",
   "theorems": [
    "InfoFile.C99_index",
    "InfoFile.C99_no_stop",
    "InfoFile.C99_append_only",
    "InfoFile.C99_two_suites"
   ],
   "note": ""
  },
  {
   "property": "C100",
   "status": "proved",
   "theorems": [
    "BiobjFiles.C100_folder",
    "BiobjFiles.C100_separate",
    "BiobjFiles.C100_append_only",
    "BiobjFiles.C100_recurring",
    "BiobjFiles.C100_two_suites"
   ],
   "note": ""
  },
  {
   "property": "C101",
   "status": "partial",
   "theorems": [
    "OptionKeys.C101_keys_partial",
    "OptionKeys.C101_warning_partial",
    "OptionKeys.C101_known_fit",
    "OptionKeys.C101_observer_partial",
    "OptionKeys.C101_documented_partial",
    "OptionKeys.C101_additional",
    "OptionKeys.C101_long_stops",
    "OptionKeys.C101_percent",
    "OptionKeys.C101_only_quotes",
    "OptionKeys.C101_safe",
    "OptionKeys.C101_eighty_instances",
    "OptionKeys.C101_empty_quotes",
    "OptionKeys.C101_line_end"
   ],
   "note": "Proved for option strings with less than 220 characters before the first quotation mark, without '%' there and without empty quoted texts (C101_keys_partial, C101_warning_partial, C101_observer_partial); false of the code otherwise: C101_long_stops, C101_percent, C101_only_quotes, C101_empty_quotes, C101_line_end."
  },
  {
   "property": "C102",
   "status": "partial",
   "theorems": [
    "Memory.C102_balanced",
    "Memory.C102_plain",
    "Memory.C102_owned",
    "Memory.C102_observer",
    "Memory.C102_sequence",
    "Memory.C102_defined",
    "Memory.C102_biobj_partial",
    "Memory.C102_biobj_leaks"
   ],
   "note": "Proved for all single-objective problems, constrained or not, with any observers, and for bi-objective problems without observers; false for bi-objective problems with observers, where exactly one vector is lost per observer (C102_biobj_partial, C102_biobj_leaks). Temporaries of helper functions and of evaluations, and the data of the bi-objective logger, are not modelled."
  },
  {
   "property": "C103",
   "status": "partial",
   "theorems": [
    "Identity.C103_texts_partial",
    "Identity.C103_rotated_rastrigin",
    "Identity.C103_characters",
    "Identity.C103_unique_partial",
    "Identity.C103_toy_duplicates",
    "Identity.C103_wide_duplicates",
    "Identity.C103_observers_partial",
    "Identity.C103_observers_space",
    "Identity.C103_observers_overrun",
    "Identity.C103_unknown",
    "Identity.C103_biobj_observable",
    "Identity.C103_biobj_mixint_observable"
   ],
   "note": "Ids and names proved for all problems; the types for all but the constrained problems with the rotated Rastrigin function, which get the type of a separable function (C103_rotated_rastrigin). Equal ids are equal problems below dimension 1000 outside the toy suite (C103_toy_duplicates, C103_wide_duplicates). Observers fail or overrun the buffer when the name exceeds 441 characters (C103_observers_space, C103_observers_overrun)."
  },
  {
   "property": "C104",
   "status": "partial",
   "theorems": [
    "OldFiles.C104_folder_partial",
    "OldFiles.C104_five_dimensions",
    "OldFiles.C104_single_pass",
    "OldFiles.C104_seventh_dimension",
    "OldFiles.C104_six_dimensions",
    "OldFiles.C104_glued",
    "OldFiles.C104_two_folders"
   ],
   "note": "Proved for one observer in a process with at most five dimensions in any order (C104_five_dimensions) or six one after the other (C104_single_pass, with exact headings); a block may then start without a new line only if a dimension comes back. False otherwise: a seventh dimension, or six in a certain order, is written outside the array (C104_seventh_dimension, C104_six_dimensions), a returning dimension glues its heading to the entry before (C104_glued), and with two observers an entry gets into the block of another dimension (C104_two_folders)."
  },
  {
   "property": "C105",
   "status": "proved",
   "theorems": [
    "LoggerOld.C105_same_lines",
    "LoggerOld.C105_dat",
    "LoggerOld.C105_targets",
    "LoggerOld.C105_tdat",
    "LoggerOld.C105_last",
    "LoggerOld.C105_runs",
    "LoggerOld.C105_unknown_optimum"
   ],
   "note": ""
  },
  {
   "property": "C106",
   "status": "partial",
   "theorems": [
    "BiobjItems.C106_held_partial",
    "BiobjItems.C106_released_partial",
    "BiobjItems.C106_infeasible_kept"
   ],
   "note": "No use after release and no double release for all sequences of calls, and complete release if all solutions are feasible (C106_held_partial, C106_released_partial). False with infeasible solutions: their memory is never released (C106_infeasible_kept); no problem in the shipped suites for two objectives has constraints."
  },
  {
   "property": "C107",
   "status": "partial",
   "theorems": [
    "RemoveDir.C107_removed_partial",
    "RemoveDir.C107_inside_partial",
    "RemoveDir.C107_absent",
    "RemoveDir.C107_file",
    "RemoveDir.C107_link_followed",
    "RemoveDir.C107_long"
   ],
   "note": "Proved for directories without symbolic links that lead to directories (C107_removed_partial, C107_inside_partial), for paths that lead to no directory (C107_absent) and for files (C107_file). False otherwise: a link to a directory is followed and the content of that directory deleted although it lies outside (C107_link_followed), and a path longer than 443 characters overruns a buffer (C107_long)."
  },
  {
   "property": "C108",
   "status": "partial",
   "theorems": [
    "ConsSuite.C108_transformations",
    "ConsSuite.C108_objective_partial",
    "ConsSuite.C108_different_powers",
    "ConsSuite.C108_linear_slope_outside",
    "ConsSuite.C108_scaled"
   ],
   "note": "False for the sum of different powers: its gradient is the derivative divided by the function value (C108_different_powers), a positive multiple away from the optimum, which is what is proved there. False for the linear slope beyond its best parameter (C108_linear_slope_outside); proved inside the region of interest. Transformations without a gradient of their own hand on the inner gradient (C108_scaled); they are not used in these suites. Rotated types: dimension at most 44 and a regular random matrix, as in C91."
  },
  {
   "property": "C109",
   "status": "partial",
   "theorems": [
    "LoggerToy.C109_file_partial",
    "LoggerToy.C109_lines_unique",
    "LoggerToy.C109_infinite",
    "LoggerToy.C109_interleaved"
   ],
   "note": "Proved for problems that are observed, used and freed one after the other, with finite values and 1 to 1000000 targets per power of ten (C109_file_partial, C109_lines_unique). False otherwise: an infinite value, as given outside the box by the suite sbox-cost, leads to an undefined conversion (C109_infinite), and lines of problems observed at the same time can not be told apart (C109_interleaved)."
  },
  {
   "property": "C110",
   "status": "proved",
   "theorems": [
    "ArchiveItems.C110_memory",
    "ArchiveItems.C110_free",
    "ArchiveItems.C110_text",
    "ArchiveItems.C110_dangling"
   ],
   "note": ""
  },
  {
   "property": "C111",
   "status": "partial",
   "theorems": [
    "ObserverMake.C111_single_partial",
    "ObserverMake.C111_old_partial",
    "ObserverMake.C111_rw_partial",
    "ObserverMake.C111_toy_partial",
    "ObserverMake.C111_null",
    "ObserverMake.C111_unknown",
    "ObserverMake.C111_no_value",
    "ObserverMake.C111_fresh"
   ],
   "note": "The settings hold for keys given in the documented form with values that fit the buffers (a key without value at the end is undefined: C111_no_value) and paths of at most 436 characters; for unknown names NULL is returned but a folder is created (C111_unknown). The freshness of the folders (C111_fresh) holds without restrictions. Two texts of one path count as different paths."
  },
  {
   "property": "C112",
   "status": "partial",
   "theorems": [
    "ObserverMake.C112_biobj_partial"
   ],
   "note": "Holds for keys given in the documented form; the restrictions are those of C111."
  },
  {
   "property": "C113",
   "status": "partial",
   "theorems": [
    "Restart.C113_lines_partial",
    "Restart.C113_silent",
    "Restart.C113_wrong_logger",
    "Restart.C113_confused"
   ],
   "note": "proved for signals to the observer added last (any observers below it); false otherwise: a signal to an observer below another one of the same kind is recorded by the wrong one (C113_wrong_logger), and below one of another kind or on an unobserved problem it is undefined behaviour or a failed assertion (C113_confused)"
  },
  {
   "property": "C114",
   "status": "partial",
   "theorems": [
    "Random.C114_normal_partial",
    "Random.C114_infinite"
   ],
   "note": "reproducibility and the bound are proved whenever the first of the two uniform numbers is not 0; finiteness of all numbers is false (C114_infinite: seed 965395927). Logarithm, root and cosine are those of the reals"
  },
  {
   "property": "C115",
   "status": "partial",
   "theorems": [
    "Noise.C115_apart_partial",
    "Noise.C115_history",
    "Noise.C115_interference"
   ],
   "note": "proved for schedules in which the other problems draw from no stream used by the problem and do not reset the seeds; false in general, since the seeds are global (C115_interference); C115_history says through which numbers a value depends on the history"
  },
  {
   "property": "C116",
   "status": "partial",
   "theorems": [
    "Tainted.C116_refused_partial",
    "Tainted.C116_fair",
    "Tainted.C116_printed",
    "Tainted.C116_asked",
    "Tainted.C116_removed",
    "Tainted.C116_covered",
    "Tainted.C116_others"
   ],
   "note": "refusal is proved for bbob observers that are outermost when the optimum is asked for or added later, as long as no observer present at that time is removed; fairness (no refusal without asking) is proved in full. The rest is false: the mark is lost with the observer (C116_removed), not seen by a bbob observer below another one (C116_covered), ignored by other observers (C116_others) and not set by printing the optimum (C116_printed)"
  },
  {
   "property": "C117",
   "status": "partial",
   "theorems": [
    "Crash.C117_order",
    "Crash.C117_bbob_partial",
    "Crash.C117_bbob_freed",
    "Crash.C117_info_lost",
    "Crash.C117_out",
    "Crash.C117_adat",
    "Crash.C117_biobj_lost",
    "Crash.C117_biobj_freed"
   ],
   "note": "the order is proved for all programs; completeness for the data files of bbob and bbob-old to which a line was written, for rw and toy after an evaluation, for the archive of the bi-objective observer after an update, and for all files after the problem was freed or after exit. The rest is false: the info file of bbob (C117_info_lost) and the performance files of the bi-objective observer (C117_biobj_lost) are not flushed before the problem is freed"
  },
  {
   "property": "C118",
   "status": "partial",
   "theorems": [
    "Experiment.C118_budget_partial",
    "Experiment.C118_random",
    "Experiment.C118_constraints_endless",
    "Experiment.C118_constraints_error"
   ],
   "note": "proved for problems without constraints, for every algorithm that keeps to its budget; false with constraints (C118_constraints_endless, C118_constraints_error)"
  },
  {
   "property": "C119",
   "status": "partial",
   "theorems": [
    "Search.C119_grid_partial",
    "Search.C119_complete",
    "Search.C119_binary",
    "Search.C119_mixed",
    "Search.C119_random_in_box"
   ],
   "note": "proved: budget, no repetition and membership in the grid for all problems, the whole grid for problems without integer variables (exact root of the budget), the random search. That the grid search covers the grid is false with integer variables (C119_binary, C119_mixed)"
  },
  {
   "property": "C120",
   "status": "partial",
   "theorems": [
    "Timing.C120_table_partial",
    "Timing.C120_wrong_dimension",
    "Timing.C120_clock"
   ],
   "note": "lines, order, evaluations, memory and total time are proved; the seconds of a line are those from the end of the first problem of a dimension to the end of the first problem of the next, so the claim about them is false (C120_wrong_dimension)"
  },
  {
   "property": "C121",
   "status": "proved",
   "theorems": [
    "PyBatch.C121_batches",
    "PyBatch.C121_partition",
    "PyBatch.C121_arguments"
   ],
   "note": ""
  },
  {
   "property": "C122",
   "status": "proved",
   "theorems": [
    "PyRepeat.C122_rounds",
    "PyRepeat.C122_trials",
    "PyRepeat.C122_one_sweep"
   ],
   "note": ""
  },
  {
   "property": "C123",
   "status": "proved",
   "theorems": [
    "PyNonAnytime.C123_record",
    "PyNonAnytime.C123_delivered",
    "PyNonAnytime.C123_equal_budget"
   ],
   "note": ""
  },
  {
   "property": "C124",
   "status": "partial",
   "theorems": [
    "RustWrapper.C124_safe_partial",
    "RustWrapper.C124_no_leak",
    "RustWrapper.C124_dropped_observer"
   ],
   "note": "The full statement is false: a `Problem` does not borrow the observers on it, so safe Rust accepts a program that drops an observer and evaluates the problem afterwards, which uses a closed file or fails an assertion (C124_dropped_observer). Proved for all programs that evaluate problems only while the observers on them are there; the statement about memory holds for the same programs."
  },
  {
   "property": "C125",
   "status": "partial",
   "theorems": [
    "PyObjects.C125_safe_partial",
    "PyObjects.C125_exceptions",
    "PyObjects.C125_no_leak",
    "PyObjects.C125_collected_suite",
    "PyObjects.C125_freed"
   ],
   "note": "Under three rules that the interface does not state; without them the statement is false (C125_collected_suite: a Problem object does not refer to its Suite, so that Suite(...).get_problem(0, observer) leaves a pointer to a freed suite; C125_freed)."
  },
  {
   "property": "C126",
   "status": "proved",
   "theorems": [
    "PySuite.C126_content",
    "PySuite.C126_calls",
    "PySuite.C126_loop",
    "PySuite.C126_nested",
    "PySuite.C126_ids",
    "PySuite.C126_triple",
    "PySuite.C126_toy_triple",
    "PySuite.C126_id"
   ],
   "note": ""
  },
  {
   "property": "C127",
   "status": "partial",
   "theorems": [
    "PyOptions.C127_update",
    "PyOptions.C127_update_gracefully",
    "PyOptions.C127_text",
    "PyOptions.C127_as_string",
    "PyOptions.C127_read_partial",
    "PyOptions.C127_read_number_partial",
    "PyOptions.C127_read_quoted_partial",
    "PyOptions.C127_final_u",
    "PyOptions.C127_quotes_lost",
    "PyOptions.C127_apostrophe_comma"
   ],
   "note": "Proved for texts without blanks that do not end with u, numbers, and with as_string for texts in double quotation marks; the full statement is false (C127_final_u, C127_quotes_lost, C127_apostrophe_comma)."
  },
  {
   "property": "C128",
   "status": "proved",
   "theorems": [
    "PyArgs.C128_accept",
    "PyArgs.C128_values",
    "PyArgs.C128_order",
    "PyArgs.C128_abbreviation",
    "PyArgs.C128_hidden_name",
    "PyArgs.C128_any_name",
    "PyArgs.C128_batch",
    "PyArgs.C128_batch_order",
    "PyArgs.C128_other_special"
   ],
   "note": ""
  },
  {
   "property": "C129",
   "status": "partial",
   "theorems": [
    "JavaObjects.C129_safe_partial",
    "JavaObjects.C129_sweep",
    "JavaObjects.C129_no_leak",
    "JavaObjects.C129_leak",
    "JavaObjects.C129_undefined"
   ],
   "note": "Under rules that neither the compiler nor the interface checks; without them the statement is false (C129_undefined: a problem used after the next one was fetched or after finalizeBenchmark, a suite finalized twice, an array shorter than the dimension; C129_leak: problems of getProblemByFuncDimInst cannot be freed)."
  },
  {
   "property": "C130",
   "status": "proved",
   "theorems": [
    "PyProposal.C130_calls",
    "PyProposal.C130_first",
    "PyProposal.C130_domain",
    "PyProposal.C130_density",
    "PyProposal.C130_bbob",
    "PyProposal.C130_different"
   ],
   "note": ""
  },
  {
   "property": "C131",
   "status": "partial",
   "theorems": [
    "Interfaces.C131_python",
    "Interfaces.C131_matlab",
    "Interfaces.C131_rust",
    "Interfaces.C131_long_enough_partial",
    "Interfaces.C131_short",
    "Interfaces.C131_pointer",
    "Interfaces.C131_overflow"
   ],
   "note": "Proved for Problem in Python, for points in Matlab and for Rust; for BareProblem and Java only for points that are long enough, without refusing longer ones; the full statement is false (C131_short, C131_overflow)."
  },
  {
   "property": "C132",
   "status": "partial",
   "theorems": [
    "Messages.C132_c",
    "Messages.C132_matlab_partial",
    "Messages.C132_matlab_wrong",
    "Messages.C132_folder"
   ],
   "note": "Proved for the C runtime, for the Matlab runtime for messages of less than 500 characters without percent signs; the full statement is false for Matlab (C132_matlab_wrong, C132_folder)."
  },
  {
   "property": "C133",
   "status": "proved",
   "theorems": [
    "SameFunction.C133_answers",
    "SameFunction.C133_every_text",
    "SameFunction.C133_problems",
    "SameFunction.C133_suite",
    "SameFunction.C133_loop"
   ],
   "note": ""
  },
  {
   "property": "C134",
   "status": "partial",
   "theorems": [
    "ShortInfo.C134_text_partial",
    "ShortInfo.C134_table_partial",
    "ShortInfo.C134_quiet",
    "ShortInfo.C134_width",
    "ShortInfo.C134_no_run",
    "ShortInfo.C134_example_wrong",
    "ShortInfo.C134_empty_batch"
   ],
   "note": "Text and table proved for experiments that call the object before each problem and have a run for every function and an evaluation for every dimension. Missing, because it is false: the example experiment never calls the object, so its table has one line for dimension 0 (C134_example_wrong); an empty batch raises an exception (C134_empty_batch), as does a change of function without a run (C134_no_run)."
  },
  {
   "property": "C135",
   "status": "partial",
   "theorems": [
    "PySearch.C135_inside",
    "PySearch.C135_budget_partial",
    "PySearch.C135_best_partial",
    "PySearch.C135_some",
    "PySearch.C135_several",
    "PySearch.C135_constrained_partial",
    "PySearch.C135_twice",
    "PySearch.C135_wrong_point"
   ],
   "note": "Proved without constraints; with constraints whether a point is returned (C135_some), the best point if all points are feasible, and bounds for the number of evaluations. Missing, because it is false with constraints: exactly the budget (C135_twice), and the best feasible point (C135_wrong_point: the index of the list of feasible values is used for the list of all points)."
  },
  {
   "property": "C136",
   "status": "partial",
   "theorems": [
    "ExampleLoops.C136_optimize_partial",
    "ExampleLoops.C136_one_more",
    "ExampleLoops.C136_idle",
    "ExampleLoops.C136_experiment2_partial",
    "ExampleLoops.C136_experiment2",
    "ExampleLoops.C136_experiment2_endless",
    "ExampleLoops.C136_matlab",
    "ExampleLoops.C136_matlab_twice"
   ],
   "note": "Proved for Matlab; for coco_optimize with one evaluation more than the budget; for example_experiment2 for algorithms that evaluate something in each run. Missing, because it is false: coco_optimize exceeds its budget by one (C136_one_more) and does not stop after a run without evaluations (C136_idle), and the loop of example_experiment2 does not end then (C136_experiment2_endless)."
  },
  {
   "property": "C137",
   "status": "proved",
   "theorems": [
    "MiniPrint.C137_read",
    "MiniPrint.C137_lines",
    "MiniPrint.C137_full",
    "MiniPrint.C137_texts",
    "MiniPrint.C137_sweeps",
    "MiniPrint.C137_heading"
   ],
   "note": ""
  },
  {
   "property": "C138",
   "status": "partial",
   "theorems": [
    "JavaTiming.C138_table_partial",
    "JavaTiming.C138_every_evaluation",
    "JavaTiming.C138_wrong_dimension",
    "JavaTiming.C138_clock"
   ],
   "note": "lines, order, evaluations and total time are proved; the time of a line is that from the end of the first problem of a dimension to the end of the first problem of the next, so the claim about it is false (C138_wrong_dimension)"
  },
  {
   "property": "C139",
   "status": "partial",
   "theorems": [
    "PySettings.C139_round_trip_partial",
    "PySettings.C139_identity",
    "PySettings.C139_nothing_overwritten",
    "PySettings.C139_missing",
    "PySettings.C139_unreadable"
   ],
   "note": "proved for dictionaries whose recorded keys are literals (names of variables are); for other keys the file written cannot be read (C139_unreadable)"
  },
  {
   "property": "C140",
   "status": "partial",
   "theorems": [
    "PyRepeatProposal.C140_trials",
    "PyRepeatProposal.C140_proposal_partial",
    "PyRepeatProposal.C140_one_in_each_round",
    "PyRepeatProposal.C140_zeros",
    "PyRepeatProposal.C140_negative"
   ],
   "note": "proved for odds that are not negative; negative odds do not give the documented random proposals (C140_negative)"
  },
  {
   "property": "C141",
   "status": "proved",
   "theorems": [
    "MexGateway.C141_wrappers",
    "MexGateway.C141_wrong_number",
    "MexGateway.C141_unknown"
   ],
   "note": ""
  },
  {
   "property": "C142",
   "status": "partial",
   "theorems": [
    "PyClock.C142_exact",
    "PyClock.C142_near_partial",
    "PyClock.C142_wrong"
   ],
   "note": "proved for exact arithmetic, and up to one second for doubles; the exact statement is false for doubles (C142_wrong: the documented example)"
  },
  {
   "property": "C143",
   "status": "proved",
   "theorems": [
    "PyMedian.C143_median",
    "PyMedian.C143_lines"
   ],
   "note": ""
  }
 ]
}