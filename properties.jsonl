{"id": "C01", "title": "Suite iteration visits every active problem exactly once, in order", "statement": "Starting from a freshly created suite, successive coco_suite_get_next_problem() calls return, in lexicographic order of (dimension position, function position, instance position), exactly the problems whose dimension, function and instance entries are not filtered out, each once, and then NULL.", "quantifier": "every suite size (numbers of functions, dimensions, instances) and every filtering of the three arrays that leaves at least one entry active in each", "why_tests_cant": "The three nested cursors with filtered holes have unboundedly many shapes; tests only run the built-in suites with a few option strings.", "anchors": ["src/coco_suite.c: coco_suite_get_next_problem, coco_suite_is_next_item_found, coco_suite_is_next_instance_found, coco_suite_is_next_function_found, coco_suite_is_next_dimension_found, coco_suite"]}
{"id": "C02", "title": "A second pass over an exhausted suite repeats the first pass", "statement": "After coco_suite_get_next_problem() has returned NULL, continuing to call it enumerates the same sequence of problems again. (The code does not do this: it repeats the sequence without its first problem. The exact behaviour is proved and the claim is refuted.)", "quantifier": "every suite and every filtering with at least one active entry per array; every number of passes", "why_tests_cant": "Needs the cursor state after arbitrarily many passes over arbitrarily filtered arrays.", "anchors": ["src/coco_suite.c: coco_suite_get_next_problem, coco_suite_is_next_item_found"]}
{"id": "C03", "title": "Problem index encoding is a bijection", "statement": "coco_suite_encode_problem_index() and coco_suite_decode_problem_index() are inverse to each other between index triples in range and the integers 0 .. number_of_problems-1; encoded indices are exactly the numbers below coco_suite_get_number_of_problems().", "quantifier": "every suite size with at least one function, dimension and instance, every in-range triple and every in-range index", "why_tests_cant": "Universal arithmetic statement over all suite sizes.", "anchors": ["src/coco_suite.c: coco_suite_encode_problem_index, coco_suite_decode_problem_index, coco_suite_get_number_of_problems"]}
{"id": "C04", "title": "coco_suite_get_problem returns the problem with the requested index, or NULL", "statement": "coco_suite_get_problem(suite, k) returns NULL when the entry of any of the three coordinates of k is filtered out, otherwise a problem whose function/dimension/instance are the decoded ones; for k beyond the last index it returns no problem. (The out-of-range part is false of the code: problem 0 is returned after a warning; refuted.)", "quantifier": "every suite, every filtering, every index", "why_tests_cant": "All indices and filterings; the out-of-range branch only warns, which a return-value test on in-range indices cannot see.", "anchors": ["src/coco_suite.c: coco_suite_get_problem, coco_suite_get_problem_from_indices, coco_suite_decode_problem_index"]}
{"id": "C05", "title": "Lookup by function, dimension and instance number", "statement": "coco_suite_get_problem_by_function_dimension_instance(f,d,i) with positive f,d,i returns a problem iff f, d, i all occur (unfiltered) in the suite, and the returned problem carries exactly these numbers; otherwise NULL.", "quantifier": "every suite, filtering and triple of numbers", "why_tests_cant": "Ranges over all array contents, including repeated instance numbers and filtered entries.", "anchors": ["src/coco_suite.c: coco_suite_get_problem_by_function_dimension_instance"]}
{"id": "C06", "title": "Index filters keep exactly the listed entries", "statement": "After applying function_indices / instance_indices / dimension_indices (1-based, 0-terminated) or a dimensions list, an entry of the suite array is unchanged if it is listed and 0 otherwise; filters never resurrect an entry, are idempotent and commute.", "quantifier": "every array, every index list", "why_tests_cant": "Quantifies over all lists and arrays.", "anchors": ["src/coco_suite.c: coco_suite_filter_indices, coco_suite_filter_dimensions"]}
{"id": "C07", "title": "Index getters return the number stored at that position", "statement": "coco_suite_get_function/dimension/instance_from_*_index(suite, idx) return the function number, dimension, instance number at position idx. (False for instances: the code reads the functions array; refuted with a witness, including an out-of-bounds read.)", "quantifier": "every suite and every in-range index", "why_tests_cant": "Copy/paste error is invisible on suites whose instance and function numbers agree at the tested positions.", "anchors": ["src/coco_suite.c: coco_suite_get_function_from_function_index, coco_suite_get_dimension_from_dimension_index, coco_suite_get_instance_from_instance_index"]}
{"id": "C08", "title": "When both 'year' and 'instances' are given, the later one is ignored", "statement": "In the suite instance string, if both keys year and instances appear, the one that appears later is ignored. (False when the first key starts at position 0: then 'instances' always wins; refuted, and the exact rule is proved.)", "quantifier": "every instance string, every position of the two keys", "why_tests_cant": "Depends on string positions (>0 versus >=0); the boundary is one of unboundedly many positions.", "anchors": ["src/coco_suite.c: coco_suite_get_instance_indices"]}
{"id": "C09", "title": "Advancing a cursor over a filtered array terminates and never lands on a filtered entry", "statement": "Advancing the position inside a suite array either moves to the next non-filtered position after the current one, or, if there is none, wraps to the first non-filtered position and reports exhaustion; it aborts with an error iff every entry is filtered. It never reads outside the array.", "quantifier": "every array and every current position", "why_tests_cant": "All arrays, all positions.", "anchors": ["src/coco_suite.c: coco_suite_is_next_item_found"]}
{"id": "C10", "title": "Range strings denote exactly the listed numbers, clipped to the allowed interval", "statement": "coco_string_parse_ranges(s,min,max) for a well-formed comma-separated list of items n, n-m, -m, n-, - returns, in order, the concatenation of the numbers each item denotes intersected with [min,max]; every returned number lies in [min,max].", "quantifier": "every list of well-formed items, all bounds, all numbers (result below the maximum count)", "why_tests_cant": "Unbounded inputs; combination of five formats, clipping and truncation.", "anchors": ["src/coco_string.c: coco_string_parse_ranges"]}
{"id": "C11", "title": "Range parsing never overruns its result buffer", "statement": "For every input string, coco_string_parse_ranges writes at most max_count numbers plus a terminating 0 into the buffer of max_count+1 entries, and the returned list contains no 0 before the terminator when min >= 1.", "quantifier": "every input string, every max_count, every bound", "why_tests_cant": "Memory-safety over all strings.", "anchors": ["src/coco_string.c: coco_string_parse_ranges"]}
{"id": "C12", "title": "Option reading returns the value written for the key", "statement": "If an option string is a sequence of 'key: value' items, no key is a substring of an earlier part of the string, then reading key k returns the value of the item of k, and reading an absent key (not a substring of the string) returns 'not found'. In general the first textual occurrence of the name is taken, so a name contained in an earlier key or value is misread (refutation).", "quantifier": "every option string built from key/value items", "why_tests_cant": "Quantifies over all strings.", "anchors": ["src/coco_utilities.c: coco_options_read, coco_options_read_string, coco_options_read_int", "src/coco_string.c: coco_strfind"]}
{"id": "C13", "title": "Substring search returns the leftmost occurrence", "statement": "coco_strfind(s,t) returns the smallest index at which t occurs in s, and -1 iff t does not occur in s.", "quantifier": "every pair of strings (t non-empty)", "why_tests_cant": "All strings.", "anchors": ["src/coco_string.c: coco_strfind"]}
{"id": "C14", "title": "Unknown options are exactly the ones reported", "statement": "The redundant-key computation returns exactly those given keys that are not among the known keys, in order, and reports nothing iff every given key is known; merging key sets yields the concatenation.", "quantifier": "every list of given and known keys", "why_tests_cant": "All key lists.", "anchors": ["src/coco_utilities.c: coco_option_keys_get_redundant, coco_option_keys_add"]}
{"id": "C15", "title": "Counting a 0-terminated list returns the number of entries before the first 0, or aborts at the limit", "statement": "coco_count_numbers(list,max) returns n iff the first 0 is at position n < max, and aborts iff there is no 0 among the first max entries. Together with range parsing: exactly max_count instances abort suite creation even though parsing accepts them (refutation of 'up to COCO_MAX_INSTANCES instances are supported').", "quantifier": "every list and limit", "why_tests_cant": "Boundary of an unbounded quantity.", "anchors": ["src/coco_utilities.c: coco_count_numbers", "src/coco_suite.c: coco_suite_get_instance_indices", "src/coco_string.c: coco_string_parse_ranges"]}
{"id": "C16", "title": "Trimming and splitting strings", "statement": "coco_string_trim removes exactly the maximal leading and trailing whitespace; coco_string_split returns the non-empty maximal delimiter-free pieces in order, and joining them back contains no delimiter inside a piece.", "quantifier": "every string and delimiter", "why_tests_cant": "All strings.", "anchors": ["src/coco_string.c: coco_string_trim, coco_string_split, coco_remove_from_string"]}
{"id": "C17", "title": "Evaluation counters count exactly the finite-argument evaluations", "statement": "After any sequence of evaluate/constraint/recommend/getter calls on a problem, coco_problem_get_evaluations equals the number of coco_evaluate_function calls whose argument contained neither NaN nor infinity, and coco_problem_get_evaluations_constraints the number of such coco_evaluate_constraint calls.", "quantifier": "every history of API calls", "why_tests_cant": "All histories.", "anchors": ["src/coco_problem.c: coco_evaluate_function, coco_evaluate_constraint_optional_update, coco_problem_get_evaluations, coco_problem_get_evaluations_constraints"]}
{"id": "C18", "title": "Best observed value is the minimum over feasible evaluated solutions", "statement": "After any history the best observed objective value is the minimum of DBL_MAX and the first-objective values of all counted evaluations that were feasible, it never increases, and the recorded evaluation number is that of the first evaluation attaining it.", "quantifier": "every history of evaluations, including infeasible, NaN- and infinity-valued ones", "why_tests_cant": "All histories; NaN comparisons.", "anchors": ["src/coco_problem.c: coco_evaluate_function, coco_problem_get_best_observed_fvalue1"]}
{"id": "C19", "title": "Non-finite arguments yield non-finite results and have no effect", "statement": "Evaluating a point with a NaN or infinite coordinate leaves counters, best value and inner function untouched and returns, in every objective, |inf| if some coordinate is infinite, else NaN.", "quantifier": "every problem state and argument vector", "why_tests_cant": "All vectors and positions of the special values.", "anchors": ["src/coco_problem.c: coco_evaluate_function, coco_evaluate_constraint_optional_update", "src/coco_utilities.c: coco_vector_contains_nan, coco_vector_contains_inf"]}
{"id": "C20", "title": "The final target is reported hit iff it was reached", "statement": "coco_problem_final_target_hit returns 1 iff some counted feasible evaluation had value at most best value + final target delta (single-objective problem with known best value), and once 1 stays 1.", "quantifier": "every history of evaluations", "why_tests_cant": "All histories.", "anchors": ["src/coco_problem.c: coco_problem_final_target_hit"]}
{"id": "C21", "title": "The default initial solution lies in the region of interest and is integral where required", "statement": "coco_problem_get_initial_solution returns the stored initial solution, or a point inside the region of interest whose first number_of_integer_variables coordinates are integers, provided the bounds of integer variables are integers.", "quantifier": "every region of interest and integer count", "why_tests_cant": "All bounds; rounding boundary.", "anchors": ["src/coco_problem.c: coco_problem_get_initial_solution"]}
{"id": "C22", "title": "Problem ids are accepted iff they are words over the safe alphabet", "statement": "coco_problem_id_is_fine(id) holds iff every character of id is in [A-Za-z0-9_-] (the empty id is accepted; the dot, which the description allows, is not).", "quantifier": "every string", "why_tests_cant": "All strings.", "anchors": ["src/coco_problem.c: coco_problem_id_is_fine"]}
{"id": "C23", "title": "Stacked problems concatenate objectives and constraints", "statement": "Evaluating a stacked problem returns the objectives (constraints) of the first problem followed by those of the second at the same point; the number of objectives and constraints is the sum; nesting is associative in its observable values.", "quantifier": "every pair (tree) of problems and every point", "why_tests_cant": "All trees of problems.", "anchors": ["src/coco_problem.c: coco_problem_stacked_evaluate_function, coco_problem_stacked_evaluate_constraint, coco_problem_stacked_allocate"]}
{"id": "C24", "title": "Feasibility check", "statement": "coco_is_feasible(x) is 1 iff all coordinates of x are finite and (there are no constraints or every constraint value is <= 0, NaN counting as violation-free comparison result as in the code); checking feasibility does not count a constraint evaluation.", "quantifier": "every problem, every point, all constraint values including NaN and infinities", "why_tests_cant": "All values; special values.", "anchors": ["src/coco_utilities.c: coco_is_feasible"]}
{"id": "C25", "title": "Log-scale target trigger fires exactly when a new target is reached", "statement": "Feeding a sequence of precision values to the log-target trigger fires at a value iff that value reaches a target on the grid 10^(-k/n) strictly better than every target reached by earlier values; the recorded target never gets worse, each target triggers at most once, and values at or below the precision floor are handled as the lowest target.", "quantifier": "every sequence of values", "why_tests_cant": "All histories of function values.", "anchors": ["src/coco_observer.c: coco_observer_log_targets_trigger"]}
{"id": "C26", "title": "Linear target trigger fires exactly on a new multiple of the precision", "statement": "The linear-target trigger fires iff the value reaches a smaller multiple of the precision than all earlier values did.", "quantifier": "every sequence of values and every positive precision", "why_tests_cant": "All histories.", "anchors": ["src/coco_observer.c: coco_observer_lin_targets_trigger"]}
{"id": "C27", "title": "Evaluation-number trigger under unit steps", "statement": "If the evaluation trigger is consulted once for every evaluation number 1,2,3,..., it fires exactly at the numbers floor(10^(k/20)) and at base*dimension*10^j for the configured base numbers (increasing list starting at 1).", "quantifier": "every number of evaluations, every dimension and base list", "why_tests_cant": "Unbounded evaluation counts.", "anchors": ["src/coco_observer.c: coco_observer_evaluations_trigger_first, coco_observer_evaluations_trigger_second, coco_observer_evaluations_trigger"]}
{"id": "C28", "title": "Setting the log level returns the previous level", "statement": "coco_set_log_level returns the level in force before the call, changes it only for a known level name, and leaves it unchanged for an empty string; messages are printed iff their level is within the current one.", "quantifier": "every sequence of calls", "why_tests_cant": "All call sequences.", "anchors": ["src/coco_utilities.c: coco_set_log_level, coco_log_level"]}
{"id": "C29", "title": "Adding and removing an observer are inverse", "statement": "coco_problem_add_observer with a NULL or inactive observer returns the problem unchanged; otherwise removing the observer again gives back the original problem, and removal from a problem not observed by it leaves the problem unchanged.", "quantifier": "every problem and observer, every nesting of observers", "why_tests_cant": "All nestings.", "anchors": ["src/coco_observer.c: coco_problem_add_observer, coco_problem_remove_observer"]}
{"id": "C30", "title": "Dominance code agrees with Pareto dominance", "statement": "On grid-normalised objective vectors mo_get_dominance returns 1 / -1 / 0 / -2 exactly when the first dominates the second / is dominated / they are incomparable / equal; it is antisymmetric under argument swap and dominance is transitive.", "quantifier": "every pair/triple of vectors on the normalisation grid, every number of objectives", "why_tests_cant": "All vectors.", "anchors": ["src/mo_utilities.c: mo_get_dominance"]}
{"id": "C31", "title": "Normalisation never beats the ideal point or the extreme solutions", "statement": "Normalised vectors have non-negative coordinates on the grid, and if one coordinate is 0 the other is at least 1 (no normalised point other than the extremes weakly dominates them).", "quantifier": "every objective vector, ideal and nadir with ideal < nadir", "why_tests_cant": "All real vectors.", "anchors": ["src/mo_utilities.c: mo_normalize"]}
{"id": "C32", "title": "Distance to the region of interest", "statement": "mo_get_distance_to_ROI is 0 iff the point is within [0,1]^2, positive otherwise, and equals the Euclidean distance to [0,1]^2 (on grid points with non-negative coordinates).", "quantifier": "every grid point", "why_tests_cant": "All points.", "anchors": ["src/mo_utilities.c: mo_get_distance_to_ROI, mo_is_within_ROI"]}
{"id": "C33", "title": "The AVL tree is a correct ordered set under any sequence of inserts and deletes", "statement": "After any sequence of insertions and deletions the tree is a balanced (heights differ by at most one, stored depths correct) binary search tree whose in-order sequence is the sorted sequence of inserted-and-not-deleted items; inserting an item equal to a stored one changes nothing and reports it.", "quantifier": "every sequence of operations, every size, every total order", "why_tests_cant": "Unbounded sequences of rotations.", "anchors": ["src/mo_avl_tree.c: avl_node_insert, avl_item_insert, avl_node_unlink, avl_item_delete, avl_rebalance, avl_item_search"]}
{"id": "C34", "title": "AVL neighbour search", "statement": "avl_item_search_right returns the stored item with the largest key not above that of x, reporting whether it is an exact match, or NULL when every stored key is larger; avl_item_search returns the stored item equal to x, or NULL when there is none.", "quantifier": "every tree and every key", "why_tests_cant": "All trees.", "anchors": ["src/mo_avl_tree.c: avl_search_rightish, avl_search_rightmost_equal, avl_item_search_right, avl_item_search"]}
{"id": "C35", "title": "The archive contains exactly the non-dominated solutions", "statement": "After adding any sequence of solutions, the archive consists of exactly the non-dominated ones among the given solutions (within the region of interest) and the two extremes, one representative (the first) per objective vector; coco_archive_add_solution returns 1 iff the solution is kept.", "quantifier": "every sequence of solutions", "why_tests_cant": "All histories.", "anchors": ["src/coco_archive.c: coco_archive_add_solution"]}
{"id": "C36", "title": "Archive size and hypervolume are those of its current content", "statement": "coco_archive_get_number_of_solutions returns the number of stored solutions and coco_archive_get_hypervolume the area of the region of [0,1]^2 dominated by them (staircase area), for any interleaving of additions and queries.", "quantifier": "every history of additions and queries", "why_tests_cant": "All histories; lazily updated caches.", "anchors": ["src/coco_archive.c: coco_archive_update, coco_archive_get_hypervolume, coco_archive_get_number_of_solutions"]}
{"id": "C37", "title": "Archive iteration returns every solution exactly once", "statement": "After an accepted addition, repeated coco_archive_get_next_solution_text calls return the first extreme, the second extreme, then every other stored solution exactly once, then the empty string.", "quantifier": "every archive content, every number of calls", "why_tests_cant": "All archive contents.", "anchors": ["src/coco_archive.c: coco_archive_get_next_solution_text"]}
{"id": "C38", "title": "The incrementally maintained hypervolume indicator equals the recomputed one", "statement": "The bi-objective logger's indicator value after any sequence of evaluated solutions equals the hypervolume of its current non-dominated set (recomputed from scratch), and its archive is the non-dominated set of the solutions seen.", "quantifier": "every sequence of solutions", "why_tests_cant": "All histories; incremental add/subtract of contributions.", "anchors": ["src/logger_biobj.c: logger_biobj_tree_update"]}
{"id": "C39", "title": "Feeding solutions requires strictly increasing evaluation numbers", "statement": "coco_logger_biobj_feed_solution accepts a solution iff its evaluation number is larger than all numbers fed before and otherwise aborts; every evaluation-number trigger between consecutive fed solutions is logged once.", "quantifier": "every sequence of feeds", "why_tests_cant": "All histories.", "anchors": ["src/logger_biobj.c: coco_logger_biobj_feed_solution"]}
{"id": "C40", "title": "The rw logger writes a line for exactly the first evaluation and every improvement", "statement": "With log_only_better on a single-objective problem, the log contains exactly one line for the first evaluation and one for each evaluation strictly better than all before (in order); without it, one line per evaluation.", "quantifier": "every sequence of function values", "why_tests_cant": "All histories.", "anchors": ["src/logger_rw.c: logger_rw_evaluate"]}
{"id": "C41", "title": "The bbob logger's .dat file contains the first evaluation, every target-hitting evaluation and the last", "statement": "Lines of the .dat file are in strictly increasing evaluation number; the first evaluation is present, the last is present after the problem is freed, and every further line is caused by the target trigger firing on the best feasible value.", "quantifier": "every sequence of evaluations", "why_tests_cant": "All histories.", "anchors": ["src/logger_bbob.c: logger_bbob_evaluate, logger_bbob_free"]}
{"id": "C42", "title": "The bbob logger refuses problems whose optimum was revealed", "statement": "After coco_problem_get_best_parameter has been called on a problem observed by the bbob observer, evaluating that observed problem aborts; without such a call no evaluation aborts for this reason. (Removing the observer and several observers: C116.)", "quantifier": "every history of calls", "why_tests_cant": "All histories.", "anchors": ["src/logger_bbob.c: logger_bbob_evaluate", "src/coco_problem.c: coco_problem_get_best_parameter"]}
{"id": "C43", "title": "Uniform random numbers lie in [0,1] and are determined by the seed", "statement": "The numbers drawn depend on the seed only: they are the lagged Fibonacci sequence started with it, wherever the blocks of 607 numbers end; every number is in [0,1]. (The documented half-open [0,1) is false: the first number for seed 835344883 is exactly 1.)", "quantifier": "every seed and every number of draws", "why_tests_cant": "2^32 seeds, unbounded draws.", "anchors": ["src/coco_random.c: coco_random_new, coco_random_generate, coco_random_uniform"]}
{"id": "C44", "title": "The legacy uniform generator stays in bounds and in (0,1)", "statement": "bbob2009_unif(r,N,seed) never indexes its 32-entry table out of bounds, no intermediate leaves the range of the generator, and all results lie strictly between 0 and 1, for every seed in a stated range; a seed multiple of 2^31-1 degenerates.", "quantifier": "every seed in the range and every N", "why_tests_cant": "All seeds, unbounded N.", "anchors": ["src/suite_bbob_legacy_code.c: bbob2009_unif"]}
{"id": "C45", "title": "Optimal solutions and offsets of bbob problems lie in the documented ranges", "statement": "bbob2009_compute_xopt yields coordinates in [-4,4), never 0; the sbox variant in [-5,5), never 0; bbob2009_compute_fopt is in [-1000,1000] and a multiple of 0.01.", "quantifier": "every seed, dimension, function and instance", "why_tests_cant": "All seeds and dimensions.", "anchors": ["src/suite_bbob_legacy_code.c: bbob2009_compute_xopt, sbox_cost_compute_xopt, bbob2009_compute_fopt"]}
{"id": "C46", "title": "Noise seeds stay in their valid range", "statement": "For any interleaving of noise draws the two global seeds stay in [1,10^9], so every draw uses a non-degenerate seed; resetting restores the initial streams.", "quantifier": "every interleaving of draws and resets", "why_tests_cant": "All call histories, wrap-around only after 10^9 draws.", "anchors": ["src/suite_bbob_noisy_utilities.c: increase_random_n_seed, increase_random_seed, coco_reset_seeds"]}
{"id": "C47", "title": "Noise never improves on the optimum", "statement": "For all noise models and all draws the noisy value is at least the optimal value whenever the noise-free value is, and for the Cauchy model at least the noise-free value; the noise-free value is recorded.", "quantifier": "every point, every draw", "why_tests_cant": "All draws.", "anchors": ["src/transform_obj_gaussian_noise.c", "src/transform_obj_uniform_noise.c", "src/transform_obj_cauchy_noise.c"]}
{"id": "C48", "title": "Unique names are never those of existing files", "statement": "coco_create_unique_filename / coco_create_unique_directory return a name that did not exist before, the first free one among name, name-0001, ..., name-9998, and abort iff all of these exist.", "quantifier": "every initial file system content and base name", "why_tests_cant": "All file system states.", "anchors": ["src/coco_utilities.c: coco_create_unique_filename, coco_create_unique_directory"]}
{"id": "C49", "title": "Generated permutations are permutations", "statement": "The random permutation, the permutation from a sequence and the truncated-uniform-swap permutation contain every index 0..n-1 exactly once, for all random numbers drawn, and swap indices stay in bounds.", "quantifier": "every dimension, every sequence of random numbers in [0,1)", "why_tests_cant": "All dimensions and draws.", "anchors": ["src/transform_vars_permutation_helpers.c"]}
{"id": "C50", "title": "Permutation transformations: forward and inverse cancel", "statement": "Evaluating through the permutation followed by its inverse equals evaluating the inner problem at the original point.", "quantifier": "every permutation and point", "why_tests_cant": "All dimensions.", "anchors": ["src/transform_vars_permutation.c"]}
{"id": "C51", "title": "Block sizes partition the dimension", "statement": "The block sizes are positive, at most the requested block size, sum to the dimension; the row maps assign to every row its block, and block-rotation multiplication equals multiplication by the full block-diagonal matrix.", "quantifier": "every dimension and block size", "why_tests_cant": "All dimensions.", "anchors": ["src/transform_vars_blockrotation_helpers.c: coco_get_block_sizes, coco_allocate_blockmatrix", "src/transform_vars_blockrotation.c"]}
{"id": "C52", "title": "Box penalties vanish exactly inside the box", "statement": "The boundary penalty is non-negative and 0 iff the point is inside the region of interest; penalised values are at least the inner value and equal to it inside.", "quantifier": "every point, bounds, factor", "why_tests_cant": "All points.", "anchors": ["src/transform_obj_penalize.c", "src/suite_bbob_noisy_utilities.c: coco_boundary_handling"]}
{"id": "C53", "title": "Boxed problems return infinity exactly outside the box and do not evaluate there", "statement": "A boxed problem returns infinity iff some coordinate is outside the region of interest, in which case the inner function is not called; inside it returns the inner value.", "quantifier": "every point", "why_tests_cant": "All points.", "anchors": ["src/transform_vars_enforce_box.c"]}
{"id": "C54", "title": "Transformations keep the recorded optimum correct", "statement": "In any chain of transformations of a problem (objective shift, scaling by a non-negative factor, positive power, oscillation, penalty; variable shift, scaling by a non-zero factor, orthogonal affine map, sign changes; and, while the optimum is at 0, any linear map, conditioning, oscillation or asymmetry): if the best value is attained at the best parameter and is a global minimum of the innermost problem, the same holds for the best parameter and best value recorded in the outermost problem, and no evaluation fails an assertion. An affine map must find its optimum and offset either exactly 0 or with a coordinate of at least 1e-9.", "quantifier": "every inner problem and every offset/factor/matrix, any composition chain", "why_tests_cant": "All chains of transformations.", "anchors": ["src/transform_obj_shift.c", "src/transform_obj_scale.c", "src/transform_vars_shift.c", "src/transform_vars_scale.c", "src/transform_vars_affine.c"]}
{"id": "C55", "title": "Discretisation maps grid points into the inner region and preserves the optimum", "statement": "For integer variables every outer point is mapped, after rounding and clipping, to one of finitely many equally spaced inner points inside the inner bounds; the outer best parameter is an integer in bounds mapped exactly to the inner best parameter.", "quantifier": "all bounds, cardinalities and points", "why_tests_cant": "All bounds and points.", "anchors": ["src/transform_vars_discretize.c"]}
{"id": "C56", "title": "Mixed-integer suites: variable cardinalities", "statement": "For every dimension divisible by 5, the mixed-integer problem has exactly 4/5 of its variables integer, in consecutive groups of equal size with 2, 4, 8, 16 values, integer variables come first, and non-multiples of 5 are rejected.", "quantifier": "every dimension", "why_tests_cant": "All dimensions.", "anchors": ["src/suite_bbob_mixint.c: coco_get_bbob_mixint_problem", "src/suite_biobj_mixint.c"]}
{"id": "C57", "title": "Monotone coordinate transformations", "statement": "The oscillation and asymmetry maps fix 0, preserve the sign and 0-ness of every coordinate, and the asymmetry map is the identity on non-positive coordinates and expansive/contractive as documented.", "quantifier": "every real coordinate, dimension and parameter", "why_tests_cant": "All reals.", "anchors": ["src/transform_vars_oscillate.c: tosz_uv", "src/transform_vars_asymmetric.c: tasy_uv"]}
{"id": "C58", "title": "Instances by year", "statement": "For every year accepted by a suite the instance specification parses into a non-empty list of instance numbers within bounds; the bbob suite rejects exactly the years before 2009 other than 0.", "quantifier": "every integer year", "why_tests_cant": "All integers.", "anchors": ["src/suite_bbob.c: suite_bbob_get_instances_by_year", "src/suite_largescale.c", "src/suite_cons_bbob.c", "src/suite_sbox_cost.c", "src/suite_bbob_noisy.c"]}
{"id": "C59", "title": "Bi-objective function numbering is a bijection onto function pairs", "statement": "Function numbers 1..55 of the bi-objective suites correspond one-to-one to the unordered pairs (with repetition) of the ten selected functions, in lexicographic order; numbers 56..92 denote pairwise distinct pairs of distinct functions of the same group; other numbers abort.", "quantifier": "every function number", "why_tests_cant": "The closed formula with square root must be exact for each number and its neighbours; invalid numbers are unbounded.", "anchors": ["src/suite_biobj_utilities.c: coco_get_biobj_problem"]}
{"id": "C60", "title": "Search for a second instance", "statement": "For an instance number not in the table, the first objective uses instance 2k+1 and the second the smallest larger instance number (within 1000 tries) for which all function pairs in all dimensions are consistent; the suite aborts iff none exists. A caller that passes a table gets the pair saved under an instance number again in every later call.", "quantifier": "every instance number and every consistency relation", "why_tests_cant": "All relations.", "anchors": ["src/suite_biobj_utilities.c: suite_biobj_get_new_instance, coco_get_biobj_problem"]}
{"id": "C61", "title": "Reference hypervolume of known and unknown bi-objective problems", "statement": "suite_biobj_get_best_hyp_value returns, without a warning, the value of the first table line with the given key. For a key that is not in the table it warns and returns the value of the last table line, which is the announced default 1.0 exactly when the table ends with that value (the shipped table does). For suites without known optima it returns 1.0.", "quantifier": "every key and every table", "why_tests_cant": "All keys and tables; the dependence on the last line shows only when the table is edited.", "anchors": ["src/suite_biobj_utilities.c: suite_biobj_get_best_hyp_value"]}
{"id": "C62", "title": "Constrained problems have the documented number of active and inactive constraints", "statement": "For every function, dimension, instance and all random numbers, the constrained construction creates exactly the specified number (1, 2, 6, 6+n/2, 6+n, 6+3n) of active constraints and half as many (rounded down) inactive ones (none in the active-only suite), and exactly one active constraint is the one derived from the objective gradient. It stops with an internal error only if a product of a gradient and the feasible direction lies in (0, 1e-11].", "quantifier": "every function number, dimension, instance and stream of random numbers", "why_tests_cant": "All random streams.", "anchors": ["src/c_linear.c: c_linear_cons_bbob_problem_allocate", "src/suite_cons_bbob_problems.c: nb_of_linear_constraints"]}
{"id": "C63", "title": "The initial solution of constrained problems is feasible", "statement": "In every constructed problem, with or without the disguised first constraint, the feasible direction satisfies every constraint (value <= 0); at the optimum (origin before the shift) active constraints are zero and inactive ones negative.", "quantifier": "every gradient, direction and non-negative shift", "why_tests_cant": "All gradients.", "anchors": ["src/c_linear.c: c_guarantee_feasible_point, c_linear_single_evaluate, c_sum_variables_evaluate"]}
{"id": "C64", "title": "Disguising the first constraint keeps the origin optimal", "statement": "In every constructed problem, with or without the disguised first constraint, minus the objective gradient is a combination of the gradients of the active constraints with non-negative weights (KKT). So, for an objective above its tangent, no point that satisfies the constraints is better than the origin, up to the products in (0, 1e-11] that the constraint evaluation neglects.", "quantifier": "all gradients, weights and dimensions", "why_tests_cant": "All reals.", "anchors": ["src/c_linear.c: c_linear_cons_bbob_problem_allocate, con_update_linear_combination"]}
{"id": "C65", "title": "The scaled feasible direction keeps the initial point inside the region of interest", "statement": "xopt + feasible_direction has all coordinates within [-5,5], and touches it up to the factor drawn.", "quantifier": "all xopt inside (-5,5), non-zero directions and draws in [0,1]", "why_tests_cant": "All reals.", "anchors": ["src/suite_cons_bbob_problems.c: feasible_direction_set_length"]}
{"id": "C66", "title": "Index options select exactly the listed subset of a suite", "statement": "For every well-formed option string giving function_indices, dimension_indices and instance_indices (any subset of them, in any order), iterating over the constructed suite returns exactly the problems whose function, dimension and instance positions are listed (all positions where an option is absent).", "quantifier": "every default suite content, every list of positions per option, every order of the options", "why_tests_cant": "Composition of option parsing, range expansion, filtering and iteration over unboundedly many option strings.", "anchors": ["src/coco_suite.c: coco_suite, coco_suite_filter_indices, coco_suite_get_next_problem", "src/coco_utilities.c: coco_options_read_string, coco_string_parse_ranges"]}
{"id": "C67", "title": "Every supported suite constructs with default arguments and has the documented content", "statement": "For each supported suite name, construction with empty instance and option strings succeeds and gives exactly the documented numbers of functions, dimensions and instances.", "quantifier": "every supported suite name and both noisy/noise-free numbering", "why_tests_cant": "Ties together tables in twelve files; the table of expected content is independent of the code.", "anchors": ["src/coco_suite.c: coco_suite, coco_suite_intialize, coco_suite_get_instances_by_year"]}
{"id": "C68", "title": "Conversion of doubles to int rounds to a nearest integer", "statement": "coco_double_to_int returns a nearest integer for every number in the range of int and aborts outside. (False of the code for negative numbers: -2 is converted to -1; refuted, true from -1/2 on.)", "quantifier": "every number", "why_tests_cant": "All numbers.", "anchors": ["src/coco_utilities.c: coco_double_to_int"]}
{"id": "C69", "title": "Rounding up to a precision", "statement": "coco_double_round_up_with_precision returns the smallest multiple of the precision that is not below the number, up to the documented tolerance of 1e-12, and keeps exact multiples.", "quantifier": "every number and every precision above 1e-12 (exact arithmetic)", "why_tests_cant": "All numbers.", "anchors": ["src/coco_utilities.c: coco_double_round_up_with_precision, coco_double_round"]}
{"id": "C70", "title": "Formatted strings are duplicated exactly or the process stops", "statement": "coco_strdupf (used for every problem id, name and type) returns exactly the formatted text, and stops the process for a text that is too long, without writing outside its buffer. (False of the code for texts of 444 and more characters: the static buffer is overrun before the length is checked; refuted, true up to 443 characters.)", "quantifier": "every formatted text", "why_tests_cant": "All lengths; the overrun is undefined behaviour that a test may not notice.", "anchors": ["src/coco_string.c: coco_vstrdupf, coco_strdupf"]}
{"id": "C71", "title": "Integer observer options are range checked", "statement": "Whatever the options string, precision_x/f/g are between 1 and 32, log_discrete_as_int is 0 or 1, number_evaluation_triggers is at least 4; a given number in range is used, any other number and an absent key give the default 8/15/3/0/20 (and 100 for number_target_triggers, which is not checked: -1 gives 2^64-1).", "quantifier": "every options string", "why_tests_cant": "All strings.", "anchors": ["src/coco_observer.c: coco_observer", "src/coco_utilities.c: coco_options_read_int, coco_options_read_size_t"]}
{"id": "C72", "title": "Indicator value of the bi-objective logger", "statement": "After any sequence of calls the logged indicator value is the best known hypervolume minus the hypervolume of the feasible solutions given so far, plus the smallest distance of a feasible solution to the region of interest; it is 3e21 while no solution is feasible. Once a feasible solution was given it never increases.", "quantifier": "every sequence of evaluations, feeds, restarts and recommendations, every mode; exact arithmetic", "why_tests_cant": "All histories, in particular the switch from penalty to hypervolume.", "anchors": ["src/logger_biobj.c: logger_biobj_output", "src/logger_biobj.c: logger_biobj_tree_update"]}
{"id": "C73", "title": "Archive file of the bi-objective logger", "statement": "With log_nondom 'all' the archive file has one line for each accepted solution (feasible, no earlier feasible solution at least as good in both objectives) in order of evaluation. With 'final' nothing is written before the problem is freed, then exactly the non-dominated solutions, in order of evaluation.", "quantifier": "every sequence of calls", "why_tests_cant": "All histories; buffered nodes may be deleted before being written.", "anchors": ["src/logger_biobj.c: logger_biobj_tree_output", "src/logger_biobj.c: logger_biobj_evaluate", "src/logger_biobj.c: logger_biobj_finalize"]}
{"id": "C74", "title": "Restart, target and last lines of the bi-objective logger", "statement": "The restart file has one line for the first evaluation after each signalled restart (a restart before the first evaluation is ignored). The dat file has a line exactly for the evaluations at which the target trigger fires. When the problem is freed, the last lines of dat and tdat files show the number of evaluations and the final indicator value, and at most one line is added to each.", "quantifier": "every sequence of calls, every target trigger", "why_tests_cant": "All histories.", "anchors": ["src/logger_biobj.c: logger_biobj_output", "src/logger_biobj.c: logger_biobj_indicator_finalize", "src/logger_biobj.c: logger_biobj_signal_restart"]}
{"id": "C75", "title": "The rw observer takes each setting from its options or its default", "statement": "Each of the six settings of the rw observer has the value given in the options string, or its documented default if its key does not occur; decision values are logged with mode 'all' or with 'low_dim' up to the given dimension, constraint values likewise if there are constraints. (A key without value at the end of the options leaves the setting indeterminate and creating the logger is undefined behaviour: refuted, hence partial.)", "quantifier": "every options string, every problem size", "why_tests_cant": "the options are free text; tests try a few strings", "anchors": ["src/observer_rw.c: observer_rw", "src/logger_rw.c: logger_rw"]}
{"id": "C76", "title": "The target trigger fires exactly when a new logarithmic or linear target is reached", "statement": "Consulted with any sequence of values, the combined target trigger fires at exactly the values that reach a smaller logarithmic target or a smaller linear target than all values before, only linear targets count when the optimum is unknown, and the last target is the smallest one reached.", "quantifier": "every sequence of values, every number of targets and precision", "why_tests_cant": "the answer depends on the whole history of values", "anchors": ["src/coco_observer.c: coco_observer_targets, coco_observer_targets_trigger, coco_observer_targets_get_last_target"]}
{"id": "C77", "title": "The bbob logger's .tdat and .rdat files contain exactly the evaluations they document", "statement": "The .tdat file has a line for each evaluation at which the evaluation trigger fires (without constraint evaluations exactly the numbers floor(10^(k/20)) and b*dim*10^j), its last line after freeing shows the number of evaluations and the best value, and the .rdat file has a line for the first evaluation after every restart.", "quantifier": "every history of calls", "why_tests_cant": "the lines depend on the whole history of calls", "anchors": ["src/logger_bbob.c: logger_bbob_evaluate, logger_bbob_free, logger_bbob_signal_restart"]}
{"id": "C78", "title": "Recommendations are logged in the .mdat file only", "statement": "The .mdat file has lines for exactly those recommendations that improve on all earlier ones and reach a new target; a recommendation changes no other file, no counter and not the best value. Freeing the problem afterwards is safe. (The last sentence is false if recommendations but no evaluations were made: refuted, hence partial.)", "quantifier": "every history of calls", "why_tests_cant": "the interleaving of recommendations and evaluations is arbitrary", "anchors": ["src/logger_bbob.c: logger_bbob_recommend, logger_bbob_free"]}
{"id": "C79", "title": "Constraint values are shown as a digit for their order of magnitude", "statement": "In the bbob logger's files a constraint value is shown as 0 if not positive, 1 up to 1e-7, k for values in (10^(k-9), 10^(k-8)], and 9 above 1.", "quantifier": "every double", "why_tests_cant": "all boundaries and all values between them", "anchors": ["src/logger_bbob.c: logger_bbob_single_digit_constraint, logger_bbob_output"]}
{"id": "C80", "title": "Bi-objective recommendations go to the .mdat file only", "statement": "The bi-objective logger's .mdat file has exactly one line per recommended solution, in order, with the evaluation number of the last solution given before, the objective and constraint values and the solution. Recommendations change nothing else: without them the archive, the counter and all other files are the same.", "quantifier": "every history of evaluations, fed solutions, restarts and recommendations", "why_tests_cant": "the interleaving of recommendations with other calls is arbitrary", "anchors": ["src/logger_biobj.c: logger_biobj_recommend, logger_biobj_evaluate, logger_biobj_free"]}
{"id": "C81", "title": "Creating a directory creates exactly the missing ancestors", "statement": "Creating a directory whose ancestors are directories or absent succeeds, returns 0 exactly if the directory did not exist, makes the directory and all absent ancestors, changes nothing else; a trailing separator makes no difference.", "quantifier": "every file system content and path", "why_tests_cant": "All file system states and nestings.", "anchors": ["src/coco_utilities.c: coco_create_directory, coco_mkdir"]}
{"id": "C82", "title": "Joined paths are complete", "statement": "Joining a path and components either stops the process or yields the path and all components separated by '/', never overrunning the buffer.", "quantifier": "every path, list of components and buffer length", "why_tests_cant": "All lengths; truncation shows only near the maximal length.", "anchors": ["src/coco_utilities.c: coco_join_path"]}
{"id": "C83", "title": "Rotation matrices are orthogonal", "statement": "For every size up to 44 and every seed the computed matrix is orthogonal and is the orthonormalization of the columns of the random matrix; larger sizes stop the process.", "quantifier": "every size and seed (regular random matrix)", "why_tests_cant": "All seeds; tests only sample, and only up to rounding.", "anchors": ["src/suite_bbob_legacy_code.c: bbob2009_compute_rotation, bbob2009_reshape"]}
{"id": "C84", "title": "Block rotations are orthogonal and accepted", "statement": "The block-diagonal matrix computed from block sizes is orthogonal, and the transformation's own test accepts it.", "quantifier": "every list of block sizes up to 44 and every seed (regular random matrices)", "why_tests_cant": "All block structures.", "anchors": ["src/transform_vars_blockrotation_helpers.c: coco_compute_blockrotation", "src/transform_vars_blockrotation.c: transform_vars_blockrotation, transform_vars_blockrotation_test"]}
{"id": "C85", "title": "The problems of the bbob suites have the optimum they record", "statement": "For every function of the suite except 20, every instance and dimension, the problem can be created, its recorded best parameter lies in [-4, 4] (linear slope and the sbox-cost suite: in the region of interest [-5, 5]), evaluating it gives exactly the recorded best value, which is the value computed from function and instance, and every other point can be evaluated (no assertion fails) and has no smaller value. The functions with rotation matrices stop the process for more than 44 variables; other function numbers give an error.", "quantifier": "every function, instance up to 1e10, dimension from 2 on (with rotation matrices: up to 44 and regular random matrices), every name template; exact arithmetic", "why_tests_cant": "All points, instances and dimensions; tests evaluate a few points.", "anchors": ["src/suite_bbob.c: coco_get_bbob_problem", "src/suite_sbox_cost.c: coco_get_bbob_boxed_problem", "src/f_*.c: f_*_raw, f_*_bbob_problem_allocate"]}
{"id": "C86", "title": "The recorded optimum of Schwefel's problem is right up to 1e-13", "statement": "For every instance and dimension the problem with function number 20 can be created; its recorded best parameter lies in [-5, 5], its recorded best value is the value computed from function and instance up to 1e-13, the value at the best parameter differs from it by at most 1e-13, every point can be evaluated (no assertion fails), and no value is smaller than the recorded one by more than 1e-13.", "quantifier": "every instance up to 1e10, every dimension from 2 on; exact arithmetic", "why_tests_cant": "All points; the constants in the code are decimal approximations of the location and value of a maximum.", "anchors": ["src/suite_bbob.c: coco_get_bbob_problem", "src/f_schwefel.c: f_schwefel_raw, f_schwefel_bbob_problem_allocate", "src/transform_vars_z_hat.c: transform_vars_z_hat"]}
{"id": "C87", "title": "The problems of the large-scale suite have the optimum they record", "statement": "For every function of the bbob-largescale suite, every instance and dimension, the problem can be created, its recorded best parameter lies in [-4, 4] (linear slope: in the region of interest [-5, 5]), evaluating it gives exactly the recorded best value, which is the value computed from function and instance, and every other point can be evaluated (no assertion fails) and has no smaller value; for function 20 this holds up to 1e-13. Other function numbers give an error.", "quantifier": "every function, instance up to 1e10, dimension from 2 to a million (function 24: below 3000), every correct sorting function; regular random matrices for the functions with rotations; exact arithmetic", "why_tests_cant": "All points, instances and dimensions; permutations and block rotations of all sizes.", "anchors": ["src/suite_largescale.c: coco_get_largescale_problem", "src/f_*.c: f_*_permblockdiag_bbob_problem_allocate", "src/transform_vars_round_step.c: transform_vars_round_step", "src/transform_vars_x_hat_generic.c: transform_vars_x_hat_generic"]}
{"id": "C88", "title": "The problems of the bbob-mixint suite have the optimum they record", "statement": "For every function of the suite, every instance and every dimension that is a multiple of 5, the mixed-integer problem can be created; its variables range in consecutive fifths over 2, 4, 8 and 16 integers from 0 on and over [-5, 5]; its recorded best parameter lies on this grid and has the recorded best value, which is the value computed from function and instance times a fixed factor of the function; every point can be evaluated and has no smaller value (function 20: up to 1e-14). Dimensions that are not multiples of 5 and unknown functions give an error. In dimension 45, functions with rotations stop the process.", "quantifier": "every function, instance up to 1e10, dimension 5m up to a million except 45 (function 24: below 3000); regular random matrices; exact arithmetic", "why_tests_cant": "All points, instances and dimensions, on both sides of the switch to the large-scale functions.", "anchors": ["src/suite_bbob_mixint.c: suite_bbob_mixint_get_problem, coco_get_bbob_mixint_problem, suite_bbob_mixint_scaling_factors"]}
{"id": "C89", "title": "The problems of the sbox-cost suite have the optimum they record, inside the box", "statement": "For every function of the suite, every instance and dimension, the boxed problem can be created with the region of interest [-5, 5]; a point outside has the value infinity; a point inside has a finite value that is not below the recorded best value, which is attained at the recorded best parameter inside the box and is the value computed from function and instance (function 20: up to 1e-13). Unknown functions give an error.", "quantifier": "every function, instance up to 1e10, dimension from 2 on (with rotation matrices: up to 44 and regular random matrices); exact arithmetic", "why_tests_cant": "All points, instances and dimensions.", "anchors": ["src/suite_sbox_cost.c: coco_get_bbob_boxed_problem", "src/transform_vars_enforce_box.c: transform_vars_enforce_box"]}
{"id": "C90", "title": "Noisy problems have a noise-free part with a known optimum and never report a value below it", "statement": "For every function of the bbob-noisy suite, every instance and dimension, the problem can be created with the noise of the documentation (Gaussian, uniform, Cauchy in turn, moderate for the first six functions, severe for the others); the noise-free part attains the recorded best value at the recorded best parameter, which lies in [-4, 4], and nowhere a smaller one; after any sequence of draws, evaluations and resets every point can be evaluated, the recorded noise-free value is that of the noise-free part, and the noisy value exceeds the recorded best value (Cauchy noise: the noise-free value) by at least 1.01e-8 plus a hundred times the squared violation of the bounds. Functions on the same underlying function share the noise-free part; for sphere, Rosenbrock and different powers it is the bbob problem of the same instance. Unknown functions give an error.", "quantifier": "every function, instance up to 1e10, dimension from 2 on (with rotation matrices: up to 44 and regular random matrices), every history of random draws and every point; exact arithmetic", "why_tests_cant": "The values depend on the history of a global random number generator; all histories, points, instances and dimensions.", "anchors": ["src/suite_bbob_noisy.c: coco_get_bbob_noisy_problem", "src/suite_bbob_noisy_utilities.c: coco_boundary_handling, coco_sample_gaussian_noise, coco_sample_uniform_noise", "src/transform_obj_gaussian_noise.c: transform_obj_gaussian_noise", "src/transform_obj_uniform_noise.c: transform_obj_uniform_noise", "src/transform_obj_cauchy_noise.c: transform_obj_cauchy_noise"]}
{"id": "C91", "title": "Constrained problems have a feasible start, a feasible recorded optimum and no feasible point that evaluates clearly better", "statement": "For every function of the three constrained suites, every instance and dimension and all random numbers of the constraints: the problem can be created with the documented numbers of active and inactive constraints; its initial solution lies in the region of interest and satisfies all constraints; the recorded best parameter lies in [-4, 4), is feasible and evaluates to the recorded best value; every infeasible point can be evaluated; a feasible point whose constraint values involve no neglected product (a product in (0, 1e-11]) can be evaluated and is not better than the recorded best value; at every other feasible point the evaluation either fails an assertion or gives a value below the recorded best one by at most 1e-13. The failure does happen: the first function has feasible points in the region of interest, better than the recorded optimum, at which evaluation aborts the process. Unknown functions give an error.", "quantifier": "every function 1 to 54, instance up to 1e10, dimension from 2 on (with rotation matrices: up to 44 and regular random matrices), all random numbers of the constraints, every point; exact arithmetic, exact inverses of the non-linear transformations for the initial solution", "why_tests_cant": "Optimality compares with every feasible point of a region given by random linear constraints; tests check one point per instance.", "anchors": ["src/suite_cons_bbob.c: coco_get_cons_bbob_problem", "src/suite_cons_bbob_problems.c: f_sphere_c_linear_cons_bbob_problem_allocate", "src/transform_vars_oscillate.c: transform_inv_initial_oscillate", "src/transform_vars_asymmetric.c: transform_inv_initial_asymmetric", "src/transform_vars_composed.c: transform_inv_initial_composed", "src/coco_problem.c: coco_problem_stacked_allocate", "src/c_linear.c: c_linear_cons_bbob_problem_allocate"]}
{"id": "C92", "title": "Ideal and nadir point of the bi-objective problems are right, and new instances keep them apart", "statement": "For every function 1 to 92 of bbob-biobj and bbob-biobj-ext, every instance for which instances of the two bbob functions are found (always for 1 to 15) and every dimension from 2 on in which the rotations of the two functions can be computed: the problem can be created with region of interest [-100,100]; its ideal point consists of the optimal values computed from the two functions and instances, its nadir point of the values of each objective at the optimum of the other, both extreme solutions lie in [-5,5]; every point can be evaluated and is no better than the ideal point in any objective, and every Pareto-optimal point is no worse than the nadir point in any objective (up to 1e-13 when Schwefel's function is involved). A problem created for an instance beyond 15 has its ideal and nadir point at least 0.1 apart and extreme solutions at least 1e-4 apart in every dimension of the suite. If the suite has a dimension above 44, no problem is created for such an instance in any dimension.", "quantifier": "All function and instance numbers, dimensions, sets of dimensions of the suite and points.", "why_tests_cant": "Normalisation of the hypervolume uses ideal and nadir, for which optimality over all of R^n and over all Pareto-optimal points is a universal statement; tests can only sample points.", "anchors": ["src/suite_biobj.c: suite_biobj_get_problem", "src/suite_biobj_utilities.c: coco_get_biobj_problem, suite_biobj_check_inst_consistency", "src/coco_problem.c: coco_problem_stacked_allocate", "src/mo_utilities.c: mo_get_norm"]}
{"id": "C93", "title": "Ideal and nadir point of the bi-objective mixed-integer problems are right", "statement": "For every function 1 to 92 of bbob-biobj-mixint, every tabulated instance and every dimension that is a multiple of 5 (bbob functions below 50, large-scale functions from 50 on): the problem can be created, the first four fifths of its variables are integers with 2, 4, 8 and 16 values starting at 0, the others range over [-100,100]; the ideal point consists of the optimal values of the two functions times their scaling factors, the nadir point of the values of each objective at the optimum of the other, both extreme solutions are on the integer grid; every point can be evaluated and is no better than the ideal point, and every Pareto-optimal point no worse than the nadir point in any objective. Other dimensions and functions are errors; in dimension 45 functions with rotations stop the process.", "quantifier": "All function and instance numbers, dimensions and points.", "why_tests_cant": "Optimality over all mixed-integer points and Pareto-optimality are universal statements over infinitely many points.", "anchors": ["src/suite_biobj_mixint.c: coco_get_biobj_mixint_problem, suite_biobj_mixint_get_problem", "src/transform_vars_discretize.c: transform_vars_discretize", "src/coco_problem.c: coco_problem_stacked_allocate"]}
{"id": "C94", "title": "Observers do not change what the user sees", "statement": "For every problem (transformed, stacked, possibly already observed) and every sequence of evaluations of the objectives and of the constraints, the problem with an observer added (toy, rw, bbob-biobj or bbob) returns the same values, fails in the same way, and reports the same numbers of evaluations and the same best observed value as the problem without it, and leaves the problem under the observer in the same state. The bbob observer does so as long as the best parameter was not asked for and no feasible solution has a value below the known optimum by more than 1e-13; otherwise it stops the process.", "quantifier": "all problems, nestings of observers, sequences of calls and points, including infinite and NaN coordinates", "why_tests_cant": "tests run particular problems with one observer; the claim is an equality of all behaviours for every problem, nesting and sequence of calls", "anchors": ["src/coco_problem.c:coco_evaluate_function", "src/coco_problem.c:coco_problem_transformed_allocate", "src/coco_problem.c:coco_problem_duplicate", "src/coco_observer.c:coco_problem_add_observer", "src/logger_bbob.c:logger_bbob_evaluate", "src/logger_rw.c:logger_rw_evaluate", "src/logger_biobj.c:logger_biobj_evaluate", "src/logger_toy.c:logger_toy_evaluate"]}
{"id": "C95", "title": "Recommended solutions are not counted as evaluations", "statement": "Recommending a solution (coco_recommend_solution) changes neither the numbers of evaluations nor the best observed value of a problem, whatever observers it has: neither of the observed problem nor of the problem after the observer has been removed.", "quantifier": "all problems, nestings of observers, points and sequences of calls", "why_tests_cant": "the effect on the problem under the observer is visible only after the observer has been removed or under a second observer; tests look at the logged files of one observer", "anchors": ["src/coco_problem.c:coco_recommend_solution", "src/logger_bbob.c:logger_bbob_recommend", "src/logger_biobj.c:logger_biobj_recommend", "src/coco_observer.c:coco_problem_remove_observer"]}
{"id": "C96", "title": "Suites, observers and problems can be freed in any order", "statement": "A program that evaluates a problem only while its suite and the observers on it exist, adds and removes observers only on problems it obtained one by one, and leaves the problems it got from the iteration to the suite, never makes the library use freed memory, free memory twice or fail an assertion, in whatever order it creates, observes, evaluates and frees problems, observers and suites. All calls succeed except that a bbob or bbob-biobj observer can be put on a problem only if it is not on another problem that has not been freed (otherwise the process stops with an error message), and only the last observer put on a problem can be taken off. Once everything has been freed, no object is left.", "quantifier": "all sequences of calls that follow the rules, any number of suites, observers and problems, any construction of the problems from transformed and stacked ones, any number of observers on a problem", "why_tests_cant": "The objects point to each other in both directions; which pointers are left over depends on the order of all the earlier calls, of which tests try a few.", "anchors": ["src/coco_problem.c: coco_problem_free, coco_problem_transformed_free, coco_problem_transformed_free_data, coco_problem_stacked_free", "src/coco_observer.c: coco_observer_free, coco_problem_add_observer, coco_problem_remove_observer", "src/coco_suite.c: coco_suite_free, coco_suite_get_next_problem, coco_suite_get_problem", "src/observer_bbob.c: observer_bbob_data_free", "src/observer_biobj.c: observer_biobj_data_free", "src/logger_bbob.c: logger_bbob_free, logger_bbob_initialize", "src/logger_biobj.c: logger_biobj_free, logger_biobj_recommend", "src/logger_toy.c: logger_toy_evaluate"]}
{"id": "C97", "title": "The archive tree never touches memory outside its nodes and keeps no loose ends", "statement": "Whatever sequence of avl_item_insert, avl_item_delete, avl_node_delete and avl_tree_purge calls is made on an AVL tree, whatever addresses malloc returns and whatever the fresh memory contains: no call reads or writes through NULL or a freed node, every call returns, a call returns the node or item that the ordered set semantics prescribes, and afterwards the allocated nodes are exactly those of the items in the set, each still at the address it was created at, linked in both directions in sorted order between head and tail. avl_count, avl_item_search and avl_item_search_right give the size, the node of an equal item and the last node not after the item. Purging frees every item once, in order, and leaves no node.", "quantifier": "All item types with a comparison function that is a total preorder, all sequences of calls of any length, all addresses and memory contents", "why_tests_cant": "Pointer errors in rotations and unlinking show only for particular shapes of the tree; the shapes are unbounded in number, and a stale parent or list pointer is read only by a later call.", "anchors": ["src/mo_avl_tree.c: avl_rebalance, avl_node_insert_before, avl_node_insert_after, avl_node_unlink, avl_node_delete, avl_tree_purge, avl_search_rightish, avl_search_rightmost_equal", "src/logger_biobj.c: logger_biobj_tree_update", "src/coco_archive.c: coco_archive_update"]}
{"id": "C98", "title": "Numerical inverse of the non-linear transformations", "statement": "When a problem of the constrained suites is created, the initial solution is mapped back through the non-linear transformations of the variables by a numerical root finder. For every value the search for an interval ends, the root finder never divides by zero and never leaves the interval, and its result is a number with the sign of the value. Unless its 200 iterations are used up, the result is within 1e-14 + 1e-10|x| of an exact inverse. Whether or not it converges, every problem of the constrained suites is created and its initial solution lies in the region of interest. If the values at the ends of an interval do not enclose the wanted value, the root finder returns NaN.", "quantifier": "all real functions, values, end points, tolerances and numbers of iterations for the root finder; all monotone onto functions that keep the sign (in particular the oscillating and, from dimension 2 on, the asymmetric transformation) for the inverse; all 54 functions, instances up to 1e10, dimensions from 2 on and random numbers for the suites", "why_tests_cant": "The root finder mixes bisection, interpolation and extrapolation depending on the values; a test sees a few runs of the same two functions, not that the bracket is kept in every branch for every value.", "anchors": ["src/brentq.c: brentq, brentinv", "src/transform_vars_oscillate.c: tosz_uv_inv, transform_inv_initial_oscillate", "src/transform_vars_asymmetric.c: tasy_uv_inv, transform_inv_initial_asymmetric", "src/transform_vars_composed.c: transform_inv_initial_composed"]}
{"id": "C99", "title": "The result folder of the bbob observer is an index of the runs", "statement": "After any sequence of problems observed one after the other with one bbob observer, the .info file of each function has, in order, one section per maximal block of consecutive evaluated problems with this function and one dimension: the heading with function, dimension and the suite of the first problem, the name of the block's data file, and one entry instance:evaluations|best per problem. The blocks have different data file names, each of the four data files of a block contains exactly the header and lines of the problems listed in its section, in order, problems never evaluated leave no trace, and there are no other files. Files only grow.", "quantifier": "every sequence of at most 9999 evaluated problems (any functions, dimensions, instances, suites, any lines logged) and every result folder and prefix that fit the buffers", "why_tests_cant": "All sequences of problems, including returns to an earlier function and dimension.", "anchors": ["src/logger_bbob.c: logger_bbob_start_new_line, logger_bbob_open_data_file, logger_bbob_open_info_file, logger_bbob_initialize, logger_bbob_free", "src/observer_bbob.c: observer_bbob", "src/coco_utilities.c: coco_create_unique_filename"]}
{"id": "C100", "title": "The result folder of the bi-objective observer describes the experiment", "statement": "If problems of one suite are observed one after the other by a bi-objective observer with a new result folder, then afterwards, whatever the problems and options: the info file of every problem type has a heading and one line for each block of consecutive problems with the same function and dimension, with the name of their data file and one entry (instance, evaluations, indicator value) for each problem of the block in order; the .dat, .tdat, .rdat and .mdat files of a function and dimension contain header and lines of all problems with this function and dimension and of no others; the archive file contains header and lines of its problem only; without indicators there are only .mdat files and archives, and without archive mode there are no archives; and there are no other files. Different functions, dimensions and instances never share a name, files only grow, and the process is not stopped for names that fit the buffers. (If blocks recur, two lines name the same data file; with two suites an entry can be listed for the other suite's file.)", "quantifier": "all sequences of problems of a suite with identifiers <name>_f<function>_i<instance>_d<dimension>, all values of the options log_nondominated and compute_indicators, all texts logged", "why_tests_cant": "The names are made by cutting identifiers and joining strings, and the lines of the info file depend on the history of problems; tests look at one experiment.", "anchors": ["src/logger_biobj.c: logger_biobj, logger_biobj_indicator, logger_biobj_indicator_initialize_file, logger_biobj_indicator_finalize, logger_biobj_free", "src/observer_biobj.c: observer_biobj", "src/coco_string.c: coco_remove_from_string", "src/coco_utilities.c: coco_join_path"]}
{"id": "C101", "title": "Unknown options are reported, known ones are not, and no option string stops the process", "statement": "For every option string given to coco_suite or coco_observer in the documented form (key1: value1 key2: value2 ..., values are words or texts in quotation marks) the warning names exactly the keys that are not known, in order, there is no warning if all are known, and the process goes on. This holds if the text before the first quotation mark has less than 220 characters and no '%' and no quoted text is empty; otherwise the code violates it: 220 or more characters (e.g. a list of 80 instances) stop the process, a '%' is used as a printf conversion without argument, after an empty quoted text unknown keys go unreported, keys after a line end are reported although known, and a string of quotation marks only makes the code read from a null pointer.", "quantifier": "all option strings of the documented form with any number of options, all sets of known keys; for the safety part all strings", "why_tests_cant": "The number, the length and the content of options is unbounded, and the failures need strings nobody writes in a unit test.", "anchors": ["src/coco_utilities.c: coco_option_keys, coco_option_keys_get_redundant, coco_option_keys_get_output_string", "src/coco_string.c: coco_vstrdupf, coco_string_split, coco_string_trim", "src/coco_suite.c: coco_suite", "src/coco_observer.c: coco_observer"]}
{"id": "C102", "title": "Freeing a problem releases exactly the memory its creation and its observers allocated", "statement": "Creating any problem of any suite, attaching any number of observers (toy, rw, bbob) to it and freeing it leaves exactly the memory in use that was in use before: nothing is lost, nothing is released twice or without having been allocated, so an experiment over any number of problems does not grow. Attaching an observer and removing it again gives the same problem with the same memory. Numbers of functions that a suite does not have stop the process with a message. For bi-objective problems this holds without observers; each observer of a bi-objective problem loses exactly one vector (the code violates the claim).", "quantifier": "all suites, functions, dimensions, numbers of constraints, all lists of observers, all sequences of problems, all states of the heap", "why_tests_cant": "Unit tests do not see memory, and the number of constructors, dimensions, peaks, constraints and observers is unbounded; a memory checker sees only the runs it is given.", "anchors": ["src/coco_problem.c: coco_problem_allocate, coco_problem_duplicate, coco_problem_free, coco_problem_transformed_allocate, coco_problem_stacked_allocate", "src/f_*.c: *_problem_allocate", "src/transform_*.c: allocation and *_free functions", "src/suite_*.c: get_problem functions", "src/c_linear.c: c_linear_cons_bbob_problem_allocate", "src/coco_observer.c: coco_problem_add_observer, coco_problem_remove_observer"]}
{"id": "C103", "title": "Ids, names and types of problems", "statement": "Every problem of every suite (toy, bbob, bbob-largescale, sbox-cost, bbob-noisy, bbob-mixint, bbob-biobj, bbob-biobj-ext, bbob-biobj-mixint and the three constrained suites), for every function of the suite and whatever instance and dimension, can be created without overrunning the text buffer, although its names grow with every transformation; its id is <suite>_f<function>_i<instance>_d<dimension> with the suite's widths (<function>_d<dimension> for toy), its name is that documented by the suite, and its type is the group of its function or functions (with the kind of constraints). Ids consist of letters, digits, '-' and '_', and problems of dimension below 1000 with equal ids are the same problem (true except for the toy suite, whose ids lack the instance). Functions outside the suite stop the process. Observers surround the name by theirs and leave id and type alone; there is space exactly for names up to 441 characters. The types of the constrained problems with the rotated Rastrigin function are false in the code.", "quantifier": "All suites, functions, instances and dimensions below 2^64, numbers of constraints, and sequences of observer names.", "why_tests_cant": "Tests see the texts of some problems; that the growing name of no problem overruns the buffer, and that no two problems share an id (and so a file), is about all numbers and all transformations.", "anchors": ["src/coco_problem.c: coco_problem_set_id, coco_problem_set_name, coco_problem_set_type, coco_problem_transformed_allocate, coco_problem_stacked_allocate", "src/coco_string.c: coco_strdupf, coco_vstrdupf", "src/suite_bbob.c: coco_get_bbob_problem", "src/suite_largescale.c", "src/suite_bbob_noisy.c", "src/suite_bbob_mixint.c", "src/suite_biobj_utilities.c: coco_get_biobj_problem", "src/suite_biobj_mixint.c", "src/suite_cons_bbob.c", "src/suite_toy.c", "src/c_linear.c: c_linear_cons_bbob_problem_allocate"]}
{"id": "C104", "title": "Files of the observer bbob-old", "statement": "When problems are observed with the observer bbob-old, each problem with at least one evaluation has exactly one entry in one info file of the folder and its header and lines exactly once in one .dat, .tdat and .rdat file, in the order of the problems; the names of these files contain function, dimension and one instance number, different functions, dimensions and instance numbers have different files, no other files are made, and every block of an info file begins on a line of its own.", "quantifier": "every result folder below 3000 characters, every sequence of problems of every suite with any functions, dimensions and instances, any of them without evaluations, one or several observers in a process", "why_tests_cant": "what the logger remembers is in variables of the process: which file and which block an entry gets into depends on the whole history of observed problems", "anchors": ["src/logger_bbob_old.c: logger_bbob_old_openIndexFile, logger_bbob_old_initialize, logger_bbob_old_open_dataFile, logger_bbob_old_free, logger_bbob_old", "src/observer_bbob_old.c"]}
{"id": "C105", "title": "Lines written by the observer bbob-old", "statement": "On a problem whose optimal value is known, the observer bbob-old writes a line to the .dat file exactly for the first evaluation and for each evaluation that improves on all before and reaches a logarithmic target not reached by an earlier improvement since the second evaluation; a line to the .tdat file exactly for the evaluation numbers of the evaluation triggers; and when the problem is freed after an evaluation, the last line of the .tdat file and the entry of the info file show the number of evaluations and the best value found. The lines are those that the observer bbob writes for the same calls with the same triggers.", "quantifier": "every sequence of evaluations and constraint evaluations of finite or non-finite solutions with any values and any number of constraints, every setting of the triggers", "why_tests_cant": "which lines are written depends on the whole sequence of values and of function and constraint evaluations", "anchors": ["src/logger_bbob_old.c: logger_bbob_old_evaluate, logger_bbob_old_free, logger_bbob_old_write_data, single_digit_constraint_value", "src/observer_bbob_old.c"]}
{"id": "C106", "title": "The bi-objective logger neither reads released solutions nor releases one twice", "statement": "In every sequence of evaluations, fed solutions, restarts and recommendations on a problem with the observer for two objectives, no solution is read after it was released and none is released twice. At every moment the solutions held in memory are exactly those in the archive (and nothing else), and when the problem is freed all of them are released.", "quantifier": "every problem with two objectives, every archive mode, every sequence of calls (fed solutions with increasing numbers) of any length with any objective and constraint values", "why_tests_cant": "a solution is shared by two trees of which only one owns it, and is released at four places depending on which solutions dominate which; a test runs a few sequences, and an error in the ownership is not visible in the output", "anchors": ["src/logger_biobj.c: logger_biobj_node_create, logger_biobj_node_free, logger_biobj_tree_update, logger_biobj_evaluate, coco_logger_biobj_feed_solution, logger_biobj_free", "src/mo_avl_tree.c: avl_node_delete, avl_tree_purge"]}
{"id": "C107", "title": "Removing a directory removes exactly that directory", "statement": "coco_remove_directory removes the directory that the path names with everything in it, at any depth, and nothing else. It returns 0 only if nothing of it is left; if something cannot be removed it returns -1 and never touches anything outside of the directory. If there is no such directory it returns 0 and changes nothing. coco_remove_file removes exactly the named file.", "quantifier": "every file system (directories, files, symbolic links), every path, every set of objects for which permissions are missing, any depth and order of the directory entries", "why_tests_cant": "the function deletes files recursively; a test removes a small directory it has made itself, not one with symbolic links, missing permissions or long names", "anchors": ["src/coco_utilities.c: coco_remove_directory, coco_remove_file, coco_directory_exists", "src/coco_string.c: coco_strdupf, coco_vstrdupf"]}
{"id": "C108", "title": "Gradients of the objective functions of the constrained suites are their derivatives", "statement": "For every objective function of the constrained suites and every point, the gradient the library computes (from which the first constraint of a constrained problem is made) is the derivative of the function the problem evaluates; shifts, affine maps, conditioning, shifts and scalings of the value keep this, in any number and order.", "quantifier": "all nine types of objective functions, all instances and dimensions, all points; all sequences of the transformations that have a gradient", "why_tests_cant": "the derivative is a limit over all directions and all small steps; a finite difference at sample points can not tell a gradient from one that is wrong by a factor close to the sample or wrong elsewhere", "anchors": ["src/f_sphere.c: f_sphere_evaluate_gradient", "src/f_ellipsoid.c: f_ellipsoid_evaluate_gradient", "src/f_discus.c: f_discus_evaluate_gradient", "src/f_bent_cigar.c: f_bent_cigar_evaluate_gradient", "src/f_different_powers.c: f_different_powers_evaluate_gradient", "src/f_linear_slope.c: f_linear_slope_evaluate_gradient", "src/f_rastrigin.c: f_rastrigin_evaluate_gradient", "src/transform_vars_shift.c: transform_vars_shift_evaluate_gradient", "src/transform_vars_affine.c: transform_vars_affine_evaluate_gradient", "src/transform_vars_conditioning.c: transform_vars_conditioning_evaluate_gradient", "src/transform_obj_scale.c: transform_obj_scale_evaluate_gradient", "src/coco_problem.c: bbob_problem_transformed_evaluate_gradient"]}
{"id": "C109", "title": "The log file of the toy observer gives the first hitting times", "statement": "For every experiment with the toy observer, its log file contains, after what it contained before, one section per observed problem in the order of observation: a heading and then lines with increasing evaluation numbers and decreasing targets, each with number, value, target and solution of an evaluation of this problem; for every target, the first line with this target or a smaller one has the number of the first evaluation that reaches the target.", "quantifier": "all numbers of problems, all sequences of evaluated solutions and values, all targets, all settings of the observer", "why_tests_cant": "the statement ranges over all sequences of values and all targets; tests compare single files", "anchors": ["src/logger_toy.c: logger_toy, logger_toy_evaluate, logger_toy_free", "src/observer_toy.c: observer_toy", "src/coco_observer.c: coco_observer_log_targets_trigger"]}
{"id": "C110", "title": "The archive holds exactly the memory of its solutions", "statement": "For every sequence of additions and queries on an archive created with coco_archive, no released memory is read or released again; the memory held is that of the archive itself and of the solutions that are neither dominated nor repetitions of earlier ones, nothing else; coco_archive_free releases all of it. A text returned by coco_archive_get_next_solution_text stays readable exactly as long as no solution that dominates its solution is added.", "quantifier": "every problem with an ideal point below the nadir point (by more than the discretisation), every sequence of calls", "why_tests_cant": "use of released memory and leaks depend on the order in which dominated solutions are removed, on solutions with equal objective values and on queries in between; a test sees at most a crash", "anchors": ["src/coco_archive.c: coco_archive, coco_archive_add_solution, coco_archive_node_item_create, coco_archive_node_item_free, coco_archive_get_next_solution_text, coco_archive_free"]}
{"id": "C111", "title": "An observer is created with the settings asked for and a folder of its own", "statement": "For a known name, `coco_observer` returns an active observer whose settings are the values given in the options, or the documented defaults for the keys that are not given or whose numbers are out of range. Its result folder is the first free one among the folder asked for and the numbered ones, and nothing but this folder, its ancestors and (for `toy`) the log file is created. No two observers share a folder, in whatever order observers are created and whatever else is written in between. If NULL is returned nothing is created.", "quantifier": "all observer names, option texts, file systems and sequences of creations", "why_tests_cant": "folder names depend on what earlier runs left behind, and settings on every combination of keys", "anchors": ["src/coco_observer.c: coco_observer, coco_observer_allocate", "src/observer_bbob.c: observer_bbob", "src/observer_toy.c: observer_toy", "src/observer_bbob_old.c: observer_bbob_old"]}
{"id": "C112", "title": "The options of bi-objective observers have their documented meaning", "statement": "The options `log_nondominated`, `log_decision_variables`, `compute_indicators` and `produce_all_data` set the corresponding modes of a bi-objective observer; a key that is not given or a text that is not documented gives the default; `produce_all_data` different from 0 overrides the other three. The observer is inactive exactly if neither nondominated solutions nor indicators are to be logged.", "quantifier": "all option texts", "why_tests_cant": "combinations of four keys with arbitrary other text around them", "anchors": ["src/observer_biobj.c: observer_biobj", "src/coco_observer.c: coco_observer"]}
{"id": "C113", "title": "Restarts are recorded by the observer they are signalled to", "statement": "coco_observer_signal_restart(observer, problem) makes the given observer, and no other one, record one line in its restart file at the next evaluation of the problem, provided the problem was evaluated before under this observer; several signals between two evaluations give one line, signals before the first evaluation none. Signals to no observer, to an inactive one or to one without restart files have no effect.", "quantifier": "all stacks of observers on a problem and all interleavings of evaluations and signals, of any length", "why_tests_cant": "the lines depend on the whole history and on which observers were added in which order; a test sees one interleaving with one observer", "anchors": ["src/coco_observer.c: coco_observer_signal_restart", "src/logger_bbob.c: logger_bbob_signal_restart, logger_bbob_evaluate", "src/logger_biobj.c: logger_biobj_signal_restart, logger_biobj_output", "src/coco_problem.c: coco_problem_transformed_get_data"]}
{"id": "C114", "title": "Normal random numbers are reproducible and finite", "statement": "For every 32-bit seed, the numbers returned by successive calls of coco_random_normal on a generator made by coco_random_new are determined by the seed: each consumes exactly two numbers of the uniform sequence and is their Box-Muller transform. Every number is finite and bounded in absolute value by a constant.", "quantifier": "all 32-bit seeds, all numbers of calls, every monotone rounding of the uniform numbers on a grid", "why_tests_cant": "the exceptional seeds are about one in four billion per draw, and the sequence is unbounded", "anchors": ["src/coco_random.c: coco_random_normal, coco_random_uniform, coco_random_new", "src/c_linear.c: c_linear_single_cons_bbob_problem_allocate"]}
{"id": "C115", "title": "Noisy problems do not disturb each other", "statement": "The values a noisy problem returns for a sequence of points do not depend on which other problems are evaluated in between: in any interleaving a problem receives the same values as when it is evaluated alone in a fresh program. (The code keeps the seeds of the noise in global variables, so this holds only where the other problems draw from other streams; in general a value depends on the history exactly through the numbers of draws since the last reset.)", "quantifier": "every number of problems, every interleaving of evaluations, draws and resets, every noise model and parameters", "why_tests_cant": "All interleavings of evaluations of several problems; tests evaluate one problem at a time.", "anchors": ["src/suite_bbob_noisy_utilities.c: coco_sample_gaussian_noise, coco_sample_uniform_noise, coco_reset_seeds", "src/transform_obj_gaussian_noise.c", "src/transform_obj_uniform_noise.c", "src/transform_obj_cauchy_noise.c"]}
{"id": "C116", "title": "Revealing the optimum ends the benchmarking of a problem", "statement": "Once coco_problem_get_best_parameter was called on a problem, the problem says that it is tainted and every further evaluation under a bbob observer is refused, whatever observers are added or removed before and after; as long as the optimum was not obtained, no evaluation is refused and all observers record it. (In the code the mark belongs to the outermost object only: it is lost when that observer is removed, is not seen by observers below it and is not set by bbob_problem_best_parameter_print.)", "quantifier": "every single-objective problem, every number and order of observers, every sequence of adding and removing observers, asking, printing and evaluating", "why_tests_cant": "All sequences of calls; the unit test asks once and evaluates once.", "anchors": ["src/coco_problem.c: coco_problem_get_best_parameter, coco_problem_is_tainted, bbob_problem_best_parameter_print, coco_problem_duplicate", "src/coco_observer.c: coco_problem_add_observer, coco_problem_remove_observer", "src/logger_bbob.c: logger_bbob_evaluate"]}
{"id": "C117", "title": "What observers have written survives a crash", "statement": "If a process that runs an experiment ends at any point, be it killed, aborted or by coco_error, then every file of an observer contains what it contained before followed by a beginning of the text written to it, in order; and everything that was written to the file by calls that had returned is in it. In particular the files list all runs whose data they contain.", "quantifier": "all sequences of evaluations and recommendations on a problem observed by bbob, bbob-old, bbob-biobj, rw or toy, with arbitrary texts written; all points in time, also within a call; all ways in which the C library passes on buffered text by itself; all earlier contents of the files", "why_tests_cant": "tests read the files after the observers were freed; where a process is killed and how much the C library has buffered then is not under the control of a test", "anchors": ["src/logger_bbob.c: logger_bbob_output, logger_bbob_initialize, logger_bbob_evaluate, logger_bbob_recommend, logger_bbob_free", "src/logger_bbob_old.c: logger_bbob_old_write_data, logger_bbob_old_initialize, logger_bbob_old_evaluate, logger_bbob_old_free", "src/logger_biobj.c: logger_biobj, logger_biobj_output, logger_biobj_evaluate, logger_biobj_recommend, logger_biobj_free", "src/logger_rw.c: logger_rw_evaluate", "src/logger_toy.c: logger_toy_evaluate", "src/coco_runtime_c.c: coco_error"]}
{"id": "C118", "title": "The example experiment keeps to its budget", "statement": "On every problem the example experiment gives each call of the algorithm exactly the rest of the budget (dimension times budget multiplier, function and constraint evaluations together), never exceeds the budget in total if the algorithm keeps to what it is given, makes no call after the final target was reached or the budget used up, and ends without error. (In the code this holds only without constraints: the random search makes twice its budget of evaluations, after which the unsigned rest of the budget becomes about 2^64; and comparing function evaluations with all evaluations gives a fatal error for algorithms that keep to the budget.)", "quantifier": "every problem, dimension, budget multiplier, number of constraints, every algorithm (as a function of its history), every way of reaching the target", "why_tests_cant": "All algorithms and all histories of restarts; the example is run with one random search.", "anchors": ["build/c/example_experiment.c: example_experiment, my_random_search", "src/coco_problem.c: coco_problem_get_evaluations, coco_problem_get_evaluations_constraints, coco_problem_final_target_hit"]}
{"id": "C119", "title": "The searches of the example stay inside the region of interest", "statement": "The random search evaluates only points between the bounds, with integer values for integer variables. The grid search evaluates at most as many points as its budget says, none twice, only points of the regular grid over the region of interest, and all of the grid if the budget suffices for the smallest grid. (With integer variables the number of nodes is computed one too small per variable: on a problem with binary variables a single point is evaluated whatever the budget, and with mixed variables the grid is too fine for the budget.)", "quantifier": "every dimension, number of integer variables, all bounds, every budget, every random number", "why_tests_cant": "All budgets, dimensions and bounds; a test compares a few points.", "anchors": ["build/c/example_experiment.c: my_random_search, my_grid_search"]}
{"id": "C120", "title": "The timing table of the example experiment", "statement": "For every experiment the table printed at the end has one line per dimension in which there were evaluations, in order; the memory of the table suffices; and each line says the time spent on the problems of the dimension divided by the number of their evaluations; the total time is printed correctly. (In the code the clock of a dimension is set when its first problem is over, so the seconds of a line leave out this problem and include the first problem of the next dimension.)", "quantifier": "every sequence of problems that comes dimension by dimension, all numbers of evaluations including none, all running times", "why_tests_cant": "All sequences and times; the output depends on the clock and no test looks at it.", "anchors": ["build/c/example_experiment.c: timing_data_initialize, timing_data_time_problem, timing_data_finalize"]}
{"id": "C121", "title": "Batches partition an experiment", "statement": "When an experiment is split into batches in Python and each batch runs in a process of its own over the same suite, every problem of the suite is run by exactly one batch, by the same one in every sweep over the suite; the instances of a function in a dimension all belong to one batch, and the batches take turns. The scheduler accepts exactly the numbers of batches that have this effect.", "quantifier": "every suite that comes in blocks of equal function and dimension, every number of instances, every number of batches, every number of sweeps, all arguments of the constructor", "why_tests_cant": "All suites, numbers of batches and sweeps; the state of the scheduler depends on all problems seen before, and the batches run in separate processes.", "anchors": ["build/python/src/cocoex/utilities.py: BatchScheduler.__init__, first, is_in_batch"]}
{"id": "C122", "title": "Repeated experiments are complete", "statement": "The Python loop that repeats an experiment until the repeater says it is done comes to its end for every algorithm. Of every function in every dimension the trials come in complete rounds over all instances, in the order of the suite, so that in the end each instance has the same number of trials; each round but the first was made because before it there were neither enough successful trials nor was the budget used up, and the end is reached only when one of both holds or after the given number of sweeps. With a budget of zero there is exactly one trial of each problem.", "quantifier": "every suite without repeated instances, every algorithm (numbers of evaluations and successes as a function of the history), every budget multiplier, every number of successes asked for, every limit of at least two sweeps", "why_tests_cant": "All algorithms and histories; whether an instance is repeated depends on the results of all earlier trials.", "anchors": ["build/python/src/cocoex/utilities.py: ExperimentRepeater.done, track, missing_trials, budget_exhausted, succeeded, remaining_problems"]}
{"id": "C123", "title": "Benchmarking algorithms that take a budget", "statement": "When an algorithm is run on a problem with increasing budgets, each run gets the values of the objective function and no exception is raised; the observed problem records of each run the evaluations beyond those already recorded, and then the solution the run delivered unless its value is the smallest recorded one. So after each run the number of recorded evaluations is that of the run or larger by one, and the value of every delivered solution is recorded. (Numbers of evaluations must increase strictly: a second run with the same budget ends with an exception if the first delivered a solution that is not the best one.)", "quantifier": "every objective function, every sequence of runs with strictly increasing numbers of evaluations, all points and all solutions delivered", "why_tests_cant": "All sequences of runs and values; whether an evaluation is recorded depends on the whole history.", "anchors": ["build/python/src/cocoex/utilities.py: ProblemNonAnytime.__call__, delivered, reset"]}
{"id": "C124", "title": "Values of the Rust interface are safe to use", "statement": "A program in safe Rust that uses the interface never makes the library use an object that has been freed, free an object twice or fail an assertion, in whatever order the compiler lets it create, use, drop or forget suites, observers and problems; and when all values have been dropped the library holds no memory. (In the code a problem borrows its suite but not the observers on it, so a program that drops an observer and then evaluates the problem is accepted; the toy logger then writes to a closed file and the bbob logger fails an assertion. The statement holds for programs that evaluate problems only while the observers on them are there.)", "quantifier": "every program that the compiler accepts: all sequences of calls, all suites, kinds of observers and shapes of problems", "why_tests_cant": "All programs and all orders of dropping; tests run one order, and use of freed memory need not show.", "anchors": ["build/rust/src/suite.rs: Suite::next_problem, problem, problem_by_function_dimension_instance, Drop", "build/rust/src/problem.rs: Problem, add_observer, remove_observer, evaluate_function, Drop", "build/rust/src/observer.rs: Observer, Drop", "build/rust/coco-sys/wrapper.c: coco_suite_forget_current_problem"]}
{"id": "C125", "title": "Objects of the Python interface live as long as they are needed", "statement": "Whatever a Python program does with suites, problems and observers, and whenever and in whichever order the interpreter collects objects that nothing refers to: the library never uses or frees an object that has been freed and never aborts the interpreter. Evaluating, observing or recommending on a freed problem, and getting problems from a freed suite, raise an exception and have no other effect. After all objects have been collected nothing remains allocated.", "quantifier": "every sequence of constructors, methods and uses of properties, interleaved with every order of collection that the references between objects permit", "why_tests_cant": "the order in which objects die depends on the interpreter, on references kept by the program and on cycles; tests run one order, in which reading freed memory usually goes unnoticed", "anchors": ["build/python/src/cocoex/interface.pyx: Suite.get_problem, next_problem, reset, free, __dealloc__", "build/python/src/cocoex/interface.pyx: Observer.free, __dealloc__", "build/python/src/cocoex/interface.pyx: Problem.observe_with, __call__, recommend, evaluations, free, __dealloc__", "src/coco_observer.c: coco_problem_add_observer", "src/logger_bbob.c: logger_bbob_initialize"]}
{"id": "C126", "title": "Suites in Python: contents, sweeps and look-ups", "statement": "A cocoex Suite has exactly the problems its instance and option texts leave, in the order of the C library: len, ids() and dimensions describe them. next_problem walks through them from the first one after creation or reset and returns None from then on; a for loop visits every problem exactly once in order, no matter what was called before and also when it is repeated, provided its body only looks up problems (a loop over the same suite in its body ends it after the first problem, as the documentation of __iter__ warns). suite[k] is the k-th problem (negative k counts from the end), suite[id] the first problem with that id, get_problem_by_function_dimension_instance the first one with these numbers, whatever was called before; everything else is an exception. ids(*texts) returns the ids in which all texts occur. In all suites but toy, id_triple of a problem is its function, dimension and instance, and its id gives a problem with the same three numbers; in the toy suite id_function and id_instance raise ValueError.", "quantifier": "all suites with any filters, all sequences of calls of next_problem, reset, get_problem with integers and texts, get_problem_by_function_dimension_instance and free, all loops whose bodies look up problems, all texts for ids, all problems of all suites", "why_tests_cant": "The answers depend on the filters, on the whole history of calls and on the relation between two suites of the C library (one that is swept once and freed, one that is asked by index); tests check a few indices of unfiltered suites.", "anchors": ["build/python/src/cocoex/interface.pyx: Suite, Problem._parse_id, Problem.id_triple", "src/coco_suite.c: coco_suite_get_problem, coco_suite_get_next_problem"]}
{"id": "C127", "title": "Observer options given as a dictionary in Python", "statement": "An observer made with a dictionary of options in Python gets the options of the dictionary: every text and every number of the dictionary is the value the C library reads under its key, as it is with the text that ObserverOptions.as_string gives. ObserverOptions.update lets the new values win and update_gracefully the old ones, without changing the other entries. (False in several cases: a text that ends with the letter u is read without it; Observer removes double quotation marks, so that a text with blanks, which as_string passes on whole, is read up to the first blank; apostrophes become backslashes and commas blanks.)", "quantifier": "all dictionaries with any keys and values, all entries of them, all capacities of the buffers the value is read into", "why_tests_cant": "The text is made by removing characters from what Python prints for the whole dictionary, so that every entry depends on every character of all of them; tests use one dictionary with harmless values.", "anchors": ["build/python/src/cocoex/interface.pyx: Observer.__cinit__", "build/python/src/cocoex/utilities.py: ObserverOptions", "src/coco_utilities.c: coco_options_read_string, coco_options_read_size_t"]}
{"id": "C128", "title": "Arguments of experiment scripts in Python", "statement": "args_to_dict accepts a list of arguments exactly if each one is name=value with one equals sign, the name is the beginning of exactly one known name, and arguments for the same name have the same value; the result has exactly the names that were given, each with the value of its first argument, and the order of the arguments and the way names are abbreviated do not matter. Consequently a known name that is the beginning of another known name cannot be given at all. With the special argument batch, batch=i/n sets both names to the two integers and everything else after batch= is refused; it replaces values given before, whereas different values given after it are refused. Other specials are refused, and specials do not change what the remaining arguments mean.", "quantifier": "all lists of known names, all lists of arguments, all evaluations of value texts, all previous results", "why_tests_cant": "A script is started with few combinations of arguments; which abbreviations are unambiguous depends on all global names of the script, and conflicts depend on the whole list of arguments.", "anchors": ["build/python/src/cocoex/utilities.py: args_to_dict", "build/python/example/example_experiment2.py"]}
{"id": "C129", "title": "Objects of the Java interface", "statement": "A Java program that compiles and uses the classes Suite, Observer, Benchmark and Problem never makes the C library use a freed object, read beyond the end of an array, or fail an assertion, whatever it does in which order; a sweep with one benchmark is never refused, finalizeBenchmark can be called at any time, also while a problem is being observed; and after everything has been finalized no memory is left.", "quantifier": "all programs (sequences of constructor and method calls of any length), all constructions and dimensions of problems, all lengths of arrays", "why_tests_cant": "The Java objects keep pointers as numbers; whether one is still valid depends on the whole history of calls on other objects, and using a freed object often goes unnoticed in a test.", "anchors": ["build/java/Suite.java", "build/java/Observer.java", "build/java/Benchmark.java", "build/java/Problem.java", "build/java/CocoJNI.c"]}
{"id": "C130", "title": "Proposals of initial solutions in Python", "statement": "Whatever calls of initial_solution_proposal were made before, the first call without argument and every call with an argument of at most zero return the initial solution, and all others a random proposal. Every answer is integral in the integer variables and within their bounds; on problems without constraints it is within the bounds in all variables, and with constraints each other variable differs from the initial solution by at most 1. In the variables that are not integers the random proposals have the documented triangular density (on the bbob suite 0.2 (1 - |x|/5)), so that they differ from each other with probability 1.", "quantifier": "all sequences of calls with and without arguments, all problems (numbers of variables, integer variables and constraints, bounds, stored initial solutions), all random numbers", "why_tests_cant": "The proposals are random: a test sees finitely many samples, which cannot establish bounds for all random numbers or a density, and the answer depends on the whole history of calls.", "anchors": ["build/python/src/cocoex/interface.pyx: Problem.initial_solution_proposal", "build/python/src/cocoex/interface.pyx: Problem.initial_solution", "src/coco_problem.c: coco_problem_get_initial_solution"]}
{"id": "C131", "title": "Points and results pass the interfaces unchanged", "statement": "In every interface (the classes Problem and BareProblem in Python, Matlab, Java, Rust) a point is evaluated if and only if it has exactly as many entries as the problem has variables, in a shape that is a single vector (or, for BareProblem, a matrix with such rows, whose values are returned in the order of the rows); it is then evaluated unchanged, and any other point is refused with an error message. No call reads or writes outside of the arrays that are given or returned, and pointers that Matlab holds are passed back unchanged.", "quantifier": "all dimensions, all shapes and lengths of arrays, all objective functions, all pointers of 64 bits and all returned numbers", "why_tests_cant": "The interfaces are tested with points of the right shape; reading or writing a few bytes outside of an array usually has no visible effect, and the result of a point that was cut off looks like any other result.", "anchors": ["build/python/src/cocoex/interface.pyx: Problem.__call__, constraint, recommend", "build/python/src/cocoex/bare_problem.pyx: BareProblem.__call__", "build/matlab/cocoCall.c", "build/java/CocoJNI.c: cocoEvaluateFunction", "build/rust/src/problem.rs: evaluate_function"]}
{"id": "C132", "title": "The texts of messages", "statement": "Every message of the library that the current log level shows reaches the user with its prefix and with its arguments in place of the conversions, unchanged, whatever characters the arguments contain and however long they are, and messages that the level does not show print nothing; in C (and the interfaces that use its runtime) and in Matlab.", "quantifier": "all log levels, all five printing functions, all formats, all arguments", "why_tests_cant": "Texts given by users, such as names of folders, become parts of messages; tests use short texts without special characters.", "anchors": ["src/coco_runtime_c.c: coco_error, coco_warning, coco_info, coco_info_partial, coco_debug", "src/coco_runtime_matlab.c: coco_error, coco_warning, coco_info, coco_info_partial, coco_debug"]}
{"id": "C133", "title": "Counting instances of the same function in Python", "statement": "Every call of a SameFunction object answers the number of directly preceding calls whose ids differ from this one only in parts that start with i; the ids of two problems of a suite are the same in this sense exactly if function and dimension are. Along a suite whose problems of one function and dimension follow each other the answers are 0, 1, 2, ... within each function and dimension, and a loop that skips problems with an answer greater than k runs exactly the first k + 1 of each.", "quantifier": "all sequences of ids; all suites, numbers of instances and limits", "why_tests_cant": "Tests try some sequences of ids; the claim ranges over all ids, orders and lengths.", "anchors": ["build/python/src/cocoex/utilities.py:SameFunction"]}
{"id": "C134", "title": "Progress and timing of experiments in Python", "statement": "A ShortInfo object prints nothing if only the instance has changed, a heading when the dimension changes, each function once with the number of its runs over all instances, and at the end of each dimension its seconds per evaluation, measured from the first problem of the dimension to the first one of the next; the table at the end has one line for each dimension. Neither the object nor the example experiment that uses it raises an exception, whatever the problems of the batch are.", "quantifier": "all experiments: any dimensions, functions, instances, numbers of runs and evaluations, and times", "why_tests_cant": "Tests run one small experiment; the claim ranges over all orders and numbers of problems, empty batches included.", "anchors": ["build/python/src/cocoex/utilities.py:ShortInfo", "build/python/example/example_experiment.py:batch_loop"]}
{"id": "C135", "title": "Random search in Python", "statement": "random_search evaluates only points between the bounds, makes exactly as many evaluations as its budget says (functions and constraints together), and returns for one objective the best of the evaluated feasible points, the first one if there are several, and None if there is none; for several objectives it returns None.", "quantifier": "all problems, budgets, dimensions and sequences of random numbers", "why_tests_cant": "Tests run small budgets, mostly without constraints; the claim ranges over all budgets, numbers of chunks and patterns of feasible points.", "anchors": ["build/python/src/cocoex/solvers.py:random_search"]}
{"id": "C136", "title": "Budgets of the example experiments in Python and Matlab", "statement": "On every problem the example experiments in Python (coco_optimize and the loop of example_experiment2) and Matlab give each run the rest of the budget, do not exceed the budget in total if the algorithm keeps to what it is given, start no run when the budget is used up or the target was hit, and come to an end for every algorithm, in particular after a run without evaluations.", "quantifier": "all algorithms, budgets, numbers of runs and numbers of evaluations of functions and constraints", "why_tests_cant": "Tests run one algorithm with a small budget; the claim ranges over all algorithms.", "anchors": ["build/python/example/example_experiment.py:coco_optimize", "build/python/example/example_experiment2.py", "build/matlab/exampleexperiment.m", "build/matlab/my_optimizer.m"]}
{"id": "C137", "title": "The minimal display of progress in Python", "statement": "The output of a MiniPrint object can be read back: for each call there is one symbol, in order, that says whether the final target was hit or the algorithm restarted, below the dimension and behind the function of its problem. A new dimension is announced exactly when the dimension changes or the index of the problem gets smaller; no function is printed on a line that already has fifty symbols; and the message at the end of each sweep has the number of sweeps so far.", "quantifier": "all sequences of calls: any problems, orders, results and sweeps", "why_tests_cant": "Tests look at the output of a few calls; the claim ranges over all sequences.", "anchors": ["build/python/src/cocoex/utilities.py:MiniPrint"]}
{"id": "C138", "title": "The timing table of the example experiment in Java", "statement": "For every experiment run with the Java example the table printed at the end has one line per dimension in which there were evaluations, in order; each line says the time spent on the problems of the dimension divided by the number of their evaluations; over all lines no evaluation is lost or counted twice, whatever the order of the problems; no line divides by zero; and the total time is printed correctly in hours, minutes and seconds. (In the code the clock of a dimension is set when its first problem is over, so the time of a line leaves out this problem and includes the first problem of the next dimension.)", "quantifier": "every sequence of problems (the exact lines: those that come dimension by dimension), all numbers of evaluations including none, all times", "why_tests_cant": "All sequences and times; the output depends on the clock and no test looks at it.", "anchors": ["build/java/Timing.java: Timing, timeProblem, output", "build/java/ExampleExperiment.java: main"]}
{"id": "C139", "title": "Settings of an experiment written by Python can be read back", "statement": "For every dictionary of settings: written under the name of a new file and read again, it gives without exception exactly those items whose key does not begin with one of the prefixes left out (by default _ and self) and whose value is a literal, in the old order, and a dictionary of literals comes back unchanged; an existing file is never changed, there is a warning instead; no other file is touched; reading a file that does not exist gives nothing, with a warning if wanted. (In the code keys are not tested: a key that is no literal makes the file unreadable.)", "quantifier": "every dictionary, every list of prefixes, every state of the files", "why_tests_cant": "All dictionaries and files; tests try single settings with names as keys.", "anchors": ["build/python/src/cocoex/utilities.py: dict_to_eval, write_setting, read_setting"]}
{"id": "C140", "title": "Initial solutions of repeated experiments in Python", "statement": "Whatever trials were recorded, the repeater of experiments counts for a problem all trials of its function and dimension and no others; for positive odds its proposal is the initial solution of the problem exactly in one of any odds + 1 trials of the function and dimension that follow each other, beginning with the very first, whatever other problems are run in between, and a random proposal of the problem in all others; for odds that are not positive it is always a random proposal; the problem's own sequence of proposals is not disturbed; on a domain around zero the initial solution is the zero vector. (In the code negative odds are treated otherwise: -1 raises a division by zero and -2 always gives the initial solution.)", "quantifier": "every sequence of recorded trials, all odds, all problems and random numbers", "why_tests_cant": "All sequences of trials and odds; the default odds of 14 need sixteen trials to be seen twice.", "anchors": ["build/python/src/cocoex/utilities.py: ExperimentRepeater.initial_solution_proposal, n_trials, trials", "build/python/src/cocoex/interface.pyx: Problem.initial_solution_proposal"]}
{"id": "C141", "title": "Every function of the Matlab interface reaches the function of its name", "statement": "Each function of the Matlab interface reaches through the gateway the compiled function of the same name, with exactly its arguments in order, is never refused for the number of its arguments, and gets a result exactly if it uses one; names may be spelled in upper and lower case at will; with any other number of arguments there is an error message and no function works; a call with a name that is not one of the interface, up to case, ends with a warning and calls nothing, and only such a call does.", "quantifier": "all names, all lists of arguments, all numbers of wanted results", "why_tests_cant": "All names and spellings, and all functions; tests of the Matlab interface call a few.", "anchors": ["build/matlab/cocoCall.c: mexFunction and the functions it calls", "build/matlab/coco*.m"]}
{"id": "C142", "title": "Elapsed time as text in Python", "statement": "For every elapsed time that is not negative, the text of hours, minutes and seconds made of it says this time without its fraction of a second, with less than sixty minutes and seconds. (In the code this holds for exact arithmetic; with doubles the text of a whole number of seconds says this number or one second less, and the example of the documentation, 33 minutes and 21 seconds, gives 0h33:20.)", "quantifier": "every elapsed time (for doubles: all whole numbers of seconds up to a billion and every rounding of their precision)", "why_tests_cant": "All times and rounding errors; the documented example is not run as a test.", "anchors": ["build/python/src/cocoex/utilities.py: ascetime"]}
{"id": "C143", "title": "The timing summary of the complete example experiment in Python", "statement": "At the end of the complete example experiment in Python the summary has one line for each dimension in which a problem was run and for no other, in increasing order, and each line shows the median of the times per evaluation of all problems of the dimension: the middle one, or the mean of the two in the middle.", "quantifier": "every sequence of problems with any dimensions and times", "why_tests_cant": "All lengths and orders of times, odd and even; the times are not reproducible and no test looks at them.", "anchors": ["build/python/example/example_experiment_complete.py: timing summary"]}
