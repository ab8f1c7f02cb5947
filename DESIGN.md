# Formal model of numbbo/coco-experiment (C core) in Lean 4

Source under study: `/repo/src/*.c` (the C core of COCO). It is read as text
only; nothing is built or run.

## Layout

* `lean/Verif/Base/*`   shared vocabulary (C outcomes, doubles, list helpers).
* `lean/Verif/Model/*`  the model: one definition per modelled C function, each
  with a comment citing file and lines.
* `lean/Verif/Lemmas/*` helper lemmas.
* `lean/Verif/Props/*`  the property theorems (named `C01_...`), small
  independent specifications, and beside each theorem an `example` showing that
  its hypotheses are met by a concrete non-trivial case.
* `properties.jsonl` property list, `MANIFEST.json` status of each property,
  `seeded/LOG.jsonl` record of seeded-bug experiments.
  In that record, `failed` lists the property theorems whose proof, or the
  proof of a lemma they use, no longer checks after the edit. This shows that the
  edit is noticed; it does not by itself show that each listed theorem became
  false. Edits whose definition does not compile are not counted as tests. Where a
  build ran out of memory, the theorems were checked one by one, and the entry says so.

## Conventions

* `coco_error` terminates the process: it is a distinct outcome (`Res.error`).
  Undefined behaviour of C (out-of-bounds access, use after free, null
  dereference, signed overflow, division by zero, read of an uninitialised
  variable) is a distinct outcome (`Res.ub`).
* `size_t` is modelled by `Nat`; where wrap-around is reachable it is modelled
  or stated as a precondition.
* Doubles. Code that only compares doubles is modelled over `Dbl`
  (NaN, -inf, finite rational, +inf) with IEEE comparison semantics: this is
  faithful. Code that does arithmetic is modelled in exact arithmetic over the
  rationals or reals: rounding errors, overflow to infinity and underflow are
  *not* exhibited by the model.
* Where a property is false of the code, the negation is proved on a concrete
  witness, and the true part is proved in a theorem with suffix `_partial`.

## Trusted base

* Lean 4.33.0 kernel, Mathlib definitions (lists, rationals, reals).
* Axioms: at most `propext`, `Classical.choice`, `Quot.sound` (checked during
  the build by `lean/Verif/Axioms.lean`). No own axioms, no `sorry`, no `native_decide`.
* The correspondence between the C text and the model definitions (by reading;
  every definition cites its lines).

## Plan per property

* **C01** Suite iteration visits every active problem exactly once, in order. Module `Suite`. Suite arrays as `List Nat` (0 = filtered), cursor triple of optional positions, `nextItem`/`nextProblem` as total functions with error/UB outcomes. Refinement: the outputs of iterating `nextProblem` = list comprehension over active positions, by induction on the arrays.
* **C02** A second pass over an exhausted suite repeats the first pass. Module `Suite`. Same model; prove the exact sequence of the k-th pass (tail of the full sequence) and refute the claim on a witness.
* **C03** Problem index encoding is a bijection. Module `Suite`. `encode`/`decode` on Nat, div/mod arithmetic.
* **C04** coco_suite_get_problem returns the problem with the requested index, or NULL. Module `Suite`. `getProblem` with locals initialised to 0 and a decode that does not write on failure. In-range part proved; out-of-range part refuted.
* **C05** Lookup by function, dimension and instance number. Module `Suite`. First-match search loops; characterisation by membership.
* **C06** Index filters keep exactly the listed entries. Module `Suite`. Loops over 1-based index lists; pointwise characterisation.
* **C07** Index getters return the number stored at that position. Module `Suite`. Getters as code, including the wrong array; refutation with witness and correct parts proved.
* **C08** When both 'year' and 'instances' are given, the later one is ignored. Module `SuiteInstances`. Positions from `strfind` of the two keys; decision table of which key is used; refutation at position 0.
* **C09** Advancing a cursor over a filtered array terminates and never lands on a filtered entry. Module `Suite`. `nextItem` characterised for every position.
* **C10** Range strings denote exactly the listed numbers, clipped to the allowed interval. Module `Ranges`. Character-level model of the parser (strtok on ',', strtol, dash counting), output list; proved on the image of a printer of well-formed items.
* **C11** Range parsing never overruns its result buffer. Module `Ranges`. Buffer as write log with capacity; invariant count <= max_count for every input.
* **C12** Option reading returns the value written for the key. Module `Options`. `optionsRead` on character lists; theorem for key/value lists; refutation for contained names.
* **C13** Substring search returns the leftmost occurrence. Module `Strings`. Leftmost match by induction.
* **C14** Unknown options are exactly the ones reported. Module `Options`. Lists of keys.
* **C15** Counting a 0-terminated list returns the number of entries before the first 0, or aborts at the limit. Module `Options`. Count with error outcome; combination with range parser refutes the 1000-instance claim.
* **C16** Trimming and splitting strings. Module `Strings`. trim / split / remove on lists of characters.
* **C17** Evaluation counters count exactly the finite-argument evaluations. Module `Problem`. Problem state machine over histories of calls; induction over the history.
* **C18** Best observed value is the minimum over feasible evaluated solutions. Module `Problem`. Doubles as NaN | -inf | finite | +inf with IEEE comparison; fold = minimum over feasible evaluations.
* **C19** Non-finite arguments yield non-finite results and have no effect. Module `Problem`. Same state machine.
* **C20** The final target is reported hit iff it was reached. Module `Problem`. Same state machine; combination with C18.
* **C21** The default initial solution lies in the region of interest and is integral where required. Module `Problem`. Rational arithmetic with `floor(x+1/2)` rounding.
* **C22** Problem ids are accepted iff they are non-empty words over the safe alphabet. Module `Problem`. Character scan.
* **C23** Stacked problems concatenate objectives and constraints. Module `Problem`. Tree of stacked problems; evaluation by recursion.
* **C24** Feasibility check. Module `Problem`. Same double type.
* **C25** Log-scale target trigger fires exactly when a new target is reached. Module `Triggers`. Target exponents as integers computed by `ceil`/`floor` of an abstract monotone logarithm; trigger state machine over histories.
* **C26** Linear target trigger fires exactly on a new multiple of the precision. Module `Triggers`. Rational model with `ceil`.
* **C27** Evaluation-number trigger under unit steps. Module `Triggers`. Nat model of `floor(pow(10,k/20))` as abstract nondecreasing unbounded sequence; unit-step run.
* **C28** Setting the log level returns the previous level. Module `Utilities`. Log level state machine.
* **C29** Adding and removing an observer are inverse. Module `Observer`. Problem wrapper stack with observer tags.
* **C30** Dominance code agrees with Pareto dominance. Module `MO`. Grid integers; dominance flags loop; Pareto specification.
* **C31** Normalisation never beats the ideal point or the extreme solutions. Module `MO`. Rational normalisation with rounding to grid.
* **C32** Distance to the region of interest. Module `MO`. Real distance.
* **C33** The AVL tree is a correct ordered set under any sequence of inserts and deletes. Module `Avl`. Functional binary trees with stored depths; insert/delete/rebalance as in the code (path walk instead of parent pointers); BST, balance and in-order refinement by induction.
* **C34** AVL neighbour search. Module `Avl`. Search functions on the same trees.
* **C35** The archive contains exactly the non-dominated solutions. Module `Archive`. Sorted list refinement of the tree; the insertion loop of the archive; set specification.
* **C36** Archive size and hypervolume are those of its current content. Module `Archive`. Cached count/volume with up-to-date flag; staircase area defined independently.
* **C37** Archive iteration returns every solution exactly once. Module `Archive`. Cursor state machine.
* **C38** The incrementally maintained hypervolume indicator equals the recomputed one. Module `LoggerBiobj`. Incremental indicator update; equality with recomputation.
* **C39** Feeding solutions requires strictly increasing evaluation numbers. Module `LoggerBiobj`. Feed state machine.
* **C40** The rw logger writes a line for exactly the first evaluation and every improvement. Module `LoggerRw`. State machine producing lines.
* **C41** The bbob logger's .dat file contains the first evaluation, every target-hitting evaluation and the last. Module `LoggerBbob`. State machine producing .dat lines.
* **C42** The bbob logger refuses problems whose optimum was revealed. Module `LoggerBbob`. Taint flag.
* **C43** Uniform random numbers lie in [0,1] and are determined by the seed. Module `Random`. 32-bit seed expansion and block-wise generation over rationals with an arbitrary monotone rounding; refinement of the element-wise lagged Fibonacci recurrence, loop invariants of the two refill loops.
* **C44** The legacy uniform generator stays in bounds and in (0,1). Module `Legacy`. Integer model with conversion and table accesses as undefined outcomes; interval bounds for the first five states, then Schrage's identity; the shuffle table holds distinct states.
* **C45** Optimal solutions and offsets of bbob problems lie in the documented ranges. Module `Gauss`. Rational and real arithmetic on top of C44.
* **C46** Noise seeds stay in their valid range. Module `Gauss` (namespace `Noise`). Both seeds as functions of the number of draws; induction over the calls.
* **C47** Noise never improves on the optimum. Module `Gauss` (namespace `Noise`). Real arithmetic; draws from the model of C44 and C46.
* **C48** Unique names are never those of existing files. Module `FileSystem`. A file system is a function from path texts to kinds; first free candidate by induction over the trials, for directories on top of C81.
* **C49** Generated permutations are permutations. Module `Permutation`. `qsort` is a parameter with the guarantee of the C standard as hypothesis; induction over the swaps, random numbers from C44.
* **C50** Permutation transformations: forward and inverse cancel. Module `Permutation`. Gather and scatter loops by induction; the buffer content before the call is arbitrary.
* **C51** Block sizes partition the dimension. Modules `Rotation`, `Blocks`. Induction over the rows for the maps; multiplication compared with the full sum over the block-diagonal matrix.
* **C52** Box penalties vanish exactly inside the box. Module `Transform` (and `Gauss` for the noisy suite). Real arithmetic; penalty as squared distance to the box.
* **C53** Boxed problems return infinity exactly outside the box and do not evaluate there. Module `Box`. Extended doubles; the calls of the inner function are recorded.
* **C54** Transformations keep the recorded optimum correct. Module `Transform`. Problem record (function, region, best parameter, best value) and 17 transformations as in the code; induction over the chain, with specification functions for the place and value of the optimum; witnesses for every condition.
* **C55** Discretisation maps grid points into the inner region and preserves the optimum. Module `Discretize`. Real arithmetic with floor; the image of each coordinate as a point of an arithmetic progression through the inner optimum.
* **C56** Mixed-integer suites: variable cardinalities. Module `Discretize`. Induction over the loop of variables; the problem on top of C54 and C55.
* **C57** Monotone coordinate transformations. Module `Transform` (theorems in `Props/Coordinates`). Real analysis: Lipschitz bound of the sine, intermediate values, sign of a derivative.
* **C58** Instances by year. Module `Tables`. Decision tables over Int years; finite tables by `decide`, rest by case split.
* **C59** Bi-objective function numbering is a bijection onto function pairs. Module `Biobj`. The floor of the real square root is characterised by two integer inequalities; then the finite domain is evaluated.
* **C60** Search for a second instance. Module `Biobj`. Induction over the number of tries, loops over pairs and dimensions (each check may stop the process) characterised by induction over lists.
* **C61** Reference hypervolume of known and unknown bi-objective problems. Module `Biobj`. Induction over the table lines.
* **C62** Constrained problems have the documented number of active and inactive constraints. Module `Constrained`. Invariant of the loop over the constraints (created = active + inactive so far), for arbitrary random numbers.
* **C63** The initial solution of constrained problems is feasible. Module `Constrained`. Same invariant; the disguise is treated by bounding its factor.
* **C64** Disguising the first constraint keeps the origin optimal. Module `Constrained`. The linear combination is tracked with its weights; multipliers are given explicitly.
* **C65** The scaled feasible direction keeps the initial point inside the region of interest. Module `Constrained`. The maximum over the coordinates is characterised by induction over the list.
* **C66** Index options select exactly the listed subset of a suite. Module `Filters`. Option texts through the range parser and the filter loops; membership characterisation.
* **C67** Every supported suite constructs with default arguments and has the documented content. Module `Construct`. Suite arrays produced by the default constructors.
* **C68** Conversion of doubles to int rounds to a nearest integer. Module `Utils`. Rational model of the rounding cast; refuted for negative numbers.
* **C69** Rounding up to a precision. Module `Utils`. Rational model with `ceil`/`floor`.
* **C70** Formatted strings are duplicated exactly or the process stops. Module `Str`. Buffer length of the formatted duplicate; refuted for long texts.
* **C71** Integer observer options are range checked. Module `Observer`. Option text to integer, range checks.
* **C72** Indicator value of the bi-objective logger. Module `LoggerBiobj`. Invariant over histories: penalty, hypervolume, last value; area as Lebesgue measure of the dominated part of the unit square.
* **C73** Archive file of the bi-objective logger. Module `LoggerBiobj`. Same invariant; buffer tree empty after each evaluation in mode `all`; re-sorting loop at the end.
* **C74** Restart, target and last lines of the bi-objective logger. Module `LoggerBiobj`. Same invariant; target trigger abstract.
* **C75** The rw observer takes each setting from its options or its default. Module `LoggerRw`. Options read as in C12; refuted for a key without value at the end.
* **C76** The target trigger fires exactly when a new logarithmic or linear target is reached. Module `Triggers`. Both triggers run side by side on the same values; uses C25 and C26.
* **C77** The bbob logger's .tdat and .rdat files contain exactly the evaluations they document. Module `LoggerBbob`. Invariant over histories of calls; evaluation trigger from C27.
* **C78** Recommendations are logged in the .mdat file only. Module `LoggerBbob`. Same invariant; refuted for freeing after recommendations only.
* **C79** Constraint values are shown as a digit for their order of magnitude. Module `LoggerBbob`. Case analysis over the limits.
* **C80** Bi-objective recommendations go to the .mdat file only. Module `LoggerBiobj` (theorems in `Props/Recommend`). Induction over the calls; parametricity of the other calls in the recommendation lines.
* **C81** Creating a directory creates exactly the missing ancestors. Module `FileSystem`. Induction over the characters of the path: all ancestors passed are directories.
* **C82** Joined paths are complete. Module `FileSystem`. Exact when the result fits; false of the code otherwise (silent truncation with two components), with a witness.
* **C83** Rotation matrices are orthogonal. Module `Rotation`. Real arithmetic; Gram-Schmidt invariant (orthonormal, same span) by induction over the columns.
* **C84** Block rotations are orthogonal and accepted. Module `Blocks`. Induction over the blocks on top of C83 and C51; the own test of the transformation is modelled.
* **C85** The problems of the bbob suites have the optimum they record. Module `Bbob` (on top of `Transform`, `Legacy`, `Rotation`). Each raw function is shown non-negative and zero at its best parameter; the chain of transformations is handled by C54; functions 7, 9, 19, 21, 22 and 24 directly.
* **C86** The recorded optimum of Schwefel's problem is right up to 1e-13. Modules `Bbob`, `Lemmas/Schwefel`. Numerical bounds for sine and cosine by Taylor polynomials with remainder; a quadratic upper bound near the maximum, elementary bounds elsewhere.
* **C87** The problems of the large-scale suite have the optimum they record. Module `LargeScale` (on top of `Bbob`, `Permutation`, `Rotation`). Block rotations are orthonormal (C84) with at most 40 non-zero entries per column, permutations bijective (C49); chains of transformations by C54, functions 7, 19, 21, 22 and 24 directly.
* **C88** The problems of the bbob-mixint suite have the optimum they record. Module `Mixint`. Composition of C85/C86/C87 with C56 (theorem `mixint_maps`: the outer function evaluates the scaled inner function at grid points).
* **C89** The problems of the sbox-cost suite have the optimum they record, inside the box. Module `Mixint` (namespace `Boxed`). Composition of C85/C86 with the box.
* **C90** Noisy problems have a noise-free part with a known optimum and never report a value below it. Module `Noisy`: the 30 branches of the suite, composed from the allocators of `Bbob` (C85) and the noise models of `Gauss` (C46, C47).
* **C91** Constrained problems have a feasible start, a feasible recorded optimum and no feasible point that evaluates clearly better. Module `ConsSuite` (on top of `Bbob`, `Constrained`, `Transform`): the nine objective functions with their gradients, the stacked problem, its transformations with the assertions after each evaluation, the initial solution by numerical inverses (arbitrary functions, exact where needed). Objective functions lie above their tangents (or an increasing function of them does) at the origin, then C64; `Lemmas/Warp`: the non-linear transformations are increasing and onto.
* **C92** Ideal and nadir point of the bi-objective problems are right, and new instances keep them apart. Module `BiobjSuite` (on top of `Biobj` and `Bbob`): stacked problem, consistency check. From C85, C86 for the two functions; a Pareto-optimal point beyond the nadir point would be dominated by an extreme solution. New instances: C60 with the model of the consistency check; dimensions above 44 from C85_too_large.
* **C93** Ideal and nadir point of the bi-objective mixed-integer problems are right. Module `BiobjSuite` with `Discretize`, `LargeScale`: C56, C85-C87 for the two functions, then as C92.
* **C94** Observers do not change what the user sees. Model/Watched: objects `coco_problem_t` of Model/Problem under any number of loggers, each with its own copy of the fields; what each logger's evaluate function does with the inner object (evaluation, uncounted constraint evaluation, taint check, optimum assertion). `C94_transparent`: equality of runs, failures included, by induction over the calls with the invariant that a logger's fields equal the inner object's; `C94_bbob` and `C94_bbob_stops` for the bbob logger; `C94_mark_not_seen`: the refusal after the best parameter was asked for does not work under a second logger.
* **C95** Recommended solutions are not counted as evaluations. Same model. `C95_getters`: the observed problem's fields never change. `C95_no_effect_partial`: no effect under toy and rw loggers. The claim is false for the bbob and the biobj logger, which evaluate the inner problem with `coco_evaluate_function`: `C95_recommendation_is_evaluation`, `C95_counted` (the comments in logger_bbob.c and logger_biobj.c say that the evaluation is not counted).
* **C96** Suites, observers and problems can be freed in any order. Model/Lifecycle: a heap of problem objects, observers and suites with the pointers between them; `free`, `addObserver`, `removeObserver`, `evaluate`, `recommend`, `nextProblem`, ... read and free objects, and reading or freeing an absent object is `ub`. The rules for programs are `Spec.View.Allowed`. Invariant `Inv` (the problem objects form disjoint trees, one per problem of the program; pointers between observers and loggers are mutual) over all reachable states: `C96_safe`, `C96_any_order`, `C96_one_at_a_time`, `C96_iteration`, `C96_remove`, `C96_no_leak`. `C96_rules_needed`: each rule is needed, breaking it leads to undefined behaviour, a failed assertion or a leak.
* **C97** The archive tree never touches memory outside its nodes and keeps no loose ends. mo_avl_tree.c once more, with a heap of nodes changed field by field (Model/AvlPtr): NULL or freed pointers are `ub`, loops take fuel. Proved by a representation predicate with a zipper (path with a hole), symbolic execution of the four rotations, a path lemma for the search (`rightishLoop_ok`) and refinement to the trees of C33. Assumes: malloc succeeds and returns unused addresses; only nodes of the tree are passed to avl_node_delete.
* **C98** Numerical inverse of the non-linear transformations. `Brent.brentq` (loop split into `bracket`, `exchange`, `tryStep`, `chooseStep`, `advance`) and `brentinv` in exact real arithmetic, a division by zero or an endless loop is `ub`. Invariant of the loop: the estimates lie in the interval, a change of the sign is known and the previous estimate is either the other end of the bracket or on the far side of the current one, so that the inverse quadratic step, a mean of two linear steps, goes towards the other end (`C98_root_finder`). With the search for the interval: `C98_inverse` for every monotone onto function that keeps the sign, `C98_transformations` for the two of the code, and `C98_created`, which replaces the exact inverses in `C91_created` by the computed ones. Convergence within 200 iterations is not claimed (the code returns the last estimate without a sign of it); the flag in the result of the model tells which case it is.
* **C99** The result folder of the bbob observer is an index of the runs. Model/InfoFile: `openFiles` (logger_bbob_initialize with start_new_line, open_info_file, open_data_file and the observer's last_function, last_dimension, last_dat_file), the end of the entry written by logger_bbob_free, buffers and unique names as in the code, on a disk of texts. Invariant over the list of observed problems: `Spec.Describes` (blocks of consecutive problems, names, texts of all files, no other files): `C99_index`; `C99_no_stop`; `C99_append_only`. `C99_two_suites`: the section names the suite of the first problem of the block only. Data lines are texts (their contents are C41, C77, C78); directories and failing system calls are left out.
* **C100** The result folder of the bi-objective observer describes the experiment. Model/BiobjFiles: `openFiles` (archive, info file with heading and line, .dat/.tdat/.rdat, .mdat, with the observer's previous_function and previous_dimension), `writeLines`, buffers of coco_join_path and coco_strdupf and coco_remove_from_string as in the code, on a disk of texts. The paths are an injective image of `Spec.File` (`C100_separate`); invariant over the list of observed problems `Spec.Describes`: `C100_folder`, `C100_append_only`. Hypotheses: identifiers of the suite's format without `_` in the name, types determined by the function, names within the buffers. `C100_recurring`, `C100_two_suites`: where the info files are ambiguous. Data lines are texts (their content: C13, C34, C35), directories and failing system calls are left out.
* **C101** Unknown options are reported, known ones are not, and no option string stops the process. Model/OptionKeys: `optionKeys` (pieces between quotation marks, the first of them used as a format of coco_strdupf with its assertion on 220 characters, pieces between colons, trimming, last blank), `outputLoop`, `checkKeys` with the key lists of all observers and suites. For lists of items `Spec.Item` (keys, white space, plain or quoted values): `C101_keys_partial`, `C101_warning_partial`, `C101_observer_partial`, `C101_known_fit`; `C101_safe` for all strings. The code violates the unrestricted claim: `C101_long_stops` (every string with 220 characters before a quotation mark), `C101_eighty_instances`, `C101_percent`, `C101_only_quotes`, `C101_empty_quotes`, `C101_line_end`. Memory is not tracked.
* **C102** Freeing a problem releases exactly the memory its creation and its observers allocated. Model/Memory: a heap of numbered blocks (releasing a block not in use is undefined), the generic parts of coco_problem.c (`newFields`, `dupFields`, `freeGeneric`, `wrap`, `stack`, `freeProb`, `removeObserver`) and the data of all transformations with what their free functions release. Model/MemoryScripts: each of the 74 constructors of f_*.c as the list of its allocations, releases and wrappers in order. Model/MemorySuites: the functions of the suites, incl. linear constraints, bi-objective problems and their taking apart. Proof: triples with frames (Lemmas/Memory), a decidable check `sound` of a constructor that implies for all dimensions and numbers of peaks that the result owns exactly what is allocated (`call_ok`), composed over the suites. `C102_balanced`, `C102_plain`, `C102_owned`, `C102_observer`, `C102_sequence`, `C102_defined`; `C102_biobj_partial` and `C102_biobj_leaks` for the vector of nadir values that coco_problem_duplicate overwrites. Contents of strings and vectors, temporaries of helpers and evaluations, further bi-objective instances and the bi-objective logger are left out.
* **C103** Ids, names and types of problems. Model/Identity.lean runs the constructor programs of Model/MemoryScripts.lean on texts: every set_id, set_name, set_type, transformation and stacking prints into the buffer of 444 characters. Proved by symbolic execution: names are described by their prefixes, the description is computed for each of the 93 constructors by kernel evaluation, and one soundness lemma (call_den) transfers it to all instances and dimensions. Uniqueness by reading the digits back and comparing the texts before the numbers.
* **C104** Files of the observer bbob-old. Model/OldFiles: the variables of logger_bbob_old.c (dimension, function, first instance, six dimensions) and the disk; `openIndexFile` with the replacement of the path's end, `openFiles`, `life` of a logger, `experiment` with several observers. Proof: paths are injective, the effect of a life is a list of appended texts (`life_ok`), invariant over notes (problem, instance in the names, heading), invariant on the list of dimensions (`Kept`: distinct but for one place). `C104_folder_partial`, `C104_five_dimensions`, `C104_single_pass`; violated otherwise: `C104_seventh_dimension`, `C104_six_dimensions`, `C104_glued`, `C104_two_folders`.
* **C105** Lines written by the observer bbob-old. Model/LoggerOld: evaluate and free of logger_bbob_old.c with the values of the lines. Proved by a simulation (`run_sim`): on the same calls the old logger and the bbob logger (C41, C77) with a known optimal value stay related, so both come to the same end and write the same lines (`C105_same_lines`); from the theorems about the bbob logger follow `C105_dat`, `C105_targets` (with C25 for the logarithmic targets), `C105_tdat`, `C105_last` and `C105_runs`. `C105_unknown_optimum`: an unknown optimal value is taken as 0 and a negative value then fails an assertion.
* **C106** The bi-objective logger neither reads released solutions nor releases one twice. Model/BiobjItems: the functions of Model/LoggerBiobj with the list of allocated items; reading or releasing an item that is not allocated is undefined, and a search counts as reading the whole tree. Proof: the allocated items are a permutation of those in the archive and of the infeasible ones (`Held`), kept by each removal (`removeNode_sim`), by the loop (`removeLoop_sim`), the insertion (`inserted`) and the whole update (`treeUpdate_sim`); the invariants of C38 give the outcome of the logger itself. `C106_held_partial`, `C106_released_partial`; violated for infeasible solutions, which are never released: `C106_infeasible_kept`.
* **C107** Removing a directory removes exactly that directory. Model/RemoveDir: a file system with symbolic links, `stat`, `opendir`, `unlink` and `rmdir` on it with missing permissions, and the recursive function itself (`partial_fixpoint`, so that the end of the call is part of the theorems). Proof: paths below the directory lead to the locations below it in every file system between the given one and the one without the tree (`tree_walk`, `Mid`); induction on the depth and the names (`removeAll_done`, `removeDir_done`). `C107_removed_partial`, `C107_inside_partial`, `C107_absent`, `C107_file`; violated with symbolic links to directories (`C107_link_followed`) and long paths (`C107_long`).
* **C108** Gradients of the objective functions of the constrained suites are their derivatives. Model/ConsSuite (`gradientOf`, the gradients of the functions). `IsGradient f g x` says that `f` has a Fréchet derivative at `x` and that it is `d ↦ ∑ g i * d i`. Sums of functions of one coordinate, chain rule for the five transformations with a gradient, induction over the sequence of transformations (C108_transformations), then the nine allocators (C108_objective_partial). Counterexamples: C108_different_powers, C108_linear_slope_outside, C108_scaled.
* **C109** The log file of the toy observer gives the first hitting times. Model/LoggerToy: the shared log file as a list of headings and lines, loggers with their targets (Model/Triggers), any interleaving of observing, evaluating and freeing. Induction over the evaluations with the exponent of the logger as state (`written`), then over the runs; hitting times from the strict monotonicity of targets in the exponent (C109_file_partial); the specification determines the lines (C109_lines_unique). Counterexamples C109_infinite, C109_interleaved.
* **C110** The archive holds exactly the memory of its solutions. `Model/ArchiveItems.lean` (the functions of `Model/Archive.lean` with the list of allocated blocks: three per item, the structure, the tree, the points, and the temporary vector and strings), simulation lemmas in `Lemmas/ArchiveItems.lean`. `C110_memory`, `C110_free`: content of the memory after every sequence of calls and after freeing, by induction over the calls. `C110_text`: what the pointers returned lead to and how long they are valid; `C110_dangling`: a pointer that is no longer valid after an addition. Nodes of the tree: C97.
* **C111** An observer is created with the settings asked for and a folder of its own. Model/ObserverMake.lean: the whole of `coco_observer` with the file system of Model/FileSystem.lean and the option readers of Model/Options.lean; `sscanf` with `%lf` is a parameter. Proved per kind of observer (C111_single/old/rw/toy_partial) that the fields are the given values or defaults and the folder is the first free candidate; C111_fresh by induction over arbitrary sequences of creations and other writes. Partial: see the manifest.
* **C112** The options of bi-objective observers have their documented meaning. Model/ObserverMake.lean `biobj`: the four options of `observer_biobj` and the active flag; C112_biobj_partial.
* **C113** Restarts are recorded by the observer they are signalled to. `Restart`: a problem as a stack of loggers with their evaluation counters, restart flags and rdat lines; signals are dispatched by the kind of the observer but act on the outermost object, as in the code. Induction over the calls with an invariant that describes the flag and the lines by positions in the history. Partial: `C113_wrong_logger`, `C113_confused` show that the full statement is false. Not modelled: other files and columns (C77, C80), evaluations that stop the program, points with NaN or infinite coordinates.
* **C114** Normal random numbers are reproducible and finite. `RandomNormal` on top of `Random`: two uniform numbers (rounded, any monotone rounding on a grid) give one normal number; logarithm, root and cosine are exact real functions, a logarithm of 0 gives a value that is not finite. From C43 by induction over the calls; the bound by an invariant that all uniform numbers are multiples of the grid. Partial: `C114_infinite` shows a seed whose first number is not finite.
* **C115** Noisy problems do not disturb each other. `NoiseShared.runShared` on top of the noise models of C46/C47: calls marked with the number of a problem share the two seeds. A simulation between the schedule and the schedule restricted to one problem, by induction; a call depends only on the seeds of the streams it draws from (`step_dep`). Partial: `C115_interference` is a schedule of two evaluations for which the full statement is false.
* **C116** Revealing the optimum ends the benchmarking of a problem. `Tainted`: the problem and its loggers as a stack of marks; new loggers copy the mark of the object they wrap, asking marks the outermost object, the bbob logger looks at its own and the next mark. Invariant by induction over the calls: all marks from the position asked at outwards are set. Partial: `C116_removed`, `C116_covered`, `C116_others`, `C116_printed` show that the full statement is false. Not modelled: transformations inside the problem, several objectives (asking then does nothing), points with NaN or infinite coordinates, other reasons for an evaluation to stop, failure to open the printed file.
* **C117** What observers have written survives a crash. `Crash`: the calls of `fprintf`, `fflush` and `fclose` of the five loggers, in order, with arbitrary texts; files are what was handed to the operating system and what is buffered, and the library may hand over any part of a buffer at any time. Conservation of the text (`exec_total`), growth of the files (`exec_mono`) and emptiness of a buffer after a flush (`exec_clean`), each by induction over the events; then by induction over the calls of a logger. Partial: `C117_info_lost`, `C117_biobj_lost`. Not modelled: which lines are written (C77, C38, C80, C109 and others), failing writes, loss of data by the operating system itself, several problems writing to the same file at a time.
* **C118** The example experiment keeps to its budget. `Experiment`: the loop over restarts on one problem with the counters of evaluations (unsigned 64-bit differences) and an algorithm as an arbitrary function of call number, budget and counters; `randomSearch` as in the example. Invariant by induction over the restarts. Partial: `C118_constraints_endless`, `C118_constraints_error`. Not modelled: what is evaluated (C119), overflow of dimension times multiplier.
* **C119** The searches of the example stay inside the region of interest. `Search`: nodes as mixed radix counters advanced as in the code; the n-th node visited consists of the digits of n (`visit_eq`), which are injective and reach all nodes; steps and bounds give the points. The root of the budget computed with `pow` and `floor` is a parameter, exact only in `C119_complete`. Floating-point numbers are reals. Partial: `C119_binary`, `C119_mixed`.
* **C120** The timing table of the example experiment. `Timing`: the state of the table, writing beyond the end of its array is undefined. Induction over the blocks of problems of the same dimension (`blocks_ok`). Partial: `C120_wrong_dimension`. Not modelled: printing of the numbers, a clock that runs backwards is allowed.
* **C121** Batches partition an experiment. `PyBatch`: the attributes of BatchScheduler with unbounded integers, `is_in_batch` as a function of the state. Induction over the blocks and the sweeps: within a block the state stays, between blocks the counter advances, at the first problem of the suite it starts again. `C121_batches` gives the answers in terms of the number of the block modulo the number of batches; `C121_partition` follows. `C121_arguments`: what the constructor accepts. Not modelled: suites in which a function and dimension come back later.
* **C122** Repeated experiments are complete. `PyRepeat`: the list of trials as tracked, `done`, `missing_trials`, `budget_exhausted`, `succeeded` on it, with rational numbers for the budget; an algorithm is an arbitrary function of the history. Invariant: per function and dimension the trials are complete rounds (during a sweep all but the last one), each justified by the state before it. Not modelled: printing, the estimate of the remaining time, suites with repeated instances.
* **C123** Benchmarking algorithms that take a budget. `PyNonAnytime`: the points recorded by the observed problem, the counter of the current run and which copy is in use; exceptions are `none`. Within a run the unobserved copy is used until the counter reaches the number of recorded evaluations (`calls_reset`), then the observed one (`calls_observed`); induction over the runs. `C123_equal_budget`: strict increase is needed. Floating-point values are reals, no noise.
* **C124** Values of the Rust interface are safe to use. `RustWrapper` on top of `Lifecycle` (C96): the values a program owns, what the borrow checker accepts (one problem per suite, a suite that is borrowed cannot be used or dropped; observers are not borrowed), and the library calls of each method incl. forgetting the suite's current problem. Simulation: every accepted call is one or two calls allowed by the rules of C96 (`step_ok`), by induction over programs; `next_problem` followed by forgetting equals getting a problem and putting the observer on it. Partial: `C124_dropped_observer`. Not modelled: threads, the other getters.
* **C125** Objects of the Python interface live as long as they are needed. `Model/PyObjects.lean`: the objects of `interface.pyx` with their pointers and the references between them, on top of the heap of C96; the collector removes what nothing refers to, at any time. `C125_safe_partial`: an invariant relates the objects to what the library knows of its user (C96), for programs that follow three rules (the suite of a problem stays while the problem is observed or evaluated, observers on a problem are not freed, counters of freed problems are not asked for). `C125_exceptions` (when exceptions are raised, without effect), `C125_no_leak`. The full statement is false: `C125_collected_suite` (a problem does not keep its suite alive), `C125_freed` (`evaluations` of a freed problem aborts although the comment promises an exception; freed observers).
* **C126** Suites in Python: contents, sweeps and look-ups. `Model/PySuite.lean`: the class `Suite` of interface.pyx over the model of the C suite: the sweep of `_initialize` (a loop without bound, fuel that is shown to suffice), `next_problem`, `reset`, `get_problem` (indexing of Python lists, the search of the id outside of the `try`), `get_problem_by_function_dimension_instance` (conversion to `size_t`), `ids`, `dimensions`, `__iter__`, `free`, and `_parse_id`. Proved by simulation (`Props/PySuite.lean`): every sequence of calls is answered as by a counter and the list of problems of C01 (`C126_calls`), contents (`C126_content`), loops after any history (`C126_loop`) and nested ones (`C126_nested`), `C126_ids`, and with the texts of C103: `C126_triple`, `C126_toy_triple`, `C126_id`. Not modelled: observers given to the calls, objects other than integers and texts as keys, names and numbers of objectives; which C problem is freed when is C125.
* **C127** Observer options given as a dictionary in Python. `Model/PyOptions.lean`: `repr` of texts, `str` of dictionaries, `replace(pat, '')` from left to right, the two lists of texts to be removed, `update` and `update_gracefully`. `C127_text`, `C127_as_string`: the exact text for all dictionaries without quotation marks, commas, braces, backslashes (with double ones for `as_string`), by induction over the entries; `C127_read_partial`, `C127_read_number_partial`, `C127_read_quoted_partial`: what the C readers (C12) return for it. The full statement is false: `C127_final_u` (for every text that ends with u), `C127_quotes_lost`, `C127_apostrophe_comma`. Not modelled: `repr` of characters that are not printable.
* **C128** Arguments of experiment scripts in Python. `Model/PyArgs.lean`: `args_to_dict` with `split`, the loop over the known names, the test for two values and the special `batch`; `ast.literal_eval`, `int` and `!=` of values are arbitrary functions. `Props/PyArgs.lean`: the specification says what an argument means (`Spec.Means`) without the loops; by induction over the arguments the result is accepted (`C128_accept`) and has the values (`C128_values`) it says, independent of the order (`C128_order`) and of abbreviations (`C128_abbreviation`); `C128_hidden_name`, `C128_any_name`, `C128_batch`, `C128_batch_order`, `C128_other_special`. Not modelled: separators other than single characters, printing.
* **C129** Objects of the Java interface. `Model/JavaObjects.lean`: the methods of the four Java classes with the functions of CocoJNI.c they call, as calls of the library of C96; the Java objects a program has made, with the pointers they keep for ever; what the compiler accepts (`Typed`). `Props/JavaObjects.lean`: with rules that the interface does not check (`Spec.Rule`) every call is defined and all but `getNextProblem` succeed (`C129_safe_partial`), by induction over the calls and refinement to C96; `C129_sweep`, `C129_no_leak`. The full statement is false: `C129_undefined` (five programs), `C129_leak` (problems of `getProblemByFuncDimInst` are never freed). Not modelled: calls of `CocoJNI` by the program itself, exceptions of the virtual machine, copies of names and bounds.
* **C130** Proposals of initial solutions in Python. `Model/PyProposal.lean`: `initial_solution_proposal` with its counter of calls without argument, `initial_solution` and the default of `coco_problem_get_initial_solution`; the random numbers of numpy are arguments of which only the ranges are assumed, real numbers stand for doubles. `Props/PyProposal.lean`: answers of every sequence of calls by induction (`C130_calls`, `C130_first`), `C130_domain`, and with Mathlib's Lebesgue measure on pairs of random numbers `C130_density` (the distribution function is the integral of the triangular density), `C130_bbob`, `C130_different`. Not modelled: rounding of doubles, the generator of numpy, bounds that are missing.
* **C131** Points and results pass the interfaces unchanged. `Model/Interfaces.lean`: the tests of shapes and lengths in the five interfaces in front of one evaluation that reads as many entries as the problem has variables; in Matlab also the bytes of returned pointers (8 bytes, class INT64) and numbers (8 bytes written to class INT32). `Props/Interfaces.lean`: `C131_python`, `C131_matlab`, `C131_rust` (accepted exactly if the shape is right, for all arrays), `C131_pointer` (round trip of all 64-bit pointers), `C131_long_enough_partial`; the full statement is false: `C131_short` (BareProblem and Java never compare lengths), `C131_overflow` (Matlab getters). Not modelled: conversions of entries to doubles, complex arrays of Matlab, arrays that are not contiguous (refused by Cython).
* **C132** The texts of messages. `Model/Messages.lean`: the expansion of formats (plain text, `%%`, flags, conversions; arguments as the texts they are printed as) and the five printing functions of both runtimes over the levels of C28. `Props/Messages.lean`: by induction over the parts of a format `C132_c` for all formats and arguments; `C132_matlab_partial` without percent signs and below 500 characters. The full statement is false for Matlab: `C132_matlab_wrong` (every message with a percent sign, every message of 500 characters), `C132_folder`. Not modelled: how numbers are printed, the end of the process.
* **C133** Counting instances of the same function in Python. `SameFunction`: `Model/SameFunction.lean`; ids as lists of parts joined by underscores (every text is one); invariant over the sequence of calls, then induction over the blocks of a suite; the ids of problems are parts `f…`, `i…`, `d…` behind any prefix
* **C134** Progress and timing of experiments in Python. `ShortInfo` and `batch_loop` of the example experiment: `Model/ShortInfo.lean`; times rational and arbitrary, white space and the format of numbers left out; induction over dimensions, functions and instances against a text given block by block; partial: exceptions without runs (`C134_no_run`), an empty batch (`C134_empty_batch`), and the example never calls the object (`C134_example_wrong`)
* **C135** Random search in Python. `random_search`: `Model/PySearch.lean`; the drawn points are any sequence, the values any linear order (no NaN), budgets whole numbers; induction along the loop over chunks; partial: with constraints the number of evaluations is up to twice the budget (`C135_twice`) and the returned point may be infeasible (`C135_wrong_point`)
* **C136** Budgets of the example experiments in Python and Matlab. the loops over restarts of `example_experiment.py`, `example_experiment2.py` and `exampleexperiment.m`: `Model/ExampleLoops.lean`; an algorithm is any function from run and budget to numbers of evaluations; induction over the runs; partial: one evaluation too many (`C136_one_more`), no stop after runs without evaluations (`C136_idle`, `C136_experiment2_endless`), twice the budget with constraints in Matlab (`C136_matlab_twice`)
* **C137** The minimal display of progress in Python. `MiniPrint`: `Model/MiniPrint.lean`; the output as a list of tokens, the time of day left out; a reader of the output recovers dimension, function and symbol of every call, by induction over the calls with the state as invariant; lines and sweeps likewise
* **C138** The timing table of the example experiment in Java. `JavaTiming`: the fields of the class, `timeProblem`, `output`. Induction over the blocks of problems of the same dimension (`blocks_ok`) and over any sequence for the sum of the evaluations (`fold_count`). Partial: `C138_wrong_dimension`. Not modelled: formatting of the quotient, two readings of the clock in one call are equal, no overflow.
* **C139** Settings of an experiment written by Python can be read back. `PySettings`: `dict_to_eval`, `write_setting`, `read_setting` over a map of files; `str`, `repr`, `literal_eval` are arbitrary functions, the text of a dictionary is the list of the texts of its items. Induction over the dictionary. Partial: `C139_unreadable`. Not modelled: joining the parts of a file name, errors of opening files, files not written by `write_setting`.
* **C140** Initial solutions of repeated experiments in Python. `PyRepeatProposal`: the choice of the restart number, on the recorded trials of `PyRepeat` (C122) and the proposals of `PyProposal` (C130). The sum over the instances is the number of trials (`sum_count`, induction over the trials), then arithmetic modulo odds + 1. Partial: `C140_negative`. Real numbers stand for doubles; odds that are no integers (an exception in the code) are not modelled.
* **C141** Every function of the Matlab interface reaches the function of its name. `MexGateway`: `mexFunction` with its comparisons in order, the numbers of arguments and the assignment of a result of the 29 functions behind it; the 29 files of the Matlab interface are the specification. The search in the table is `find?` (`switch_find`), the table is compared with the interface by computation in the kernel, names and arguments are arbitrary. Not modelled: what the functions do with the arguments (part of it in C131), names that are no text; `tolower` is that of the C locale.
* **C142** Elapsed time as text in Python. `PyClock`: `ascetime` for `decimals=0`, each operation on doubles is the exact one followed by a rounding given as parameter. Floors and linear arithmetic; `double_precise` shows that rounding to 53 bits has the precision assumed. Partial: `C142_wrong`, computed with this rounding. Not modelled: decimals, negative times, formatting; halves are rounded up, no underflow or overflow.
* **C143** The timing summary of the complete example experiment in Python. `PyMedian`: grouping by dimension, sorting, the two indices of the example. The median is specified by a split of the times into as many below as above; the sorted list is cut at the middle. Rational numbers stand for doubles; formatting is not modelled.

## Code modelled, per source file

Modules of the model that cite the file, and the functions no definition cites. Uncited functions are thin wrappers (the `*_evaluate` wrappers around a cited `*_raw` function, getters), memory management (`*_free`, `*_allocate`: the life cycle of problems, observers and suites is the subject of C96; single blocks are not tracked), or unused code. `coco_runtime_c.c` is modelled by the outcomes of `Res`; allocation failure is not modelled (coco_allocate_memory stops the process then).

* `brentq.c`: Brent, ConsSuite.
* `c_linear.c`: ConsSuite, Constrained, Identity, MemorySuites, RandomNormal; not cited: `c_linear_gradient_free`.
* `coco_archive.c`: Archive, ArchiveItems, Messages.
* `coco_observer.c`: BiobjFiles, Identity, InfoFile, Lifecycle, LoggerBbob, LoggerBiobj, LoggerToy, Memory, MemorySuites, Observer, ObserverMake, OldFiles, OptionKeys, PyObjects, Restart, Tainted, Triggers, Watched; not cited: `coco_observer_targets_free`, `coco_observer_evaluations_free`, `coco_observer_get_result_folder`.
* `coco_problem.c`: Bbob, BiobjSuite, Box, ConsSuite, Experiment, Identity, Interfaces, Lifecycle, LoggerBbob, LoggerOld, LoggerToy, Memory, Noisy, Observer, Problem, PyNonAnytime, PyObjects, PyProposal, Restart, Tainted, Transform, Utils, Watched; not cited: `coco_problem_get_best_observed_fvalue1`, `coco_problem_get_best_value`, `coco_problem_get_final_target_fvalue1`, `coco_problem_get_name`, `coco_problem_get_type`, `coco_problem_get_dimension`, `coco_problem_get_number_of_objectives`, `coco_problem_get_number_of_constraints`, `coco_problem_get_smallest_values_of_interest`, `coco_problem_get_largest_values_of_interest`, `coco_problem_get_number_of_integer_variables`, `coco_problem_get_largest_fvalues_of_interest`, `coco_problem_get_suite`, `coco_problem_set_suite`, `coco_problem_get_suite_dep_index`, `coco_problem_get_suite_dep_function`, `coco_problem_get_suite_dep_instance`, `bbob_biobj_problem_best_parameter_print`.
* `coco_random.c`: Random, RandomNormal.
* `coco_runtime_c.c`: ArchiveItems, Crash, Memory, MemorySuites, Messages, Observer, Options.
* `coco_runtime_matlab.c`: Messages; not cited: `coco_allocate_memory`.
* `coco_string.c`: Memory, Observer, OptionKeys, RemoveDir, Str.
* `coco_suite.c`: BiobjFiles, Construct, Identity, InfoFile, Lifecycle, MemorySuites, OldFiles, OptionKeys, Suite; not cited: `coco_suite_get_best_indicator_value`.
* `coco_utilities.c`: Bbob, ConsSuite, Constrained, Discretize, FileSystem, InfoFile, LoggerBbob, Memory, Observer, ObserverMake, OptionKeys, Options, Problem, PyProposal, RemoveDir, Rotation, Transform, Utils, Watched; not cited: `coco_allocate_vector`, `coco_allocate_vector_with_value`, `coco_allocate_vector_size_t`, `coco_allocate_string`, `coco_duplicate_vector`, `coco_option_keys_free`, `coco_is_nan`, `coco_vector_contains_nan`, `coco_vector_set_to_nan`, `coco_is_inf`, `coco_vector_set_to_inf`, `coco_current_time_get_string`.
* `f_attractive_sector.c`: Bbob, LargeScale, MemoryScripts; not cited: `f_attractive_sector_evaluate`, `f_attractive_sector_free`.
* `f_bent_cigar.c`: Bbob, ConsSuite, MemoryScripts; not cited: `f_bent_cigar_evaluate`.
* `f_bent_cigar_generalized.c`: LargeScale, MemoryScripts; not cited: `f_bent_cigar_generalized_versatile_data_free`, `f_bent_cigar_generalized_evaluate`.
* `f_bueche_rastrigin.c`: Bbob, MemoryScripts; not cited: `f_bueche_rastrigin_evaluate`.
* `f_different_powers.c`: Bbob, ConsSuite, LargeScale, MemoryScripts; not cited: `f_different_powers_evaluate`.
* `f_discus.c`: Bbob, ConsSuite, MemoryScripts; not cited: `f_discus_evaluate`.
* `f_discus_generalized.c`: LargeScale, MemoryScripts; not cited: `f_discus_generalized_versatile_data_free`, `f_discus_generalized_evaluate`.
* `f_ellipsoid.c`: Bbob, ConsSuite, LargeScale, MemoryScripts; not cited: `f_ellipsoid_evaluate`.
* `f_gallagher.c`: Bbob, Identity, LargeScale, MemoryScripts; not cited: `f_gallagher_evaluate`, `f_gallagher_free`, `f_gallagher_evaluate_core`.
* `f_griewank_rosenbrock.c`: Bbob, LargeScale, MemoryScripts; not cited: `f_griewank_rosenbrock_evaluate`.
* `f_katsuura.c`: Bbob, LargeScale, MemoryScripts; not cited: `f_katsuura_evaluate`.
* `f_linear_slope.c`: Bbob, ConsSuite, MemoryScripts; not cited: `f_linear_slope_evaluate`.
* `f_lunacek_bi_rastrigin.c`: Bbob, Identity, LargeScale, MemoryScripts; not cited: `f_lunacek_bi_rastrigin_evaluate`, `f_lunacek_bi_rastrigin_free`, `f_lunacek_bi_rastrigin_versatile_data_free`.
* `f_rastrigin.c`: Bbob, ConsSuite, LargeScale, MemoryScripts; not cited: `f_rastrigin_evaluate`.
* `f_rosenbrock.c`: Bbob, LargeScale, MemoryScripts; not cited: `f_rosenbrock_evaluate`.
* `f_schaffers.c`: Bbob, LargeScale, MemoryScripts; not cited: `f_schaffers_evaluate`.
* `f_schwefel.c`: Bbob, LargeScale, MemoryScripts; not cited: `f_schwefel_evaluate`.
* `f_schwefel_generalized.c`: LargeScale, MemoryScripts; not cited: `f_schwefel_generalized_evaluate`.
* `f_sharp_ridge.c`: Bbob, MemoryScripts; not cited: `f_sharp_ridge_evaluate`.
* `f_sharp_ridge_generalized.c`: LargeScale, MemoryScripts; not cited: `f_sharp_ridge_generalized_versatile_data_free`, `f_sharp_ridge_generalized_evaluate`.
* `f_sphere.c`: Bbob, ConsSuite, Identity, MemoryScripts; not cited: `f_sphere_evaluate`.
* `f_step_ellipsoid.c`: Bbob, LargeScale, MemoryScripts; not cited: `f_step_ellipsoid_evaluate`, `f_step_ellipsoid_free`.
* `f_weierstrass.c`: Bbob, LargeScale, MemoryScripts; not cited: `f_weierstrass_evaluate`.
* `logger_bbob.c`: Crash, InfoFile, Lifecycle, LoggerBbob, Observer, Restart, Tainted, Watched; not cited: `logger_bbob_data_nullify_observer`.
* `logger_bbob_old.c`: Crash, LoggerOld, Observer, OldFiles; not cited: `logger_bbob_old_error_io`, `logger_bbob_old_open_dataFile`.
* `logger_biobj.c`: BiobjFiles, BiobjItems, Crash, Lifecycle, LoggerBiobj, Observer, Restart, Triggers, Watched; not cited: `logger_biobj_data_nullify_observer`.
* `logger_rw.c`: Crash, Lifecycle, LoggerRw, Observer, Watched.
* `logger_toy.c`: Crash, Lifecycle, LoggerToy, Observer, Watched.
* `mo_avl_tree.c`: Archive, ArchiveItems, Avl, AvlPtr, BiobjItems, LoggerBiobj; not cited: `avl_at`, `avl_index`, `avl_search_leftmost_equal`, `avl_search_leftish`, `avl_item_search_left`, `avl_node_fixup`.
* `mo_utilities.c`: BiobjSuite, MO.
* `observer_bbob.c`: InfoFile, Lifecycle, ObserverMake, OptionKeys, Restart, Tainted.
* `observer_bbob_old.c`: not modelled (see logger_bbob_old.c).
* `observer_biobj.c`: BiobjFiles, Lifecycle, LoggerBiobj, ObserverMake, OptionKeys, Restart.
* `observer_rw.c`: LoggerRw, OptionKeys, Restart, Tainted.
* `observer_toy.c`: Crash, LoggerToy, ObserverMake, OptionKeys, Restart, Tainted; not cited: `observer_toy_free`.
* `suite_bbob.c`: Bbob, Construct, Identity, MemoryScripts, MemorySuites, Suite.
* `suite_bbob_legacy_code.c`: Bbob, Gauss, Legacy, Memory, Rotation; not cited: `bbob2009_copy_rotation_matrix`.
* `suite_bbob_mixint.c`: Construct, Discretize, Identity, MemorySuites, Mixint.
* `suite_bbob_noisy.c`: Construct, Identity, MemoryScripts, MemorySuites, Noisy; not cited: `suite_bbob_noisy_get_problem`.
* `suite_bbob_noisy_utilities.c`: Gauss, NoiseShared.
* `suite_biobj.c`: Biobj, BiobjSuite, Construct, Identity, MemorySuites.
* `suite_biobj_best_values_hyp.c`: not modelled (a table of numbers).
* `suite_biobj_ext.c`: not modelled (no other file refers to it).
* `suite_biobj_mixint.c`: Biobj, BiobjSuite, Construct, Discretize, Identity, MemorySuites.
* `suite_biobj_mixint_best_values_hyp.c`: not modelled (a table of numbers).
* `suite_biobj_utilities.c`: Biobj, BiobjSuite, Identity, MemorySuites; not cited: `suite_biobj_new_inst_free`, `suite_biobj_get_new_instance`.
* `suite_cons_bbob.c`: ConsSuite, Construct, Identity, MemorySuites.
* `suite_cons_bbob_problems.c`: Brent, ConsSuite, Constrained, Identity, MemoryScripts, MemorySuites.
* `suite_largescale.c`: Bbob, Construct, Identity, LargeScale, MemoryScripts, MemorySuites; not cited: `suite_largescale_get_problem`.
* `suite_sbox_cost.c`: Bbob, Construct, Identity, MemorySuites, Mixint; not cited: `suite_sbox_cost_get_problem`.
* `suite_toy.c`: Construct, Identity, MemoryScripts, MemorySuites, Suite.
* `transform_obj_cauchy_noise.c`: Gauss, NoiseShared, Noisy.
* `transform_obj_gaussian_noise.c`: Gauss, NoiseShared, Noisy.
* `transform_obj_norm_by_dim.c`: Transform.
* `transform_obj_oscillate.c`: Transform.
* `transform_obj_penalize.c`: Transform.
* `transform_obj_power.c`: Transform.
* `transform_obj_scale.c`: ConsSuite, Transform.
* `transform_obj_shift.c`: ConsSuite, Transform.
* `transform_obj_uniform_noise.c`: Gauss, NoiseShared, Noisy.
* `transform_vars_affine.c`: ConsSuite, Transform; not cited: `transform_vars_affine_evaluate_constraint`, `transform_vars_affine_free`.
* `transform_vars_asymmetric.c`: Brent, ConsSuite, Transform; not cited: `tasy`, `transform_vars_asymmetric_free`.
* `transform_vars_blockrotation.c`: Rotation, Transform; not cited: `transform_vars_blockrotation_free`.
* `transform_vars_blockrotation_helpers.c`: Memory, Rotation.
* `transform_vars_brs.c`: Transform; not cited: `transform_vars_brs_free`.
* `transform_vars_composed.c`: ConsSuite; not cited: `tcomp_uv_inv`.
* `transform_vars_conditioning.c`: ConsSuite, Transform; not cited: `transform_vars_conditioning_free`.
* `transform_vars_discretize.c`: Discretize; not cited: `transform_vars_discretize_free`.
* `transform_vars_enforce_box.c`: Box, LoggerToy, Mixint, Problem.
* `transform_vars_gallagher_blockrotation.c`: not modelled (not used by any suite).
* `transform_vars_oscillate.c`: Brent, ConsSuite, MemorySuites, Transform; not cited: `transform_vars_oscillate_free`.
* `transform_vars_permblockdiag.c`: not modelled (not used by any suite).
* `transform_vars_permutation.c`: LargeScale, Permutation, Transform; not cited: `transform_vars_permutation_free`.
* `transform_vars_permutation_helpers.c`: Memory, Permutation.
* `transform_vars_round_step.c`: LargeScale; not cited: `transform_vars_round_step_free`.
* `transform_vars_scale.c`: Transform; not cited: `transform_vars_scale_free`.
* `transform_vars_shift.c`: ConsSuite, Transform; not cited: `transform_vars_shift_free`.
* `transform_vars_x_hat.c`: Transform; not cited: `transform_vars_x_hat_free`.
* `transform_vars_x_hat_generic.c`: LargeScale; not cited: `transform_vars_x_hat_generic_free`.
* `transform_vars_z_hat.c`: Transform; not cited: `transform_vars_z_hat_free`.

## Disagreements between code and documentation, and defects found

Theorem names in parentheses where the finding is proved of the model; the others were noticed while reading.

Suites
* A second pass over an exhausted suite omits the first problem (C02), an index out of range gives an arbitrary problem (C04), a key at position 0 of the options makes both of two exclusive keys count (C08).
* coco_suite's documentation lists other dimensions for mixint (2,3,5,...) and largescale (40,...,1280) than the code ({5..160}, {20..640}). The default year of bbob is 2018 where the documentation says "last year".
* bbob-biobj-mixint instances above 15 always stop with the default dimensions (C92_no_new_instances). mixint documentation says large-scale "over 40", the code switches at 50, so dimension 45 with rotations stops the process.
* The comment of suite_bbob_noisy.c speaks of 24 noiseless functions; suite_cons_bbob_problems.c says 8 functions x 6 = 54 (it is 9).
* New bi-objective instance data: rows leak and the pointer is left dangling; the hypervolume fallback takes the last line of the table.

Problems and transformations
* f20's recorded best parameter (420.96874633) disagrees with 4.2096874637 elsewhere; f19's recorded best value is wrong for n > 64; the gradient of different powers divides by the sum instead of its root; block k of the large-scale rotation B1 equals block k+1 of B2; large-scale f24's intermediate best parameter is wrong until overwritten, and its construction fails for n >= 3000.
* transform_obj_norm_by_dim does not update the best value; conditioning, asymmetric and brs set the inner best parameter to NaN after it was used; transform_vars_shift fills number_of_objectives entries of a constraint vector with NaN; enforce_box is documented to give NaN but gives infinity; the gradient loop of transform_obj_scale.
* coco_double_to_int is wrong for negative numbers (C68_negative_wrong), so discretisation to bounds [-1,0] aborts; a swap range of 0 frees twice.
* The dead zone (0, 1e-11] of the constraints admits points slightly better than the recorded optimum, whose evaluation stops the process (C91_abort); inactive linear constraints reuse the active constraint's seed (the conditional in c_linear.c:396 always gives `i`).
* The inverse initial solution reads uninitialised memory if the numerical inverse is NaN; brentq returns the last estimate without notice when 200 iterations are used up.
* coco_random_uniform can return exactly 1. coco_problem_id_is_fine is documented to allow '.', the code rejects it, and accepts the empty id.
* There is no recommendation for stacked problems; coco_evaluate_constraint on an unconstrained problem stops, unless it is observed and the point is not finite.

Observers and loggers
* The recommendation of bbob and bbob-biobj observed problems increases the inner problem's counters (C95), and uses the noisy value; the taint check is circumvented by a second observer on top (C94_mark_not_seen); is_noisy is not copied, so a bbob observer over another observer logs noisy values.
* coco_observer_signal_restart with an inner observer reads another logger's data. coco_problem_remove_observer stops the process instead of returning the problem (C29), and does not check for NULL; rules needed for the life cycle: C96_rules_needed.
* number_target_triggers has default 100, documented 10, and its check `< 0` is void; number_evaluation_triggers is ignored (20 is hard-coded); the documentation of observer_rw's log_time is swapped; any observer name starting with "bbob-constrained" is accepted; observer_bbob's prefix defaults to "bbobexp" (documented "bbobex") and does not affect the data file names.
* The info file lists a second suite's runs under the first suite's heading (C99_two_suites); bi-objective folders: C100_recurring, C100_two_suites. The bi-objective logger leaks infeasible items.

Utilities
* coco_join_path truncates silently (C82_truncated); a long text overruns the buffer of coco_strdupf (C70_overflow); unique names stop at 9998; a unique directory with trailing '/' is created inside the existing one.
* Option strings: 220 characters before the first quotation mark stop the process, '%' is used as a conversion, see C101; a key without value at the end (C75_empty_value_undefined).

Memory
* coco_problem_duplicate allocates nadir_value a second time: each observer added to a bi-objective problem loses one vector (C102_biobj_leaks). c_sum_variables_allocate leaves the problem name NULL, and the constructor of each linear constraint passes it to a `%s` conversion. transform_vars_permblockdiag_free forgets first_non_zero_map (the transformation is used by no suite).

Texts
* The constrained problems with the rotated Rastrigin function (functions 49 to 54) have type "1-separable_..." (C103_rotated_rastrigin). All instances of a toy problem share id and name (C103_toy_duplicates). From dimension 1000 on, ids of bbob and bbob-largescale coincide (C103_wide_duplicates). Enough observers on one problem overrun the name buffer (C103_observers_overrun).

Observer bbob-old
* The list of dimensions has six places: a seventh dimension is written outside the array (C104_seventh_dimension), and as the list is cleared except at one place when a dimension comes back, six dimensions can suffice (C104_six_dimensions). A heading after the return of a dimension is glued to the line before (C104_glued). The variables are shared by all observers of the process (C104_two_folders). An unknown optimal value is taken as 0, so that a negative value of a feasible solution stops the process (C105_unknown_optimum); the first evaluation is logged without consulting the targets, so a target it reached is logged again by the next improvement (C105_targets); unlike the bbob logger, no final line is written to the .dat file (C105_last), and restarts, recommendations and the taint mark are ignored.

Memory of the bi-objective logger
* The memory of an infeasible solution is never released (C106_infeasible_kept): lines 315-316 of logger_biobj.c return without putting it into a tree. No problem of the shipped suites for two objectives has constraints, so only own problems are concerned.

Removal of directories
* coco_remove_directory tests with stat whether an entry is a directory, so a symbolic link to a directory is followed: the content of that directory is deleted although it lies elsewhere, after which rmdir on the link fails and the call returns -1 (C107_link_followed). A path text of more than 443 characters below the directory overruns the buffer of coco_strdupf, and one of 442 or 443 stops the process, with part of the content already deleted (C107_long). For a path of a file the call returns 0 without removing it (C107_absent).

Gradients
* f_different_powers_evaluate_gradient divides by the sum of the powers where it should divide by its square root, so what it computes is the derivative divided by the function value (C108_different_powers). In the constrained suites the vector is used for its direction only.
* The gradient of the linear slope ignores that the function is constant beyond the best parameter (C108_linear_slope_outside), and the transformations without a gradient function hand on the gradient of the inner problem unchanged instead of reporting that there is none (C108_scaled).

Toy logger
* The toy logger hands the objective value to the target trigger as it is. Outside the box a problem of the suite sbox-cost has the value infinity, and coco_observer_log_targets_trigger then converts infinity to int, which is undefined (C109_infinite); with common compilers the result is INT_MIN, so that a line with target 0 is written and no target is ever hit again. The other loggers replace infinite values first. With number_target_triggers 0 the target is computed as 0/0.
* Lines of problems observed at the same time are mixed in the log file without a mark (C109_interleaved).

Creation of observers
* `coco_observer` creates the result folder before it looks at the name of the observer: an unknown name returns NULL but leaves an empty folder behind (C111_unknown). For the documented argument NULL the name is passed to `strcmp`.
* `coco_observer`: a text option whose key is the last thing in the options, without value, leaves an uninitialised buffer that is then used (C111_no_value): the result -1 of `sscanf` is not 0.
* Documentation of `coco_observer`: existing folders get `-0001`, not `_001`; the default of `number_target_triggers` is 100, not 10; the default of `prefix` is `bbobexp`.
* `coco_archive_get_next_solution_text` returns a pointer into the archive that a later accepted solution may free (C110_dangling).

Signalling of restarts

* `coco_observer_signal_restart` ignores which logger belongs to the observer: the outermost logger is marked, so with two observers of the same kind the restart is recorded in the files of the wrong one (`Restart.C113_wrong_logger`).
* With an observer of another kind on top, or for a problem that is not observed, data of another type is written to (`Restart.C113_confused`).

Normal random numbers

* `coco_random_normal` takes the logarithm of a uniform number that can be 0 and then returns a value that is not finite, e.g. for the first number of the seed 965395927 (`Random.C114_infinite`).

Noise of several problems

* The seeds of the noise are static variables, so that evaluating another noisy problem changes the values a problem returns for the same points, and results depend on the order in which problems are evaluated unless `coco_reset_seeds` is called (`Noise.C115_interference`).

Revealing the optimum

* The mark set by `coco_problem_get_best_parameter` is lost when the observer is removed, so that the problem can be benchmarked again with a new one (`Tainted.C116_removed`).
* A bbob observer below another observer records evaluations although the problem says that it is tainted (`Tainted.C116_covered`); other observers never refuse (`Tainted.C116_others`).
* `bbob_problem_best_parameter_print` of the public header writes the optimum to a file without marking the problem (`Tainted.C116_printed`).

Crashes

* The bbob logger flushes each line of its data files but not the info file, so that after a crash the data of the current run is there but not listed, and the post-processing does not find it (`Crash.C117_info_lost`).
* The bi-objective logger flushes only the archive file in mode "all"; after a crash the indicator values of the current run can be lost entirely (`Crash.C117_biobj_lost`).

The example experiment in C

* With constraints the random search makes twice its budget of evaluations; the rest of the budget is an unsigned difference, so the next call is told to make about 2^64 evaluations (`Experiment.C118_constraints_endless`). Function evaluations are compared with all evaluations, so a restarting algorithm that keeps to its budget can be stopped with a fatal error (`Experiment.C118_constraints_error`).
* The grid search counts one node too few per integer variable: on binary problems it evaluates one point for every budget (`Search.C119_binary`), on mixed problems its grid is too fine for the budget (`Search.C119_mixed`).
* The seconds per evaluation of a dimension leave out its first problem and include the first problem of the next dimension (`Timing.C120_wrong_dimension`).

The Rust interface

* A `Problem` borrows its suite but not the observers on it: a program in safe Rust can drop an observer and evaluate the problem, which writes to a closed file (toy) or fails an assertion (bbob) (`RustWrapper.C124_dropped_observer`).

Objects of the Python interface

* A `Problem` object does not refer to its `Suite`. `Suite(...).get_problem(0, observer)` lets the suite be collected while the problem lives; the first evaluation with a bbob observer, and any later `observe_with`, read the freed suite (`PyObjects.C125_collected_suite`).
* "After free()ing the problem, all other operations are invalid and will raise an exception": `evaluations`, `evaluations_constraints` and `initial_solution` fail an assertion of the C library instead, which ends the interpreter (`PyObjects.C125_freed`).

Suites in Python

* `get_problem` raises `NoSuchProblemException` for an index that does not exist, but a plain `ValueError` for an id that does not exist: the search of the id is outside of the `try` (`PySuite.Spec.answer`, `PySuite.C126_calls`).
* In the toy suite `id_function`, `id_instance` and `id_triple` raise `ValueError`, so code such as `BatchScheduler` cannot be used with it (`PySuite.C126_toy_triple`).

Option dictionaries in Python

* `Observer` with a dictionary and `ObserverOptions.as_string` remove `u'` from what Python prints (for Python 2), so that every key and text that ends with the letter u loses it: `result_folder` "menu" becomes "men" (`PyOptions.C127_final_u`).
* `Observer` with a dictionary removes double quotation marks, `as_string` keeps them: the `algorithm_info` of the example experiment is read as "A" when the dictionary itself is given (`PyOptions.C127_quotes_lost`).

Arguments of scripts

* A known name that is the beginning of another known name cannot be given, not even in full: `budget=10` beside `budget_multiplier` is "ambiguous" (`PyArgs.C128_hidden_name`).
* `batches=4 batch=3/32` is accepted and forgets the 4, `batch=3/32 batches=4` is refused (`PyArgs.C128_batch_order`).

Objects of the Java interface

* `evaluateFunction` does not compare the length of the array with the dimension: the C code reads beyond a shorter array. A `Problem` that is used after the benchmark has moved on, or after `finalizeBenchmark`, is a pointer to freed memory (`JavaObjects.C129_undefined`).
* No method of the Java classes frees a problem that `getProblemByFuncDimInst` returned (`JavaObjects.C129_leak`).

Arrays at the interfaces

* `BareProblem` in Python and the Java interface do not compare the length of a point with the dimension: shorter points are read beyond their end, further entries of longer ones are ignored (`Interfaces.C131_short`).
* The functions of the Matlab interface that return a number create an array of 4 bytes (INT32) and write 8 bytes to it (`Interfaces.C131_overflow`).
* `BareProblem("bbob", 25, 2, 1)` does not raise `NoSuchProblemException`, as documented: `coco_get_bbob_problem` never returns NULL but ends the process with `coco_error`.

Messages in Matlab

* `coco_runtime_matlab.c` prints messages into a buffer of 500 characters without limit and uses the result as the format of `mexPrintf`: longer messages overflow the buffer, and a percent sign in a folder name or option is read as a conversion without argument (`Messages.C132_matlab_wrong`, `Messages.C132_folder`).

Experiments in Python and Matlab

* `example_experiment.py` makes a `ShortInfo` object and passes the numbers of evaluations to it but never calls it, so the progress is
  not shown and the timings at the end are one line for dimension 0 (`C134_example_wrong`); for a batch without problems the end of the
  experiment raises `OverflowError` (`C134_empty_batch`).
* The example in the documentation of `SameFunction` speaks of the first five instances, the loop runs six (`C133_loop`).
* `random_search` with constraints: the index of the smallest value in the list of feasible values is used as an index into the list of all points, so that the returned point can be infeasible (`PySearch.C135_wrong_point`); and a chunk takes up to the whole budget although each of its points costs two evaluations (`PySearch.C135_twice`).
* `coco_optimize` in `example_experiment.py` computes the rest of the budget before it evaluates the initial point, so that random search makes one evaluation more than the budget (`ExampleLoops.C136_one_more`); for the same reason its test for runs without evaluations never succeeds (`ExampleLoops.C136_idle`). The loop of `example_experiment2.py` has no such test and does not end for an algorithm without evaluations (`ExampleLoops.C136_experiment2_endless`). `my_optimizer.m` uses twice its budget with constraints (`ExampleLoops.C136_matlab_twice`).
- C138: `Timing.java` sets the clock of a dimension after its first problem has been solved, as the C example does (C120): the time of this problem is attributed to the dimension before.
- C139: `dict_to_eval` promises a dictionary that `literal_eval` can read, but tests only the values: a key that is no literal is written, and `read_setting` raises.
- C140: `ExperimentRepeater.initial_solution_proposal` with negative `nonzero_odds`: documented are random proposals, but -1 raises `ZeroDivisionError` and -2 always gives the initial solution.
- C142: `ascetime(33*60 + 21)` is documented to return `0h33:21`; with doubles the minutes are 33.349999999999994 and the text is `0h33:20`. The same arithmetic done in Python, outside the proofs, loses a second for 42749 of the 86400 whole numbers of seconds of a day.
