import Verif.Model.Memory

/-
The constructors of the test functions as programs over the operations of Verif/Model/Memory.lean:
the statements that allocate or release memory, create, wrap or name a problem, in the order of the
source.  A constructor that calls another one (its problem is the result of the call) contains the
statements of the callee.
-/

namespace Memory

/-- Operations as statements (see `Stmt`). -/
def ops (l : List Op) : List Stmt := l.map .op

/-- `f_attractive_sector_allocate`, /repo/src/f_attractive_sector.c lines 78-96. -/
def f_attractive_sector_allocate : List Op :=
  [.fromScalars .attractiveSector "attractive sector function",
   .setId (some ("attractive_sector", 2)), .newData, .dataField "xopt" .vec]

/-- `f_attractive_sector_bbob_problem_allocate`, /repo/src/f_attractive_sector.c lines 101-156. -/
def f_attractive_sector_bbob_problem_allocate : List Op :=
  [.alloc "M" .vec, .alloc "b" .vec, .alloc "xopt" .vec, .alloc "rot1" (.mat .dim),
   .alloc "rot2" (.mat .dim), .free "rot1" (.mat .dim), .free "rot2" (.mat .dim)] ++
  f_attractive_sector_allocate ++
  [.wrap .objOscillate [], .wrap .objPower [], .wrap .objShift [], .wrap .varsAffine ["M", "b"],
   .wrap .varsShift ["xopt"], .setId none, .setName, .setType "2-moderate", .free "M" .vec,
   .free "b" .vec, .free "xopt" .vec]

/-- `f_attractive_sector_permblockdiag_bbob_problem_allocate`,
/repo/src/f_attractive_sector.c lines 158-246. -/
def f_attractive_sector_permblockdiag_bbob_problem_allocate : List Op :=
  [.alloc "xopt" .vec, .alloc "block_sizes1" .vec, .alloc "block_sizes2" .vec,
   .alloc "B1" (.mat .dim), .alloc "B2" (.mat .dim), .alloc "P11" .vec, .alloc "P12" .vec,
   .alloc "P21" .vec, .alloc "P22" .vec] ++
  f_attractive_sector_allocate ++
  [.wrap .objNormByDim [], .wrap .objOscillate [], .wrap .objPower [], .wrap .objShift [],
   .wrap .varsPermutation ["P22"], .wrap .varsBlockrotation ["B1", "block_sizes1"],
   .wrap .varsPermutation ["P21"], .wrap .varsConditioning [], .wrap .varsPermutation ["P12"],
   .wrap .varsBlockrotation ["B2", "block_sizes2"], .wrap .varsPermutation ["P11"],
   .wrap .varsShift ["xopt"], .setId none, .setName, .setType "2-moderate", .free "B1" (.mat .dim),
   .free "B2" (.mat .dim), .free "P11" .vec, .free "P12" .vec, .free "P21" .vec, .free "P22" .vec,
   .free "block_sizes1" .vec, .free "block_sizes2" .vec, .free "xopt" .vec]

/-- `f_bent_cigar_allocate`, /repo/src/f_bent_cigar.c lines 65-75. -/
def f_bent_cigar_allocate : List Op :=
  [.fromScalars .generic "bent cigar function", .setId (some ("bent_cigar", 2))]

/-- `f_bent_cigar_bbob_problem_allocate`, /repo/src/f_bent_cigar.c lines 80-122. -/
def f_bent_cigar_bbob_problem_allocate : List Op :=
  [.alloc "M" .vec, .alloc "b" .vec, .alloc "xopt" .vec, .alloc "rot1" (.mat .dim),
   .free "rot1" (.mat .dim)] ++
  f_bent_cigar_allocate ++
  [.wrap .objShift [], .wrap .varsAffine ["M", "b"], .wrap .varsAsymmetric [],
   .wrap .varsAffine ["M", "b"], .wrap .varsShift ["xopt"], .setId none, .setName,
   .setType "3-ill-conditioned", .free "M" .vec, .free "b" .vec, .free "xopt" .vec]

/-- `f_bent_cigar_cons_bbob_problem_allocate`, /repo/src/f_bent_cigar.c lines 127-165. -/
def f_bent_cigar_cons_bbob_problem_allocate : List Op :=
  [.alloc "M" .vec, .alloc "b" .vec, .alloc "xopt" .vec, .alloc "rot1" (.mat .dim),
   .free "rot1" (.mat .dim)] ++
  f_bent_cigar_allocate ++
  [.wrap .objShift [], .wrap .varsAffine ["M", "b"], .wrap .varsShift ["xopt"], .setId none,
   .setName, .setType "3-ill-conditioned", .free "M" .vec, .free "b" .vec, .free "xopt" .vec]

/-- `f_bent_cigar_generalized_allocate`, /repo/src/f_bent_cigar_generalized.c lines 84-100. -/
def f_bent_cigar_generalized_allocate : List Op :=
  [.fromScalars .versatile "generalized bent cigar function", .setId (some ("bent_cigar", 4)),
   .newVd]

/-- `f_bent_cigar_generalized_permblockdiag_bbob_problem_allocate`,
/repo/src/f_bent_cigar_generalized.c lines 106-170. -/
def f_bent_cigar_generalized_permblockdiag_bbob_problem_allocate : List Op :=
  [.alloc "P1" .vec, .alloc "P2" .vec, .alloc "block_sizes" .vec, .alloc "xopt" .vec,
   .alloc "B" (.mat .dim)] ++
  f_bent_cigar_generalized_allocate ++
  [.wrap .varsPermutation ["P2"], .wrap .varsBlockrotation ["B", "block_sizes"],
   .wrap .varsPermutation ["P1"], .wrap .varsAsymmetric [], .wrap .varsPermutation ["P2"],
   .wrap .varsBlockrotation ["B", "block_sizes"], .wrap .varsPermutation ["P1"],
   .wrap .varsShift ["xopt"], .wrap .objNormByDim [], .wrap .objShift [], .setId none, .setName,
   .setType "3-ill-conditioned", .free "B" (.mat .dim), .free "P1" .vec, .free "P2" .vec,
   .free "block_sizes" .vec, .free "xopt" .vec]

/-- `f_bueche_rastrigin_allocate`, /repo/src/f_bueche_rastrigin.c lines 55-65. -/
def f_bueche_rastrigin_allocate : List Op :=
  [.fromScalars .generic "Bueche-Rastrigin function", .setId (some ("bueche-rastrigin", 2))]

/-- `f_bueche_rastrigin_bbob_problem_allocate`, /repo/src/f_bueche_rastrigin.c lines 70-114. -/
def f_bueche_rastrigin_bbob_problem_allocate : List Op :=
  [.alloc "xopt" .vec] ++
  f_bueche_rastrigin_allocate ++
  [.wrap .varsBrs [], .wrap .varsOscillate [], .wrap .varsShift ["xopt"],
   .wrapLarge .objNormByDim [], .wrap .objShift [], .wrap .objPenalize [], .setId none, .setName,
   .setType "1-separable", .free "xopt" .vec]

/-- `f_different_powers_allocate`, /repo/src/f_different_powers.c lines 91-103. -/
def f_different_powers_allocate : List Op :=
  [.fromScalars .generic "different powers function", .setId (some ("different_powers", 2))]

/-- `f_different_powers_bbob_problem_allocate`, /repo/src/f_different_powers.c lines 108-148. -/
def f_different_powers_bbob_problem_allocate : List Op :=
  [.alloc "M" .vec, .alloc "b" .vec, .alloc "xopt" .vec, .alloc "rot1" (.mat .dim),
   .free "rot1" (.mat .dim)] ++
  f_different_powers_allocate ++
  [.wrap .objShift [], .wrap .varsAffine ["M", "b"], .wrap .varsShift ["xopt"], .setId none,
   .setName, .setType "3-ill-conditioned", .free "M" .vec, .free "b" .vec, .free "xopt" .vec]

/-- `f_different_powers_bbob_constrained_problem_allocate`,
/repo/src/f_different_powers.c lines 153-214. -/
def f_different_powers_bbob_constrained_problem_allocate : List Op :=
  [.alloc "M" .vec, .alloc "b" .vec, .alloc "xopt" .vec, .alloc "rot1" (.mat .dim),
   .free "rot1" (.mat .dim)] ++
  f_different_powers_allocate ++
  [.wrap .objShift [], .wrap .varsAffine ["M", "b"], .wrap .varsShift ["xopt"], .setId none,
   .setName, .setType "3-ill-conditioned", .free "M" .vec, .free "b" .vec, .free "xopt" .vec]

/-- `f_different_powers_permblockdiag_bbob_problem_allocate`,
/repo/src/f_different_powers.c lines 220-283. -/
def f_different_powers_permblockdiag_bbob_problem_allocate : List Op :=
  [.alloc "P1" .vec, .alloc "P2" .vec, .alloc "block_sizes" .vec, .alloc "xopt" .vec,
   .alloc "B" (.mat .dim)] ++
  f_different_powers_allocate ++
  [.wrap .varsPermutation ["P2"], .wrap .varsBlockrotation ["B", "block_sizes"],
   .wrap .varsPermutation ["P1"], .wrap .varsShift ["xopt"], .wrap .objNormByDim [],
   .wrap .objShift [], .setId none, .setName, .setType "3-ill-conditioned", .free "B" (.mat .dim),
   .free "P1" .vec, .free "P2" .vec, .free "block_sizes" .vec, .free "xopt" .vec]

/-- `f_discus_allocate`, /repo/src/f_discus.c lines 63-73. -/
def f_discus_allocate : List Op :=
  [.fromScalars .generic "discus function", .setId (some ("discus", 2))]

/-- `f_discus_bbob_problem_allocate`, /repo/src/f_discus.c lines 78-119. -/
def f_discus_bbob_problem_allocate : List Op :=
  [.alloc "M" .vec, .alloc "b" .vec, .alloc "xopt" .vec, .alloc "rot1" (.mat .dim),
   .free "rot1" (.mat .dim)] ++
  f_discus_allocate ++
  [.wrap .varsOscillate [], .wrap .varsAffine ["M", "b"], .wrap .varsShift ["xopt"],
   .wrap .objShift [], .setId none, .setName, .setType "3-ill-conditioned", .free "M" .vec,
   .free "b" .vec, .free "xopt" .vec]

/-- `f_discus_cons_bbob_problem_allocate`, /repo/src/f_discus.c lines 124-164. -/
def f_discus_cons_bbob_problem_allocate : List Op :=
  [.alloc "M" .vec, .alloc "b" .vec, .alloc "xopt" .vec, .alloc "rot1" (.mat .dim),
   .free "rot1" (.mat .dim)] ++
  f_discus_allocate ++
  [.wrap .varsAffine ["M", "b"], .wrap .varsShift ["xopt"], .wrap .objShift [], .setId none,
   .setName, .setType "3-ill-conditioned", .free "M" .vec, .free "b" .vec, .free "xopt" .vec]

/-- `f_discus_generalized_allocate`, /repo/src/f_discus_generalized.c lines 84-100. -/
def f_discus_generalized_allocate : List Op :=
  [.fromScalars .versatile "generalized discus function", .setId (some ("discus_generalized", 4)),
   .newVd]

/-- `f_discus_generalized_permblockdiag_bbob_problem_allocate`,
/repo/src/f_discus_generalized.c lines 105-170. -/
def f_discus_generalized_permblockdiag_bbob_problem_allocate : List Op :=
  [.alloc "P1" .vec, .alloc "P2" .vec, .alloc "block_sizes" .vec, .alloc "xopt" .vec,
   .alloc "B" (.mat .dim)] ++
  f_discus_generalized_allocate ++
  [.wrap .varsOscillate [], .wrap .varsPermutation ["P2"],
   .wrap .varsBlockrotation ["B", "block_sizes"], .wrap .varsPermutation ["P1"],
   .wrap .varsShift ["xopt"], .wrap .objNormByDim [], .wrap .objShift [], .setId none, .setName,
   .setType "3-ill-conditioned", .free "B" (.mat .dim), .free "P1" .vec, .free "P2" .vec,
   .free "block_sizes" .vec, .free "xopt" .vec]

/-- `f_ellipsoid_allocate`, /repo/src/f_ellipsoid.c lines 76-89. -/
def f_ellipsoid_allocate : List Op :=
  [.fromScalars .generic "ellipsoid function", .setId (some ("ellipsoid", 2)), .newData]

/-- `f_ellipsoid_bbob_problem_allocate`, /repo/src/f_ellipsoid.c lines 94-127. -/
def f_ellipsoid_bbob_problem_allocate : List Op :=
  [.alloc "xopt" .vec] ++
  f_ellipsoid_allocate ++
  [.wrap .varsOscillate [], .wrap .varsShift ["xopt"], .wrapLarge .objNormByDim [],
   .wrap .objShift [], .setId none, .setName, .setType "1-separable", .free "xopt" .vec]

/-- `f_ellipsoid_rotated_bbob_problem_allocate`, /repo/src/f_ellipsoid.c lines 132-171. -/
def f_ellipsoid_rotated_bbob_problem_allocate : List Op :=
  [.alloc "M" .vec, .alloc "b" .vec, .alloc "xopt" .vec, .alloc "rot1" (.mat .dim),
   .free "rot1" (.mat .dim)] ++
  f_ellipsoid_allocate ++
  [.wrap .varsOscillate [], .wrap .varsAffine ["M", "b"], .wrap .varsShift ["xopt"],
   .wrap .objShift [], .setId none, .setName, .setType "3-ill-conditioned", .free "M" .vec,
   .free "b" .vec, .free "xopt" .vec]

/-- `f_ellipsoid_permblockdiag_bbob_problem_allocate`, /repo/src/f_ellipsoid.c lines 176-232. -/
def f_ellipsoid_permblockdiag_bbob_problem_allocate : List Op :=
  [.alloc "P1" .vec, .alloc "P2" .vec, .alloc "block_sizes" .vec, .alloc "xopt" .vec,
   .alloc "B" (.mat .dim)] ++
  f_ellipsoid_allocate ++
  [.wrap .varsOscillate [], .wrap .varsPermutation ["P2"],
   .wrap .varsBlockrotation ["B", "block_sizes"], .wrap .varsPermutation ["P1"],
   .wrap .varsShift ["xopt"], .wrap .objNormByDim [], .wrap .objShift [], .setId none, .setName,
   .setType "3-ill-conditioned", .free "B" (.mat .dim), .free "P1" .vec, .free "P2" .vec,
   .free "block_sizes" .vec, .free "xopt" .vec]

/-- `f_ellipsoid_cons_bbob_problem_allocate`, /repo/src/f_ellipsoid.c lines 237-264. -/
def f_ellipsoid_cons_bbob_problem_allocate : List Op :=
  [.alloc "xopt" .vec] ++
  f_ellipsoid_allocate ++
  [.wrap .varsShift ["xopt"], .wrap .objShift [], .setId none, .setName, .setType "1-separable",
   .free "xopt" .vec]

/-- `f_ellipsoid_rotated_cons_bbob_problem_allocate`, /repo/src/f_ellipsoid.c lines 270-309. -/
def f_ellipsoid_rotated_cons_bbob_problem_allocate : List Op :=
  [.alloc "M" .vec, .alloc "b" .vec, .alloc "xopt" .vec, .alloc "rot1" (.mat .dim),
   .free "rot1" (.mat .dim)] ++
  f_ellipsoid_allocate ++
  [.wrap .varsAffine ["M", "b"], .wrap .varsShift ["xopt"], .wrap .objShift [], .setId none,
   .setName, .setType "3-ill-conditioned", .free "M" .vec, .free "b" .vec, .free "xopt" .vec]

/-- `f_gallagher_bbob_problem_allocate`, /repo/src/f_gallagher.c lines 159-293. -/
def f_gallagher_bbob_problem_allocate : List Op :=
  [.fromScalars .gallagher "Gallagher function", .newData, .dataField "xopt" .vec,
   .dataField "rotation" (.mat .dim), .dataField "x_local" (.mat .dim),
   .dataField "arr_scales" (.mat .peaks), .alloc "random_numbers" .vec, .alloc "rperm" .vec,
   .alloc "arrCondition" .vec, .dataField "peak_values" .vec, .free "rperm" .vec,
   .alloc "rperm" .vec, .free "rperm" .vec, .free "arrCondition" .vec, .free "random_numbers" .vec,
   .wrap .objShift [], .setId none, .setName, .setType "5-weakly-structured"]

/-- `f_gallagher_sub_problem_allocate`, /repo/src/f_gallagher.c lines 317-342. -/
def f_gallagher_sub_problem_allocate : List Op :=
  [.fromScalars .gallagherVersatile "gallagher_sub function", .newVd,
   .vdField "sub_problems" .null, .vdField "rotated_x" .null, .vdField "block_size_map" .null,
   .vdField "first_non_zero_map" .null, .vdField "block_sizes" .null, .vdField "B" .null,
   .setId (some ("gallagher_sub", 4))]

/-- `f_gallagher_problem_allocate`, /repo/src/f_gallagher.c lines 400-431. -/
def f_gallagher_problem_allocate : List Stmt :=
  ops [.fromScalars .gallagherVersatile "gallagher function", .newVd,
    .vdField "sub_problems" .vec] ++
  [.newSubs .peaks f_gallagher_sub_problem_allocate] ++
  ops [.vdField "rotated_x" .vec, .vdField "block_size_map" .vec,
    .vdField "first_non_zero_map" .vec, .vdField "block_sizes" .vec,
    .setId (some ("gallagher", 4))]

/-- `f_gallagher_permblockdiag_bbob_problem_allocate`, /repo/src/f_gallagher.c lines 433-613
(the loop over the peaks: lines 531-578). -/
def f_gallagher_permblockdiag_bbob_problem_allocate : List Stmt :=
  ops [.alloc "block_sizes" .vec, .alloc "B" (.mat .dim)] ++
  f_gallagher_problem_allocate ++
  ops [.vdField "B" (.mat .dim), .auxNew "dummy rotation",
    .auxWrap .varsBlockrotation ["B", "block_sizes"],
    .alloc "alpha_i_vals" .vec, .alloc "tmp_uniform" .vec, .alloc "P_alpha_i" .vec,
    .alloc "best_param_before_rotation" .vec, .alloc "best_param_after_rotation" .vec,
    .alloc "tmp_uniform2" .vec] ++
  [.forSubs [.alloc "y_i" .vec, .alloc "P_Lambda" .vec, .wrap .varsScale [],
    .wrap .varsConditioning [], .wrap .varsInversePermutation ["P_Lambda"],
    .wrap .varsShift ["y_i"], .free "P_Lambda" .vec, .free "y_i" .vec]] ++
  ops [.wrap .varsBlockrotation ["B", "block_sizes"], .wrap .objOscillate [], .wrap .objPower [],
    .wrap .objPenalize [], .wrap .objShift [], .setId none, .setName,
    .setType "5-weakly-structured", .free "B" (.mat .dim),
    .free "tmp_uniform" .vec, .free "tmp_uniform2" .vec, .free "block_sizes" .vec,
    .free "alpha_i_vals" .vec, .free "P_alpha_i" .vec, .auxFree,
    .free "best_param_before_rotation" .vec, .free "best_param_after_rotation" .vec]

/-- `f_griewank_rosenbrock_allocate`, /repo/src/f_griewank_rosenbrock.c lines 68-82. -/
def f_griewank_rosenbrock_allocate : List Op :=
  [.fromScalars .generic "Griewank Rosenbrock function", .setId (some ("griewank_rosenbrock", 2)),
   .newData]

/-- `f_griewank_rosenbrock_bbob_problem_allocate`,
/repo/src/f_griewank_rosenbrock.c lines 87-148. -/
def f_griewank_rosenbrock_bbob_problem_allocate : List Op :=
  [.alloc "M" .vec, .alloc "b" .vec, .alloc "shift" .vec, .alloc "rot1" (.mat .dim)] ++
  f_griewank_rosenbrock_allocate ++
  [.wrap .objShift [], .wrap .varsShift ["shift"], .wrap .varsAffine ["M", "b"],
   .free "rot1" (.mat .dim), .setId none, .setName, .setType "4-multi-modal", .free "M" .vec,
   .free "b" .vec, .free "shift" .vec]

/-- `f_griewank_rosenbrock_permblockdiag_bbob_bbob_problem_allocate`,
/repo/src/f_griewank_rosenbrock.c lines 153-237. -/
def f_griewank_rosenbrock_permblockdiag_bbob_bbob_problem_allocate : List Op :=
  [.alloc "P1" .vec, .alloc "P2" .vec, .alloc "best_parameter" .vec, .alloc "block_sizes" .vec,
   .alloc "shift" .vec, .alloc "B" (.mat .dim)] ++
  f_griewank_rosenbrock_allocate ++
  [.wrap .varsShift ["shift"], .wrap .varsScale [], .wrap .varsPermutation ["P2"],
   .wrap .varsBlockrotation ["B", "block_sizes"], .wrap .varsPermutation ["P1"],
   .wrap .objShift [], .setId none, .setName, .setType "4-multi-modal",
   .free "best_parameter" .vec, .free "shift" .vec, .free "B" (.mat .dim), .free "P1" .vec,
   .free "P2" .vec, .free "block_sizes" .vec]

/-- `f_katsuura_allocate`, /repo/src/f_katsuura.c lines 66-75. -/
def f_katsuura_allocate : List Op :=
  [.fromScalars .generic "Katsuura function", .setId (some ("katsuura", 2))]

/-- `f_katsuura_bbob_problem_allocate`, /repo/src/f_katsuura.c lines 80-138. -/
def f_katsuura_bbob_problem_allocate : List Op :=
  [.alloc "M" .vec, .alloc "b" .vec, .alloc "xopt" .vec, .alloc "rot1" (.mat .dim),
   .alloc "rot2" (.mat .dim)] ++
  f_katsuura_allocate ++
  [.wrap .objShift [], .wrap .varsAffine ["M", "b"], .wrap .varsShift ["xopt"],
   .wrap .objPenalize [], .free "rot1" (.mat .dim), .free "rot2" (.mat .dim), .setId none,
   .setName, .setType "5-weakly-structured", .free "M" .vec, .free "b" .vec, .free "xopt" .vec]

/-- `f_katsuura_permblockdiag_bbob_problem_allocate`, /repo/src/f_katsuura.c lines 143-236. -/
def f_katsuura_permblockdiag_bbob_problem_allocate : List Op :=
  [.alloc "P11" .vec, .alloc "P12" .vec, .alloc "P21" .vec, .alloc "P22" .vec,
   .alloc "block_sizes1" .vec, .alloc "block_sizes2" .vec, .alloc "xopt" .vec,
   .alloc "B1" (.mat .dim), .alloc "B2" (.mat .dim)] ++
  f_katsuura_allocate ++
  [.wrap .varsPermutation ["P22"], .wrap .varsBlockrotation ["B1", "block_sizes2"],
   .wrap .varsPermutation ["P21"], .wrap .varsConditioning [], .wrap .varsPermutation ["P12"],
   .wrap .varsBlockrotation ["B2", "block_sizes1"], .wrap .varsPermutation ["P11"],
   .wrap .varsShift ["xopt"], .wrap .objPenalize [], .wrap .objShift [], .setId none, .setName,
   .setType "5-weakly-structured", .free "B1" (.mat .dim), .free "B2" (.mat .dim),
   .free "P11" .vec, .free "P12" .vec, .free "P21" .vec, .free "P22" .vec,
   .free "block_sizes1" .vec, .free "block_sizes2" .vec, .free "xopt" .vec]

/-- `f_linear_slope_allocate`, /repo/src/f_linear_slope.c lines 86-108. -/
def f_linear_slope_allocate : List Op :=
  [.fromScalars .generic "linear slope function", .setId (some ("linear_slope", 2))]

/-- `f_linear_slope_bbob_problem_allocate`, /repo/src/f_linear_slope.c lines 113-144. -/
def f_linear_slope_bbob_problem_allocate : List Op :=
  [.alloc "xopt" .vec] ++
  f_linear_slope_allocate ++
  [.wrapLarge .objNormByDim [], .wrap .objShift [], .setId none, .setName, .setType "1-separable",
   .free "xopt" .vec]

/-- `f_lunacek_bi_rastrigin_bbob_problem_allocate`,
/repo/src/f_lunacek_bi_rastrigin.c lines 128-187. -/
def f_lunacek_bi_rastrigin_bbob_problem_allocate : List Op :=
  [.fromScalars .lunacek "Lunacek's bi-Rastrigin function", .newData, .dataField "x_hat" .vec,
   .dataField "z" .vec, .dataField "xopt" .vec, .dataField "rot1" (.mat .dim),
   .dataField "rot2" (.mat .dim), .alloc "tmpvect" .vec, .free "tmpvect" .vec, .wrap .objShift [],
   .setId none, .setName, .setType "5-weakly-structured"]

/-- `f_lunacek_bi_rastrigin_sub_problem_allocate`,
/repo/src/f_lunacek_bi_rastrigin.c lines 230-241. -/
def f_lunacek_bi_rastrigin_sub_problem_allocate : List Op :=
  [.fromScalars .generic "lunacek_bi_rastrigin_sub function",
   .setId (some ("lunacek_bi_rastrigin_sub", 4))]

/-- `f_lunacek_bi_rastrigin_problem_allocate`, /repo/src/f_lunacek_bi_rastrigin.c lines 292-306. -/
def f_lunacek_bi_rastrigin_problem_allocate : List Op :=
  [.fromScalars .lunacekVersatile "lunacek_bi_rastrigin function", .newVd, .vdField "x_hat" .vec,
   .setId (some ("lunacek_bi_rastrigin", 4))]

/-- `f_lunacek_bi_rastrigin_permblockdiag_bbob_problem_allocate`,
/repo/src/f_lunacek_bi_rastrigin.c lines 311-451. -/
def f_lunacek_bi_rastrigin_permblockdiag_bbob_problem_allocate : List Stmt :=
  ops [.alloc "block_sizes1" .vec, .alloc "block_sizes2" .vec, .alloc "B1" (.mat .dim),
   .alloc "B2" (.mat .dim), .alloc "P11" .vec, .alloc "P12" .vec, .alloc "P21" .vec,
   .alloc "P22" .vec] ++
  ops f_lunacek_bi_rastrigin_problem_allocate ++
  ops [.alloc "mu0_vector" .vec, .alloc "mu1_vector" .vec] ++
  [.newSubs .one f_lunacek_bi_rastrigin_sub_problem_allocate,
   .newSubs .one f_lunacek_bi_rastrigin_sub_problem_allocate] ++
  ops [.alloc "tmp_normal" .vec, .alloc "sign_vector" .vec] ++
  [.onSub 0 [.wrap .varsShift ["mu0_vector"]],
   .onSub 1 [.wrap .varsShift ["mu1_vector"], .wrap .objScale [], .wrap .objShift []]] ++
  ops [.wrap .varsPermutation ["P22"], .wrap .varsBlockrotation ["B1", "block_sizes1"],
   .wrap .varsPermutation ["P21"], .wrap .varsConditioning [], .wrap .varsPermutation ["P12"],
   .wrap .varsBlockrotation ["B2", "block_sizes2"], .wrap .varsPermutation ["P11"],
   .wrap .varsShift ["mu0_vector"], .wrap .varsXHatGeneric ["sign_vector"], .wrap .objNormByDim [],
   .wrap .objPenalize [], .wrap .objShift [], .setId none, .setName,
   .setType "5-weakly-structured", .free "tmp_normal" .vec, .free "B1" (.mat .dim),
   .free "B2" (.mat .dim), .free "P11" .vec, .free "P12" .vec, .free "P21" .vec, .free "P22" .vec,
   .free "block_sizes1" .vec, .free "block_sizes2" .vec, .free "mu0_vector" .vec,
   .free "mu1_vector" .vec, .free "sign_vector" .vec]

/-- `f_rastrigin_allocate`, /repo/src/f_rastrigin.c lines 75-86. -/
def f_rastrigin_allocate : List Op :=
  [.fromScalars .generic "Rastrigin function", .setId (some ("rastrigin", 2))]

/-- `f_rastrigin_bbob_problem_allocate`, /repo/src/f_rastrigin.c lines 91-127. -/
def f_rastrigin_bbob_problem_allocate : List Op :=
  [.alloc "xopt" .vec] ++
  f_rastrigin_allocate ++
  [.wrap .varsConditioning [], .wrap .varsAsymmetric [], .wrap .varsOscillate [],
   .wrap .varsShift ["xopt"], .wrapLarge .objNormByDim [], .wrap .objShift [], .setId none,
   .setName, .setType "1-separable", .free "xopt" .vec]

/-- `f_rastrigin_rotated_bbob_problem_allocate`, /repo/src/f_rastrigin.c lines 132-187. -/
def f_rastrigin_rotated_bbob_problem_allocate : List Op :=
  [.alloc "M" .vec, .alloc "b" .vec, .alloc "xopt" .vec, .alloc "rot1" (.mat .dim),
   .alloc "rot2" (.mat .dim)] ++
  f_rastrigin_allocate ++
  [.wrap .objShift [], .wrap .varsAffine ["M", "b"], .wrap .varsAsymmetric [],
   .wrap .varsOscillate [], .wrap .varsAffine ["M", "b"], .wrap .varsShift ["xopt"],
   .free "rot1" (.mat .dim), .free "rot2" (.mat .dim), .setId none, .setName,
   .setType "4-multi-modal", .free "M" .vec, .free "b" .vec, .free "xopt" .vec]

/-- `f_rastrigin_permblockdiag_bbob_problem_allocate`, /repo/src/f_rastrigin.c lines 192-279. -/
def f_rastrigin_permblockdiag_bbob_problem_allocate : List Op :=
  [.alloc "P11" .vec, .alloc "P12" .vec, .alloc "P21" .vec, .alloc "P22" .vec,
   .alloc "block_sizes1" .vec, .alloc "block_sizes2" .vec, .alloc "xopt" .vec,
   .alloc "B1" (.mat .dim), .alloc "B2" (.mat .dim)] ++
  f_rastrigin_allocate ++
  [.wrap .varsPermutation ["P12"], .wrap .varsBlockrotation ["B1", "block_sizes1"],
   .wrap .varsPermutation ["P11"], .wrap .varsConditioning [], .wrap .varsPermutation ["P22"],
   .wrap .varsBlockrotation ["B2", "block_sizes2"], .wrap .varsPermutation ["P21"],
   .wrap .varsAsymmetric [], .wrap .varsOscillate [], .wrap .varsPermutation ["P12"],
   .wrap .varsBlockrotation ["B1", "block_sizes1"], .wrap .varsPermutation ["P11"],
   .wrap .varsShift ["xopt"], .wrap .objNormByDim [], .wrap .objShift [], .setId none, .setName,
   .setType "4-multi-modal", .free "B1" (.mat .dim), .free "B2" (.mat .dim), .free "P11" .vec,
   .free "P12" .vec, .free "P21" .vec, .free "P22" .vec, .free "block_sizes1" .vec,
   .free "block_sizes2" .vec, .free "xopt" .vec]

/-- `f_rastrigin_cons_bbob_problem_allocate`, /repo/src/f_rastrigin.c lines 307-331. -/
def f_rastrigin_cons_bbob_problem_allocate : List Op :=
  [.alloc "xopt" .vec] ++
  f_rastrigin_allocate ++
  [.wrap .varsShift ["xopt"], .wrap .objShift [], .setId none, .setName, .setType "1-separable",
   .free "xopt" .vec]

/-- `f_rastrigin_rotated_cons_bbob_problem_allocate`, /repo/src/f_rastrigin.c lines 336-372. -/
def f_rastrigin_rotated_cons_bbob_problem_allocate : List Op :=
  [.alloc "M" .vec, .alloc "b" .vec, .alloc "rot1" (.mat .dim), .free "rot1" (.mat .dim),
   .alloc "xopt" .vec] ++
  f_rastrigin_allocate ++
  [.wrap .varsShift ["xopt"], .wrap .varsAffine ["M", "b"], .wrap .objShift [], .setId none,
   .setName, .setType "1-separable", .free "M" .vec, .free "b" .vec, .free "xopt" .vec]

/-- `f_rosenbrock_allocate`, /repo/src/f_rosenbrock.c lines 59-68. -/
def f_rosenbrock_allocate : List Op :=
  [.fromScalars .generic "Rosenbrock function", .setId (some ("rosenbrock", 2))]

/-- `f_rosenbrock_bbob_problem_allocate`, /repo/src/f_rosenbrock.c lines 73-122. -/
def f_rosenbrock_bbob_problem_allocate : List Op :=
  [.alloc "minus_one" .vec, .alloc "xopt" .vec] ++
  f_rosenbrock_allocate ++
  [.wrap .varsShift ["minus_one"], .wrap .varsScale [], .wrap .varsShift ["xopt"],
   .wrapLarge .objNormByDim [], .wrap .objShift [], .setId none, .setName, .setType "2-moderate",
   .free "minus_one" .vec, .free "xopt" .vec]

/-- `f_rosenbrock_rotated_bbob_problem_allocate`, /repo/src/f_rosenbrock.c lines 127-183. -/
def f_rosenbrock_rotated_bbob_problem_allocate : List Op :=
  [.alloc "M" .vec, .alloc "b" .vec, .alloc "rot1" (.mat .dim)] ++
  f_rosenbrock_allocate ++
  [.wrap .varsAffine ["M", "b"], .wrap .objShift [], .free "rot1" (.mat .dim), .setId none,
   .setName, .setType "2-moderate", .free "M" .vec, .free "b" .vec]

/-- `f_rosenbrock_permblockdiag_bbob_problem_allocate`, /repo/src/f_rosenbrock.c lines 188-263. -/
def f_rosenbrock_permblockdiag_bbob_problem_allocate : List Op :=
  [.alloc "P1" .vec, .alloc "P2" .vec, .alloc "best_parameter" .vec, .alloc "block_sizes" .vec,
   .alloc "minus_one" .vec, .alloc "xopt" .vec, .alloc "B" (.mat .dim)] ++
  f_rosenbrock_allocate ++
  [.wrap .varsShift ["minus_one"], .wrap .varsScale [], .wrap .varsPermutation ["P2"],
   .wrap .varsBlockrotation ["B", "block_sizes"], .wrap .varsPermutation ["P1"],
   .wrap .varsShift ["xopt"], .wrap .objNormByDim [], .wrap .objShift [], .setId none, .setName,
   .setType "2-moderate", .free "xopt" .vec, .free "best_parameter" .vec, .free "minus_one" .vec,
   .free "B" (.mat .dim), .free "P1" .vec, .free "P2" .vec, .free "block_sizes" .vec]

/-- `f_schaffers_allocate`, /repo/src/f_schaffers.c lines 64-73. -/
def f_schaffers_allocate : List Op :=
  [.fromScalars .generic "Schaffer's function", .setId (some ("schaffers", 2))]

/-- `f_schaffers_bbob_problem_allocate`, /repo/src/f_schaffers.c lines 78-135. -/
def f_schaffers_bbob_problem_allocate : List Op :=
  [.alloc "M" .vec, .alloc "b" .vec, .alloc "xopt" .vec, .alloc "rot1" (.mat .dim),
   .alloc "rot2" (.mat .dim)] ++
  f_schaffers_allocate ++
  [.wrap .objShift [], .wrap .varsAffine ["M", "b"], .wrap .varsAsymmetric [],
   .wrap .varsAffine ["M", "b"], .wrap .varsShift ["xopt"], .wrap .objPenalize [],
   .free "rot1" (.mat .dim), .free "rot2" (.mat .dim), .setId none, .setName,
   .setType "4-multi-modal", .free "M" .vec, .free "b" .vec, .free "xopt" .vec]

/-- `f_schaffers_permblockdiag_bbob_problem_allocate`, /repo/src/f_schaffers.c lines 140-219. -/
def f_schaffers_permblockdiag_bbob_problem_allocate : List Op :=
  [.alloc "P11" .vec, .alloc "P21" .vec, .alloc "P12" .vec, .alloc "P22" .vec,
   .alloc "block_sizes1" .vec, .alloc "block_sizes2" .vec, .alloc "xopt" .vec,
   .alloc "B1" (.mat .dim), .alloc "B2" (.mat .dim)] ++
  f_schaffers_allocate ++
  [.wrap .varsConditioning [], .wrap .varsPermutation ["P21"],
   .wrap .varsBlockrotation ["B2", "block_sizes2"], .wrap .varsPermutation ["P11"],
   .wrap .varsAsymmetric [], .wrap .varsPermutation ["P22"],
   .wrap .varsBlockrotation ["B1", "block_sizes1"], .wrap .varsPermutation ["P12"],
   .wrap .varsShift ["xopt"], .wrap .objPenalize [], .wrap .objShift [], .setId none, .setName,
   .setType "4-multi-modal", .free "B1" (.mat .dim), .free "B2" (.mat .dim), .free "P11" .vec,
   .free "P21" .vec, .free "P12" .vec, .free "P22" .vec, .free "block_sizes1" .vec,
   .free "block_sizes2" .vec, .free "xopt" .vec]

/-- `f_schwefel_allocate`, /repo/src/f_schwefel.c lines 66-75. -/
def f_schwefel_allocate : List Op :=
  [.fromScalars .generic "Schwefel function", .setId (some ("schwefel", 2))]

/-- `f_schwefel_bbob_problem_allocate`, /repo/src/f_schwefel.c lines 80-126. -/
def f_schwefel_bbob_problem_allocate : List Op :=
  [.alloc "tmp1" .vec, .alloc "tmp2" .vec, .alloc "xopt" .vec] ++
  f_schwefel_allocate ++
  [.wrap .varsScale [], .wrap .varsShift ["tmp1"], .wrap .varsConditioning [],
   .wrap .varsShift ["tmp2"], .wrap .varsZHat ["xopt"], .wrap .varsScale [], .wrap .varsXHat [],
   .wrap .objShift [], .setId none, .setName, .setType "5-weakly-structured", .free "tmp1" .vec,
   .free "tmp2" .vec, .free "xopt" .vec]

/-- `f_schwefel_generalized_allocate`, /repo/src/f_schwefel_generalized.c lines 66-76. -/
def f_schwefel_generalized_allocate : List Op :=
  [.fromScalars .generic "Schwefel function", .setId (some ("schwefel", 2))]

/-- `f_schwefel_generalized_bbob_problem_allocate`,
/repo/src/f_schwefel_generalized.c lines 81-135. -/
def f_schwefel_generalized_bbob_problem_allocate : List Op :=
  [.alloc "tmp1" .vec, .alloc "tmp2" .vec, .alloc "xopt" .vec] ++
  f_schwefel_generalized_allocate ++
  [.wrap .varsScale [], .wrap .varsShift ["tmp1"], .wrap .varsConditioning [],
   .wrap .varsShift ["tmp2"], .wrap .varsZHat ["xopt"], .wrap .varsScale [], .wrap .varsXHat [],
   .wrap .objShift [], .setId none, .setName, .setType "5-weakly-structured", .free "tmp1" .vec,
   .free "tmp2" .vec, .free "xopt" .vec]

/-- `f_sharp_ridge_allocate`, /repo/src/f_sharp_ridge.c lines 60-69. -/
def f_sharp_ridge_allocate : List Op :=
  [.fromScalars .generic "sharp ridge function", .setId (some ("sharp_ridge", 2))]

/-- `f_sharp_ridge_bbob_problem_allocate`, /repo/src/f_sharp_ridge.c lines 74-125. -/
def f_sharp_ridge_bbob_problem_allocate : List Op :=
  [.alloc "M" .vec, .alloc "b" .vec, .alloc "xopt" .vec, .alloc "rot1" (.mat .dim),
   .alloc "rot2" (.mat .dim), .free "rot1" (.mat .dim), .free "rot2" (.mat .dim)] ++
  f_sharp_ridge_allocate ++
  [.wrap .objShift [], .wrap .varsAffine ["M", "b"], .wrap .varsShift ["xopt"], .setId none,
   .setName, .setType "3-ill-conditioned", .free "M" .vec, .free "b" .vec, .free "xopt" .vec]

/-- `f_sharp_ridge_generalized_allocate`, /repo/src/f_sharp_ridge_generalized.c lines 91-108. -/
def f_sharp_ridge_generalized_allocate : List Op :=
  [.fromScalars .versatile "sharp ridge function", .setId (some ("sharp_ridge_generalized", 2)),
   .newVd]

/-- `f_sharp_ridge_generalized_permblockdiag_bbob_problem_allocate`,
/repo/src/f_sharp_ridge_generalized.c lines 115-194. -/
def f_sharp_ridge_generalized_permblockdiag_bbob_problem_allocate : List Op :=
  [.alloc "P11" .vec, .alloc "P21" .vec, .alloc "P12" .vec, .alloc "P22" .vec,
   .alloc "block_sizes1" .vec, .alloc "block_sizes2" .vec, .alloc "xopt" .vec,
   .alloc "B1" (.mat .dim), .alloc "B2" (.mat .dim)] ++
  f_sharp_ridge_generalized_allocate ++
  [.wrap .varsPermutation ["P21"], .wrap .varsBlockrotation ["B1", "block_sizes1"],
   .wrap .varsPermutation ["P11"], .wrap .varsConditioning [], .wrap .varsPermutation ["P22"],
   .wrap .varsBlockrotation ["B2", "block_sizes2"], .wrap .varsPermutation ["P12"],
   .wrap .varsShift ["xopt"], .wrap .objNormByDim [], .wrap .objShift [], .setId none, .setName,
   .setType "3-ill-conditioned", .free "B1" (.mat .dim), .free "B2" (.mat .dim), .free "P11" .vec,
   .free "P21" .vec, .free "P12" .vec, .free "P22" .vec, .free "block_sizes1" .vec,
   .free "block_sizes2" .vec, .free "xopt" .vec]

/-- `f_sphere_allocate`, /repo/src/f_sphere.c lines 62-72. -/
def f_sphere_allocate : List Op :=
  [.fromScalars .generic "sphere function", .setId (some ("sphere", 2))]

/-- `f_sphere_bbob_problem_allocate`, /repo/src/f_sphere.c lines 77-114. -/
def f_sphere_bbob_problem_allocate : List Op :=
  [.alloc "xopt" .vec] ++
  f_sphere_allocate ++
  [.wrap .varsShift ["xopt"], .wrapLarge .objNormByDim [], .wrap .objShift [], .setId none,
   .setName, .setType "1-separable", .free "xopt" .vec]

/-- `f_step_ellipsoid_bbob_problem_allocate`, /repo/src/f_step_ellipsoid.c lines 133-181. -/
def f_step_ellipsoid_bbob_problem_allocate : List Op :=
  [.fromScalars .stepEllipsoid "step ellipsoid function", .newData, .dataField "x" .vec,
   .dataField "xx" .vec, .dataField "xopt" .vec, .dataField "rot1" (.mat .dim),
   .dataField "rot2" (.mat .dim), .setId none, .setName, .setType "2-moderate"]

/-- `f_step_ellipsoid_allocate`, /repo/src/f_step_ellipsoid.c lines 231-245. -/
def f_step_ellipsoid_allocate : List Op :=
  [.fromScalars .generic "step ellipsoid function", .newVd, .setFree .versatile,
   .setId (some ("step_ellipsoid", 2))]

/-- `f_step_ellipsoid_permblockdiag_bbob_problem_allocate`,
/repo/src/f_step_ellipsoid.c lines 254-342. -/
def f_step_ellipsoid_permblockdiag_bbob_problem_allocate : List Op :=
  [.alloc "xopt" .vec, .alloc "block_sizes1" .vec, .alloc "block_sizes2" .vec,
   .alloc "B1" (.mat .dim), .alloc "B2" (.mat .dim), .alloc "P11" .vec, .alloc "P12" .vec,
   .alloc "P21" .vec, .alloc "P22" .vec] ++
  f_step_ellipsoid_allocate ++
  [.wrap .varsPermutation ["P22"], .wrap .varsBlockrotation ["B1", "block_sizes1"],
   .wrap .varsPermutation ["P21"], .wrap .varsRoundStep [], .wrap .varsConditioning [],
   .wrap .varsPermutation ["P12"], .wrap .varsBlockrotation ["B2", "block_sizes2"],
   .wrap .varsPermutation ["P11"], .wrap .varsShift ["xopt"], .wrap .objNormByDim [],
   .wrap .objPenalize [], .wrap .objShift [], .setId none, .setName, .setType "2-moderate",
   .free "B1" (.mat .dim), .free "B2" (.mat .dim), .free "P11" .vec, .free "P12" .vec,
   .free "P21" .vec, .free "P22" .vec, .free "block_sizes1" .vec, .free "block_sizes2" .vec,
   .free "xopt" .vec]

/-- `f_weierstrass_allocate`, /repo/src/f_weierstrass.c lines 72-97. -/
def f_weierstrass_allocate : List Op :=
  [.fromScalars .generic "Weierstrass function", .setId (some ("weierstrass", 2)), .newData,
   .alloc "non_unique_best_value" .vec, .free "non_unique_best_value" .vec]

/-- `f_weierstrass_bbob_problem_allocate`, /repo/src/f_weierstrass.c lines 102-163. -/
def f_weierstrass_bbob_problem_allocate : List Op :=
  [.alloc "M" .vec, .alloc "b" .vec, .alloc "xopt" .vec, .alloc "rot1" (.mat .dim),
   .alloc "rot2" (.mat .dim)] ++
  f_weierstrass_allocate ++
  [.wrap .objShift [], .wrap .varsAffine ["M", "b"], .wrap .varsOscillate [],
   .wrap .varsAffine ["M", "b"], .wrap .varsShift ["xopt"], .wrap .objPenalize [],
   .free "rot1" (.mat .dim), .free "rot2" (.mat .dim), .setId none, .setName,
   .setType "4-multi-modal", .free "M" .vec, .free "b" .vec, .free "xopt" .vec]

/-- `f_weierstrass_permblockdiag_bbob_problem_allocate`, /repo/src/f_weierstrass.c lines 168-250. -/
def f_weierstrass_permblockdiag_bbob_problem_allocate : List Op :=
  [.alloc "P11" .vec, .alloc "P21" .vec, .alloc "P12" .vec, .alloc "P22" .vec,
   .alloc "block_sizes1" .vec, .alloc "block_sizes2" .vec, .alloc "xopt" .vec,
   .alloc "B1" (.mat .dim), .alloc "B2" (.mat .dim)] ++
  f_weierstrass_allocate ++
  [.wrap .varsPermutation ["P22"], .wrap .varsBlockrotation ["B1", "block_sizes1"],
   .wrap .varsPermutation ["P12"], .wrap .varsConditioning [], .wrap .varsPermutation ["P21"],
   .wrap .varsBlockrotation ["B2", "block_sizes2"], .wrap .varsPermutation ["P11"],
   .wrap .varsOscillate [], .wrap .varsPermutation ["P22"],
   .wrap .varsBlockrotation ["B1", "block_sizes1"], .wrap .varsPermutation ["P12"],
   .wrap .varsShift ["xopt"], .wrap .objPenalize [], .wrap .objShift [], .setId none, .setName,
   .setType "4-multi-modal", .free "B1" (.mat .dim), .free "B2" (.mat .dim), .free "P11" .vec,
   .free "P21" .vec, .free "P12" .vec, .free "P22" .vec, .free "block_sizes1" .vec,
   .free "block_sizes2" .vec, .free "xopt" .vec]

/-- The constructor of function `f`: `coco_get_bbob_problem`, /repo/src/suite_bbob.c lines
85-187. -/
def bbobScript : Nat → Option (List Stmt)
  | 1 => some (ops f_sphere_bbob_problem_allocate)
  | 2 => some (ops f_ellipsoid_bbob_problem_allocate)
  | 3 => some (ops f_rastrigin_bbob_problem_allocate)
  | 4 => some (ops f_bueche_rastrigin_bbob_problem_allocate)
  | 5 => some (ops f_linear_slope_bbob_problem_allocate)
  | 6 => some (ops f_attractive_sector_bbob_problem_allocate)
  | 7 => some (ops f_step_ellipsoid_bbob_problem_allocate)
  | 8 => some (ops f_rosenbrock_bbob_problem_allocate)
  | 9 => some (ops f_rosenbrock_rotated_bbob_problem_allocate)
  | 10 => some (ops f_ellipsoid_rotated_bbob_problem_allocate)
  | 11 => some (ops f_discus_bbob_problem_allocate)
  | 12 => some (ops f_bent_cigar_bbob_problem_allocate)
  | 13 => some (ops f_sharp_ridge_bbob_problem_allocate)
  | 14 => some (ops f_different_powers_bbob_problem_allocate)
  | 15 => some (ops f_rastrigin_rotated_bbob_problem_allocate)
  | 16 => some (ops f_weierstrass_bbob_problem_allocate)
  | 17 => some (ops f_schaffers_bbob_problem_allocate)
  | 18 => some (ops f_schaffers_bbob_problem_allocate)
  | 19 => some (ops f_griewank_rosenbrock_bbob_problem_allocate)
  | 20 => some (ops f_schwefel_bbob_problem_allocate)
  | 21 => some (ops f_gallagher_bbob_problem_allocate)
  | 22 => some (ops f_gallagher_bbob_problem_allocate)
  | 23 => some (ops f_katsuura_bbob_problem_allocate)
  | 24 => some (ops f_lunacek_bi_rastrigin_bbob_problem_allocate)
  | _ => none

/-- The constructor of function `f`: `coco_get_largescale_problem`,
/repo/src/suite_largescale.c lines 58-153. -/
def largescaleScript : Nat → Option (List Stmt)
  | 1 => some (ops f_sphere_bbob_problem_allocate)
  | 2 => some (ops f_ellipsoid_bbob_problem_allocate)
  | 3 => some (ops f_rastrigin_bbob_problem_allocate)
  | 4 => some (ops f_bueche_rastrigin_bbob_problem_allocate)
  | 5 => some (ops f_linear_slope_bbob_problem_allocate)
  | 6 => some (ops f_attractive_sector_permblockdiag_bbob_problem_allocate)
  | 7 => some (ops f_step_ellipsoid_permblockdiag_bbob_problem_allocate)
  | 8 => some (ops f_rosenbrock_bbob_problem_allocate)
  | 9 => some (ops f_rosenbrock_permblockdiag_bbob_problem_allocate)
  | 10 => some (ops f_ellipsoid_permblockdiag_bbob_problem_allocate)
  | 11 => some (ops f_discus_generalized_permblockdiag_bbob_problem_allocate)
  | 12 => some (ops f_bent_cigar_generalized_permblockdiag_bbob_problem_allocate)
  | 13 => some (ops f_sharp_ridge_generalized_permblockdiag_bbob_problem_allocate)
  | 14 => some (ops f_different_powers_permblockdiag_bbob_problem_allocate)
  | 15 => some (ops f_rastrigin_permblockdiag_bbob_problem_allocate)
  | 16 => some (ops f_weierstrass_permblockdiag_bbob_problem_allocate)
  | 17 => some (ops f_schaffers_permblockdiag_bbob_problem_allocate)
  | 18 => some (ops f_schaffers_permblockdiag_bbob_problem_allocate)
  | 19 => some (ops f_griewank_rosenbrock_permblockdiag_bbob_bbob_problem_allocate)
  | 20 => some (ops f_schwefel_generalized_bbob_problem_allocate)
  | 21 => some f_gallagher_permblockdiag_bbob_problem_allocate
  | 22 => some f_gallagher_permblockdiag_bbob_problem_allocate
  | 23 => some (ops f_katsuura_permblockdiag_bbob_problem_allocate)
  | 24 => some f_lunacek_bi_rastrigin_permblockdiag_bbob_problem_allocate
  | _ => none

/-- The constructor of function `f`: `suite_toy_get_problem`, /repo/src/suite_toy.c lines
42-77. -/
def toyScript : Nat → Option (List Stmt)
  | 1 => some (ops f_sphere_allocate)
  | 2 => some (ops f_ellipsoid_allocate)
  | 3 => some (ops f_rastrigin_allocate)
  | 4 => some (ops f_bueche_rastrigin_allocate)
  | 5 => some (ops f_linear_slope_allocate)
  | 6 => some (ops f_rosenbrock_allocate)
  | _ => none

/-- The constructor of the inner problem and the noise of function `f`:
`coco_get_bbob_noisy_problem`, /repo/src/suite_bbob_noisy.c lines 74-310. -/
def noisyScript : Nat → Option (List Stmt × Transform)
  | 101 => some (ops f_sphere_bbob_problem_allocate, .objGaussianNoise)
  | 102 => some (ops f_sphere_bbob_problem_allocate, .objUniformNoise)
  | 103 => some (ops f_sphere_bbob_problem_allocate, .objCauchyNoise)
  | 104 => some (ops f_rosenbrock_bbob_problem_allocate, .objGaussianNoise)
  | 105 => some (ops f_rosenbrock_bbob_problem_allocate, .objUniformNoise)
  | 106 => some (ops f_rosenbrock_bbob_problem_allocate, .objCauchyNoise)
  | 107 => some (ops f_sphere_bbob_problem_allocate, .objGaussianNoise)
  | 108 => some (ops f_sphere_bbob_problem_allocate, .objUniformNoise)
  | 109 => some (ops f_sphere_bbob_problem_allocate, .objCauchyNoise)
  | 110 => some (ops f_rosenbrock_bbob_problem_allocate, .objGaussianNoise)
  | 111 => some (ops f_rosenbrock_bbob_problem_allocate, .objUniformNoise)
  | 112 => some (ops f_rosenbrock_bbob_problem_allocate, .objCauchyNoise)
  | 113 => some (ops f_step_ellipsoid_bbob_problem_allocate, .objGaussianNoise)
  | 114 => some (ops f_step_ellipsoid_bbob_problem_allocate, .objUniformNoise)
  | 115 => some (ops f_step_ellipsoid_bbob_problem_allocate, .objCauchyNoise)
  | 116 => some (ops f_ellipsoid_rotated_bbob_problem_allocate, .objGaussianNoise)
  | 117 => some (ops f_ellipsoid_rotated_bbob_problem_allocate, .objUniformNoise)
  | 118 => some (ops f_ellipsoid_rotated_bbob_problem_allocate, .objCauchyNoise)
  | 119 => some (ops f_different_powers_bbob_problem_allocate, .objGaussianNoise)
  | 120 => some (ops f_different_powers_bbob_problem_allocate, .objUniformNoise)
  | 121 => some (ops f_different_powers_bbob_problem_allocate, .objCauchyNoise)
  | 122 => some (ops f_schaffers_bbob_problem_allocate, .objGaussianNoise)
  | 123 => some (ops f_schaffers_bbob_problem_allocate, .objUniformNoise)
  | 124 => some (ops f_schaffers_bbob_problem_allocate, .objCauchyNoise)
  | 125 => some (ops f_griewank_rosenbrock_bbob_problem_allocate, .objGaussianNoise)
  | 126 => some (ops f_griewank_rosenbrock_bbob_problem_allocate, .objUniformNoise)
  | 127 => some (ops f_griewank_rosenbrock_bbob_problem_allocate, .objCauchyNoise)
  | 128 => some (ops f_gallagher_bbob_problem_allocate, .objGaussianNoise)
  | 129 => some (ops f_gallagher_bbob_problem_allocate, .objUniformNoise)
  | 130 => some (ops f_gallagher_bbob_problem_allocate, .objCauchyNoise)
  | _ => none

/-- The constructor of the objective and the transformations applied to the stacked problem before
the shift, by the number of the objective: /repo/src/suite_cons_bbob_problems.c lines 167-817. -/
def consScript : Nat → Option (List Stmt × List Transform)
  | 1 => some (ops f_sphere_bbob_problem_allocate, [])
  | 2 => some (ops f_ellipsoid_cons_bbob_problem_allocate,
      [.varsOscillate])
  | 3 => some (ops f_linear_slope_bbob_problem_allocate, [])
  | 4 => some (ops f_ellipsoid_rotated_cons_bbob_problem_allocate,
      [.varsOscillate])
  | 5 => some (ops f_discus_cons_bbob_problem_allocate,
      [.varsOscillate])
  | 6 => some (ops f_bent_cigar_cons_bbob_problem_allocate,
      [.varsAsymmetric])
  | 7 => some (ops f_different_powers_bbob_constrained_problem_allocate, [])
  | 8 => some (ops f_rastrigin_cons_bbob_problem_allocate,
      [.varsAsymmetric, .varsOscillate])
  | 9 => some (ops f_rastrigin_rotated_cons_bbob_problem_allocate,
      [.varsAsymmetric, .varsOscillate])
  | _ => none

end Memory
