import Verif.Model.Gauss

/-!
# Several problems sharing the noise seeds

The seeds of the noise are static variables, so that all noisy problems of a program draw from the same two streams.
-/

namespace Noise

/-- A sequence of calls, each made on behalf of a problem with the given number; all calls use the same seeds
(`/repo/src/suite_bbob_noisy_utilities.c` lines 18-19 and 54-75, called from
`/repo/src/transform_obj_gaussian_noise.c` lines 18-33, `/repo/src/transform_obj_uniform_noise.c` lines 19-40 and
`/repo/src/transform_obj_cauchy_noise.c` lines 19-38). The numbers delivered are listed with the problem. -/
noncomputable def runShared : List (Nat × Op) → Seeds → Res (List (Nat × List ℝ) × Seeds)
  | [], s => .ok ([], s)
  | (p, op) :: ops, s =>
    (step s op).bind fun (o, s) => (runShared ops s).bind fun (os, s) => .ok ((p, o) :: os, s)

end Noise
