import Mathlib.Data.Rat.Floor
import Verif.Base.Res

/-!
# Model of `/repo/src/coco_random.c`

Doubles are rationals. Every floating-point operation is followed by the rounding `fl`; the theorems hold for
every monotone rounding that keeps 0, 1 and 2 (exact arithmetic and IEEE round-to-nearest are instances).
Not modelled: memory management.
-/

namespace Random

/-- `coco_random_state_s`, `/repo/src/coco_random.c` lines 22-25. The array is a function of the index; its 607
elements are accessed with `rd` and `wr` only. -/
structure State where
  x : Nat → ℚ
  index : Nat

/-- Read of `state->x[i]`: out of bounds from `COCO_LONG_LAG` on (`/repo/src/coco_random.c` lines 17, 23). -/
def rd (x : Nat → ℚ) (i : Nat) : Res ℚ := if i < 607 then .ok (x i) else .ub

/-- Write of `state->x[i]` (`/repo/src/coco_random.c` lines 17, 23). -/
def wr (x : Nat → ℚ) (i : Nat) (v : ℚ) : Res (Nat → ℚ) := if i < 607 then .ok (Function.update x i v) else .ub

/-- The body of the loops of `coco_random_generate`, `/repo/src/coco_random.c` lines 36-39 and 42-45: the sum of
the elements at `i` and `j`, reduced, replaces the one at `i`. -/
def genStep (fl : ℚ → ℚ) (x : Nat → ℚ) (i j : Nat) : Res (Nat → ℚ) :=
  (rd x i).bind fun a => (rd x j).bind fun b =>
  let t := fl (a + b)
  let t := if t ≥ 1 then fl (t - 1) else t
  wr x i t

/-- A loop over consecutive indices from `i`, `n` times; `other` gives the second index. -/
def genLoop (fl : ℚ → ℚ) (other : Nat → Nat) : Nat → Nat → (Nat → ℚ) → Res (Nat → ℚ)
  | 0, _, x => .ok x
  | n + 1, i, x => (genStep fl x i (other i)).bind fun x => genLoop fl other n (i + 1) x

/-- `coco_random_generate`, `/repo/src/coco_random.c` lines 33-48. -/
def generate (fl : ℚ → ℚ) (s : State) : Res State :=
  (genLoop fl (fun i => i + (607 - 273)) 273 0 s.x).bind fun x =>
  (genLoop fl (fun i => i - 273) (607 - 273) 273 x).bind fun x =>
  .ok ⟨x, 0⟩

/-- The advance of the seed, `/repo/src/coco_random.c` line 59, with 32-bit unsigned arithmetic. -/
def nextSeed (seed i : Nat) : Nat := (1812433253 * (seed ^^^ (seed >>> 30)) + (i + 1)) % 2 ^ 32

/-- The loop of `coco_random_new`, `/repo/src/coco_random.c` lines 55-60. -/
def fill (fl : ℚ → ℚ) : Nat → Nat → Nat → (Nat → ℚ) → Res (Nat → ℚ)
  | 0, _, _, x => .ok x
  | n + 1, i, seed, x =>
    (wr x i (fl ((seed : ℚ) / (2 ^ 32 - 1)))).bind fun x => fill fl n (i + 1) (nextSeed seed i) x

/-- `coco_random_new`, `/repo/src/coco_random.c` lines 50-64. The allocated array is uninitialised: its content
`junk` is arbitrary. -/
def new (fl : ℚ → ℚ) (junk : Nat → ℚ) (seed : Nat) : Res State :=
  (fill fl 607 0 seed junk).bind fun x => .ok ⟨x, 12⟩

/-- `coco_random_uniform`, `/repo/src/coco_random.c` lines 68-74. -/
def uniform (fl : ℚ → ℚ) (s : State) : Res (ℚ × State) :=
  (if s.index ≥ 607 then generate fl s else .ok s).bind fun s =>
  (rd s.x s.index).bind fun v => .ok (v, { s with index := s.index + 1 })

/-- `n` successive calls of `coco_random_uniform` (`/repo/src/coco_random.c` lines 68-74). -/
def draws (fl : ℚ → ℚ) : Nat → State → Res (List ℚ × State)
  | 0, s => .ok ([], s)
  | n + 1, s =>
    (uniform fl s).bind fun (v, s) => (draws fl n s).bind fun (vs, s) => .ok (v :: vs, s)

end Random
