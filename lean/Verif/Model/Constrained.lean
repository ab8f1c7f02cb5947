import Verif.Model.Transform

/-!
# Model of the linear constraints of the constrained suites

`/repo/src/c_linear.c` and the functions of `/repo/src/suite_cons_bbob_problems.c` that fix the number of constraints and
the length of the feasible direction. Exact real arithmetic. The random numbers are arbitrary; where the code uses a
generator seeded with the number of the constraint, the model has numbers that depend on the number of the constraint.
Identifiers, names, types and counters of the problems are not modelled.
-/

noncomputable section

namespace Constrained
open Classical
open Transform (Vec)

variable {n : Nat}

/-! ### Vectors (`/repo/src/coco_utilities.c`) -/

/-- `coco_vector_norm`, `/repo/src/coco_utilities.c` lines 1176-1187. -/
def norm (x : Vec n) : ℝ := Real.sqrt (∑ i, x i * x i)

/-- `coco_vector_scalar_product`, `/repo/src/coco_utilities.c` lines 1193-1205. -/
def dot (x y : Vec n) : ℝ := ∑ i, x i * y i

/-- `coco_vector_scale`, `/repo/src/coco_utilities.c` lines 1157-1170. -/
def scale (x : Vec n) (nom denom : ℝ) : Vec n := fun i => x i * (if denom ≠ 0 then nom / denom else nom)

/-! ### One constraint -/

/-- `linear_constraint_data_t`, `/repo/src/c_linear.c` lines 19-24, without the buffer. -/
structure Constraint (n : Nat) where
  gradient : Vec n
  shift : ℝ
  norm : ℝ

/-- `c_sum_variables_evaluate`, `/repo/src/c_linear.c` lines 55-68. -/
def sumVariables (x : Vec n) : ℝ := ∑ i, if x i > 1 / 10 ^ 11 ∨ x i < 0 then x i else 0

/-- `c_linear_single_evaluate`, `/repo/src/c_linear.c` lines 74-94. -/
def value (c : Constraint n) (x : Vec n) : ℝ :=
  sumVariables fun i => c.gradient i * (x i - c.shift / c.norm * c.gradient i)

/-- `c_guarantee_feasible_point`, `/repo/src/c_linear.c` lines 101-127, without the copy of the initial solution. -/
def guarantee (c : Constraint n) (fd : Vec n) : Constraint n :=
  if value c fd > 0 then { c with gradient := fun i => c.gradient i * -1 } else c

/-- `c_linear_transform`, `/repo/src/c_linear.c` lines 164-183. -/
def linearTransform (gradient : Vec n) (shift : ℝ) : Res (Constraint n) :=
  if norm gradient ≤ 0 then .error else .ok ⟨gradient, shift, norm gradient⟩

/-- The input of `c_linear_cons_bbob_problem_allocate` with the random numbers: `u1` and `u2` are the uniform numbers
delivered by the two generators of lines 356-357 of `/repo/src/c_linear.c`; `own k` and `normals k` those of the generator of constraint number `k`
(lines 210-211), of which `own` is drawn first. -/
structure Params (n : Nat) where
  fd : Vec n
  instance_ : Nat
  active : Nat
  activeOnly : Bool
  disguise : Bool
  u1 : Nat → ℝ
  u2 : Nat → ℝ
  own : Nat → ℝ
  normals : Nat → Vec n

variable (P : Params n)

/-- `factor1`, `/repo/src/c_linear.c` line 358. -/
def factor1 : ℝ := 100 * (10 : ℝ) ^ (P.u1 0)

/-- The variable `gradient_c1`, `/repo/src/c_linear.c` lines 344-345. -/
def gradientC1 : Vec n := fun i => -P.fd i

/-- `c_linear_single_cons_bbob_problem_allocate`, `/repo/src/c_linear.c` lines 193-263. The given gradient is scaled in place
there; the caller does not use it again, as it passes it for one constraint only. -/
def single (number : Nat) (gradient : Option (Vec n)) (shift : ℝ) : Res (Constraint n) :=
  let factor2 : ℝ := (100 : ℝ) ^ (P.own number)
  let g : Vec n := match gradient with
    | some g => scale g (factor1 P * factor2) (norm g)
    | none => fun i => factor1 P * P.normals number i * factor2 / Real.sqrt n
  (linearTransform g shift).bind fun c => .ok (guarantee c P.fd)

/-! ### All constraints -/

/-- The variables of the loop in lines 375-420 of `/repo/src/c_linear.c`: `i`, `inactive_constraints_left`, the numbers of
draws made from the two generators, `linear_combination`, `first_constraint_data` (as a position in the list) and the
constraints stacked so far. -/
structure State (n : Nat) where
  i : Nat
  left : Nat
  p1 : Nat
  p2 : Nat
  lin : Vec n
  first : Option Nat
  cs : List (Constraint n)

/-- `inactive_constraints_left` at the start, `/repo/src/c_linear.c` lines 329-334. -/
def inactive : Nat := if P.activeOnly then 0 else P.active / 2

/-- `number_of_linear_constraints`, `/repo/src/c_linear.c` line 339. -/
def total : Nat := P.active + inactive P

/-- One constraint is created, recorded or added to the linear combination, and stacked: `/repo/src/c_linear.c` lines 365-371
and 394-411, with `con_update_linear_combination` (lines 270-291; a zero weight adds nothing there, here it adds zero). -/
def add (s : State n) (number : Nat) (gradient : Option (Vec n)) (shift : ℝ) : Res (State n) :=
  (single P number gradient shift).bind fun c =>
    if shift = 0 then
      match gradient with
      | some _ => .ok { s with first := some s.cs.length, cs := s.cs ++ [c] }
      | none => .ok { s with
          lin := fun j => s.lin j + P.u2 s.p2 * c.gradient j
          p2 := s.p2 + 1
          cs := s.cs ++ [c] }
    else .ok { s with cs := s.cs ++ [c] }

/-- The number given to the constraint, `/repo/src/c_linear.c` line 396. -/
def number (s : State n) : Nat := if s.i ≤ P.active then s.i else total P - s.left

/-- An active constraint, `/repo/src/c_linear.c` lines 384-385. -/
def addActive (s : State n) : Res (State n) :=
  let s := { s with i := s.i + 1 }
  add P s (number P s) (if (s.i - 1 + P.instance_) % P.active ≠ 0 then none else some (gradientC1 P)) 0

/-- An inactive constraint, `/repo/src/c_linear.c` lines 386-391. -/
def addInactive (s : State n) : Res (State n) :=
  if s.left = 0 then .error
  else
    let shift := 0.01 + 2 * P.u1 s.p1
    let s := { s with left := s.left - 1, p1 := s.p1 + 1 }
    add P s (number P s) none shift

/-- One iteration of the loop, `/repo/src/c_linear.c` lines 375-420. -/
def step (s : State n) : Res (State n) :=
  if s.i < P.active then
    let u := P.u1 s.p1
    let s := { s with p1 := s.p1 + 1 }
    if u + 1 / 10 ^ 23 > (s.left : ℝ) / (total P : ℝ) then addActive P s else addInactive P s
  else addInactive P s

/-- The loop. -/
def loop : Nat → State n → Res (State n)
  | 0, s => .ok s
  | m + 1, s => (step P s).bind fun s => loop m s

/-- The first constraint is replaced, `/repo/src/c_linear.c` lines 425-439. -/
def disguiseFirst (s : State n) : Res (List (Constraint n)) :=
  if P.active > 1 ∧ P.disguise then
    match s.first with
    | none => .ub
    | some k =>
      match s.cs[k]? with
      | none => .ub
      | some c =>
        let fac := dot s.lin c.gradient
        if fac < 0 then .error
        else
          let fac := if fac ≤ 0 then (n : ℝ) else min (n : ℝ) (c.norm * c.norm / fac)
          let fac := fac * ((1 + P.u2 s.p2) / (2 + 1 / (n : ℝ)))
          let g : Vec n := fun i => c.gradient i - fac * s.lin i
          if norm g = 0 then .error
          else .ok (s.cs.set k { c with gradient := scale g c.norm (norm g) })
  else .ok s.cs

/-- `c_linear_cons_bbob_problem_allocate`, `/repo/src/c_linear.c` lines 309-447. The remainder in line 364 by a number of zero
active constraints is undefined. -/
def build : Res (List (Constraint n)) :=
  if P.active = 0 then .ub
  else
    (add P ⟨1, inactive P, 1, 0, fun _ => 0, none, []⟩ 1
      (if P.instance_ % P.active ≠ 0 then none else some (gradientC1 P)) 0).bind fun s =>
    (loop P (total P - 1) s).bind fun s => disguiseFirst P s

/-! ### Number of constraints and length of the direction -/

/-- `nb_of_linear_constraints`, `/repo/src/suite_cons_bbob_problems.c` lines 111-131; the conversion to int is exact for
the function numbers in question. -/
def numberOfConstraints (function : Nat) (dimension : Nat) : Nat :=
  let p := ((function : Int) - 1).tmod 6 + 1
  if p = 1 then 1
  else if p = 2 then 2
  else if p = 3 then 6
  else if p = 4 then 6 + dimension / 2
  else if p = 5 then 6 + dimension
  else 6 + 3 * dimension

/-- The loop in `/repo/src/suite_cons_bbob_problems.c` lines 149-153: `maxabs` and `maxrel`. -/
def maxima (l : List (ℝ × ℝ)) : ℝ × ℝ :=
  l.foldl (fun m p =>
    (max m.1 |p.2|, max (max m.2 (p.1 / (5 - p.2))) (p.1 / (-5 - p.2)))) (0, 0)

/-- `feasible_direction_set_length`, `/repo/src/suite_cons_bbob_problems.c` lines 139-161; `r` is the random number. -/
def setLength (fd xopt : Vec n) (r : ℝ) : Res (Vec n) :=
  let m := maxima (List.ofFn fun i => (fd i, xopt i))
  if m.1 > 5 then .error else .ok (scale fd (0.75 + r * (1 - 0.75)) m.2)

end Constrained
