import Verif.Lemmas.ConsSuite
import Verif.Props.Noise
import Verif.Lemmas.Warp
import Verif.Props.Constrained

/-!
# The problems of the constrained suites: C91
-/

noncomputable section

namespace ConsSuite
open Classical Transform Bbob

variable {n : Nat}

namespace Spec

/-- The objective function of the type with the seed, before the transformations of the whole problem: `o` is the
optimum without constraints (before the rotation, for type 9), `M` the rotation. -/
def Objective (type : Nat) (seed : Int) (fopt : ℝ) (f : Vec n → ℝ) : Prop :=
  if type = 1 then ∃ o, getXopt .bbob seed n = .ok o ∧ f = fun x => sphere (fun i => x i - o i) + fopt
  else if type = 2 then
    ∃ o, getXopt .bbob seed n = .ok o ∧ f = fun x => ellipsoid (10 ^ 6) (fun i => x i - o i) + fopt
  else if type = 3 then
    ∃ o, getXopt .bbob seed n = .ok o ∧
      f = fun x => linearSlope (fun i => if o i < 0 then -5 else 5) x + fopt
  else if type = 4 then
    ∃ o M, getXopt .bbob seed n = .ok o ∧ rotation (seed + 1000000) n = .ok M ∧
      f = fun x => ellipsoid (10 ^ 6) (fun i => ∑ j, M i j * (x j - o j)) + fopt
  else if type = 5 then
    ∃ o M, getXopt .bbob seed n = .ok o ∧ rotation (seed + 1000000) n = .ok M ∧
      f = fun x => discus (fun i => ∑ j, M i j * (x j - o j)) + fopt
  else if type = 6 then
    ∃ o M, getXopt .bbob (seed + 1000000) n = .ok o ∧ rotation (seed + 1000000) n = .ok M ∧
      f = fun x => bentCigar (fun i => ∑ j, M i j * (x j - o j)) + fopt
  else if type = 7 then
    ∃ o M, getXopt .bbob seed n = .ok o ∧ rotation (seed + 1000000) n = .ok M ∧
      f = fun x => differentPowers (fun i => ∑ j, M i j *
        (x j - 0.01 * (o j / Real.sqrt (∑ k, o k ^ 2)))) + fopt
  else if type = 8 then
    ∃ o : Vec n, (∀ i, ∃ k : ℤ, -5 ≤ k ∧ k ≤ 5 ∧ o i = k) ∧ rastriginXopt seed n = .ok o ∧
      f = fun x => rastrigin (fun i => x i - o i) + fopt
  else
    ∃ (o : Vec n) (M : Fin n → Fin n → ℝ), (∀ i, ∃ k : ℤ, -5 ≤ k ∧ k ≤ 5 ∧ o i = k) ∧
      rastriginXopt seed n = .ok o ∧ rotation (seed + 1000000) n = .ok M ∧
      f = fun x => rastrigin (fun i => ∑ j, M i j * x j - o i) + fopt

/-- The types with rotation matrices. -/
def Rotated (type : Nat) : Prop := type = 4 ∨ type = 5 ∨ type = 6 ∨ type = 7 ∨ type = 9

end Spec

/-! ### Random data -/

theorem xopt_ok (seed : Int) (hs : seed.natAbs < 2 ^ 31 * 127773) (n : Nat) :
    ∃ x : Vec n, getXopt .bbob seed n = .ok x ∧ ∀ i, -4 ≤ x i ∧ x i < 4 ∧ x i ≠ 0 := by
  obtain ⟨xs, e, hl, hx⟩ := Legacy.C45_xopt seed hs n
  refine ⟨vec xs, by unfold getXopt; rw [if_neg (by decide), e]; rfl, fun i => ?_⟩
  have hi : i.1 < xs.length := by omega
  obtain ⟨a, b, c, -⟩ := hx xs[i.1] (List.getElem_mem hi)
  unfold vec
  rw [List.getD_eq_getElem _ _ hi]
  exact ⟨by exact_mod_cast a, by exact_mod_cast b, by exact_mod_cast c⟩

theorem rastriginXopt_ok (seed : Int) (hs : seed.natAbs < 2 ^ 31 * 127773) (n : Nat) (hn : 2 ≤ n) :
    ∃ x : Vec n, rastriginXopt seed n = .ok x ∧ x ≠ 0 ∧ ∀ i, ∃ k : ℤ, -5 ≤ k ∧ k ≤ 5 ∧ x i = k := by
  obtain ⟨u, e, hl, hu⟩ := Legacy.C44_range n seed hs
  unfold rastriginXopt
  rw [e, Res.ok_bind]
  dsimp only
  refine ⟨_, rfl, ?_, ?_⟩
  · split_ifs with h
    · intro h0
      have := congrFun h0 ⟨0, by omega⟩
      norm_num at this
    · intro h0
      apply h
      rw [h0]
      intro i
      simp
  · intro i
    have hr : (0 : ℝ) ≤ vec (n := n) u i ∧ vec (n := n) u i ≤ 1 := by
      have hi : i.1 < u.length := by omega
      obtain ⟨a, b⟩ := hu u[i.1] (List.getElem_mem hi)
      unfold vec
      rw [List.getD_eq_getElem _ _ hi]
      exact ⟨by exact_mod_cast a.le, by exact_mod_cast b.le⟩
    split_ifs with h
    · refine ⟨((i.1 % 9 : Nat) : ℤ) - 4, by omega, by omega, by push_cast; rfl⟩
    · dsimp only
      split_ifs with h1
      · exact ⟨_, by rw [Int.le_ceil_iff]; push_cast; linarith, by rw [Int.ceil_le]; push_cast; linarith, rfl⟩
      · exact ⟨_, by rw [Int.le_floor]; push_cast; linarith,
          by rw [← Int.lt_add_one_iff, Int.floor_lt]; push_cast; linarith, rfl⟩

theorem affineMap_ne_zero {M : Fin n → Fin n → ℝ} (hM : ∀ i j, ∑ k, M k i * M k j = if i = j then 1 else 0)
    {x : Vec n} (hx : x ≠ 0) : affineMap M 0 x ≠ 0 := by
  intro h
  apply hx
  funext j
  have h1 : ∀ i, ∑ k, x k * M i k = 0 := fun i => by
    have := congrFun h i
    simpa [affineMap] using this
  have : ∑ i, M i j * ∑ k, x k * M i k = x j := by
    calc ∑ i, M i j * ∑ k, x k * M i k = ∑ i, ∑ k, x k * (M i j * M i k) := by
          refine Finset.sum_congr rfl fun i _ => ?_
          rw [Finset.mul_sum]
          exact Finset.sum_congr rfl fun k _ => by ring
      _ = ∑ k, ∑ i, x k * (M i j * M i k) := Finset.sum_comm
      _ = ∑ k, x k * (if j = k then 1 else 0) := by
          refine Finset.sum_congr rfl fun k _ => ?_
          rw [← Finset.mul_sum, hM j k]
      _ = _ := by simp
  rw [← this]
  simp [h1]

theorem affineMap_eq (M : Fin n → Fin n → ℝ) (x : Vec n) : affineMap M 0 x = fun i => ∑ j, M i j * x j := by
  funext i
  unfold affineMap
  rw [Pi.zero_apply, zero_add]
  exact Finset.sum_congr rfl fun j _ => mul_comm _ _

theorem neg_ne (o : Vec n) (ho : o ≠ 0) : (fun i => (0 : Vec n) i - o i) ≠ 0 := by
  intro h
  apply ho
  funext i
  have := congrFun h i
  simpa using this

theorem ne_zero_of_coord (hn : 2 ≤ n) {o : Vec n} (h : ∀ i, o i ≠ 0) : o ≠ 0 := fun h0 =>
  h ⟨0, by omega⟩ (congrFun h0 _)

/-- The transformations of the objective functions, in the orders used. -/
theorem transformed_shift {P : Prob n} {g : Vec n → Vec n} {f : Vec n → ℝ} {o x : Vec n} {v : ℝ}
    (h : Fine ⟨P, g⟩ f fun i => x i - o i) :
    ∃ O, transformed [.varsShift o, .objShift v] P g = .ok O ∧ Fine O (fun x => f (fun i => x i - o i) + v) x :=
  ⟨_, rfl, fine_objShift (fine_varsShift h)⟩

theorem transformed_rotate {P : Prob n} {g : Vec n → Vec n} {f : Vec n → ℝ} {o x : Vec n} {v : ℝ}
    {M : Fin n → Fin n → ℝ} (hM : Transform.Spec.Orthonormal M)
    (h : Fine ⟨P, g⟩ f (affineMap M 0 fun i => x i - o i)) :
    ∃ O, transformed [.affine M 0, .varsShift o, .objShift v] P g = .ok O ∧
      Fine O (fun x => f (fun i => ∑ j, M i j * (x j - o j)) + v) x :=
  ⟨_, rfl, (fine_objShift (fine_varsShift (fine_affine hM h))).congr (by funext x; rw [affineMap_eq])⟩

theorem transformed_rotate' {P : Prob n} {g : Vec n → Vec n} {f : Vec n → ℝ} {o x : Vec n} {v : ℝ}
    {M : Fin n → Fin n → ℝ} (hM : Transform.Spec.Orthonormal M)
    (h : Fine ⟨P, g⟩ f (affineMap M 0 fun i => x i - o i)) :
    ∃ O, transformed [.objShift v, .affine M 0, .varsShift o] P g = .ok O ∧
      Fine O (fun x => f (fun i => ∑ j, M i j * (x j - o j)) + v) x :=
  ⟨_, rfl, (fine_varsShift (fine_affine hM (fine_objShift h))).congr (by funext x; rw [affineMap_eq])⟩

theorem transformed_inner {P : Prob n} {g : Vec n → Vec n} {f : Vec n → ℝ} {o x : Vec n} {v : ℝ}
    {M : Fin n → Fin n → ℝ} (hM : Transform.Spec.Orthonormal M)
    (h : Fine ⟨P, g⟩ f fun i => affineMap M 0 x i - o i) :
    ∃ O, transformed [.varsShift o, .affine M 0, .objShift v] P g = .ok O ∧
      Fine O (fun x => f (fun i => ∑ j, M i j * x j - o i) + v) x :=
  ⟨_, rfl, (fine_objShift (fine_affine hM (fine_varsShift h))).congr (by funext x; rw [affineMap_eq])⟩

/-- The objective function of the suite exists, is what the specification says, and lies above its tangent at the origin;
the linear slope does so, with one gradient, at every point of the open region of interest. -/
theorem objective_fine (type function inst : Nat) (h1 : 1 ≤ type) (h9 : type ≤ 9) (hf : function < 10000)
    (hi : inst ≤ 10 ^ 10) (seed : Int) (hs : ∀ k : Int, 0 ≤ k → k ≤ 10 ^ 7 → (seed + k).natAbs < 2 ^ 31 * 127773)
    (hn : 2 ≤ n) (hr : Spec.Rotated type → n ≤ 44 ∧ Bbob.Spec.Regular (seed + 1000000) n) :
    ∃ O f v, objective type function inst seed n = .ok O ∧ Legacy.computeFopt function inst = .ok v ∧
      Spec.Objective type seed v f ∧ Fine O f 0 ∧ (type = 3 → (∀ x, v ≤ f x) ∧
        ∀ p : Vec n, (∀ i, -5 < p i ∧ p i < 5) → O.gradient p = O.gradient 0 ∧ Fine O f p) := by
  obtain ⟨v, ev⟩ := fopt_ok function inst hf hi
  have hs0 : seed.natAbs < 2 ^ 31 * 127773 := by simpa using hs 0 le_rfl (by norm_num)
  have hs1 := hs 1000000 (by norm_num) (by norm_num)
  obtain ⟨o, eo, ho⟩ := xopt_ok seed hs0 n
  have ho0 : o ≠ 0 := ne_zero_of_coord hn fun i => (ho i).2.2
  have ho1 := neg_ne o ho0
  unfold objective
  rw [ev, Res.ok_bind]
  have rot : Spec.Rotated type → ∃ M, rotation (seed + 1000000) n = .ok M ∧ Transform.Spec.Orthonormal M ∧
      ∀ i j, ∑ k, M k i * M k j = if i = j then 1 else 0 := fun h =>
    rotation_ok (seed + 1000000) hs1 n (hr h).1 (hr h).2
  unfold Spec.Objective
  interval_cases type
  · rw [if_pos rfl, eo, Res.ok_bind]
    obtain ⟨P, eP, hP⟩ := sphere_fine ho1
    rw [eP, Res.ok_bind]
    obtain ⟨O, eO, hO⟩ := transformed_shift (v := v) hP
    exact ⟨O, _, v, eO, rfl, ⟨o, rfl, rfl⟩, hO, fun h => absurd h (by norm_num)⟩
  · rw [if_neg (by norm_num), if_pos rfl, eo, Res.ok_bind]
    obtain ⟨P, eP, hP⟩ := ellipsoid_fine (c := 10 ^ 6) (by norm_num) ho1
    rw [eP, Res.ok_bind]
    obtain ⟨O, eO, hO⟩ := transformed_shift (v := v) hP
    exact ⟨O, _, v, eO, rfl, ⟨o, rfl, rfl⟩, hO, fun h => absurd h (by norm_num)⟩
  · rw [if_neg (by norm_num), if_neg (by norm_num), if_pos rfl, eo, Res.ok_bind]
    dsimp only
    have hb : ∀ i : Fin n, (if o i < 0 then (-5 : ℝ) else 5) = -5 ∨ (if o i < 0 then (-5 : ℝ) else 5) = 5 := by
      intro i
      split_ifs
      · exact Or.inl rfl
      · exact Or.inr rfl
    have all : ∀ p : Vec n, (∀ i, -5 < p i ∧ p i < 5) → _ := fun p hp =>
      linearSlope_fine hn (fun i => if o i < 0 then (-5 : ℝ) else 5) hb p hp
    obtain ⟨P, eP, hP⟩ := all 0 (fun i => by norm_num)
    rw [eP, Res.ok_bind]
    refine ⟨_, _, v, rfl, rfl, ⟨o, rfl, rfl⟩, fine_objShift hP, fun _ => ⟨fun x => ?_, fun p hp => ⟨rfl, ?_⟩⟩⟩
    · have := linearSlope_nonneg _ hb x
      linarith
    · obtain ⟨P', eP', hP'⟩ := all p hp
      rw [eP] at eP'
      obtain rfl := Res.ok.inj eP'
      exact fine_objShift hP'
  · obtain ⟨M, eM, hM, hM'⟩ := rot (by unfold Spec.Rotated; omega)
    rw [if_neg (by norm_num), if_neg (by norm_num), if_neg (by norm_num), if_pos rfl, eo, Res.ok_bind, eM,
      Res.ok_bind]
    obtain ⟨P, eP, hP⟩ := ellipsoid_fine (c := 10 ^ 6) (by norm_num) (affineMap_ne_zero hM' ho1)
    rw [eP, Res.ok_bind]
    obtain ⟨O, eO, hO⟩ := transformed_rotate (v := v) hM hP
    exact ⟨O, _, v, eO, rfl, ⟨o, M, rfl, rfl, rfl⟩, hO, fun h => absurd h (by norm_num)⟩
  · obtain ⟨M, eM, hM, hM'⟩ := rot (by unfold Spec.Rotated; omega)
    rw [if_neg (by norm_num), if_neg (by norm_num), if_neg (by norm_num), if_neg (by norm_num), if_pos rfl, eo,
      Res.ok_bind, eM, Res.ok_bind]
    obtain ⟨P, eP, hP⟩ := discus_fine (affineMap_ne_zero hM' ho1)
    rw [eP, Res.ok_bind]
    obtain ⟨O, eO, hO⟩ := transformed_rotate (v := v) hM hP
    exact ⟨O, _, v, eO, rfl, ⟨o, M, rfl, rfl, rfl⟩, hO, fun h => absurd h (by norm_num)⟩
  · obtain ⟨M, eM, hM, hM'⟩ := rot (by unfold Spec.Rotated; omega)
    obtain ⟨o', eo', ho'⟩ := xopt_ok (seed + 1000000) hs1 n
    rw [if_neg (by norm_num), if_neg (by norm_num), if_neg (by norm_num), if_neg (by norm_num), if_neg (by norm_num),
      if_pos rfl, eo', Res.ok_bind, eM, Res.ok_bind]
    obtain ⟨P, eP, hP⟩ := bentCigar_fine
      (affineMap_ne_zero hM' (neg_ne o' (ne_zero_of_coord hn fun i => (ho' i).2.2)))
    rw [eP, Res.ok_bind]
    obtain ⟨O, eO, hO⟩ := transformed_rotate' (v := v) hM hP
    exact ⟨O, _, v, eO, rfl, ⟨o', M, rfl, rfl, rfl⟩, hO, fun h => absurd h (by norm_num)⟩
  · obtain ⟨M, eM, hM, hM'⟩ := rot (by unfold Spec.Rotated; omega)
    rw [if_neg (by norm_num), if_neg (by norm_num), if_neg (by norm_num), if_neg (by norm_num), if_neg (by norm_num),
      if_neg (by norm_num), if_pos rfl, eo, Res.ok_bind, eM, Res.ok_bind]
    have hpos : 0 < Real.sqrt (∑ j, o j * o j) := by
      apply Real.sqrt_pos.mpr
      exact Finset.sum_pos (fun j _ => mul_self_pos.mpr (ho j).2.2) ⟨⟨0, by omega⟩, Finset.mem_univ _⟩
    have hne : (fun i => o i * (1 / 10 ^ 2 / Real.sqrt (∑ j, o j * o j))) ≠ 0 :=
      ne_zero_of_coord hn fun i => mul_ne_zero (ho i).2.2 (by positivity)
    obtain ⟨P, eP, hP⟩ := differentPowers_fine hn (affineMap_ne_zero hM' (neg_ne _ hne))
    rw [eP, Res.ok_bind]
    obtain ⟨O, eO, hO⟩ := transformed_rotate' (v := v) hM hP
    refine ⟨O, _, v, eO, rfl, ⟨o, M, rfl, rfl, rfl⟩, hO.congr ?_, fun h => absurd h (by norm_num)⟩
    funext x
    congr 2
    funext i
    refine Finset.sum_congr rfl fun j _ => ?_
    congr 2
    have : ∑ k, o k ^ 2 = ∑ k, o k * o k := Finset.sum_congr rfl fun k _ => sq (o k)
    rw [this]
    ring
  · rw [if_neg (by norm_num), if_neg (by norm_num), if_neg (by norm_num), if_neg (by norm_num), if_neg (by norm_num),
      if_neg (by norm_num), if_neg (by norm_num), if_pos rfl]
    obtain ⟨q, eq, hq, hint⟩ := rastriginXopt_ok seed hs0 n hn
    rw [eq, Res.ok_bind]
    obtain ⟨P, eP, hP⟩ := rastrigin_fine (neg_ne q hq) (fun i => by
      obtain ⟨k, -, -, hk⟩ := hint i
      exact ⟨-k, by rw [hk]; push_cast; simp⟩)
    rw [eP, Res.ok_bind]
    obtain ⟨O, eO, hO⟩ := transformed_shift (v := v) hP
    exact ⟨O, _, v, eO, rfl, ⟨q, hint, rfl, rfl⟩, hO, fun h => absurd h (by norm_num)⟩
  · obtain ⟨M, eM, hM, hM'⟩ := rot (by unfold Spec.Rotated; omega)
    rw [if_neg (by norm_num), if_neg (by norm_num), if_neg (by norm_num), if_neg (by norm_num), if_neg (by norm_num),
      if_neg (by norm_num), if_neg (by norm_num), if_neg (by norm_num), eM, Res.ok_bind]
    obtain ⟨q, eq, hq, hint⟩ := rastriginXopt_ok seed hs0 n hn
    rw [eq, Res.ok_bind]
    have h0 : affineMap M 0 (0 : Vec n) = 0 := by funext i; simp [affineMap]
    obtain ⟨P, eP, hP⟩ := rastrigin_fine (x := fun i => affineMap M 0 (0 : Vec n) i - q i)
      (by rw [h0]; exact neg_ne q hq) (fun i => by
      obtain ⟨k, -, -, hk⟩ := hint i
      exact ⟨-k, by rw [hk, h0]; push_cast; simp⟩)
    rw [eP, Res.ok_bind]
    obtain ⟨O, eO, hO⟩ := transformed_inner (v := v) hM hP
    exact ⟨O, _, v, eO, rfl, ⟨q, M, hint, rfl, rfl, rfl⟩, hO, fun h => absurd h (by norm_num)⟩

/-! ### Specification of the whole problems -/

namespace Spec

/-- The non-linear transformation of the coordinates of the type. -/
def warp (type : Nat) (z : Vec n) : Vec n := fun i =>
  if type = 2 ∨ type = 4 ∨ type = 5 then tosz (1 / 10) (z i)
  else if type = 6 then tasy 0.2 i n (z i)
  else if type = 8 ∨ type = 9 then tasy 0.2 i n (tosz (1 / 10) (z i))
  else z i

/-- Where the constraints are evaluated. -/
def place (type : Nat) (xopt x : Vec n) : Vec n := warp type fun i => x i - xopt i

/-- Where the objective function is evaluated. -/
def argument (type : Nat) (xopt x : Vec n) : Vec n := if type = 3 then x else place type xopt x

/-- The factor of the objective function of the type. -/
def scale (type : Nat) : ℝ :=
  [10, 1 / 10 ^ 4, 10, 1 / 10 ^ 4, 1 / 10 ^ 4, 1 / 10 ^ 4, 10 ^ 2, 10, 10].getD (type - 1) 0

/-- No constraint is positive. -/
def Feasible (Q : Problem n) (x : Vec n) : Prop := ∀ v ∈ Q.cons x, v ≤ 0

/-- No product that is added up in a constraint lies in the interval in which it is neglected. -/
def Exact (Q : Problem n) (x : Vec n) : Prop :=
  ∀ c ∈ Q.constraints, ∀ i, c.gradient i * Q.place x i ≤ 0 ∨ 1 / 10 ^ 11 < c.gradient i * Q.place x i

/-- The uniform numbers are from 0 to 1, no vector of normally distributed numbers is zero. -/
structure Numbers (D : Draws n) : Prop where
  u1 : ∀ k, 0 ≤ D.u1 k ∧ D.u1 k ≤ 1
  u2 : ∀ k, 0 ≤ D.u2 k ∧ D.u2 k ≤ 1
  normals : ∀ k, D.normals k ≠ 0

/-- The numerical inverses are exact. -/
structure Inverses (D : Draws n) : Prop where
  osz : ∀ y, tosz (1 / 10) (D.oszInv y) = y
  asy : ∀ (i : Fin n) y, tasy 0.2 i n (D.asyInv i y) = y

/-- The function and the instance number are not too large for the generators; in the rotated problems the dimension is at
most 44 and the vectors from which the rotation is made are linearly independent. -/
structure Usable (function inst n : Nat) : Prop where
  function_pos : 1 ≤ function
  function_le : function ≤ 54
  instance_le : inst ≤ 10 ^ 10
  dimension : 2 ≤ n
  rotated : Rotated (objType function) →
    n ≤ 44 ∧ Bbob.Spec.Regular ((function : Int) + 20000 * inst + 1000000) n

end Spec

/-! ### Evaluation -/

theorem bind_inv {α β : Type} {r : Res α} {f : α → Res β} {b : β} (h : r.bind f = .ok b) :
    ∃ a, r = .ok a ∧ f a = .ok b := by
  cases r <;> simp_all

theorem isFeasible_iff (l : List ℝ) : isFeasible l ↔ ∀ v ∈ l, v ≤ 0 := by
  unfold isFeasible
  push Not
  rfl

/-- The evaluation gives `F`, or the point is feasible, better than recorded, and the evaluation is aborted. -/
def Weak (P : Problem n) (F : Vec n → ℝ) (b : ℝ) : Prop :=
  ∀ x, P.eval x = .ok (F x) ∨ (P.eval x = .assertFail ∧ Spec.Feasible P x ∧ F x < b)

theorem guarded_cases (l : List ℝ) (b y : ℝ) :
    guarded l b y = .ok y ∨ (guarded l b y = .assertFail ∧ (∀ v ∈ l, v ≤ 0) ∧ y + 1 / 10 ^ 13 < b) := by
  unfold guarded
  by_cases h : isFeasible l
  · rw [if_pos h]
    by_cases h1 : y + 1 / 10 ^ 13 ≥ b
    · rw [if_pos h1]; exact Or.inl rfl
    · rw [if_neg h1]; exact Or.inr ⟨rfl, (isFeasible_iff l).mp h, not_le.mp h1⟩
  · rw [if_neg h]; exact Or.inl rfl

theorem stacked_weak {O : Prob n} {f : Vec n → ℝ} (h : Plain O f) (cs : List (Constrained.Constraint n)) (fd : Vec n)
    (b : ℝ) : Weak (stacked O cs fd b) f b := by
  obtain ⟨v, -, hv⟩ := h
  intro x
  have e : (stacked O cs fd b).eval x = guarded (cs.map fun c => Constrained.value c x) b (f x) := by
    unfold stacked
    dsimp only
    rw [(hv x).1, Res.ok_bind]
  rw [e]
  rcases guarded_cases (cs.map fun c => Constrained.value c x) b (f x) with h | ⟨h1, h2, h3⟩
  · exact Or.inl h
  · exact Or.inr ⟨h1, h2, by linarith [show (0 : ℝ) < 1 / 10 ^ 13 by norm_num]⟩

theorem moved_weak {P : Problem n} {F : Vec n → ℝ} (g : Vec n → Vec n) (h : Weak P F P.bestValue) :
    Weak (moved g P) (fun x => F (g x)) (moved g P).bestValue := by
  intro x
  rcases h (g x) with h | ⟨h1, h2, h3⟩
  · have e : (moved g P).eval x =
        guarded (P.constraints.map fun c => Constrained.value c (P.place (g x))) P.bestValue (F (g x)) := by
      unfold moved
      dsimp only
      rw [h, Res.ok_bind]
    rw [e]
    rcases guarded_cases (P.constraints.map fun c => Constrained.value c (P.place (g x))) P.bestValue (F (g x)) with
      h | ⟨h1, h2, h3⟩
    · exact Or.inl h
    · exact Or.inr ⟨h1, h2, by
        have : (moved g P).bestValue = P.bestValue := rfl
        rw [this]
        linarith [show (0 : ℝ) < 1 / 10 ^ 13 by norm_num]⟩
  · refine Or.inr ⟨?_, h2, h3⟩
    unfold moved
    dsimp only
    rw [h1, Res.assertFail_bind]

/-- What is known of the problem before the objective is scaled. -/
structure Known (P : Problem n) (type : Nat) (f : Vec n → ℝ) (cs : List (Constrained.Constraint n)) (xopt : Vec n) :
    Prop where
  constraints : P.constraints = cs
  place : P.place = Spec.place type xopt
  lo : P.lo = fun _ => -5
  hi : P.hi = fun _ => 5
  bestParam : P.bestParam = xopt
  bestValue : P.bestValue = f (Spec.argument type xopt xopt)
  weak : Weak P (fun x => f (Spec.argument type xopt x)) P.bestValue

theorem invInitial_inv {inv : Fin n → ℝ → ℝ} {xopt : Vec n} {P Q : Problem n} (h : invInitial inv xopt P = .ok Q) :
    ∃ s, Q = { P with initial := s } := by
  unfold invInitial at h
  dsimp only at h
  split_ifs at h with h0
  injection h with h
  exact ⟨_, h.symm⟩

theorem warp_zero (type : Nat) : Spec.warp type (fun _ : Fin n => (0 : ℝ)) = fun _ => 0 := by
  funext i
  unfold Spec.warp
  simp [Warp.tosz_zero, Warp.tasy_nonpos]

theorem place_self (type : Nat) (xopt : Vec n) : Spec.place type xopt xopt = fun _ => 0 := by
  unfold Spec.place
  rw [show (fun i => xopt i - xopt i) = fun _ : Fin n => (0 : ℝ) from funext fun i => sub_self _]
  exact warp_zero type

/-- The last step: a problem whose constraints are placed by `K`, shifted. -/
theorem known_shift {P : Problem n} {type : Nat} {f : Vec n → ℝ} {cs : List (Constrained.Constraint n)} {xopt : Vec n}
    {K : Vec n → Vec n} (h3 : type ≠ 3) (hK : K = Spec.warp type) (hc : P.constraints = cs) (hp : P.place = K)
    (hlo : P.lo = fun _ => -5) (hhi : P.hi = fun _ => 5) (hb : P.bestParam = fun _ => 0)
    (hv : P.bestValue = f fun _ => 0) (hw : Weak P (fun x => f (K x)) P.bestValue) :
    Known (shifted xopt P) type f cs xopt := by
  subst hK
  refine ⟨hc, ?_, hlo, hhi, ?_, ?_, ?_⟩
  · funext x
    change P.place _ = _
    rw [hp]
    rfl
  · change (fun i => P.bestParam i + xopt i) = xopt
    rw [hb]
    funext i
    exact zero_add _
  · change P.bestValue = _
    rw [hv]
    unfold Spec.argument
    rw [if_neg h3, place_self]
  · have := moved_weak (fun x i => x i - xopt i) hw
    intro x
    have e : Spec.argument type xopt x = Spec.warp type fun i => x i - xopt i := by
      unfold Spec.argument
      rw [if_neg h3]
      rfl
    dsimp only
    rw [e]
    exact this x

theorem type_cases {type : Nat} (h1 : 1 ≤ type) (h9 : type ≤ 9) :
    type = 1 ∨ type = 2 ∨ type = 3 ∨ type = 4 ∨ type = 5 ∨ type = 6 ∨ type = 7 ∨ type = 8 ∨ type = 9 := by omega

theorem stackedBest_eq {O : Prob n} {f : Vec n → ℝ} (hO : Plain O f) (cs : List (Constrained.Constraint n))
    (fd : Vec n) : stackedBest O cs fd = .ok (stacked O cs fd (f fun _ => 0)) := by
  obtain ⟨v, -, hv⟩ := hO
  unfold stackedBest
  rw [(hv _).1]
  rfl

theorem fltMax_large : (1000 : ℝ) ≤ fltMax := by
  unfold fltMax
  norm_num

/-- The slope: the objective is not moved. -/
theorem slope_eq {O : Prob n} {f : Vec n → ℝ} (hO : Plain O f) (h3 : ∀ x, -1000 ≤ f x)
    (cs : List (Constrained.Constraint n)) (fd xopt : Vec n) (D : Draws n) :
    assemble 3 O cs fd xopt D = .ok { shiftedConstraints xopt (stacked O cs fd (-fltMax)) with bestValue := f xopt } ∧
    ∀ x, (shiftedConstraints xopt (stacked O cs fd (-fltMax))).eval x = .ok (f x) := by
  have hev : ∀ x, (shiftedConstraints xopt (stacked O cs fd (-fltMax))).eval x = .ok (f x) := by
    intro x
    rcases stacked_weak hO cs fd (-fltMax) x with h | ⟨-, -, h⟩
    · exact h
    · linarith [h3 x, fltMax_large]
  refine ⟨?_, hev⟩
  unfold assemble
  rw [if_pos rfl]
  dsimp only
  rw [hev, Res.ok_bind]
  have : (shiftedConstraints xopt (stacked O cs fd (-fltMax))).bestParam = xopt := by
    funext i
    exact zero_add _
  rw [this]

theorem assemble_known {type : Nat} (h1 : 1 ≤ type) (h9 : type ≤ 9) {O : Prob n} {f : Vec n → ℝ} (hO : Plain O f)
    (h3 : type = 3 → ∀ x, -1000 ≤ f x) {cs : List (Constrained.Constraint n)} {fd xopt : Vec n} {D : Draws n}
    {P : Problem n} (h : assemble type O cs fd xopt D = .ok P) : Known P type f cs xopt := by
  by_cases ht : type = 3
  · subst ht
    obtain ⟨e, hev⟩ := slope_eq hO (h3 rfl) cs fd xopt D
    rw [e] at h
    injection h with h
    subst h
    refine ⟨rfl, rfl, rfl, rfl, funext fun i => zero_add _, rfl, fun x => Or.inl ?_⟩
    exact hev x
  · unfold assemble at h
    rw [if_neg ht, stackedBest_eq hO, Res.ok_bind] at h
    have hw0 := stacked_weak hO cs fd (f fun _ => 0)
    generalize hS : stacked O cs fd (f fun _ => 0) = S at h hw0
    have hS1 : S.constraints = cs := by rw [← hS]; rfl
    have hS2 : S.place = fun x => x := by rw [← hS]; rfl
    have hS3 : S.lo = fun _ => -5 := by rw [← hS]; rfl
    have hS4 : S.hi = fun _ => 5 := by rw [← hS]; rfl
    have hS5 : S.bestParam = fun _ => 0 := by rw [← hS]; rfl
    have hS6 : S.bestValue = f fun _ => 0 := by rw [← hS]; rfl
    clear hS
    have hw0 : Weak S f S.bestValue := by rw [hS6]; exact hw0
    have hcases := type_cases h1 h9
    by_cases t1 : type = 1 ∨ type = 7
    · rw [if_pos t1, Res.ok_bind] at h
      injection h with h
      subst h
      refine known_shift (K := fun x => x) ht ?_ hS1 hS2 hS3 hS4 hS5 hS6 hw0
      funext x i
      rcases t1 with rfl | rfl <;> simp [Spec.warp]
    · rw [if_neg t1] at h
      by_cases t2 : type = 2 ∨ type = 4 ∨ type = 5
      · rw [if_pos t2] at h
        obtain ⟨Q, hQ, h⟩ := bind_inv h
        obtain ⟨s, rfl⟩ := invInitial_inv hQ
        injection h with h
        subst h
        refine known_shift (K := fun x i => tosz (1 / 10) (x i)) ht ?_ hS1 ?_ hS3 hS4 hS5 hS6
          (moved_weak (fun x i => tosz (1 / 10) (x i)) hw0)
        · funext x i
          exact (if_pos t2).symm
        · change (fun x : Vec n => S.place fun i => tosz (1 / 10) (x i)) = _
          rw [hS2]
      · rw [if_neg t2] at h
        by_cases t6 : type = 6
        · rw [if_pos t6] at h
          obtain ⟨Q, hQ, h⟩ := bind_inv h
          obtain ⟨s, rfl⟩ := invInitial_inv hQ
          injection h with h
          subst h
          refine known_shift (K := fun x i => tasy 0.2 i n (x i)) ht ?_ hS1 ?_ hS3 hS4 hS5 hS6
            (moved_weak (fun x (i : Fin n) => tasy 0.2 i n (x i)) hw0)
          · funext x i
            subst t6
            simp [Spec.warp]
          · change (fun x : Vec n => S.place fun i => tasy 0.2 i n (x i)) = _
            rw [hS2]
        · rw [if_neg t6] at h
          obtain ⟨Q, hQ, h⟩ := bind_inv h
          obtain ⟨s, rfl⟩ := invInitial_inv hQ
          injection h with h
          subst h
          refine known_shift (K := fun x i => tasy 0.2 i n (tosz (1 / 10) (x i))) ht ?_ hS1 ?_ hS3 hS4 hS5 hS6
            (moved_weak (fun x i => tosz (1 / 10) (x i)) (moved_weak (fun x (i : Fin n) => tasy 0.2 i n (x i)) hw0))
          · funext x i
            have t8 : type = 8 ∨ type = 9 := by omega
            unfold Spec.warp
            rw [if_neg t2, if_neg t6, if_pos t8]
          · change (fun x : Vec n => S.place fun i => tasy 0.2 i n (tosz (1 / 10) (x i))) = _
            rw [hS2]

/-! ### Optimality -/

theorem params_valid {kind : Kind} {function inst : Nat} (hf : 1 ≤ function) {D : Draws n} (hD : Spec.Numbers D)
    {fd : Vec n} (h : fd ≠ 0) : Constrained.Spec.Valid (params kind function inst D fd) := by
  refine ⟨h, ?_, hD.u1, hD.u2, hD.normals⟩
  have := (Constrained.C62_number ((function - 1) / 6) ((function - 1) % 6) (Nat.mod_lt _ (by norm_num)) n).2
  rw [show 6 * ((function - 1) / 6) + (function - 1) % 6 + 1 = function by omega] at this
  exact this

theorem direction_ok {O : Objective n} {xopt : Vec n} {seed : Int} (hs : (seed + 412).natAbs < 2 ^ 31 * 127773)
    (hg : O.gradient 0 ≠ 0) (hx : ∀ i, -4 ≤ xopt i ∧ xopt i < 4) :
    ∃ fd t, direction O xopt seed = .ok fd ∧ 0 < t ∧ (∀ i, fd i = t * O.gradient 0 i) ∧ fd ≠ 0 ∧
      ∀ i, -5 ≤ xopt i + fd i ∧ xopt i + fd i ≤ 5 := by
  obtain ⟨rs, e, hl, hr⟩ := Legacy.C44_range 1 (seed + 412) hs
  have hr0 : 0 ≤ ((rs.headD 0 : ℚ) : ℝ) ∧ ((rs.headD 0 : ℚ) : ℝ) ≤ 1 := by
    cases rs with
    | nil => simp at hl
    | cons r _ =>
      obtain ⟨a, b⟩ := hr r (by simp)
      exact ⟨by exact_mod_cast a.le, by exact_mod_cast b.le⟩
  obtain ⟨q, hq, ⟨t, ht, hqt⟩, hb, -⟩ := Constrained.C65_length (O.gradient 0) xopt (rs.headD 0 : ℚ)
    (fun i => abs_lt.mpr ⟨by linarith [(hx i).1], by linarith [(hx i).2]⟩) hg hr0
  refine ⟨q, t, ?_, ht, hqt, ?_, hb⟩
  · unfold direction
    rw [e, Res.ok_bind]
    exact hq
  · intro h0
    apply hg
    funext i
    have := hqt i
    rw [congrFun h0 i] at this
    rcases mul_eq_zero.mp this.symm with h | h
    · exact absurd h ht.ne'
    · exact h

theorem core {P : Constrained.Params n} (hP : Constrained.Spec.Valid P) {cs : List (Constrained.Constraint n)}
    (hcs : Constrained.build P = .ok cs) {f : Vec n → ℝ} {g p : Vec n} (hS : Supported f g p) {t : ℝ} (ht : 0 < t)
    (hfd : ∀ i, P.fd i = t * g i) (z : Vec n) (hz : ∀ c ∈ cs, Constrained.value c z ≤ 0)
    (he : ∀ c ∈ cs, ∀ i, c.gradient i * z i ≤ 0 ∨ 1 / 10 ^ 11 < c.gradient i * z i) :
    f p ≤ f fun i => z i + p i := by
  obtain ⟨G, s, hs, hG, hm⟩ := hS
  apply hm
  have := (Constrained.C64_optimal P hP cs hcs (fun z => G fun i => z i + p i) (s / t) (div_nonneg hs ht.le) ?_).1 z hz he
  · simpa using this
  · intro x
    have h1 := hG fun i => x i + p i
    have e : s / t * Constrained.dot P.fd x = s * ∑ i, g i * ((x i + p i) - p i) := by
      unfold Constrained.dot
      rw [Finset.mul_sum, Finset.mul_sum]
      refine Finset.sum_congr rfl fun i _ => ?_
      rw [hfd]
      field_simp
      ring
    rw [e]
    simpa using h1

theorem objType_range {function : Nat} (h1 : 1 ≤ function) (h2 : function ≤ 54) :
    1 ≤ objType function ∧ objType function ≤ 9 := by
  unfold objType
  omega

theorem factor_eq {type : Nat} (h1 : 1 ≤ type) (h9 : type ≤ 9) : factor type = Spec.scale type ∧ 0 < factor type := by
  unfold factor Spec.scale
  interval_cases type <;> norm_num

/-- Everything up to the constraints. -/
theorem parts {function inst n : Nat} (hu : Spec.Usable function inst n) :
    ∃ (xopt : Vec n) (O : Objective n) (f : Vec n → ℝ) (v t : ℝ) (fd : Vec n),
      getXopt .bbob (function + 10000 * inst) n = .ok xopt ∧
      objective (objType function) function inst (function + 20000 * inst) n = .ok O ∧
      Legacy.computeFopt function inst = .ok v ∧ -1000 ≤ v ∧ Spec.Objective (objType function) (function + 20000 * inst) v f ∧
      direction O xopt (function + 20000 * inst) = .ok fd ∧ (∀ i, -4 ≤ xopt i ∧ xopt i < 4) ∧ Fine O f 0 ∧
      (objType function = 3 → (∀ x, v ≤ f x) ∧ Supported f (O.gradient 0) xopt) ∧
      0 < t ∧ (∀ i, fd i = t * O.gradient 0 i) ∧ fd ≠ 0 ∧ ∀ i, -5 ≤ xopt i + fd i ∧ xopt i + fd i ≤ 5 := by
  obtain ⟨hf1, hf2, hi, hn, hr⟩ := hu
  obtain ⟨xopt, ex, hx⟩ := xopt_ok (function + 10000 * inst) (by omega) n
  obtain ⟨O, f, v, eo, ev, hs, hfine, h3⟩ := objective_fine (n := n) (objType function) function inst
    (objType_range hf1 hf2).1 (objType_range hf1 hf2).2 (by omega) hi (function + 20000 * inst)
    (fun k h0 h1 => by norm_num at h1 ⊢; omega) hn hr
  have hx' : ∀ i, -4 ≤ xopt i ∧ xopt i < 4 := fun i => ⟨(hx i).1, (hx i).2.1⟩
  obtain ⟨fd, t, ed, ht, hfd, h0, hb⟩ := direction_ok (seed := function + 20000 * inst) (by omega) hfine.gradient hx'
  have hv : -1000 ≤ v := by
    obtain ⟨v', ev', ho⟩ := Legacy.C45_fopt function inst (by omega) hi
    rw [ev] at ev'
    injection ev' with ev'
    subst ev'
    exact ho.1
  refine ⟨xopt, O, f, v, t, fd, ex, eo, ev, hv, hs, ed, hx', hfine, fun h => ⟨(h3 h).1, ?_⟩, ht, hfd, h0, hb⟩
  obtain ⟨e, hp⟩ := (h3 h).2 xopt fun i => ⟨by linarith [(hx' i).1], by linarith [(hx' i).2]⟩
  rw [← e]
  exact hp.supported

/-- **C91** (optimum). For the 54 functions of the three suites, all instances up to 10^10 and all random numbers with
which the problem is created: the recorded best parameter lies in [-4, 4), the region of interest is [-5, 5]; the best
parameter is feasible and evaluates to the recorded best value. An infeasible point evaluates to the scaled objective
function. So does a feasible point none of whose products in the constraints lies in the neglected interval (0, 1e-11], and
its value is not below the best value. For the other feasible points the evaluation fails its assertion or gives a value
that is below the best value by at most 1e-13 (for the failure see `C91_abort`). -/
theorem C91_optimum (kind : Kind) (function inst n : Nat) (hu : Spec.Usable function inst n) (D : Draws n)
    (hD : Spec.Numbers D) (Q : Problem n) (hQ : get kind function inst n D = .ok Q) :
    ∃ (xopt : Vec n) (fopt : ℝ) (f : Vec n → ℝ), getXopt .bbob (function + 10000 * inst) n = .ok xopt ∧
      Legacy.computeFopt function inst = .ok fopt ∧
      Spec.Objective (objType function) (function + 20000 * inst) fopt f ∧
      ((∀ i, -4 ≤ xopt i ∧ xopt i < 4) ∧ Q.bestParam = xopt ∧ Q.lo = (fun _ => -5) ∧ Q.hi = (fun _ => 5) ∧
        Q.place = Spec.place (objType function) xopt) ∧
      (Spec.Feasible Q xopt ∧ Q.eval xopt = .ok Q.bestValue ∧
        Q.bestValue = f (Spec.argument (objType function) xopt xopt) * Spec.scale (objType function)) ∧
      (∀ x, ¬ Spec.Feasible Q x →
        Q.eval x = .ok (f (Spec.argument (objType function) xopt x) * Spec.scale (objType function))) ∧
      (∀ x, Spec.Feasible Q x → Spec.Exact Q x →
        Q.eval x = .ok (f (Spec.argument (objType function) xopt x) * Spec.scale (objType function)) ∧
        Q.bestValue ≤ f (Spec.argument (objType function) xopt x) * Spec.scale (objType function)) ∧
      ∀ x, Spec.Feasible Q x → Q.eval x = .assertFail ∨
        (Q.eval x = .ok (f (Spec.argument (objType function) xopt x) * Spec.scale (objType function)) ∧
          Q.bestValue ≤ f (Spec.argument (objType function) xopt x) * Spec.scale (objType function) + 1 / 10 ^ 13) := by
  obtain ⟨xopt, O, f, v, t, fd, ex, eo, ev, hv, hs, ed, hx, hfine, h3, ht, hfd, hfd0, -⟩ := parts hu
  obtain ⟨hf1, hf2, -, -, -⟩ := hu
  obtain ⟨ht1, ht9⟩ := objType_range hf1 hf2
  obtain ⟨hfac, hpos⟩ := factor_eq ht1 ht9
  unfold get at hQ
  rw [ex, Res.ok_bind, if_pos ⟨ht1, ht9⟩, eo, Res.ok_bind, ed, Res.ok_bind] at hQ
  obtain ⟨cs, hcs, hQ⟩ := bind_inv hQ
  obtain ⟨P, hP, hQ⟩ := bind_inv hQ
  injection hQ with hQ
  have hval : Constrained.Spec.Valid (params kind function inst D fd) := params_valid hf1 hD hfd0
  have hk := assemble_known ht1 ht9 hfine.plain (fun h x => hv.trans ((h3 h).1 x)) hP
  rw [← hfac]
  have hQc : Q.constraints = cs := by rw [← hQ]; exact hk.constraints
  have hQp : Q.place = Spec.place (objType function) xopt := by rw [← hQ]; exact hk.place
  have hQv : Q.bestValue = P.bestValue * factor (objType function) := by rw [← hQ]; rfl
  have hcons : ∀ x, Q.cons x = P.cons x := fun x => by rw [← hQ]; rfl
  have hev : ∀ x, Q.eval x = (P.eval x).bind fun y =>
      guarded (P.cons x) (P.bestValue * factor (objType function)) (y * factor (objType function)) := fun x => by
    rw [← hQ]; rfl
  have hFP : ∀ x, Spec.Feasible Q x ↔ Spec.Feasible P x := fun x => by unfold Spec.Feasible; rw [hcons]
  have hFc : ∀ x, Spec.Feasible Q x → ∀ c ∈ cs, Constrained.value c (Spec.place (objType function) xopt x) ≤ 0 := by
    intro x h c hc
    apply h
    unfold Problem.cons
    rw [hQc, hQp]
    exact List.mem_map.mpr ⟨c, hc, rfl⟩
  -- what an evaluation does
  have hres : ∀ x, Q.eval x = .ok (f (Spec.argument (objType function) xopt x) * factor (objType function)) ∨
      (Q.eval x = .assertFail ∧ Spec.Feasible Q x ∧ f (Spec.argument (objType function) xopt x) < P.bestValue) := by
    intro x
    rw [hev]
    rcases hk.weak x with h | ⟨h1, h2, h3⟩
    · rw [h, Res.ok_bind]
      rcases guarded_cases (P.cons x) (P.bestValue * factor (objType function))
        (f (Spec.argument (objType function) xopt x) * factor (objType function)) with h | ⟨h1, h2, h3⟩
      · exact Or.inl h
      · refine Or.inr ⟨h1, (hFP x).mpr h2, ?_⟩
        have : f (Spec.argument (objType function) xopt x) * factor (objType function) <
            P.bestValue * factor (objType function) := by linarith [show (0 : ℝ) < 1 / 10 ^ 13 by norm_num]
        exact lt_of_mul_lt_mul_right this hpos.le
    · exact Or.inr ⟨by rw [h1, Res.assertFail_bind], (hFP x).mpr h2, h3⟩
  have hbest : ∀ x, Spec.Feasible Q x → Spec.Exact Q x →
      P.bestValue ≤ f (Spec.argument (objType function) xopt x) := by
    intro x hx1 hx2
    rw [hk.bestValue]
    unfold Spec.Exact at hx2
    rw [hQc, hQp] at hx2
    by_cases h : objType function = 3
    · have := core hval hcs (h3 h).2 ht hfd _ (hFc x hx1) hx2
      unfold Spec.argument
      rw [if_pos h, if_pos h]
      have e : (fun i => Spec.place (objType function) xopt x i + xopt i) = x := by
        funext i
        unfold Spec.place Spec.warp
        rw [h]
        simp
      rw [e] at this
      exact this
    · have := core hval hcs hfine.supported ht hfd _ (hFc x hx1) hx2
      unfold Spec.argument
      rw [if_neg h, if_neg h, place_self]
      have e : (fun i => Spec.place (objType function) xopt x i + (0 : Vec n) i) = Spec.place (objType function) xopt x :=
        funext fun i => add_zero _
      rw [e] at this
      exact this
  have hfeas : Spec.Feasible Q xopt := by
    intro w hw
    unfold Problem.cons at hw
    rw [hQc, hQp, place_self] at hw
    obtain ⟨c, hc, rfl⟩ := List.mem_map.mp hw
    have := Constrained.C63_feasible _ hval cs hcs c hc
    by_cases h0 : c.shift = 0
    · exact (this.2.1 h0).le
    · exact (this.2.2 h0).le
  refine ⟨xopt, v, f, ex, ev, hs, ⟨hx, by rw [← hQ]; exact hk.bestParam, by rw [← hQ]; exact hk.lo,
    by rw [← hQ]; exact hk.hi, hQp⟩, ⟨hfeas, ?_, by rw [hQv, hk.bestValue]⟩, ?_, ?_, ?_⟩
  · rcases hres xopt with h | ⟨-, -, h⟩
    · rw [h, hQv, hk.bestValue]
    · rw [hk.bestValue] at h
      exact absurd h (lt_irrefl _)
  · intro x hx
    rcases hres x with h | ⟨-, h, -⟩
    · exact h
    · exact absurd h hx
  · intro x hx1 hx2
    have h0 := hbest x hx1 hx2
    refine ⟨?_, by rw [hQv]; exact mul_le_mul_of_nonneg_right h0 hpos.le⟩
    rcases hres x with h | ⟨-, -, h⟩
    · exact h
    · linarith
  · intro x hx1
    rw [hev]
    rcases hk.weak x with h | ⟨h1, -, -⟩
    · rw [h, Res.ok_bind, hQv]
      unfold guarded
      rw [if_pos ((isFeasible_iff _).mpr ((hFP x).mp hx1))]
      by_cases h1 : f (Spec.argument (objType function) xopt x) * factor (objType function) + 1 / 10 ^ 13 ≥
          P.bestValue * factor (objType function)
      · rw [if_pos h1]; exact Or.inr ⟨rfl, h1⟩
      · rw [if_neg h1]; exact Or.inl rfl
    · exact Or.inl (by rw [h1, Res.assertFail_bind])

/-! ### The initial solution -/

/-- The shifts of the constraints go into the feasible region. -/
theorem build_shift {P : Constrained.Params n} (hP : Constrained.Spec.Valid P) {cs : List (Constrained.Constraint n)}
    (hcs : Constrained.build P = .ok cs) : ∀ c ∈ cs, 0 ≤ c.shift / c.norm := by
  have good : ∀ c : Constrained.Constraint n, Constrained.Good P c → 0 ≤ c.shift / c.norm := by
    intro c hg
    refine div_nonneg ?_ hg.norm_pos.le
    rcases hg.shift with h | h
    · exact h.ge
    · exact le_trans (by norm_num) h
  obtain ⟨s, hb, h, hi, hl⟩ := Constrained.before hP
  rw [hb] at hcs
  rcases Constrained.disguise_cases hP h hi with ⟨-, he⟩ | ⟨hdis, f, c, r, h1, h2, h3, h4, h5, ⟨-, he⟩ | ⟨hF, hne, he⟩⟩
  · rw [he] at hcs
    injection hcs with hcs
    subst hcs
    exact fun c hc => good c (h.good c hc)
  · rw [he] at hcs; exact absurd hcs (by simp)
  · rw [he] at hcs
    injection hcs with hcs
    subst hcs
    intro d hd
    rcases List.mem_or_eq_of_mem_set hd with hd | hd
    · exact good d (h.good d hd)
    · subst hd
      dsimp only
      rw [h3, zero_div]

/-- The part of a variable that is added up does not grow more than in proportion. -/
theorem phi_scale {q r t : ℝ} (ht : 0 < t) (h1 : t ≤ 1) (hr : r ≤ t * q) :
    (if r > 1 / 10 ^ 11 ∨ r < 0 then r else 0) ≤ t * (if q > 1 / 10 ^ 11 ∨ q < 0 then q else 0) := by
  have hc : (0 : ℝ) < 1 / 10 ^ 11 := by norm_num
  by_cases hq : q > 1 / 10 ^ 11 ∨ q < 0
  · rw [if_pos hq]
    exact (Constrained.phi_le r).trans hr
  · rw [if_neg hq, mul_zero]
    push Not at hq
    by_cases hr0 : r > 1 / 10 ^ 11 ∨ r < 0
    · rw [if_pos hr0]
      rcases hr0 with h | h
      · exfalso
        have : t * q ≤ 1 * q := mul_le_mul_of_nonneg_right h1 hq.2
        linarith [hq.1]
      · exact h.le
    · rw [if_neg hr0]

/-- On the segment from the origin to a feasible point a linear constraint stays satisfied. -/
theorem segment {c : Constrained.Constraint n} (hc : 0 ≤ c.shift / c.norm) {x : Vec n} (hx : Constrained.value c x ≤ 0)
    {t : ℝ} (ht : 0 < t) (h1 : t ≤ 1) : Constrained.value c (fun i => x i * t) ≤ 0 := by
  have : Constrained.value c (fun i => x i * t) ≤ t * Constrained.value c x := by
    unfold Constrained.value Constrained.sumVariables
    rw [Finset.mul_sum]
    refine Finset.sum_le_sum fun i _ => phi_scale ht h1 ?_
    have := mul_nonneg hc (mul_self_nonneg (c.gradient i))
    nlinarith
  exact this.trans (mul_nonpos_of_nonneg_of_nonpos ht.le hx)

theorem invInitial_ok {T inv : Fin n → ℝ → ℝ} (hT : ∀ i, Monotone (T i)) (h1 : ∀ i, T i 1 = 1)
    (h2 : ∀ i, T i (-1) = -1) (hinv : ∀ i y, T i (inv i y) = y) {xopt : Vec n} (hx : ∀ i, -4 ≤ xopt i ∧ xopt i < 4)
    {P : Problem n} (hb : ∀ i, -5 ≤ xopt i + P.initial i ∧ xopt i + P.initial i ≤ 5) :
    ∃ j, invInitial inv xopt P = .ok { P with initial := fun i => inv i (P.initial i * 0.5 ^ j) } ∧
      ∀ i, -5 < inv i (P.initial i * 0.5 ^ j) + xopt i ∧ inv i (P.initial i * 0.5 ^ j) + xopt i < 5 := by
  have h : ∃ j, ∀ i, -5 < inv i (P.initial i * 0.5 ^ j) + xopt i ∧ inv i (P.initial i * 0.5 ^ j) + xopt i < 5 := by
    refine ⟨4, fun i => ?_⟩
    have hs : |P.initial i * 0.5 ^ 4| < 1 := by
      rw [abs_lt]
      have := hb i
      have := hx i
      constructor <;> norm_num <;> linarith
    have := abs_lt.mp (Warp.inverse_small (hT i) (h1 i) (h2 i) (hinv i) hs)
    have := hx i
    constructor <;> linarith
  refine ⟨Nat.find h, ?_, Nat.find_spec h⟩
  unfold invInitial
  dsimp only
  rw [dif_pos h]

/-- The assembly succeeds; the initial solution is placed on the segment from the origin to the direction. -/
theorem assemble_initial {type : Nat} (h1 : 1 ≤ type) (h9 : type ≤ 9) (hn : 2 ≤ n) {O : Prob n} {f : Vec n → ℝ}
    (hO : Plain O f) (h3 : type = 3 → ∀ x, -1000 ≤ f x) (cs : List (Constrained.Constraint n)) {fd xopt : Vec n}
    (hx : ∀ i, -4 ≤ xopt i ∧ xopt i < 4) (hb : ∀ i, -5 ≤ xopt i + fd i ∧ xopt i + fd i ≤ 5) {D : Draws n}
    (hD : Spec.Inverses D) :
    ∃ P, assemble type O cs fd xopt D = .ok P ∧ (∀ i, -5 ≤ P.initial i ∧ P.initial i ≤ 5) ∧
      ∃ t, 0 < t ∧ t ≤ 1 ∧ Spec.place type xopt P.initial = fun i => fd i * t := by
  have half : ∀ j : Nat, (0 : ℝ) < 0.5 ^ j ∧ (0.5 : ℝ) ^ j ≤ 1 := fun j =>
    ⟨by positivity, pow_le_one₀ (by norm_num) (by norm_num)⟩
  by_cases ht : type = 3
  · subst ht
    refine ⟨_, (slope_eq hO (h3 rfl) cs fd xopt D).1, fun i => ?_, 1, one_pos, le_rfl, ?_⟩
    · change -5 ≤ fd i + xopt i ∧ fd i + xopt i ≤ 5
      rw [add_comm]
      exact hb i
    · funext i
      change Spec.warp 3 (fun i => fd i + xopt i - xopt i) i = _
      simp [Spec.warp]
  · unfold assemble
    rw [if_neg ht, stackedBest_eq hO, Res.ok_bind]
    generalize hS : stacked O cs fd (f fun _ => 0) = S
    have hS1 : S.initial = fd := by rw [← hS]; rfl
    have hcases := type_cases h1 h9
    -- the cases with an inverse
    have key : ∀ (inv : Fin n → ℝ → ℝ) (R : Problem n), R.initial = fd →
        (∀ i : Fin n, Monotone fun y => Spec.warp type (fun _ => y) i) → (∀ i : Fin n, Spec.warp type (fun _ => 1) i = 1) →
        (∀ i : Fin n, Spec.warp type (fun _ => -1) i = -1) → (∀ i y, Spec.warp type (fun _ => inv i y) i = y) →
        ∃ P, ((invInitial inv xopt R).bind fun P => .ok (shifted xopt P)) = .ok P ∧
          (∀ i, -5 ≤ P.initial i ∧ P.initial i ≤ 5) ∧
          ∃ t, 0 < t ∧ t ≤ 1 ∧ Spec.place type xopt P.initial = fun i => fd i * t := by
      intro inv R hR hm hw1 hw2 hi
      obtain ⟨j, e, hj⟩ := invInitial_ok hm hw1 hw2 hi hx (P := R) (by rw [hR]; exact hb)
      rw [hR] at e hj
      refine ⟨_, by rw [e, Res.ok_bind], fun i => ⟨(hj i).1.le, (hj i).2.le⟩, 0.5 ^ j, (half j).1, (half j).2, ?_⟩
      funext i
      change Spec.warp type (fun i => inv i (fd i * 0.5 ^ j) + xopt i - xopt i) i = _
      rw [← hi i (fd i * 0.5 ^ j)]
      unfold Spec.warp
      simp only [add_sub_cancel_right]
    by_cases t1 : type = 1 ∨ type = 7
    · rw [if_pos t1, Res.ok_bind]
      refine ⟨_, rfl, fun i => ?_, 1, one_pos, le_rfl, ?_⟩
      · change -5 ≤ S.initial i + xopt i ∧ S.initial i + xopt i ≤ 5
        rw [hS1, add_comm]
        exact hb i
      · funext i
        change Spec.warp type (fun i => S.initial i + xopt i - xopt i) i = _
        rw [hS1]
        rcases t1 with rfl | rfl <;> simp [Spec.warp]
    · rw [if_neg t1]
      by_cases t2 : type = 2 ∨ type = 4 ∨ type = 5
      · rw [if_pos t2]
        have hw : ∀ (i : Fin n) y, Spec.warp type (fun _ => y) i = tosz (1 / 10) y := fun i y => if_pos t2
        refine key _ _ hS1 (fun i => ?_) (fun i => ?_) (fun i => ?_) fun i y => ?_
        · simp only [hw]; exact Warp.tosz_mono
        · rw [hw]; exact Warp.tosz_one
        · rw [hw]; exact Warp.tosz_neg_one
        · rw [hw]; exact hD.osz y
      · rw [if_neg t2]
        by_cases t6 : type = 6
        · rw [if_pos t6]
          have hw : ∀ (i : Fin n) y, Spec.warp type (fun _ => y) i = tasy 0.2 i n y := fun i y => by
            unfold Spec.warp
            rw [if_neg t2, if_pos t6]
          refine key _ _ hS1 (fun i => ?_) (fun i => ?_) (fun i => ?_) fun i y => ?_
          · simp only [hw]; exact Warp.tasy_mono hn i
          · rw [hw]; exact Warp.tasy_one _ _
          · rw [hw]; exact Warp.tasy_nonpos _ _ (by norm_num)
          · rw [hw]; exact hD.asy i y
        · rw [if_neg t6]
          have t8 : type = 8 ∨ type = 9 := by omega
          have hw : ∀ (i : Fin n) y, Spec.warp type (fun _ => y) i = tasy 0.2 i n (tosz (1 / 10) y) := fun i y => by
            unfold Spec.warp
            rw [if_neg t2, if_neg t6, if_pos t8]
          refine key _ _ hS1 (fun i => ?_) (fun i => ?_) (fun i => ?_) fun i y => ?_
          · simp only [hw]; exact (Warp.tasy_mono hn i).comp Warp.tosz_mono
          · rw [hw, Warp.tosz_one]; exact Warp.tasy_one _ _
          · rw [hw, Warp.tosz_neg_one]; exact Warp.tasy_nonpos _ _ (by norm_num)
          · rw [hw, hD.osz]; exact hD.asy i y

/-- The disguise of the first constraint meets no internal error: no product of a random gradient and the direction lies in
the neglected interval. -/
def Spec.Away (kind : Kind) (function inst : Nat) (D : Draws n) : Prop :=
  ∀ (xopt fd : Vec n) O, getXopt .bbob (function + 10000 * inst) n = .ok xopt →
    objective (objType function) function inst (function + 20000 * inst) n = .ok O →
    direction O xopt (function + 20000 * inst) = .ok fd →
    Constrained.Spec.Away (params kind function inst D fd)

/-- **C91** (creation, initial solution). For the 54 functions of the three suites, all instances up to 10^10 and all
random numbers: with exact inverses of the non-linear transformations the problem is created (if the first constraint is
disguised, with random numbers as in `C62_counts`), with the documented numbers of active and inactive constraints; the
initial solution lies in the region of interest and satisfies all constraints. -/
theorem C91_created (kind : Kind) (function inst n : Nat) (hu : Spec.Usable function inst n) (D : Draws n)
    (hD : Spec.Numbers D) (hI : Spec.Inverses D) (hd : kind = .noDisguise ∨ Spec.Away kind function inst D) :
    ∃ Q, get kind function inst n D = .ok Q ∧
      (Q.constraints.filter fun c => c.shift = 0).length =
        [1, 2, 6, 6 + n / 2, 6 + n, 6 + 3 * n].getD ((function - 1) % 6) 0 ∧
      (Q.constraints.filter fun c => 0.01 ≤ c.shift).length = (if kind = .activeOnly then 0 else
        [1, 2, 6, 6 + n / 2, 6 + n, 6 + 3 * n].getD ((function - 1) % 6) 0 / 2) ∧
      Q.constraints.length = (Q.constraints.filter fun c => c.shift = 0).length +
        (Q.constraints.filter fun c => 0.01 ≤ c.shift).length ∧
      (∀ i, -5 ≤ Q.initial i ∧ Q.initial i ≤ 5) ∧ Spec.Feasible Q Q.initial := by
  obtain ⟨xopt, O, f, v, t, fd, ex, eo, ev, hv, hs, ed, hx, hfine, h3, ht, hfd, hfd0, hb⟩ := parts hu
  obtain ⟨hf1, hf2, -, hn, -⟩ := hu
  obtain ⟨ht1, ht9⟩ := objType_range hf1 hf2
  have hval : Constrained.Spec.Valid (params kind function inst D fd) := params_valid hf1 hD hfd0
  have hnum := (Constrained.C62_number ((function - 1) / 6) ((function - 1) % 6) (Nat.mod_lt _ (by norm_num)) n).1
  rw [show 6 * ((function - 1) / 6) + (function - 1) % 6 + 1 = function by omega] at hnum
  obtain ⟨cs, hcs, c1, c2, c3⟩ := Constrained.C62_counts _ hval (by
    rcases hd with hd | hd
    · left
      simp [params, hd]
    · exact Or.inr (hd xopt fd O ex eo ed))
  have h31 : objType function = 3 → ∀ x, -1000 ≤ f x := fun h x => hv.trans ((h3 h).1 x)
  obtain ⟨P, hP, hin, s, hs0, hs1, hpl⟩ := assemble_initial ht1 ht9 hn hfine.plain h31 cs hx hb hI
  have hk := assemble_known ht1 ht9 hfine.plain h31 hP
  refine ⟨scaled (factor (objType function)) P, ?_, ?_, ?_, ?_, hin, ?_⟩
  · unfold get
    rw [ex, Res.ok_bind, if_pos ⟨ht1, ht9⟩, eo, Res.ok_bind, ed, Res.ok_bind, hcs, Res.ok_bind, hP, Res.ok_bind]
  · change (P.constraints.filter _).length = _
    rw [hk.constraints, ← hnum]
    exact c1
  · change (P.constraints.filter _).length = _
    rw [hk.constraints, ← hnum, c2]
    cases kind <;> rfl
  · change P.constraints.length = (P.constraints.filter _).length + (P.constraints.filter _).length
    rw [hk.constraints, c1, c2]
    exact c3
  · intro w hw
    change w ∈ P.cons P.initial at hw
    unfold Problem.cons at hw
    rw [hk.constraints, hk.place, hpl] at hw
    obtain ⟨c, hc, rfl⟩ := List.mem_map.mp hw
    exact segment (build_shift hval hcs c hc) (Constrained.C63_feasible _ hval cs hcs c hc).1 hs0 hs1

/-- **C91** (other functions). The function numbers 0 and above 54 are refused. -/
theorem C91_unknown (kind : Kind) (function inst n : Nat) (hf : function = 0 ∨ 54 < function) (hF : function < 10000)
    (hi : inst ≤ 10 ^ 10) (D : Draws n) : get kind function inst n D = .error := by
  obtain ⟨xopt, ex, -⟩ := xopt_ok (function + 10000 * inst) (by omega) n
  unfold get
  rw [ex, Res.ok_bind, if_neg]
  unfold objType
  omega

/-! ### Points that are slightly better than recorded -/

theorem xopt_low {seed : Int} (hs : seed.natAbs < 2 ^ 31 * 127773) {o : Vec n} (h : getXopt .bbob seed n = .ok o)
    (i : Fin n) : 1 / 10 ^ 5 ≤ |o i| ∧ |o i| ≤ 4 := by
  obtain ⟨xs, e, hl, hx⟩ := Legacy.C45_xopt seed hs n
  unfold getXopt at h
  rw [if_neg (by decide), e] at h
  injection h with h
  subst h
  have hi : i.1 < xs.length := by omega
  obtain ⟨a, b, c, d⟩ := hx xs[i.1] (List.getElem_mem hi)
  unfold vec
  rw [List.getD_eq_getElem _ _ hi]
  have key : 1 / 10 ^ 5 ≤ |xs[i.1]| ∧ |xs[i.1]| ≤ 4 := by
    refine ⟨?_, abs_le.mpr ⟨a, b.le⟩⟩
    rcases d with d | ⟨k, d⟩
    · rw [d]
      norm_num [abs_of_neg]
    · have hk : k ≠ 0 := by
        rintro rfl
        apply c
        rw [d]
        simp
      have h1 : (1 : ℚ) ≤ |(k : ℚ)| := by exact_mod_cast Int.one_le_abs hk
      rw [d, abs_mul, abs_of_pos (show (0 : ℚ) < 8 / 10 ^ 4 by norm_num)]
      linarith
  rw [← Rat.cast_abs]
  exact ⟨by have := (Rat.cast_le (K := ℝ)).mpr key.1; push_cast at this ⊢; exact this, by exact_mod_cast key.2⟩

/-- The only constraint of a problem with one. -/
theorem build_one {P : Constrained.Params n} (hP : Constrained.Spec.Valid P) (h1 : P.active = 1) :
    ∃ c, Constrained.build P = .ok [c] ∧ c.shift = 0 ∧ c.gradient = Constrained.Spec.against P 1 := by
  obtain ⟨c, hc, -, hs, -, hg⟩ := Constrained.single_ok hP 1 true 0 (Or.inl rfl)
  have hg := hg rfl
  simp only [if_true] at hc hg
  rw [Constrained.against_feasible] at hg
  refine ⟨c, ?_, hs, hg⟩
  have ht : Constrained.total P - 1 = 0 := by
    unfold Constrained.total Constrained.inactive
    rw [h1]
    split_ifs <;> rfl
  unfold Constrained.build
  rw [if_neg (by omega), h1, if_neg (by simp [Nat.mod_one]), ht]
  unfold Constrained.add
  rw [hc, Res.ok_bind, if_pos rfl]
  dsimp only
  rw [Res.ok_bind]
  unfold Constrained.loop
  rw [Res.ok_bind]
  unfold Constrained.disguiseFirst
  rw [if_neg (by omega)]
  rfl

/-- The first function of the suites in closed form. -/
theorem sphere_problem {kind : Kind} {inst n : Nat} (hi : inst ≤ 10 ^ 10) (hn : 2 ≤ n) {D : Draws n}
    (hD : Spec.Numbers D) {o : Vec n} (ho : getXopt .bbob (1 + 20000 * inst) n = .ok o) :
    ∃ (Q : Problem n) (xopt : Vec n) (v : ℝ), get kind 1 inst n D = .ok Q ∧
      (∀ i, -4 ≤ xopt i ∧ xopt i < 4) ∧
      (∀ z : Vec n, (∀ i, o i / Real.sqrt (∑ i, o i * o i) * (100 * 10 ^ (D.u1 0) * 100 ^ (D.own 1)) * z i = 1 / 10 ^ 11) →
        Spec.Feasible Q fun i => z i + xopt i) ∧
      ∀ z : Vec n, Spec.Feasible Q (fun i => z i + xopt i) →
        10 * ∑ i, (z i - o i) * (z i - o i) + 1 / 10 ^ 13 < 10 * ∑ i, o i * o i →
        Q.eval (fun i => z i + xopt i) = .assertFail := by
  have hu : Spec.Usable 1 inst n := ⟨le_rfl, by omega, hi, hn, fun h => by
    rcases h with h | h | h | h | h <;> exact absurd h (by decide)⟩
  obtain ⟨xopt, O, f, v, t, fd, ex, eo, ev, hv, hs, ed, hx, hfine, h3, ht, hfd, hfd0, hb⟩ := parts hu
  have htype : objType 1 = 1 := rfl
  rw [htype] at eo hs
  obtain ⟨o', eo', hf⟩ := (if_pos rfl : Spec.Objective 1 _ v f = _).mp hs
  have ho' : o' = o := by
    have : getXopt .bbob (1 + 20000 * (inst : Int)) n = .ok o' := by simpa using eo'
    rw [ho] at this
    exact (Res.ok.inj this).symm
  subst ho'
  have hO : O.gradient 0 = fun i => 2 * (0 - o' i) := by
    unfold objective at eo
    rw [ev, Res.ok_bind, if_pos rfl, eo', Res.ok_bind] at eo
    obtain ⟨P0, -, eo⟩ := bind_inv eo
    rw [← Res.ok.inj eo]
    rfl
  have hval : Constrained.Spec.Valid (params kind 1 inst D fd) := params_valid le_rfl hD hfd0
  obtain ⟨c, hcs, hc0, hcg⟩ := build_one hval rfl
  have hP : assemble 1 O.problem [c] fd xopt D = .ok (shifted xopt (stacked O.problem [c] fd (f fun _ => 0))) := by
    unfold assemble
    rw [if_neg (by decide), stackedBest_eq hfine.plain, Res.ok_bind, if_pos (Or.inl rfl), Res.ok_bind]
  have hk := assemble_known (n := n) le_rfl (by omega) hfine.plain (by omega) hP
  generalize shifted xopt (stacked O.problem [c] fd (f fun _ => 0)) = P at hP hk
  refine ⟨scaled (factor 1) P, xopt, v, ?_, hx, ?_, ?_⟩
  · unfold get
    rw [ex, Res.ok_bind, htype, if_pos (by omega), eo, Res.ok_bind, ed, Res.ok_bind, hcs, Res.ok_bind, hP, Res.ok_bind]
  · intro z hz w hw
    change w ∈ P.cons _ at hw
    unfold Problem.cons at hw
    rw [hk.constraints, hk.place] at hw
    obtain ⟨d, hd, rfl⟩ := List.mem_map.mp hw
    rw [List.mem_singleton.mp hd, Constrained.value_active _ hc0, hcg]
    apply le_of_eq
    unfold Constrained.sumVariables
    refine Finset.sum_eq_zero fun i _ => ?_
    have e : Constrained.Spec.against (params kind 1 inst D fd) 1 i *
        Spec.place 1 xopt (fun i => z i + xopt i) i = 1 / 10 ^ 11 := by
      rw [← hz i]
      have hp : Spec.place 1 xopt (fun i => z i + xopt i) i = z i := by
        unfold Spec.place Spec.warp
        simp
      rw [hp]
      refine congrArg (· * z i) ?_
      unfold Constrained.Spec.against
      have hfdi : ∀ i, (params kind 1 inst D fd).fd i = -(2 * t) * o' i := by
        intro i
        change fd i = _
        rw [hfd, hO]
        ring
      have hnorm : Constrained.norm (params kind 1 inst D fd).fd = 2 * t * Real.sqrt (∑ i, o' i * o' i) := by
        unfold Constrained.norm
        rw [show (∑ i, (params kind 1 inst D fd).fd i * (params kind 1 inst D fd).fd i) =
          (2 * t) * (2 * t) * ∑ i, o' i * o' i by
            rw [Finset.mul_sum]
            exact Finset.sum_congr rfl fun i _ => by rw [hfdi]; ring]
        rw [Real.sqrt_mul (by positivity), Real.sqrt_mul_self (by positivity)]
      rw [hnorm, hfdi]
      change -(-(2 * t) * o' i * (100 * 10 ^ (D.u1 0) * 100 ^ (D.own 1) / _)) = _
      have : Real.sqrt (∑ i, o' i * o' i) ≠ 0 := by
        intro h0
        have h1 := Constrained.norm_pos hval.fd
        rw [hnorm, h0, mul_zero] at h1
        exact lt_irrefl _ h1
      generalize Real.sqrt (∑ i, o' i * o' i) = r at this
      field_simp
    refine if_neg ?_
    dsimp only
    rw [e]
    norm_num
  · intro z hz hlt
    have hFP : Spec.Feasible P fun i => z i + xopt i := hz
    have harg : ∀ z : Vec n, Spec.argument 1 xopt (fun i => z i + xopt i) = z := by
      intro z
      funext i
      unfold Spec.argument Spec.place Spec.warp
      simp
    have hfac : factor 1 = 10 := if_pos (Or.inl rfl)
    have hbv : P.bestValue = (∑ i, o' i * o' i) + v := by
      rw [hk.bestValue, show Spec.argument 1 xopt xopt = fun _ => 0 by
        unfold Spec.argument
        rw [if_neg (by decide), place_self], hf]
      unfold sphere
      dsimp only
      refine congrArg (· + v) ?_
      exact Finset.sum_congr rfl fun i _ => by ring
    have hfz : f z = (∑ i, (z i - o' i) * (z i - o' i)) + v := by
      rw [hf]
      unfold sphere
      rfl
    change (P.eval _).bind (fun y => guarded (P.cons _) (P.bestValue * factor 1) (y * factor 1)) = _
    rcases hk.weak fun i => z i + xopt i with h | ⟨h, -, -⟩
    · rw [h, Res.ok_bind]
      dsimp only
      rw [harg]
      unfold guarded
      rw [if_pos ((isFeasible_iff _).mpr hFP), if_neg]
      rw [hfac, hbv, hfz]
      intro h
      linarith
    · rw [h, Res.assertFail_bind]

/-- **C91** (the neglected interval). In the first function of the suites (the sphere with one constraint), for all random
numbers and every instance and dimension from 2 to 100 in which the optimum `o` without constraints is not too near to
the origin: there is a feasible point in the region of interest at which the evaluation fails its assertion, because the
point is better than the recorded optimum by more than 1e-13. -/
theorem C91_abort (kind : Kind) (inst n : Nat) (hi : inst ≤ 10 ^ 10) (hn : 2 ≤ n) (hn' : n ≤ 100) (D : Draws n)
    (hD : Spec.Numbers D) (hown : D.own 1 ≤ 1 ∧ 0 ≤ D.own 1) (o : Vec n)
    (ho : getXopt .bbob (1 + 20000 * inst) n = .ok o) (hlen : 52 ≤ n * Real.sqrt (∑ i, o i * o i)) :
    ∃ Q x, get kind 1 inst n D = .ok Q ∧ (∀ i, -5 ≤ x i ∧ x i ≤ 5) ∧ Spec.Feasible Q x ∧
      Q.eval x = .assertFail := by
  obtain ⟨Q, xopt, v, hQ, hx, hfe, hev⟩ := sphere_problem (kind := kind) hi hn hD ho
  have hlow := xopt_low (n := n) (seed := 1 + 20000 * inst) (by omega) ho
  have hsq : ∑ i, o i * o i ≤ 40 * 40 := by
    calc ∑ i, o i * o i ≤ ∑ _i : Fin n, (16 : ℝ) := Finset.sum_le_sum fun i _ => by
          have := abs_le.mp (hlow i).2
          nlinarith
      _ = n * 16 := by simp
      _ ≤ 40 * 40 := by
          have : (n : ℝ) ≤ 100 := by exact_mod_cast hn'
          linarith
  have hsq0 : (0 : ℝ) ≤ ∑ i, o i * o i := Finset.sum_nonneg fun i _ => mul_self_nonneg _
  have hr40 : Real.sqrt (∑ i, o i * o i) ≤ 40 := by
    rw [show (40 : ℝ) = Real.sqrt (40 * 40) by rw [Real.sqrt_mul_self (by norm_num)]]
    exact Real.sqrt_le_sqrt hsq
  have hA0 : (100 : ℝ) ≤ 100 * 10 ^ (D.u1 0) * 100 ^ (D.own 1) := by
    have h1 : (1 : ℝ) ≤ 10 ^ (D.u1 0) := Real.one_le_rpow (by norm_num) (hD.u1 0).1
    have h2 : (1 : ℝ) ≤ 100 ^ (D.own 1) := Real.one_le_rpow (by norm_num) hown.2
    nlinarith
  have hA1 : (100 : ℝ) * 10 ^ (D.u1 0) * 100 ^ (D.own 1) ≤ 10 ^ 5 := by
    have h1 : (10 : ℝ) ^ (D.u1 0) ≤ 10 ^ (1 : ℝ) := Real.rpow_le_rpow_of_exponent_le (by norm_num) (hD.u1 0).2
    have h2 : (100 : ℝ) ^ (D.own 1) ≤ 100 ^ (1 : ℝ) := Real.rpow_le_rpow_of_exponent_le (by norm_num) hown.1
    rw [Real.rpow_one] at h1 h2
    have h3 : (0 : ℝ) < 10 ^ (D.u1 0) := by positivity
    have h4 : (0 : ℝ) < 100 ^ (D.own 1) := by positivity
    nlinarith
  generalize (100 : ℝ) * 10 ^ (D.u1 0) * 100 ^ (D.own 1) = A at hfe hA0 hA1
  have hrr : Real.sqrt (∑ i, o i * o i) * Real.sqrt (∑ i, o i * o i) = ∑ i, o i * o i := Real.mul_self_sqrt hsq0
  have hr0 := Real.sqrt_nonneg (∑ i, o i * o i)
  generalize Real.sqrt (∑ i, o i * o i) = r at hlen hr40 hfe hrr hr0
  have hn0 : (2 : ℝ) ≤ n := by exact_mod_cast hn
  have hrpos : 0 < r := by
    rcases hr0.lt_or_eq with h | h
    · exact h
    · rw [← h, mul_zero] at hlen
      norm_num at hlen
  have hApos : 0 < A := by linarith
  have hoi : ∀ i, o i ≠ 0 := fun i h => by
    have := (hlow i).1
    rw [h, abs_zero] at this
    norm_num at this
  -- `q` is the length of the steps
  obtain ⟨q, hq⟩ : ∃ q, q = 1 / 10 ^ 11 * r / A := ⟨_, rfl⟩
  have hq0 : 0 < q := by rw [hq]; positivity
  have hq1 : q ≤ 4 / 10 ^ 12 := by
    rw [hq, div_le_iff₀ hApos]
    nlinarith
  have hq2 : 1 / 10 ^ 16 * r ≤ q := by
    rw [hq, le_div_iff₀ hApos]
    have : 1 / 10 ^ 16 * r * A ≤ 1 / 10 ^ 16 * r * 10 ^ 5 := mul_le_mul_of_nonneg_left hA1 (by positivity)
    linarith
  have hinv : ∀ i, |1 / o i| ≤ 10 ^ 5 := fun i => by
    rw [abs_div, abs_one, div_le_iff₀ (abs_pos.mpr (hoi i))]
    have := (hlow i).1
    linarith
  have hfeas := hfe (fun i => q / o i) fun i => by
    rw [hq]
    have := hoi i
    field_simp
  refine ⟨Q, fun i => q / o i + xopt i, hQ, fun i => ?_, hfeas, hev _ hfeas ?_⟩
  · have h1 : |q / o i| ≤ 1 := by
      rw [div_eq_mul_one_div, abs_mul, abs_of_pos hq0]
      calc q * |1 / o i| ≤ 4 / 10 ^ 12 * 10 ^ 5 := mul_le_mul hq1 (hinv i) (abs_nonneg _) (by norm_num)
        _ ≤ 1 := by norm_num
    have := abs_le.mp h1
    have := hx i
    constructor <;> linarith
  · have e : ∀ i, (q / o i - o i) * (q / o i - o i) ≤ o i * o i - 2 * q + q * (4 / 10 ^ 2) := fun i => by
      have h1 : (1 / o i) * (1 / o i) ≤ 10 ^ 10 := by
        have := hinv i
        have h2 : (1 / o i) * (1 / o i) = |1 / o i| * |1 / o i| := (abs_mul_abs_self _).symm
        rw [h2]
        calc |1 / o i| * |1 / o i| ≤ 10 ^ 5 * 10 ^ 5 := mul_le_mul this this (abs_nonneg _) (by norm_num)
          _ = 10 ^ 10 := by norm_num
      have h2 : (q / o i - o i) * (q / o i - o i) = q * (q * (1 / o i * (1 / o i))) - 2 * q + o i * o i := by
        have := hoi i
        field_simp
        ring
      have h3 : q * (1 / o i * (1 / o i)) ≤ 4 / 10 ^ 2 := by
        calc q * (1 / o i * (1 / o i)) ≤ 4 / 10 ^ 12 * 10 ^ 10 := mul_le_mul hq1 h1 (mul_self_nonneg _) (by norm_num)
          _ = 4 / 10 ^ 2 := by norm_num
      rw [h2]
      nlinarith
    have hsum : ∑ i, (q / o i - o i) * (q / o i - o i) ≤ ∑ i, o i * o i - n * (q * (196 / 10 ^ 2)) := by
      calc _ ≤ ∑ i, (o i * o i - q * (196 / 10 ^ 2)) := Finset.sum_le_sum fun i _ => (e i).trans (by linarith)
        _ = _ := by rw [Finset.sum_sub_distrib]; simp
    have h5 : (52 : ℝ) / 10 ^ 16 ≤ n * q := by
      calc (52 : ℝ) / 10 ^ 16 ≤ 1 / 10 ^ 16 * (n * r) := by linarith
        _ = n * (1 / 10 ^ 16 * r) := by ring
        _ ≤ n * q := mul_le_mul_of_nonneg_left hq2 (by linarith)
    have h6 : (n : ℝ) * (q * (196 / 10 ^ 2)) = n * q * (196 / 10 ^ 2) := by ring
    rw [h6] at hsum
    linarith

/-! ### Examples -/

/-- Exact inverses exist. -/
theorem inverses_exist (hn : 2 ≤ n) : ∃ (osz : ℝ → ℝ) (asy : Fin n → ℝ → ℝ), (∀ y, tosz (1 / 10) (osz y) = y) ∧
    ∀ (i : Fin n) y, tasy 0.2 i n (asy i y) = y :=
  ⟨fun y => (Warp.tosz_onto y).choose, fun i y => (Warp.tasy_onto hn i y).choose,
    fun y => (Warp.tosz_onto y).choose_spec, fun i y => (Warp.tasy_onto hn i y).choose_spec⟩

/-- A rotated function in two dimensions. -/
theorem usable_example : Spec.Usable 36 1 2 := by
  refine ⟨by omega, by omega, by norm_num, le_rfl, fun _ => ⟨by omega, ?_⟩⟩
  have e : ((36 : Nat) : Int) + 20000 * ((1 : Nat) : Int) + 1000000 = 1020036 := by norm_num
  rw [e]
  · refine Bbob.regular_two _ (by decide) (a := 1553579958 / 2147483647) (b := 1144902160 / 2147483647) (c := 813623805 / 2147483647)
      (d := 1895428068 / 2147483647) (a' := 855769459 / 2147483647) (b' := 155678946 / 2147483647) (c' := 1989531809 / 2147483647)
      (d' := 1986668145 / 2147483647) (by decide +kernel) ?_
    have ga : Legacy.gaussNumber (((1553579958 / 2147483647 : ℚ)) : ℝ) (((855769459 / 2147483647 : ℚ)) : ℝ) < 0 :=
      Rotation.gaussNumber_neg (by norm_num) (by norm_num) (Rotation.cos_neg_of (by norm_num) (by norm_num))
    have gb : 0 < Legacy.gaussNumber (((1144902160 / 2147483647 : ℚ)) : ℝ) (((155678946 / 2147483647 : ℚ)) : ℝ) :=
      Rotation.gaussNumber_pos (by norm_num) (by norm_num) (Bbob.cos_pos_low (by norm_num) (by norm_num))
    have gc : 0 < Legacy.gaussNumber (((813623805 / 2147483647 : ℚ)) : ℝ) (((1989531809 / 2147483647 : ℚ)) : ℝ) :=
      Rotation.gaussNumber_pos (by norm_num) (by norm_num) (Rotation.cos_pos_of (by norm_num) (by norm_num))
    have gd : 0 < Legacy.gaussNumber (((1895428068 / 2147483647 : ℚ)) : ℝ) (((1986668145 / 2147483647 : ℚ)) : ℝ) :=
      Rotation.gaussNumber_pos (by norm_num) (by norm_num) (Rotation.cos_pos_of (by norm_num) (by norm_num))
    exact ((mul_neg_of_neg_of_pos ga gd).trans (mul_pos gb gc)).ne

/-- For every usable function there are numbers with exact inverses, also such that the disguise works. -/
theorem numbers_example (kind : Kind) {function inst n : Nat} (hu : Spec.Usable function inst n) :
    ∃ D : Draws n, Spec.Numbers D ∧ Spec.Inverses D ∧ Spec.Away kind function inst D := by
  obtain ⟨xopt, O, f, v, t, fd, ex, eo, -, -, -, ed, -, -, -, -, -, hfd0, -⟩ := parts hu
  obtain ⟨osz, asy, h1, h2⟩ := inverses_exist hu.dimension
  refine ⟨⟨fun _ => 0, fun _ => 0, fun _ => 0, fun _ i => if fd i = 0 then 1 else Real.sqrt n / fd i, osz, asy⟩,
    ⟨fun _ => ⟨le_rfl, zero_le_one⟩, fun _ => ⟨le_rfl, zero_le_one⟩, fun k h => ?_⟩, ⟨h1, h2⟩, ?_⟩
  · have := congrFun h ⟨0, by have := hu.dimension; omega⟩
    dsimp only at this
    split_ifs at this with h0
    · exact one_ne_zero this
    · refine div_ne_zero ?_ h0 this
      exact (Real.sqrt_pos.mpr (by have := hu.dimension; exact_mod_cast (by omega : 0 < n))).ne'
  · intro xopt' fd' O' ex' eo' ed' k i
    rw [ex] at ex'
    cases Res.ok.inj ex'
    rw [eo] at eo'
    cases Res.ok.inj eo'
    rw [ed] at ed'
    cases Res.ok.inj ed'
    by_cases h0 : fd i = 0
    · left
      change _ * fd i = 0
      rw [h0, mul_zero]
    · right
      have hs : (0 : ℝ) < Real.sqrt n := Real.sqrt_pos.mpr (by have := hu.dimension; exact_mod_cast (by omega : 0 < n))
      have e : Constrained.Spec.random (params kind function inst (⟨fun _ => 0, fun _ => 0, fun _ => 0,
          fun _ i => if fd i = 0 then 1 else Real.sqrt n / fd i, osz, asy⟩ : Draws n) fd) k i * fd i = 100 := by
        unfold Constrained.Spec.random params
        dsimp only
        rw [if_neg h0]
        simp only [Real.rpow_zero]
        generalize Real.sqrt n = r at hs
        field_simp
      change 1 / 10 ^ 11 < |Constrained.Spec.random _ k i * fd i|
      rw [e]
      norm_num

/-- C91 for a rotated function in each of the suites. -/
example (kind : Kind) : ∃ (D : Draws 2) (Q : Problem 2), Spec.Numbers D ∧ get kind 36 1 2 D = .ok Q ∧
    Spec.Feasible Q Q.initial ∧ Spec.Feasible Q Q.bestParam ∧ Q.eval Q.bestParam = .ok Q.bestValue := by
  obtain ⟨D, h1, h2, h3⟩ := numbers_example kind usable_example
  obtain ⟨Q, hQ, -, -, -, -, hf⟩ := C91_created kind 36 1 2 usable_example D h1 h2 (Or.inr h3)
  obtain ⟨xopt, -, -, -, -, -, ⟨-, hb, -⟩, ⟨h4, h5, -⟩, -⟩ := C91_optimum kind 36 1 2 usable_example D h1 Q hQ
  rw [← hb] at h4 h5
  exact ⟨D, Q, h1, hQ, hf, h4, h5⟩

/-- The optimum without constraints of instance 1 in ten dimensions. -/
def far : Vec 10 := vec [-38984 / 10000, -28904 / 10000, -38024 / 10000, 39056 / 10000, 8592 / 10000, -29048 / 10000, 34448 / 10000, -6000 / 10000, -8824 / 10000, -37352 / 10000]

theorem far_ok : getXopt .bbob (1 + 20000 * ((1 : Nat) : Int)) 10 = .ok far ∧
    (52 : ℝ) ≤ (10 : Nat) * Real.sqrt (∑ i, far i * far i) := by
  constructor
  · unfold getXopt
    rw [if_neg (by decide), show Legacy.computeXopt (1 + 20000 * ((1 : Nat) : Int)) 10 = .ok [-38984 / 10000, -28904 / 10000, -38024 / 10000, 39056 / 10000, 8592 / 10000, -29048 / 10000, 34448 / 10000, -6000 / 10000, -8824 / 10000, -37352 / 10000] by decide +kernel]
    rfl
  · have h : (9 : ℝ) ≤ Real.sqrt (∑ i, far i * far i) := by
      apply Real.le_sqrt_of_sq_le
      unfold far vec
      simp [Fin.sum_univ_succ]
      norm_num
    push_cast
    linarith

/-- C91: the evaluation is aborted at a feasible point, whatever the random numbers of the constraint. -/
example (kind : Kind) (D : Draws 10) (hD : Spec.Numbers D) (hown : D.own 1 ≤ 1 ∧ 0 ≤ D.own 1) :
    ∃ Q x, get kind 1 1 10 D = .ok Q ∧ (∀ i, -5 ≤ x i ∧ x i ≤ 5) ∧ Spec.Feasible Q x ∧ Q.eval x = .assertFail :=
  C91_abort kind 1 10 (by norm_num) (by omega) (by omega) D hD hown far far_ok.1 far_ok.2

example (D : Draws 2) : get .constrained 55 1 2 D = .error :=
  C91_unknown .constrained 55 1 2 (Or.inr (by omega)) (by omega) (by norm_num) D

end ConsSuite
