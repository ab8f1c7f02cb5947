import Mathlib.Algebra.BigOperators.Group.List.Basic
import Mathlib.Tactic.Common
import Mathlib.Tactic.Ring
import Verif.Model.Interfaces

/-!
# Arrays that pass the interfaces (C131)
-/

namespace Interfaces

variable {α β : Type}

/-! ### Specification -/

namespace Spec

/-- Exactly the points with `dim` entries are evaluated, with their own entries; everything else ends with an error message (an exception
or a panic). -/
def Checked (dim : Nat) (f : List α → β) (accepted : Prop) (data : List α) (r : Res β) : Prop :=
  (accepted → data.length = dim ∧ r = .ok (f data)) ∧ (¬ accepted → r = .error ∨ r = .assertFail)

end Spec

open Spec

theorem evaluate_eq {dim : Nat} {f : List α → β} {data : List α} (h : data.length = dim) : evaluate dim f data = .ok (f data) := by
  rw [evaluate, if_neg (by omega), List.take_of_length_le (by omega)]

/-! ### Interfaces that check -/

/-- **C131** (`Problem` in Python). A point is evaluated if and only if it is an array with one dimension of the right length, and then it
is evaluated unchanged; everything else raises an exception. -/
theorem C131_python (dim : Nat) (f : List α → β) (x : Arr α) (hx : x.Wf) : Checked dim f (x.shape = [dim]) x.data (pyCall dim f x) := by
  unfold Arr.Wf at hx
  constructor
  · intro h
    have hl : x.data.length = dim := by rw [hx, h]; simp
    exact ⟨hl, by rw [pyCall, if_neg (by simpa using hl), if_neg (by simp [h]), evaluate_eq hl]⟩
  · intro h
    left
    unfold pyCall
    split
    · rfl
    · rename_i h1
      split
      · rfl
      · rename_i h2
        exfalso
        obtain ⟨k, hk⟩ := List.length_eq_one_iff.mp (not_not.mp h2)
        rw [hk] at hx h
        apply h
        rw [← not_not.mp h1, hx]
        simp

/-- **C131** (Matlab). A matrix of doubles is evaluated if and only if it is a row or a column of the right length, and then unchanged;
everything else ends with an error message. -/
theorem C131_matlab (dim : Nat) (f : List α → β) (double : Bool) (m n : Nat) (data : List α) (hx : data.length = m * n) :
    Checked dim f (double = true ∧ (m = dim ∧ n = 1 ∨ m = 1 ∧ n = dim)) data (mexEvaluate dim f double m n data) := by
  constructor
  · rintro ⟨hd, h⟩
    have hl : data.length = dim := by
      rcases h with ⟨rfl, rfl⟩ | ⟨rfl, rfl⟩ <;> simp [hx]
    refine ⟨hl, ?_⟩
    rw [mexEvaluate, hd, if_neg (by decide), if_neg, evaluate_eq hl]
    rcases h with ⟨rfl, rfl⟩ | ⟨rfl, rfl⟩ <;> simp
  · intro h
    left
    cases double with
    | false => rfl
    | true =>
      rw [mexEvaluate, if_neg (by decide), if_pos]
      simp only [true_and, not_or, not_and] at h
      simp only [Bool.and_eq_true, Bool.not_eq_true', Bool.and_eq_false_iff, beq_eq_false_iff_ne]
      constructor
      · by_cases h1 : n = 1
        · exact .inr fun h2 => h.1 h2 h1
        · exact .inl h1
      · by_cases h1 : m = 1
        · exact .inr (h.2 h1)
        · exact .inl h1

/-- **C131** (Rust). A point is evaluated if and only if it and the space for the result have the right lengths, and then unchanged;
everything else panics. -/
theorem C131_rust (dim outs : Nat) (f : List α → β) (data : List α) (ny : Nat) :
    Checked dim f (data.length = dim ∧ ny = outs) data (rustEvaluate dim outs f data ny) := by
  constructor
  · rintro ⟨h1, h2⟩
    exact ⟨h1, by rw [rustEvaluate, if_neg (by simp [h1]), if_neg (by simp [h2]), evaluate_eq h1]⟩
  · intro h
    right
    unfold rustEvaluate
    split
    · rfl
    · split
      · rfl
      · rename_i h1 h2
        exact absurd ⟨(not_not.mp h1).symm, (not_not.mp h2).symm⟩ h

/-! ### Interfaces that do not check -/

theorem rows_ok {dim d : Nat} {f : List α → β} (hd : dim ≤ d) (data : List α) : ∀ (fuel i : Nat), (i + fuel) * d ≤ data.length →
    rows dim f data d fuel i = .ok ((List.range' i fuel).map fun j => f ((data.drop (j * d)).take dim)) := by
  intro fuel
  induction fuel with
  | zero => intro i _; rfl
  | succ fuel ih =>
    intro i h
    have h1 : (i + 1) * d ≤ (i + (fuel + 1)) * d := Nat.mul_le_mul_right _ (by omega)
    have h2 : (i + 1) * d = i * d + d := by ring
    have e : evaluate dim f (data.drop (i * d)) = .ok (f ((data.drop (i * d)).take dim)) := by
      rw [evaluate, if_neg]
      rw [List.length_drop]
      omega
    rw [rows, e, Res.ok_bind, ih (i + 1) (by rw [show i + 1 + fuel = i + (fuel + 1) by omega]; exact h), Res.ok_bind]
    rfl

/-- **C131** (partial: `BareProblem` in Python and Java evaluate points that are long enough, without comparing lengths). The first
entries are evaluated; in a matrix those of each row, in the order of the rows. -/
theorem C131_long_enough_partial (dim : Nat) (f : List α → β) (x : Arr α) (hx : x.Wf) :
    (∀ k, x.shape = [k] → dim ≤ k → bareCall dim f x = .ok (.one (f (x.data.take dim)))) ∧
    (∀ n d, x.shape = [n, d] → dim ≤ d →
      bareCall dim f x = .ok (.many ((List.range n).map fun j => f ((x.data.drop (j * d)).take dim)))) ∧
    (dim ≤ x.data.length → jniEvaluate dim f x.data = .ok (f (x.data.take dim))) := by
  unfold Arr.Wf at hx
  refine ⟨?_, ?_, ?_⟩
  · intro k hk hl
    have : ¬ x.data.length < dim := by rw [hx, hk]; simpa using hl
    simp only [bareCall, hk, evaluate, if_neg this, Res.ok_bind]
  · intro n d hs hl
    have hn : (0 + n) * d ≤ x.data.length := by rw [hx, hs]; simp
    simp only [bareCall, hs, rows_ok hl x.data n 0 hn, Res.ok_bind, List.range_eq_range']
  · intro h
    rw [jniEvaluate, evaluate, if_neg (by omega)]

theorem rows_ub {dim d : Nat} {f : List α → β} (hd : d < dim) (data : List α) : ∀ (fuel i : Nat), (i + (fuel + 1)) * d = data.length →
    rows dim f data d (fuel + 1) i = .ub := by
  intro fuel
  induction fuel with
  | zero =>
    intro i h
    have h2 : (i + (0 + 1)) * d = i * d + d := by ring
    rw [rows, evaluate, if_pos, Res.ub_bind]
    rw [List.length_drop]
    omega
  | succ fuel ih =>
    intro i h
    rw [rows]
    unfold evaluate
    split
    · rfl
    · rw [Res.ok_bind, ih (i + 1) (by rw [← h]; ring), Res.ub_bind]

/-- **C131** (the full statement is false). `BareProblem` in Python and Java read beyond the end of every point that is too short, also of
a matrix whose rows are too short, and ignore entries of points that are too long. -/
theorem C131_short (dim : Nat) (f : List α → β) (x : Arr α) (hx : x.Wf) :
    (∀ k, x.shape = [k] → k < dim → bareCall dim f x = .ub) ∧
    (∀ n d, x.shape = [n, d] → 0 < n → d < dim → bareCall dim f x = .ub) ∧
    (x.data.length < dim → jniEvaluate dim f x.data = .ub) ∧
    ∀ l, x.data.length = dim → bareCall dim f ⟨[dim + l.length], x.data ++ l⟩ = .ok (.one (f x.data)) ∧
      jniEvaluate dim f (x.data ++ l) = .ok (f x.data) := by
  unfold Arr.Wf at hx
  refine ⟨?_, ?_, ?_, ?_⟩
  · intro k hk hl
    have : x.data.length < dim := by rw [hx, hk]; simpa using hl
    simp only [bareCall, hk, evaluate, if_pos this, Res.ub_bind]
  · intro n d hs hn hd
    obtain ⟨n, rfl⟩ := Nat.exists_eq_succ_of_ne_zero (Nat.pos_iff_ne_zero.mp hn)
    have : (0 + (n + 1)) * d = x.data.length := by rw [hx, hs]; simp
    simp only [bareCall, hs, Nat.succ_eq_add_one, rows_ub hd x.data n 0 this, Res.ub_bind]
  · intro h
    rw [jniEvaluate, evaluate, if_pos h]
  · intro l h
    have e : evaluate dim f (x.data ++ l) = .ok (f x.data) := by
      rw [evaluate, if_neg (by simp; omega), ← h, List.take_left]
    exact ⟨by simp only [bareCall, e, Res.ok_bind], e⟩

/-! ### Numbers that Matlab gets -/

theorem bytes_length (k v : Nat) : (bytes k v).length = k := by
  induction k generalizing v with
  | zero => rfl
  | succ k ih => rw [bytes, List.length_cons, ih]

theorem number_bytes (k v : Nat) (h : v < 256 ^ k) : number (bytes k v) = v := by
  induction k generalizing v with
  | zero =>
    have : v = 0 := by simpa using h
    rw [this]
    rfl
  | succ k ih =>
    rw [bytes, number, ih (v / 256) (Nat.div_lt_of_lt_mul (by rw [pow_succ] at h; omega))]
    omega

/-- **C131** (pointers). Pointers to suites, observers and problems that Matlab gets are read back unchanged by the next call. -/
theorem C131_pointer (p : Nat) (hp : p < 2 ^ 64) : ∃ mem, mexPointer p = .ok mem ∧ mem.length = 8 ∧ load mem = .ok p := by
  have hl := bytes_length 8 p
  refine ⟨bytes 8 p, ?_, hl, ?_⟩
  · rw [mexPointer, store, if_neg (by decide)]
    congr 1
  · rw [load, if_neg (by omega), List.take_of_length_le (by omega), number_bytes 8 p (by simpa using hp)]

/-- **C131** (the full statement is false). Every call for a dimension, a number of evaluations, objectives, constraints or integer
variables, or for the final target, writes beyond the end of the array that it returns: 8 bytes into an array of 4. -/
theorem C131_overflow (v : Nat) : (scalar 4).length = 4 ∧ mexNumber v = .ub := ⟨rfl, rfl⟩

/-! ### Cases that meet the hypotheses -/

example : (Arr.mk [2, 3] [1, 2, 3, 4, 5, 6]).Wf ∧
    bareCall 3 List.sum ⟨[2, 3], [1, 2, 3, 4, 5, 6]⟩ = .ok (.many [6, 15]) ∧
    bareCall 3 List.sum ⟨[3, 2], [1, 2, 3, 4, 5, 6]⟩ = .ub ∧
    bareCall 2 List.sum ⟨[2, 3], [1, 2, 3, 4, 5, 6]⟩ = .ok (.many [3, 9]) ∧
    pyCall 6 List.sum ⟨[2, 3], [1, 2, 3, 4, 5, 6]⟩ = .error ∧
    pyCall 6 List.sum ⟨[6], [1, 2, 3, 4, 5, 6]⟩ = .ok 21 ∧
    mexEvaluate 6 List.sum true 6 1 [1, 2, 3, 4, 5, 6] = .ok 21 ∧
    mexEvaluate 6 List.sum true 2 3 [1, 2, 3, 4, 5, 6] = .error ∧
    rustEvaluate 6 1 List.sum [1, 2, 3, 4, 5, 6] 1 = .ok 21 := by
  unfold Arr.Wf
  decide

end Interfaces
