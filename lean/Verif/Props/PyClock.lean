import Mathlib.Tactic
import Verif.Model.PyClock

/-!
# Elapsed time as text in Python (C142)
-/

namespace PyClock

/-! ### Specification -/

/-- The number of seconds that a text of hours, minutes and seconds says. -/
def Spec.total (t : Int × Int × Int) : Int := t.1 * 3600 + t.2.1 * 60 + t.2.2

/-- A rounding with the precision of doubles. -/
def Spec.Precise (rnd : ℚ → ℚ) : Prop := ∀ x, 0 ≤ x → |rnd x - x| ≤ x / 2 ^ 53

/-! ### Proofs -/

theorem frac_bounds (x : ℚ) : 0 ≤ frac x ∧ frac x < 1 := by
  unfold frac
  have h1 := Int.floor_le x
  have h2 := Int.lt_floor_add_one x
  constructor <;> linarith

/-- The rounding to doubles is precise. -/
theorem double_precise : Spec.Precise double := by
  intro x hx
  rcases hx.eq_or_lt with h0 | h0
  · subst h0
    simp [double]
  · have hl : (2 : ℚ) ^ Int.log 2 x ≤ x := by
      have := Int.zpow_log_le_self (b := 2) (by norm_num) h0
      exact_mod_cast this
    have hp : (0 : ℚ) < 2 ^ (Int.log 2 x - 52) := by positivity
    have hr := abs_sub_round (x / 2 ^ (Int.log 2 x - 52))
    have e : double x - x = - ((x / 2 ^ (Int.log 2 x - 52) - round (x / 2 ^ (Int.log 2 x - 52))) * 2 ^ (Int.log 2 x - 52)) := by
      unfold double
      field_simp
      ring
    rw [e, abs_neg, abs_mul, abs_of_pos hp]
    have h2 : (2 : ℚ) ^ (Int.log 2 x - 52) = 2 ^ Int.log 2 x / 2 ^ 52 := by
      rw [zpow_sub₀ (by norm_num)]
      norm_cast
    calc _ ≤ 1 / 2 * (2 : ℚ) ^ (Int.log 2 x - 52) := by gcongr
      _ = 2 ^ Int.log 2 x / 2 ^ 53 := by rw [h2]; ring
      _ ≤ x / 2 ^ 53 := by gcongr

/-- **C142** (exact arithmetic). Without rounding errors the text says the time without its fraction of a second, with less than sixty
minutes and seconds. -/
theorem C142_exact (sec : ℚ) :
    Spec.total (ascetime id sec) = ⌊sec⌋ ∧ 0 ≤ (ascetime id sec).2.1 ∧ (ascetime id sec).2.1 < 60 ∧
    0 ≤ (ascetime id sec).2.2 ∧ (ascetime id sec).2.2 < 60 := by
  have hm := frac_bounds (hours id sec)
  have hs := frac_bounds (minutes id sec)
  have key : ∀ x : ℚ, 0 ≤ x ∧ x < 1 → 0 ≤ ⌊60 * x⌋ ∧ ⌊60 * x⌋ < 60 := by
    intro x hx
    refine ⟨Int.floor_nonneg.2 (by linarith [hx.1]), Int.floor_lt.2 ?_⟩
    push_cast
    linarith [hx.2]
  refine ⟨?_, (key _ hm).1, (key _ hm).2, (key _ hs).1, (key _ hs).2⟩
  symm
  rw [Int.floor_eq_iff]
  have h1 : sec = 3600 * ⌊hours id sec⌋ + 60 * minutes id sec := by
    simp only [minutes, frac, id, hours]
    ring
  have h2 : minutes id sec = ⌊minutes id sec⌋ + seconds id sec / 60 := by
    simp only [seconds, frac, id]
    ring
  have h3 := Int.floor_le (seconds id sec)
  have h4 := Int.lt_floor_add_one (seconds id sec)
  simp only [Spec.total, ascetime]
  push_cast
  constructor <;> linarith

/-- **C142** (partial, doubles). With any rounding of the precision of doubles, for every whole number of seconds up to a billion the text
says this number or one second less. (The full statement is that it says this number; `C142_wrong` refutes it.) -/
theorem C142_near_partial (rnd : ℚ → ℚ) (hr : Spec.Precise rnd) (n : Nat) (hn : n ≤ 10 ^ 9) :
    Spec.total (ascetime rnd n) = n ∨ Spec.total (ascetime rnd n) = n - 1 := by
  have hn' : (n : ℚ) ≤ 10 ^ 9 := by exact_mod_cast hn
  have h0 : (0 : ℚ) ≤ n := by positivity
  have e1 := abs_le.1 (hr ((n : ℚ) / 3600) (by positivity))
  have fm := frac_bounds (hours rnd n)
  have e2 := abs_le.1 (hr (60 * frac (hours rnd n)) (by linarith [fm.1]))
  have fs := frac_bounds (minutes rnd n)
  have e3 := abs_le.1 (hr (60 * frac (minutes rnd n)) (by linarith [fs.1]))
  have d1 : rnd ((n : ℚ) / 3600) = hours rnd n := rfl
  have d2 : rnd (60 * frac (hours rnd n)) = minutes rnd n := rfl
  have d3 : rnd (60 * frac (minutes rnd n)) = seconds rnd n := rfl
  rw [d1] at e1
  rw [d2] at e2
  rw [d3] at e3
  have f1 : frac (hours rnd n) = hours rnd n - ⌊hours rnd n⌋ := rfl
  have f2 : frac (minutes rnd n) = minutes rnd n - ⌊minutes rnd n⌋ := rfl
  have h3 := Int.floor_le (seconds rnd n)
  have h4 := Int.lt_floor_add_one (seconds rnd n)
  have b1 : (n : ℚ) / 3600 / 2 ^ 53 ≤ 1 / 10 ^ 6 := by norm_num; linarith
  have b2 : 60 * frac (hours rnd n) / 2 ^ 53 ≤ 1 / 10 ^ 6 := by norm_num; linarith [fm.2]
  have b3 : 60 * frac (minutes rnd n) / 2 ^ 53 ≤ 1 / 10 ^ 6 := by norm_num; linarith [fs.2]
  have lower : ((n : Int) - 2 : ℚ) < Spec.total (ascetime rnd n) := by
    simp only [Spec.total, ascetime]
    push_cast
    linarith
  have upper : (Spec.total (ascetime rnd n) : ℚ) < (n : Int) + 1 := by
    simp only [Spec.total, ascetime]
    push_cast
    linarith
  have lower : (n : Int) - 2 < Spec.total (ascetime rnd n) := by exact_mod_cast lower
  have upper : Spec.total (ascetime rnd n) < (n : Int) + 1 := by exact_mod_cast upper
  omega

/-- The value of the rounding from the exponent. -/
theorem double_eq (x : ℚ) (e : Int) (k : Int) (hx : 0 < x) (h1 : (2 : ℚ) ^ e ≤ x) (h2 : x < 2 ^ (e + 1))
    (h3 : |x / 2 ^ (e - 52) - k| < 1 / 2) : double x = k * 2 ^ (e - 52) := by
  have hl : Int.log 2 x = e := by
    apply le_antisymm
    · have := (Int.lt_zpow_iff_log_lt (b := 2) (by norm_num) (x := e + 1) hx).1 (by exact_mod_cast h2)
      omega
    · exact (Int.zpow_le_iff_le_log (b := 2) (by norm_num) hx).1 (by exact_mod_cast h1)
  have hk : round (x / 2 ^ (e - 52)) = k := by
    rw [round_eq, Int.floor_eq_iff]
    have := abs_lt.1 h3
    constructor <;> linarith
  rw [double, hl, hk]

/-- **C142** (the documented example). For 33 minutes and 21 seconds the documentation promises 0h33:21. With doubles it is 0h33:20. -/
theorem C142_wrong : ascetime double (33 * 60 + 21) = (0, 33, 20) := by
  have hh : hours double (33 * 60 + 21) = 5006501585760201 / 2 ^ 53 := by
    unfold hours
    rw [double_eq _ (-1) 5006501585760201 (by norm_num) (by norm_num) (by norm_num) (by norm_num [abs_lt])]
    norm_num
  have fh : ⌊hours double (33 * 60 + 21)⌋ = 0 := by
    rw [hh, Int.floor_eq_iff]
    norm_num
  have hm : minutes double (33 * 60 + 21) = 4693595236650188 / 2 ^ 47 := by
    unfold minutes frac
    rw [fh, hh, double_eq _ 5 4693595236650188 (by norm_num) (by norm_num) (by norm_num) (by norm_num [abs_lt])]
    norm_num
  have fm : ⌊minutes double (33 * 60 + 21)⌋ = 33 := by
    rw [hm, Int.floor_eq_iff]
    norm_num
  have hs : seconds double (33 * 60 + 21) = 5910974510923680 / 2 ^ 48 := by
    unfold seconds frac
    rw [fm, hm, double_eq _ 4 5910974510923680 (by norm_num) (by norm_num) (by norm_num) (by norm_num [abs_lt])]
    norm_num
  have fs : ⌊seconds double (33 * 60 + 21)⌋ = 20 := by
    rw [hs, Int.floor_eq_iff]
    norm_num
  rw [ascetime, fh, fm, fs]

/-! ### Cases that meet the hypotheses -/

/-- Precise roundings: none, and that of doubles. -/
example : Spec.Precise id ∧ Spec.Precise double := ⟨fun x hx => by simp; positivity, double_precise⟩

example : Spec.total (0, 33, 20) = 33 * 60 + 21 - 1 := by decide

/-- Both cases of `C142_near_partial` occur. -/
example : Spec.total (ascetime id (2001 : Nat)) = 2001 ∧ Spec.total (ascetime double (33 * 60 + 21)) = 2000 := by
  refine ⟨(C142_exact _).1.trans (by simp), by rw [C142_wrong]; rfl⟩

end PyClock
