import Verif.Lemmas.Schwefel
import Verif.Props.Bbob

/-!
# The Schwefel problem of the bbob suite: C86
-/

namespace Bbob
open Classical Transform

variable {n : Nat}

namespace Spec

/-- The recorded best parameter lies in the region of interest `[-5, 5]`, the recorded best value is `v` up to `1e-13`,
the value at the best parameter is the recorded one up to `1e-13`, the function can be evaluated at every point (no
assertion fails), and no value is below the recorded one by more than `1e-13`. -/
def NearlyKnown (P : Prob n) (v : ℝ) : Prop :=
  P.lo = (fun _ => -5) ∧ P.hi = (fun _ => 5) ∧ ∃ p w, P.bestParam = some p ∧ (∀ i, -5 ≤ p i ∧ p i ≤ 5) ∧
    P.bestValue = some w ∧ |w - v| ≤ 1 / 10 ^ 13 ∧ (∃ y, P.eval p = .ok y ∧ |y - w| ≤ 1 / 10 ^ 13) ∧
    ∀ x, ∃ y, P.eval x = .ok y ∧ w - 1 / 10 ^ 13 ≤ y

end Spec

/-- The problem has the values of `F` and the best value `w`, and its assertion holds everywhere. -/
structure Evals (P : Prob n) (F : Vec n → ℝ) (w : ℝ) : Prop where
  value : P.bestValue = some w
  eval : ∀ x, P.eval x = .ok (F x)
  above : ∀ x, w ≤ F x + 1 / 10 ^ 13

theorem check_near {w y : ℝ} (h : w ≤ y + 1 / 10 ^ 13) : Transform.check (some w) y = Res.ok y := if_pos h

theorem Evals.via {P Q : Prob n} {F : Vec n → ℝ} {w : ℝ} (h : Evals P F w) (g : Vec n → Vec n)
    (hv : Q.bestValue = P.bestValue) (he : ∀ x, Q.eval x = Transform.via P g x) : Evals Q (fun x => F (g x)) w := by
  refine ⟨hv.trans h.value, fun x => ?_, fun x => h.above (g x)⟩
  rw [he]
  unfold Transform.via
  rw [h.eval, Res.ok_bind, h.value, check_near (h.above _)]

theorem Evals.shift {P : Prob n} {F : Vec n → ℝ} {w : ℝ} (h : Evals P F w) (v : ℝ) :
    Evals (objShift v P) (fun x => F x + v) (w + v) := by
  refine ⟨by simp only [objShift, h.value]; rfl, fun x => ?_, fun x => by linarith [h.above x]⟩
  simp only [objShift, h.value, h.eval, Res.ok_bind, Option.map_some]
  exact check_near (by linarith [h.above x])

/-! ### The function -/

theorem schwefel_eq (hn : 2 ≤ n) (x : Vec n) : schwefel x =
    0.01 * (418.9828872724339 - (∑ i, (x i * Real.sin (Real.sqrt |x i|) - n * Schwefel.penalty (x i))) / n) := by
  have h0 : (n : ℝ) ≠ 0 := by
    have : (2 : ℝ) ≤ n := by exact_mod_cast hn
    linarith
  unfold schwefel Schwefel.penalty
  rw [Finset.sum_sub_distrib, ← Finset.mul_sum, sub_div, mul_div_cancel_left₀ _ h0]
  ring

theorem schwefel_best (hn : 2 ≤ n) : schwefel (fun _ : Fin n => (420.96874633 : ℝ)) =
    0.01 * (418.9828872724339 - Schwefel.x0 * Real.sin (Real.sqrt |Schwefel.x0|)) := by
  have h0 : (n : ℝ) ≠ 0 := by
    have : (2 : ℝ) ≤ n := by exact_mod_cast hn
    linarith
  have hp : Schwefel.penalty 420.96874633 = 0 := if_neg (by rw [abs_of_pos (by norm_num)]; norm_num)
  rw [schwefel_eq hn]
  simp only [hp, mul_zero, sub_zero, Finset.sum_const, Finset.card_univ, Fintype.card_fin, nsmul_eq_mul]
  rw [mul_div_cancel_left₀ _ h0]
  rfl

theorem schwefel_above (hn : 2 ≤ n) (x : Vec n) :
    schwefel (fun _ : Fin n => (420.96874633 : ℝ)) ≤ schwefel x + 1 / 10 ^ 13 := by
  have h1 : (2 : ℝ) ≤ n := by exact_mod_cast hn
  rw [schwefel_best hn, schwefel_eq hn]
  have h2 : (∑ i, (x i * Real.sin (Real.sqrt |x i|) - n * Schwefel.penalty (x i))) / n ≤
      Schwefel.x0 * Real.sin (Real.sqrt |Schwefel.x0|) + 1 / 10 ^ 11 := by
    rw [div_le_iff₀ (by linarith)]
    calc _ ≤ ∑ _i : Fin n, (Schwefel.x0 * Real.sin (Real.sqrt |Schwefel.x0|) + 1 / 10 ^ 11) :=
          Finset.sum_le_sum fun i _ => Schwefel.coordinate (x i) (by linarith)
      _ = _ := by simp; ring
  norm_num at h2 ⊢
  linarith

theorem schwefel_close (hn : 2 ≤ n) (x : Vec n) (hx : ∀ i, |x i - 420.96874633| ≤ 1 / 10 ^ 6) :
    |schwefel x - schwefel (fun _ : Fin n => (420.96874633 : ℝ))| ≤ 1 / 10 ^ 13 := by
  have h1 : (2 : ℝ) ≤ n := by exact_mod_cast hn
  have hc : ∀ i, abs (x i * Real.sin (Real.sqrt |x i|) - Schwefel.x0 * Real.sin (Real.sqrt |Schwefel.x0|)) ≤
      1 / 10 ^ 11 := fun i => Schwefel.close (hx i)
  have hp : ∀ i, Schwefel.penalty (x i) = 0 := by
    intro i
    have := abs_le.1 (hx i)
    norm_num at this
    refine if_neg ?_
    rw [abs_of_nonneg (by linarith)]
    linarith
  rw [schwefel_best hn, schwefel_eq hn]
  simp only [hp, mul_zero, sub_zero]
  generalize Schwefel.x0 * Real.sin (Real.sqrt |Schwefel.x0|) = g at *
  have e : (∑ i, x i * Real.sin (Real.sqrt |x i|)) / n - g = (∑ i, (x i * Real.sin (Real.sqrt |x i|) - g)) / n := by
    rw [Finset.sum_sub_distrib]
    simp only [Finset.sum_const, Finset.card_univ, Fintype.card_fin, nsmul_eq_mul]
    rw [sub_div, mul_div_cancel_left₀ _ (by linarith)]
  have h2 : |(∑ i, x i * Real.sin (Real.sqrt |x i|)) / n - g| ≤ 1 / 10 ^ 11 := by
    rw [e, abs_div, abs_of_nonneg (by linarith : (0 : ℝ) ≤ n), div_le_iff₀ (by linarith)]
    calc _ ≤ ∑ i, abs (x i * Real.sin (Real.sqrt |x i|) - g) := Finset.abs_sum_le_sum_abs _ _
      _ ≤ ∑ _i : Fin n, (1 / 10 ^ 11 : ℝ) := Finset.sum_le_sum fun i _ => hc i
      _ = _ := by simp [mul_comm]
  rw [abs_le] at h2 ⊢
  norm_num at h2 ⊢
  constructor <;> linarith

/-! ### The problem -/

/-- C86: for every instance and every dimension from 2 on, Schwefel's problem (function 20) can be created, and its
recorded optimum is right up to `1e-13`. -/
theorem C86_schwefel (t : Template) (inst n : Nat) (hi : inst ≤ 10 ^ 10) (hn : 2 ≤ n) :
    ∃ P v, get t 20 inst n = .ok P ∧ Legacy.computeFopt 20 inst = .ok v ∧ Spec.NearlyKnown P v := by
  obtain ⟨v, ev⟩ := fopt_ok 20 inst (by omega) hi
  have hs : ((20 : Nat) + 10000 * inst : Int).natAbs < 2 ^ 31 * 127773 := by omega
  obtain ⟨us, eu, -, -⟩ := Legacy.C44_range n _ hs
  have h1 : n ≠ 1 := by omega
  have habs : ∀ i : Fin n, 2 * |(if (vec us : Vec n) i < 0.5 then (-1 : ℝ) else 1) * 0.5 * 4.2096874637| =
      4.2096874637 := by
    intro i
    split_ifs
    · rw [abs_of_neg (by norm_num)]; norm_num
    · rw [abs_of_pos (by norm_num)]; norm_num
  have habs' : ∀ i : Fin n, -2 * |(if (vec us : Vec n) i < 0.5 then (-1 : ℝ) else 1) * 0.5 * 4.2096874637| =
      -4.2096874637 := by
    intro i
    have := habs i
    linarith
  generalize hxopt : (fun i : Fin n => (if (vec us : Vec n) i < 0.5 then (-1 : ℝ) else 1) * 0.5 * 4.2096874637) = xopt
  have hx : ∀ i, 2 * |xopt i| = 4.2096874637 := by intro i; rw [← hxopt]; exact habs i
  generalize hu : (vec us : Vec n) = u
  let P0 : Prob n := ⟨fun x => check (some (schwefel fun _ : Fin n => 420.96874633)) (schwefel x), fun _ => -5, fun _ => 5,
    some fun _ => 420.96874633, some (schwefel fun _ : Fin n => 420.96874633)⟩
  have E0 : Evals P0 schwefel (schwefel fun _ : Fin n => 420.96874633) :=
    ⟨rfl, fun x => check_near (schwefel_above hn x), schwefel_above hn⟩
  let P1 := varsScale 100 P0
  have E1 := E0.via (Q := P1) (fun x i => 100 * x i) rfl fun x => rfl
  let P2 := varsShift (fun _ => -4.2096874637) P1
  have E2 := E1.via (Q := P2) (fun x i => x i - -4.2096874637) rfl fun x => rfl
  let P3 := conditioning 10 P2
  have E3 := E2.via (Q := P3) (fun x i => (10 : ℝ) ^ (0.5 * (i : ℝ) / ((n : ℝ) - 1)) * x i) rfl fun x => if_neg h1
  let P4 := varsShift (fun _ => 4.2096874637) P3
  have E4 := E3.via (Q := P4) (fun x i => x i - 4.2096874637) rfl fun x => rfl
  let P5 := zHat xopt true P4
  have E5 := E4.via (Q := P5) (zMap xopt) rfl fun x => rfl
  let P6 := varsScale 2 P5
  have E6 := E5.via (Q := P6) (fun x i => 2 * x i) rfl fun x => rfl
  let P7 := xHat u P6
  have E7 := E6.via (Q := P7) (signs u) rfl fun x => rfl
  have E8 := E7.shift v
  have hP6 : P6.bestParam = some fun _ => 2.10484373165 := by
    show (if (2 : ℝ) ≠ 0 then P5.bestParam.map (fun p i => p i / 2) else P5.bestParam) = _
    rw [if_pos (by norm_num)]
    have : P5.bestParam = some fun _ => 4.2096874633 := by
      have h1 : P1.bestParam = some fun _ => 4.2096874633 := by
        show (if (100 : ℝ) ≠ 0 then P0.bestParam.map (fun p i => p i / 100) else P0.bestParam) = _
        rw [if_pos (by norm_num)]
        show some (fun _ => (420.96874633 : ℝ) / 100) = _
        norm_num
      show (P1.bestParam.map fun p i => p i + -4.2096874637).map (fun p i => p i + 4.2096874637) = _
      rw [h1]
      simp only [Option.map_some]
      norm_num
    rw [this]
    simp only [Option.map_some]
    norm_num
  have hP7 : P7.bestParam = some (signs u fun _ => 2.10484373165) := by
    show (if bestNotZero P6.bestParam then P6.bestParam.map (signs u) else P6.bestParam) = _
    rw [hP6]
    refine if_pos ?_
    intro h
    have := h ⟨0, by omega⟩
    rw [abs_of_pos (by norm_num)] at this
    norm_num at this
  have hsg : signs u (signs u fun _ => (2.10484373165 : ℝ)) = fun _ => 2.10484373165 := by
    funext i
    unfold signs
    split_ifs <;> norm_num
  refine ⟨objShift v P7, v, ?_, ev, rfl, rfl, signs u fun _ => 2.10484373165,
    schwefel (fun _ : Fin n => (420.96874633 : ℝ)) + v, hP7, ?_, E8.value, ?_, ?_, ?_⟩
  · show schwefelProblem 20 inst ((20 : Nat) + 10000 * inst) n = _
    unfold schwefelProblem
    rw [ev, Res.ok_bind, eu, Res.ok_bind]
    have ea : allocate false schwefel (fun _ : Fin n => (420.96874633 : ℝ)) = .ok P0 := rfl
    dsimp only
    rw [ea, Res.ok_bind]
    simp only [habs, habs']
    rw [hxopt, hu]
    rfl
  · intro i
    unfold signs
    split_ifs <;> norm_num
  · rw [add_sub_cancel_right, schwefel_best hn]
    have e0 : Real.sin (Real.sqrt |Schwefel.x0|) = Real.sin Schwefel.s0 := by
      rw [abs_of_pos (by unfold Schwefel.x0; norm_num)]
      rfl
    have := abs_le.1 Schwefel.peak_value
    rw [e0, abs_le]
    norm_num at this ⊢
    constructor <;> linarith
  · refine ⟨_, E8.eval _, ?_⟩
    rw [add_sub_add_right_eq_sub, hsg]
    apply schwefel_close hn
    intro i
    have hfac : (1 : ℝ) ≤ 10 ^ (0.5 * (i : ℝ) / ((n : ℝ) - 1)) ∧ (10 : ℝ) ^ (0.5 * (i : ℝ) / ((n : ℝ) - 1)) ≤ 10 := by
      have hc := cast_sub_one_pos hn
      have hi' : (i : ℝ) ≤ (n : ℝ) - 1 := by
        have : (i.1 : ℝ) + 1 ≤ n := by exact_mod_cast i.2
        linarith
      have h0 : (0 : ℝ) ≤ 0.5 * (i : ℝ) / ((n : ℝ) - 1) := by positivity
      have h2 : 0.5 * (i : ℝ) / ((n : ℝ) - 1) ≤ 1 := by
        rw [div_le_one hc]
        have : (0 : ℝ) ≤ i := by positivity
        linarith
      refine ⟨Real.one_le_rpow (by norm_num) h0, ?_⟩
      calc (10 : ℝ) ^ (0.5 * (i : ℝ) / ((n : ℝ) - 1)) ≤ 10 ^ (1 : ℝ) :=
            Real.rpow_le_rpow_of_exponent_le (by norm_num) h2
        _ = 10 := Real.rpow_one 10
    have hz : ∃ e : ℝ, zMap xopt (fun _ : Fin n => 2 * (2.10484373165 : ℝ)) i = 4.2096874637 - e ∧ 0 ≤ e ∧
        e ≤ 1 / 10 ^ 9 := by
      unfold zMap
      split_ifs
      · rw [hx]
        exact ⟨5 / 10 ^ 10, by norm_num, by norm_num, by norm_num⟩
      · exact ⟨4 / 10 ^ 10, by norm_num, by norm_num, by norm_num⟩
    obtain ⟨e, he, he0, he1⟩ := hz
    dsimp only
    rw [he]
    generalize (10 : ℝ) ^ (0.5 * (i : ℝ) / ((n : ℝ) - 1)) = a at *
    have hb : a * (4.2096874637 - e - 4.2096874637) = -(a * e) := by ring
    have hae : a * e ≤ 10 * (1 / 10 ^ 9) := mul_le_mul hfac.2 he1 he0 (by norm_num)
    have hae0 : 0 ≤ a * e := mul_nonneg (by linarith) he0
    rw [hb, abs_le]
    norm_num at hae ⊢
    constructor <;> linarith
  · intro x
    exact ⟨_, E8.eval x, by linarith [E8.above x]⟩

example : ∃ P v, get .bbob 20 1 40 = .ok P ∧ Legacy.computeFopt 20 1 = .ok v ∧ Spec.NearlyKnown P v :=
  C86_schwefel .bbob 1 40 (by norm_num) (by omega)

end Bbob
