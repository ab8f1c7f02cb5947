import Verif.Model.Box
import Mathlib.Tactic.NormNum

/-!
# Boxed problems: C53
-/

namespace Box

namespace Spec

/-- Every coordinate is a number within its bounds (infinite coordinates are outside a box with finite bounds). -/
def Inside (P : Prob) (x : List Dbl) : Prop :=
  ∀ i (hi : i < x.length) (h1 : i < P.lo.length) (h2 : i < P.hi.length),
    (P.lo[i]).le x[i] = true ∧ (x[i]).le P.hi[i] = true

/-- A box with finite bounds for `n` coordinates. -/
structure FiniteBox (P : Prob) (n : Nat) : Prop where
  lo : P.lo.length = n
  hi : P.hi.length = n
  loFin : ∀ d ∈ P.lo, d.isFinite = true
  hiFin : ∀ d ∈ P.hi, d.isFinite = true

/-- The inner function has the recorded best value as a lower bound inside the box (at least where feasible). -/
def Bounded (P : Prob) : Prop :=
  ∀ x, (∀ d ∈ x, d.isFinite = true) → Inside P x → P.best.le (P.inner x) = true

end Spec

theorem violated_iff : ∀ (x l h : List Dbl), l.length = x.length → h.length = x.length →
    (∀ d ∈ x, d.isNan = false) → (∀ d ∈ l, d.isNan = false) → (∀ d ∈ h, d.isNan = false) →
    (violated x l h = false ↔ ∀ i (hi : i < x.length) (h1 : i < l.length) (h2 : i < h.length),
      (l[i]).le x[i] = true ∧ (x[i]).le h[i] = true)
  | [], [], [], _, _, _, _, _ => by simp [violated]
  | x :: xs, l :: ls, h :: hs, e1, e2, nx, nl, nh => by
    have ih := violated_iff xs ls hs (by simpa using e1) (by simpa using e2) (fun d hd => nx d (by simp [hd]))
      (fun d hd => nl d (by simp [hd])) (fun d hd => nh d (by simp [hd]))
    have hx := nx x (by simp)
    have hl := nl l (by simp)
    have hh := nh h (by simp)
    have key : (x.lt l || h.lt x) = false ↔ l.le x = true ∧ x.le h = true := by
      rw [Bool.or_eq_false_iff]
      constructor
      · rintro ⟨a, b⟩; exact ⟨Dbl.le_of_not_lt hx hl a, Dbl.le_of_not_lt hh hx b⟩
      · rintro ⟨a, b⟩; exact ⟨Dbl.not_lt_of_le a, Dbl.not_lt_of_le b⟩
    unfold violated
    constructor
    · intro hv
      by_cases hc : (x.lt l || h.lt x) = true
      · rw [if_pos hc] at hv; exact absurd hv (by simp)
      · rw [if_neg hc] at hv
        have hc := key.mp (by simpa using hc)
        intro i hi h1 h2
        cases i with
        | zero => exact hc
        | succ i => exact ih.mp hv i (by simpa using hi) (by simpa using h1) (by simpa using h2)
    · intro hv
      have hc := key.mpr (hv 0 (by simp) (by simp) (by simp))
      rw [hc]
      simp only [Bool.false_eq_true, if_false]
      exact ih.mpr fun i hi h1 h2 => hv (i + 1) (by simpa using hi) (by simpa using h1) (by simpa using h2)

theorem le_addRat {a b : Dbl} (h : a.le b = true) : a.le (b.addRat (1 / 10 ^ 13)) = true := by
  cases a <;> cases b <;> simp_all [Dbl.le, Dbl.addRat]
  exact le_trans h (by norm_num)

theorem not_nan_of_finite {l : List Dbl} (h : ∀ d ∈ l, d.isFinite = true) : ∀ d ∈ l, d.isNan = false :=
  fun d hd => ((Dbl.isFinite_iff d).mp (h d hd)).1

theorem any_nan {x : List Dbl} (h : ∀ d ∈ x, d.isNan = false) : x.any Dbl.isNan = false := by
  rw [List.any_eq_false]; intro d hd; simp [h d hd]

theorem evaluateFunction_finite (P : Prob) (x : List Dbl) (B : Spec.FiniteBox P x.length) (hb : Spec.Bounded P)
    (hx : ∀ d ∈ x, d.isFinite = true) :
    (Spec.Inside P x → evaluateFunction P x = .ok ⟨P.inner x, [x]⟩) ∧
    (¬ Spec.Inside P x → evaluateFunction P x = .ok ⟨.pinf, []⟩) := by
  have hn := any_nan (not_nan_of_finite hx)
  have hinf : x.find? Dbl.isInf = none := by
    rw [List.find?_eq_none]; intro d hd; simp [((Dbl.isFinite_iff d).mp (hx d hd)).2]
  have hv := violated_iff x P.lo P.hi B.lo B.hi (not_nan_of_finite hx) (not_nan_of_finite B.loFin)
    (not_nan_of_finite B.hiFin)
  have hs : ∀ f, screened f x = f x := by intro f; unfold screened; rw [hinf]; simp [hn]
  constructor
  · intro hin
    unfold evaluateFunction
    have hchk : check P.best ⟨P.inner x, [x]⟩ = .ok ⟨P.inner x, [x]⟩ := by
      unfold check; rw [if_pos (le_addRat (hb x hx hin))]
    simp only [hn, hv.mpr hin, hs, Res.ok_bind, Bool.false_eq_true, if_false]
    split
    · split
      · exact hchk
      · rfl
    · exact hchk
  · intro hout
    have hvt : violated x P.lo P.hi = true := by
      rw [← Bool.not_eq_false]; exact fun h => hout (hv.mp h)
    unfold evaluateFunction
    simp [hn, hvt]

/-- **C53** For every point with as many coordinates as the problem has, where the box has finite bounds and the inner
function does not go below the recorded best value inside the box:

- a point of finite numbers inside the box has the value of the inner function, which is called once, at this point;
- any other point without NaN (outside, or with an infinite coordinate) has the value infinity and the inner function
  is not called;
- a point with a NaN and no infinite coordinate has the value NaN and the inner function is not called. -/
theorem C53_boxed (P : Prob) (x : List Dbl) (B : Spec.FiniteBox P x.length) (hb : Spec.Bounded P) :
    ((∀ d ∈ x, d.isFinite = true) → Spec.Inside P x → evaluate P x = .ok ⟨P.inner x, [x]⟩) ∧
    ((∀ d ∈ x, d.isNan = false) → ¬ Spec.Inside P x → evaluate P x = .ok ⟨.pinf, []⟩) ∧
    ((∃ d ∈ x, d.isInf = true) → evaluate P x = .ok ⟨.pinf, []⟩) ∧
    ((∃ d ∈ x, d.isNan = true) → (∀ d ∈ x, d.isInf = false) → evaluate P x = .ok ⟨.nan, []⟩) := by
  have hfin : (∀ d ∈ x, d.isFinite = true) → evaluate P x = evaluateFunction P x := by
    intro hx
    have hinf : x.find? Dbl.isInf = none := by
      rw [List.find?_eq_none]; intro d hd; simp [((Dbl.isFinite_iff d).mp (hx d hd)).2]
    unfold evaluate screened
    rw [hinf]
    simp [any_nan (not_nan_of_finite hx)]
  have hI : (∃ d ∈ x, d.isInf = true) → evaluate P x = .ok ⟨.pinf, []⟩ := by
    rintro ⟨d, hd, hi⟩
    have : (x.find? Dbl.isInf).isSome := by rw [List.find?_isSome]; exact ⟨d, hd, hi⟩
    obtain ⟨e, he⟩ := Option.isSome_iff_exists.mp this
    have hei := List.find?_some he
    unfold evaluate screened
    rw [he]
    cases e <;> simp_all [absInf, Dbl.isInf]
  refine ⟨fun hx hin => ?_, fun hn hout => ?_, hI, fun hnan hinf => ?_⟩
  · rw [hfin hx]; exact (evaluateFunction_finite P x B hb hx).1 hin
  · by_cases hi : ∃ d ∈ x, d.isInf = true
    · exact hI hi
    · push Not at hi
      have hx : ∀ d ∈ x, d.isFinite = true := fun d hd => (Dbl.isFinite_iff d).mpr ⟨hn d hd, by simpa using hi d hd⟩
      rw [hfin hx]; exact (evaluateFunction_finite P x B hb hx).2 hout
  · have hf : x.find? Dbl.isInf = none := by
      rw [List.find?_eq_none]; intro d hd; simp [hinf d hd]
    have : x.any Dbl.isNan = true := by rw [List.any_eq_true]; exact hnan
    unfold evaluate screened
    rw [hf]
    simp [this]

/-- A boxed problem of two variables with a point inside, one on the boundary, one outside. -/
def sample : Prob := ⟨[.fin (-5), .fin (-5)], [.fin 5, .fin 5], .fin 1, fun _ => .fin 3, none⟩

example : Spec.FiniteBox sample [Dbl.fin 1, .fin 5].length ∧ Spec.Bounded sample := by
  refine ⟨⟨rfl, rfl, ?_, ?_⟩, fun x _ _ => by
    show Dbl.le (.fin 1) (.fin 3) = true; decide +kernel⟩ <;> decide

example : evaluate sample [.fin 1, .fin 5] = .ok ⟨.fin 3, [[.fin 1, .fin 5]]⟩ ∧
    evaluate sample [.fin 1, .fin (51 / 10)] = .ok ⟨.pinf, []⟩ ∧
    evaluate sample [.ninf, .fin 0] = .ok ⟨.pinf, []⟩ ∧
    evaluate sample [.nan, .fin 0] = .ok ⟨.nan, []⟩ := by decide +kernel

end Box
