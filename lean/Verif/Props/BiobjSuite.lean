import Verif.Model.BiobjSuite
import Verif.Props.Biobj
import Verif.Props.Mixint

/-!
# The problems of the bi-objective suites: C92, C93
-/

namespace BiobjSuite
open Classical Transform

variable {n : Nat}

namespace Spec

/-- The point can be evaluated and no point is at least as good in both objectives and better in one of them. -/
def ParetoOptimal (P : Problem n) (x : Vec n) : Prop :=
  ∃ a b, P.eval x = .ok (a, b) ∧ ¬ ∃ z c d, P.eval z = .ok (c, d) ∧ c ≤ a ∧ d ≤ b ∧ (c < a ∨ d < b)

/-- The ideal and the nadir point of a problem are right, up to `e1` in the first and `e2` in the second objective:

- the ideal point consists of the optimal values `v1` and `v2`, the nadir point of the value of the first objective at the
  solution `p2` and that of the second at `p1`, where `p1` attains the first component of the ideal point and `p2` the
  second;
- every point can be evaluated and is not better than the ideal point in any objective;
- every Pareto-optimal point is not worse than the nadir point in any objective; if `e1` and `e2` are 0, there is no
  exception, otherwise it may be worse in one if it attains the ideal point in the other. -/
def Sound (P : Problem n) (p1 p2 : Vec n) (v1 v2 e1 e2 : ℝ) : Prop :=
  ∃ w1 w2 n1 n2, P.ideal = (some w1, some w2) ∧ |w1 - v1| ≤ e1 ∧ |w2 - v2| ≤ e2 ∧ P.nadir = (some n1, some n2) ∧
    (∃ y, P.eval p1 = .ok (y, n2) ∧ |y - w1| ≤ e1) ∧ (∃ y, P.eval p2 = .ok (n1, y) ∧ |y - w2| ≤ e2) ∧
    (∀ x, ∃ a b, P.eval x = .ok (a, b) ∧ w1 - e1 ≤ a ∧ w2 - e2 ≤ b) ∧
    ∀ x, ParetoOptimal P x → ∃ a b, P.eval x = .ok (a, b) ∧
      (a ≤ n1 ∨ 0 < e2 ∧ b < w2 + e2) ∧ (b ≤ n2 ∨ 0 < e1 ∧ a < w1 + e1)

/-- The recorded optimum of Schwefel's function (number 20) is right up to `1e-13`, those of the others exactly. -/
noncomputable def tolerance (function : Nat) : ℝ := if function = 20 then 1 / 10 ^ 13 else 0

/-- If the function has rotations, they can be computed: at most 44 variables and regular random matrices. -/
def Usable (function inst n : Nat) : Prop :=
  Bbob.Spec.Rotated function → n ≤ 44 ∧ Bbob.Spec.Regular (Bbob.Spec.seed function inst) n ∧
    Bbob.Spec.Regular (Bbob.Spec.seed function inst + 1000000) n

end Spec

/-- The recorded optimum of a single-objective problem is right up to `e`. -/
def Near (P : Prob n) (p : Vec n) (v e : ℝ) : Prop :=
  P.bestParam = some p ∧ ∃ w, P.bestValue = some w ∧ |w - v| ≤ e ∧ (∃ y, P.eval p = .ok y ∧ |y - w| ≤ e) ∧
    ∀ x, ∃ y, P.eval x = .ok y ∧ w - e ≤ y

theorem near_of_optimal {P : Prob n} {p : Vec n} {v : ℝ} (h : Transform.Spec.Optimal P p v) : Near P p v 0 :=
  ⟨h.param, v, h.value, by simp, ⟨v, h.attained, by simp⟩, fun x => by simpa using h.minimal x⟩

theorem stacked_sound {P1 P2 : Prob n} {p1 p2 : Vec n} {v1 v2 e1 e2 : ℝ} (h1 : Near P1 p1 v1 e1) (h2 : Near P2 p2 v2 e2)
    (lo hi : Vec n) : ∃ P, stacked P1 P2 lo hi = .ok P ∧ P.lo = lo ∧ P.hi = hi ∧ P.first = P1 ∧ P.second = P2 ∧
      Spec.Sound P p1 p2 v1 v2 e1 e2 := by
  obtain ⟨b1, w1, hw1, d1, ⟨y1, hy1, dy1⟩, m1⟩ := h1
  obtain ⟨b2, w2, hw2, d2, ⟨y2, hy2, dy2⟩, m2⟩ := h2
  obtain ⟨n1, hn1, -⟩ := m1 p2
  obtain ⟨n2, hn2, -⟩ := m2 p1
  unfold stacked evalAt
  rw [b1, b2]
  dsimp only
  rw [hn1, Res.ok_bind, Res.ok_bind, hn2, Res.ok_bind, Res.ok_bind]
  have ev : ∀ x, ∃ a b, P1.eval x = .ok a ∧ P2.eval x = .ok b ∧
      ((P1.eval x).bind fun y1 => (P2.eval x).bind fun y2 => Res.ok (y1, y2)) = .ok (a, b) ∧
      w1 - e1 ≤ a ∧ w2 - e2 ≤ b := by
    intro x
    obtain ⟨a, ha, la⟩ := m1 x
    obtain ⟨b, hb, lb⟩ := m2 x
    exact ⟨a, b, ha, hb, by rw [ha, Res.ok_bind, hb, Res.ok_bind], la, lb⟩
  have hp1 : ((P1.eval p1).bind fun y1 => (P2.eval p1).bind fun y2 => Res.ok (y1, y2)) = .ok (y1, n2) := by
    rw [hy1, Res.ok_bind, hn2, Res.ok_bind]
  have hp2 : ((P1.eval p2).bind fun y1 => (P2.eval p2).bind fun y2 => Res.ok (y1, y2)) = .ok (n1, y2) := by
    rw [hn1, Res.ok_bind, hy2, Res.ok_bind]
  have k1 : y1 ≤ w1 + e1 := by linarith [(abs_le.mp dy1).2]
  have k2 : y2 ≤ w2 + e2 := by linarith [(abs_le.mp dy2).2]
  refine ⟨_, rfl, rfl, rfl, rfl, rfl, w1, w2, n1, n2, by rw [hw1, hw2], d1, d2, rfl, ⟨y1, hp1, dy1⟩, ⟨y2, hp2, dy2⟩,
    fun x => ?_, fun x hx => ?_⟩
  · obtain ⟨a, b, -, -, h, la, lb⟩ := ev x
    exact ⟨a, b, h, la, lb⟩
  · obtain ⟨a, b, h, hnd⟩ := hx
    obtain ⟨a', b', -, -, h', la, lb⟩ := ev x
    obtain ⟨rfl, rfl⟩ := Prod.mk.inj (Res.ok.inj (h.symm.trans h'))
    refine ⟨a, b, h, ?_, ?_⟩
    · by_contra hc
      push Not at hc
      obtain ⟨hn, hc⟩ := hc
      have he : 0 ≤ e2 := le_trans (abs_nonneg _) d2
      rcases he.eq_or_lt with he | he
      · exact hnd ⟨p2, n1, y2, hp2, hn.le, by rw [← he] at k2 lb; linarith, Or.inl hn⟩
      · exact hnd ⟨p2, n1, y2, hp2, hn.le, by linarith [hc he], Or.inl hn⟩
    · by_contra hc
      push Not at hc
      obtain ⟨hn, hc⟩ := hc
      have he : 0 ≤ e1 := le_trans (abs_nonneg _) d1
      rcases he.eq_or_lt with he | he
      · exact hnd ⟨p1, y1, n2, hp1, by rw [← he] at k1 la; linarith, hn.le, Or.inr hn⟩
      · exact hnd ⟨p1, y1, n2, hp1, by linarith [hc he], hn.le, Or.inr hn⟩

theorem bbob_near (function inst : Nat) (h1 : 1 ≤ function) (hf : function ≤ 24) (hi : inst ≤ 10 ^ 10) (hn : 2 ≤ n)
    (hr : Spec.Usable function inst n) : ∃ P p v, Bbob.get .bbob function inst n = .ok P ∧
      Legacy.computeFopt function inst = .ok v ∧ Near P p v (Spec.tolerance function) ∧
      (∀ i, -5 ≤ p i ∧ p i ≤ 5) ∧ P.lo = (fun _ => -5) ∧ P.hi = fun _ => 5 := by
  by_cases h20 : function = 20
  · subst h20
    obtain ⟨P, v, eP, ev, hl, hh, p, w, hp, hbox, hw, hd, hy, hm⟩ := Bbob.C86_schwefel .bbob inst n hi hn
    refine ⟨P, p, v, eP, ev, ⟨hp, w, hw, ?_, ?_, ?_⟩, hbox, hl, hh⟩ <;> unfold Spec.tolerance <;>
      rw [if_pos rfl] <;> assumption
  · obtain ⟨P, v, eP, ev, hl, hh, p, ho, hbox⟩ := Bbob.optimum_known .bbob function inst n h1 hf h20 hi hn hr
    refine ⟨P, p, v, eP, ev, ?_, hbox, hl, hh⟩
    unfold Spec.tolerance
    rw [if_neg h20]
    exact near_of_optimal ho

/-- The numbers of the two functions are bbob functions in increasing order, and equal only for the ten selected ones. -/
theorem functions_range (function f1 f2 : Nat) (h : Biobj.functions function = .ok (f1, f2)) :
    1 ≤ f1 ∧ f1 ≤ f2 ∧ f2 ≤ 24 ∧ (f1 = f2 → f1 ∈ Biobj.Spec.ten) := by
  have hrange : 1 ≤ function ∧ function ≤ 92 := by
    by_contra hc
    rw [Biobj.C59_numbers.2 function (by omega)] at h
    simp at h
  rw [Biobj.functions_eq] at h
  have hall : ∀ k < 92, ∀ p, Biobj.functionsC (k + 1) = .ok p →
      1 ≤ p.1 ∧ p.1 ≤ p.2 ∧ p.2 ≤ 24 ∧ (p.1 = p.2 → p.1 ∈ Biobj.Spec.ten) := by
    have hdec : ∀ k < 92, (match Biobj.functionsC (k + 1) with
      | .ok p => decide (1 ≤ p.1 ∧ p.1 ≤ p.2 ∧ p.2 ≤ 24 ∧ (p.1 = p.2 → p.1 ∈ Biobj.Spec.ten))
      | _ => true) = true := by decide +kernel
    intro k hk p hp
    have := hdec k hk
    rw [hp] at this
    exact of_decide_eq_true this
  exact hall (function - 1) (by omega) (f1, f2) (by rw [← h]; congr 1; omega)

/-- **C92** For every function of the suites bbob-biobj and bbob-biobj-ext, every instance for which two instances of the bbob
functions are found and every dimension from 2 on: the problem can be created; its region of interest is `[-100, 100]`; the
ideal and the nadir point are right, the extreme solutions lie in `[-5, 5]`, and the optimal values of the objectives are those
computed from the two functions and instances. -/
theorem C92_points (count : Nat) (dims : List Nat) (function inst n f1 f2 i1 i2 : Nat) (d : Biobj.Data)
    (hf : Biobj.functions function = .ok (f1, f2))
    (hi : Biobj.instances inconsistent dims count inst .null = .ok ((i1, i2), d)) (hn : 2 ≤ n)
    (hi1 : i1 ≤ 10 ^ 10) (hi2 : i2 ≤ 10 ^ 10) (hr1 : Spec.Usable f1 i1 n) (hr2 : Spec.Usable f2 i2 n) :
    ∃ P p1 p2 v1 v2, get count dims function inst n = .ok P ∧
      Legacy.computeFopt f1 i1 = .ok v1 ∧ Legacy.computeFopt f2 i2 = .ok v2 ∧
      P.lo = (fun _ => -100) ∧ P.hi = (fun _ => 100) ∧ (∀ i, -5 ≤ p1 i ∧ p1 i ≤ 5) ∧ (∀ i, -5 ≤ p2 i ∧ p2 i ≤ 5) ∧
      Spec.Sound P p1 p2 v1 v2 (Spec.tolerance f1) (Spec.tolerance f2) := by
  obtain ⟨h1, h12, h24, -⟩ := functions_range function f1 f2 hf
  obtain ⟨P1, p1, v1, eP1, ev1, near1, box1, -, -⟩ := bbob_near (n := n) f1 i1 h1 (by omega) hi1 hn hr1
  obtain ⟨P2, p2, v2, eP2, ev2, near2, box2, -, -⟩ := bbob_near (n := n) f2 i2 (by omega) h24 hi2 hn hr2
  obtain ⟨P, eP, hl, hh, -, -, hs⟩ := stacked_sound near1 near2 (fun _ => -100) (fun _ => 100)
  refine ⟨P, p1, p2, v1, v2, ?_, ev1, ev2, hl, hh, box1, box2, hs⟩
  unfold get getWith
  rw [if_neg (by omega), hf, Res.ok_bind]
  dsimp only
  rw [hi, Res.ok_bind]
  dsimp only
  rw [eP1, Res.ok_bind, eP2, Res.ok_bind, eP]
  rfl

theorem bind_inv {α β : Type} {r : Res α} {f : α → Res β} {b : β} (h : r.bind f = .ok b) :
    ∃ a, r = .ok a ∧ f a = .ok b := by
  cases r with
  | ok a => exact ⟨a, rfl, h⟩
  | error => simp at h
  | assertFail => simp at h
  | ub => simp at h

/-- **C92** (new instances). Whenever a problem is created for an instance that is not among the 15 tabulated ones, in one of
the dimensions of the suite: the ideal point is at least 0.1 away from the nadir point, and the recorded best parameters of the
two single-objective problems are at least `1e-4` apart. -/
theorem C92_apart (count : Nat) (dims : List Nat) (function inst n : Nat) (hi : inst = 0 ∨ 15 < inst) (hn : n ∈ dims)
    (P : Problem n) (h : get count dims function inst n = .ok P) :
    (∀ w1 w2 n1 n2, P.ideal = (some w1, some w2) → P.nadir = (some n1, some n2) →
      1 / 10 ≤ Real.sqrt ((w1 - n1) ^ 2 + (w2 - n2) ^ 2)) ∧
    ∀ p1 p2, P.first.bestParam = some p1 → P.second.bestParam = some p2 →
      1 / 10 ^ 4 ≤ Real.sqrt (∑ i, (p1 i - p2 i) ^ 2) := by
  unfold get at h
  obtain ⟨⟨P', f1, f2⟩, h', e⟩ := bind_inv h
  clear h
  change Res.ok P' = Res.ok P at e
  rw [← Res.ok.inj e]
  clear e P
  rename' h' => h
  unfold getWith at h
  split_ifs at h with h0
  obtain ⟨⟨g1, g2⟩, hf, h⟩ := bind_inv h
  dsimp only at h
  obtain ⟨⟨⟨i1, i2⟩, d⟩, hd, h⟩ := bind_inv h
  dsimp only at h
  obtain ⟨P1, e1, h⟩ := bind_inv h
  obtain ⟨P2, e2, h⟩ := bind_inv h
  obtain ⟨Q, eQ, h⟩ := bind_inv h
  obtain ⟨rfl, -⟩ := Prod.mk.inj (Res.ok.inj h)
  obtain ⟨-, -, -, happ, -⟩ := Biobj.C60_delivered _ _ _ _ hi _ _ _ hd
  obtain ⟨r1, r2, r3, r4⟩ := functions_range function g1 g2 hf
  have hc : inconsistent n g1 i1 g2 i2 = .ok false := by
    obtain ⟨a, b⟩ := happ n hn h0
    rcases Nat.lt_or_ge g1 g2 with hlt | hge
    · exact a g1 g2 r1 hlt r3
    · obtain rfl : g1 = g2 := by omega
      exact b g1 (r4 rfl)
  unfold inconsistent at hc
  rw [e1, Res.ok_bind, e2, Res.ok_bind, eQ, Res.ok_bind] at hc
  have hc := of_decide_eq_false (Res.ok.inj hc)
  push Not at hc
  have hfs : Q.first = P1 ∧ Q.second = P2 := by
    unfold stacked at eQ
    obtain ⟨_, _, eQ⟩ := bind_inv eQ
    obtain ⟨_, _, eQ⟩ := bind_inv eQ
    rw [← Res.ok.inj eQ]
    exact ⟨rfl, rfl⟩
  constructor
  · intro w1 w2 n1 n2 hw hn
    have := hc.1
    unfold pointsClose at this
    rw [hw, hn] at this
    exact not_lt.mp this
  · intro p1 p2 hp1 hp2
    have := hc.2
    rw [hfs.1] at hp1
    rw [hfs.2] at hp2
    unfold paramsClose at this
    rw [hp1, hp2] at this
    exact not_lt.mp this

/-- No pair of instances can be delivered for a new instance if one of the dimensions is larger than 44. -/
theorem no_instances (count : Nat) (dims : List Nat) (inst d : Nat) (hi : inst = 0 ∨ 15 < inst) (hs : inst ≤ 10 ^ 9)
    (hd : d ∈ dims) (hd44 : 44 < d) (r : (Nat × Nat) × Biobj.Data) :
    Biobj.instances inconsistent dims count inst .null ≠ .ok r := by
  obtain ⟨⟨i1, i2⟩, e⟩ := r
  intro h
  obtain ⟨rfl, -, hle, happ, -⟩ := Biobj.C60_delivered _ _ _ _ hi _ _ _ h
  have hc := (happ d hd (by omega)).1 1 6 (by norm_num) (by norm_num) (by norm_num)
  unfold inconsistent at hc
  obtain ⟨P1, -, hc⟩ := bind_inv hc
  rw [Bbob.C85_too_large .bbob 6 i2 d (by norm_num) (by omega) ⟨by norm_num, by norm_num, by norm_num⟩ hd44] at hc
  simp at hc

/-- **C92** (new instances with more than 44 variables). If one of the dimensions of the suite is larger than 44, as in
bbob-biobj-mixint, then no problem can be created for an instance that is not tabulated, in any dimension: the checks of new
instances make problems of the bbob suite, which stop the process. -/
theorem C92_no_new_instances (qsort : Permutation.SortFn) (count : Nat) (dims : List Nat) (function inst n d : Nat)
    (hi : inst = 0 ∨ 15 < inst) (hs : inst ≤ 10 ^ 9) (hd : d ∈ dims) (hd44 : 44 < d) (P : Problem n) :
    get count dims function inst n ≠ .ok P ∧ getMixint qsort count dims function inst n ≠ .ok P := by
  have key : ∀ (g : Nat → Nat → (n : Nat) → Res (Prob n)) r, getWith g count dims function inst n ≠ .ok r := by
    intro g r h
    unfold getWith at h
    split_ifs at h
    obtain ⟨⟨g1, g2⟩, -, h⟩ := bind_inv h
    dsimp only at h
    obtain ⟨r, hr, h⟩ := bind_inv h
    exact no_instances count dims inst d hi hs hd hd44 r hr
  constructor
  · intro h
    obtain ⟨r, hr, -⟩ := bind_inv h
    exact key _ _ hr
  · intro h
    obtain ⟨_, -, h⟩ := bind_inv h
    obtain ⟨r, hr, -⟩ := bind_inv h
    exact key _ _ hr

/-- The tabulated instances. -/
theorem known_instances (breaks : Biobj.Breaks) (dims : List Nat) (count inst i1 i2 : Nat) (h : (inst, i1, i2) ∈ Biobj.known)
    (hc : 0 < count) : Biobj.instances breaks dims count inst .null = .ok ((i1, i2), .null) :=
  (Biobj.C60_instances breaks dims count inst hc).1 _ h rfl

/-- The recorded optimum of a problem of the bbob or the large-scale suite under the transformations of the mixed-integer
suites. -/
theorem mixint_near {m : Nat} (hm : 0 < m) (function : Nat) (h1 : 1 ≤ function) (h24 : function ≤ 24) (P : Prob (5 * m))
    (p : Vec (5 * m)) (v : ℝ) (h : Near P p v (Spec.tolerance function)) (hl : P.lo = fun _ => -5)
    (hh : P.hi = fun _ => 5) :
    ∃ Q q, Discretize.mixint 100 function P = .ok Q ∧
      Near Q q (v * Discretize.Spec.scale function) (Spec.tolerance function * Discretize.Spec.scale function) ∧
      (∀ i c, Discretize.Spec.values m i.1 = some c → ∃ j : ℤ, q i = j ∧ 0 ≤ j ∧ j < c) ∧
      ∀ i, Discretize.Spec.values m i.1 = none → q i = p i := by
  obtain ⟨hp, w, hw, hwv, ⟨y, hy, hyw⟩, hmin⟩ := h
  obtain ⟨Q, q, hQ, hq, hv, hmap, hbest, g1, g2⟩ := Discretize.mixint_maps 100 (by norm_num) function m h1 h24 hm P p hp
    (fun i => by rw [hl, hh]; norm_num)
  have hs := Discretize.Spec.scale_pos function
  have hts : Spec.tolerance function * Discretize.Spec.scale function ≤ 1 / 10 ^ 13 := by
    unfold Spec.tolerance
    split_ifs with h
    · rw [h, show Discretize.Spec.scale 20 = 1 / 10 by simp [Discretize.Spec.scale]]
      norm_num
    · norm_num
  generalize Discretize.Spec.scale function = s at *
  generalize Spec.tolerance function = e at *
  have hev : ∀ z y, P.eval z = .ok y → w - e ≤ y → (objScale s P).eval z = .ok (y * s) := by
    intro z y hz hle
    show (P.eval z).bind (fun y => check (P.bestValue.map (· * s)) (y * s)) = _
    rw [hz, Res.ok_bind, hw, Option.map_some]
    refine Bbob.check_near ?_
    have := mul_le_mul_of_nonneg_right hle hs.le
    rw [sub_mul] at this
    linarith
  have hyle : w - e ≤ y := by linarith [(abs_le.mp hyw).1]
  refine ⟨Q, q, hQ, ⟨hq, w * s, ?_, ?_, ⟨y * s, ?_, ?_⟩, fun x => ?_⟩, fun i c hc => (g1 i c hc).2.2,
    fun i hc => (g2 i hc).2.2⟩
  · rw [hv]
    show P.bestValue.map _ = _
    rw [hw]
    rfl
  · rw [← sub_mul, abs_mul, abs_of_pos hs]
    exact mul_le_mul_of_nonneg_right hwv hs.le
  · rw [hbest, hev p y hy hyle]
  · rw [← sub_mul, abs_mul, abs_of_pos hs]
    exact mul_le_mul_of_nonneg_right hyw hs.le
  · obtain ⟨z, hz⟩ := hmap x
    obtain ⟨u, hu, hle⟩ := hmin z
    refine ⟨u * s, by rw [hz, hev z u hu hle], ?_⟩
    rw [← sub_mul]
    exact mul_le_mul_of_nonneg_right hle hs.le

namespace Spec

/-- The first four fifths of the variables range over the integers from 0 to one less than 2, 4, 8 and 16 (in this order), the
last fifth over `[-100, 100]`. -/
def Variables {m : Nat} (P : Problem (5 * m)) : Prop :=
  (∀ i : Fin (5 * m), ∀ k < 4, k * m ≤ i.1 → i.1 < (k + 1) * m → P.lo i = 0 ∧ P.hi i = 2 ^ (k + 1) - 1) ∧
  ∀ i : Fin (5 * m), 4 * m ≤ i.1 → P.lo i = -100 ∧ P.hi i = 100

/-- A point with the integers of `Variables` and, in the last fifth, values in `[-5, 5]`. -/
def OnGrid {m : Nat} (q : Vec (5 * m)) : Prop :=
  (∀ i : Fin (5 * m), ∀ k < 4, k * m ≤ i.1 → i.1 < (k + 1) * m → ∃ j : ℕ, q i = j ∧ j < 2 ^ (k + 1)) ∧
  ∀ i : Fin (5 * m), 4 * m ≤ i.1 → -5 ≤ q i ∧ q i ≤ 5

/-- If the function has rotations, they can be computed: the dimension is not 45, and the random matrices are regular. -/
def UsableMixint (function inst n : Nat) : Prop :=
  n ≤ 10 ^ 6 ∧ (function = 24 → n < 3000) ∧
    (Bbob.Spec.Rotated function → n ≠ 45 ∧ Mixint.Spec.Regular function inst n)

end Spec

theorem values_int {m i k : Nat} (hk : k < 4) (hlo : k * m ≤ i) (hhi : i < (k + 1) * m) :
    Discretize.Spec.values m i = some (2 ^ (k + 1)) := by
  unfold Discretize.Spec.values
  interval_cases k <;> norm_num at hlo hhi ⊢ <;> split_ifs <;> first | rfl | omega

theorem values_cont {m i : Nat} (h : 4 * m ≤ i) : Discretize.Spec.values m i = none := by
  unfold Discretize.Spec.values
  split_ifs <;> first | rfl | omega

theorem onGrid_of {m : Nat} {p q : Vec (5 * m)} (hp : ∀ i, -5 ≤ p i ∧ p i ≤ 5)
    (h1 : ∀ i c, Discretize.Spec.values m i.1 = some c → ∃ j : ℤ, q i = j ∧ 0 ≤ j ∧ j < c)
    (h2 : ∀ i, Discretize.Spec.values m i.1 = none → q i = p i) : Spec.OnGrid q := by
  refine ⟨fun i k hk hlo hhi => ?_, fun i hi => ?_⟩
  · obtain ⟨j, e, h0, hj⟩ := h1 i _ (values_int hk hlo hhi)
    refine ⟨j.toNat, ?_, ?_⟩
    · rw [e]
      have : ((j.toNat : ℤ) : ℝ) = (j : ℝ) := by rw [Int.toNat_of_nonneg h0]
      exact_mod_cast this.symm
    · have : (j.toNat : ℤ) < (2 ^ (k + 1) : ℕ) := by rw [Int.toNat_of_nonneg h0]; exact_mod_cast hj
      exact_mod_cast this
  · rw [h2 i (values_cont hi)]
    exact hp i

/-- The problem of the bbob or the large-scale suite under a mixed-integer problem. -/
theorem inner_near (qsort : Permutation.SortFn) (hq : Permutation.Spec.IsSort qsort) (function inst : Nat)
    (h1 : 1 ≤ function) (hf : function ≤ 24) (hi : inst ≤ 10 ^ 10) (hn : 2 ≤ n) (hr : Spec.UsableMixint function inst n)
    (hn45 : n < 50 → n ≤ 45) :
    ∃ P p v, (if n < 50 then Bbob.get .bbob function inst n else LargeScale.get qsort function inst n) = .ok P ∧
      Legacy.computeFopt function inst = .ok v ∧ Near P p v (Spec.tolerance function) ∧
      (∀ i, -5 ≤ p i ∧ p i ≤ 5) ∧ P.lo = (fun _ => -5) ∧ P.hi = fun _ => 5 := by
  obtain ⟨hn', h24, hr⟩ := hr
  unfold Mixint.Spec.Regular at hr
  by_cases h50 : n < 50
  · rw [if_pos h50]
    exact bbob_near function inst h1 hf hi hn fun h => by
      obtain ⟨h45, h⟩ := hr h
      rw [if_pos h50] at h
      have := hn45 h50
      exact ⟨by omega, h⟩
  · rw [if_neg h50]
    by_cases h20 : function = 20
    · subst h20
      obtain ⟨P, v, eP, ev, hl, hh, p, w, hp, hbox, hw, hd, hy, hm⟩ := LargeScale.C87_schwefel qsort inst n hi hn
      refine ⟨P, p, v, eP, ev, ⟨hp, w, hw, ?_, ?_, ?_⟩, hbox, hl, hh⟩ <;> unfold Spec.tolerance <;>
        rw [if_pos rfl] <;> assumption
    · obtain ⟨P, v, eP, ev, hl, hh, p, ho, hbox⟩ := LargeScale.optimum_known qsort hq function inst n h1 hf h20 hi hn hn' h24
        fun h => by
          have := (hr h).2
          rwa [if_neg h50] at this
      refine ⟨P, p, v, eP, ev, ?_, hbox, hl, hh⟩
      unfold Spec.tolerance
      rw [if_neg h20]
      exact near_of_optimal ho

/-- **C93** For every function of the suite bbob-biobj-mixint, every instance for which two instances of the bbob functions are
found and every dimension `5 m`: the problem can be created; its variables are `Spec.Variables`, the extreme solutions are
on the grid; the ideal and the nadir point are right; and the optimal values of the objectives are those computed from the two
functions and instances, times the factors of the functions. -/
theorem C93_points (qsort : Permutation.SortFn) (hq : Permutation.Spec.IsSort qsort) (count : Nat) (dims : List Nat)
    (function inst m f1 f2 i1 i2 : Nat) (d : Biobj.Data) (hf : Biobj.functions function = .ok (f1, f2))
    (hi : Biobj.instances inconsistent dims count inst .null = .ok ((i1, i2), d)) (hm : 0 < m)
    (hi1 : i1 ≤ 10 ^ 10) (hi2 : i2 ≤ 10 ^ 10) (hr1 : Spec.UsableMixint f1 i1 (5 * m))
    (hr2 : Spec.UsableMixint f2 i2 (5 * m)) :
    ∃ P q1 q2 v1 v2, getMixint qsort count dims function inst (5 * m) = .ok P ∧
      Legacy.computeFopt f1 i1 = .ok v1 ∧ Legacy.computeFopt f2 i2 = .ok v2 ∧
      Spec.Variables P ∧ Spec.OnGrid q1 ∧ Spec.OnGrid q2 ∧
      Spec.Sound P q1 q2 (v1 * Discretize.Spec.scale f1) (v2 * Discretize.Spec.scale f2)
        (Spec.tolerance f1 * Discretize.Spec.scale f1) (Spec.tolerance f2 * Discretize.Spec.scale f2) := by
  obtain ⟨h1, h12, h24, -⟩ := functions_range function f1 f2 hf
  obtain ⟨P1, p1, v1, eP1, ev1, near1, box1, l1, u1⟩ := inner_near (n := 5 * m) qsort hq f1 i1 h1 (by omega) hi1 (by omega)
    hr1 (by omega)
  obtain ⟨P2, p2, v2, eP2, ev2, near2, box2, l2, u2⟩ := inner_near (n := 5 * m) qsort hq f2 i2 (by omega) h24 hi2 (by omega)
    hr2 (by omega)
  obtain ⟨R, eR, -, -, s1, s2, -⟩ := stacked_sound near1 near2 (fun _ => -100) (fun _ => 100)
  obtain ⟨Q1, q1, eQ1, nearQ1, a1, b1⟩ := mixint_near hm f1 h1 (by omega) P1 p1 v1 near1 l1 u1
  obtain ⟨Q2, q2, eQ2, nearQ2, a2, b2⟩ := mixint_near hm f2 (by omega) h24 P2 p2 v2 near2 l2 u2
  have hcs := (Discretize.C56_cardinalities (5 * m)).1 m hm rfl
  have hc : ∀ i : Fin (5 * m), ((List.range (5 * m)).map (fun i => (Discretize.Spec.values m i).getD 0)).getD i.1 0 =
      (Discretize.Spec.values m i.1).getD 0 := by
    intro i
    rw [List.getD_eq_getElem?_getD, List.getElem?_map, List.getElem?_range i.2]
    rfl
  obtain ⟨P, eP, hl, hh, -, -, hs⟩ := stacked_sound nearQ1 nearQ2
    (fun i => (Discretize.outerBounds 100
      (((List.range (5 * m)).map (fun i => (Discretize.Spec.values m i).getD 0)).getD i.1 0)).1)
    (fun i => (Discretize.outerBounds 100
      (((List.range (5 * m)).map (fun i => (Discretize.Spec.values m i).getD 0)).getD i.1 0)).2)
  refine ⟨P, q1, q2, v1, v2, ?_, ev1, ev2, ⟨fun i k hk hlo hhi => ?_, fun i h => ?_⟩, onGrid_of box1 a1 b1,
    onGrid_of box2 a2 b2, hs⟩
  · unfold getMixint getWith
    rw [hcs, Res.ok_bind]
    dsimp only
    rw [if_neg (by omega), hf, Res.ok_bind]
    dsimp only
    rw [hi, Res.ok_bind]
    dsimp only
    rw [eP1, Res.ok_bind, eP2, Res.ok_bind, eR, Res.ok_bind, Res.ok_bind]
    dsimp only
    rw [s1, s2, eQ1, Res.ok_bind, eQ2, Res.ok_bind, eP]
  · rw [hl, hh]
    dsimp only
    rw [hc i, values_int hk hlo hhi]
    unfold Discretize.outerBounds
    rw [if_neg (by simp)]
    simp
  · rw [hl, hh]
    dsimp only
    rw [hc i, values_cont h]
    unfold Discretize.outerBounds
    rw [if_pos (by simp)]
    exact ⟨rfl, rfl⟩

/-- **C93** Dimensions that are not multiples of 5 and unknown functions are errors; so are the latter for **C92**. -/
theorem C93_error (qsort : Permutation.SortFn) (count : Nat) (dims : List Nat) (function inst n : Nat) :
    (n % 5 ≠ 0 ∨ n = 0 ∨ function = 0 ∨ 92 < function → getMixint qsort count dims function inst n = .error) ∧
    (n = 0 ∨ function = 0 ∨ 92 < function → get count dims function inst n = .error) := by
  have key : ∀ g : Nat → Nat → (n : Nat) → Res (Prob n), n = 0 ∨ function = 0 ∨ 92 < function →
      getWith g count dims function inst n = .error := by
    intro g h
    unfold getWith
    split_ifs with h0
    · rfl
    · rw [Biobj.C59_numbers.2 function (by omega)]
      rfl
  refine ⟨fun h => ?_, fun h => ?_⟩
  · by_cases hn : ∀ m, 0 < m → n ≠ 5 * m
    · unfold getMixint
      rw [(Discretize.C56_cardinalities n).2 hn]
      rfl
    · push Not at hn
      obtain ⟨m, hm, rfl⟩ := hn
      unfold getMixint
      rw [(Discretize.C56_cardinalities (5 * m)).1 m hm rfl, Res.ok_bind]
      dsimp only
      rw [key _ (by omega)]
      rfl
  · unfold get
    rw [key _ h]
    rfl

/-- **C93** In dimension 45, the functions one of whose parts has rotations stop the process for every tabulated instance. -/
theorem C93_dimension_45 (qsort : Permutation.SortFn) (count : Nat) (dims : List Nat) (function inst f1 f2 i1 i2 : Nat)
    (hc : 0 < count) (hf : Biobj.functions function = .ok (f1, f2)) (hk : (inst, i1, i2) ∈ Biobj.known)
    (hr : Bbob.Spec.Rotated f1 ∨ Bbob.Spec.Rotated f2) : getMixint qsort count dims function inst 45 = .assertFail := by
  have hi := known_instances inconsistent dims count inst i1 i2 hk hc
  obtain ⟨h1, h12, h24, -⟩ := functions_range function f1 f2 hf
  have hsmall : i1 ≤ 10 ^ 10 ∧ i2 ≤ 10 ^ 10 := by
    have : ∀ t ∈ Biobj.known, t.2.1 ≤ 100 ∧ t.2.2 ≤ 100 := by decide +kernel
    have := this _ hk
    dsimp only at this
    omega
  unfold getMixint getWith
  rw [(Discretize.C56_cardinalities 45).1 9 (by norm_num) rfl, Res.ok_bind]
  dsimp only
  rw [if_neg (by norm_num), hf, Res.ok_bind]
  dsimp only
  rw [hi, Res.ok_bind]
  dsimp only
  rw [if_pos (by norm_num), if_pos (by norm_num)]
  by_cases hr1 : Bbob.Spec.Rotated f1
  · rw [Bbob.C85_too_large .bbob f1 i1 45 (by omega) hsmall.1 hr1 (by norm_num)]
    rfl
  · have hr2 : Bbob.Spec.Rotated f2 := hr.resolve_left hr1
    have : ∃ P, Bbob.get .bbob f1 i1 45 = .ok P := by
      obtain ⟨P, -, -, h, -⟩ := bbob_near (n := 45) f1 i1 h1 (by omega) hsmall.1 (by norm_num)
        fun h => absurd h hr1
      exact ⟨P, h⟩
    obtain ⟨P, eP⟩ := this
    rw [eP, Res.ok_bind, Bbob.C85_too_large .bbob f2 i2 45 h24 hsmall.2 hr2 (by norm_num)]
    rfl

/-- Function 2 (sphere and separable ellipsoid), instance 1, in dimension 40; and function 9 (sphere and Schwefel). -/
example : (∃ P p1 p2 v1 v2, get 15 [2, 3, 5, 10, 20, 40] 2 1 40 = .ok P ∧ Legacy.computeFopt 1 2 = .ok v1 ∧
      Legacy.computeFopt 2 4 = .ok v2 ∧ Spec.Sound P p1 p2 v1 v2 0 0) ∧
    ∃ P p1 p2 v1 v2, get 15 [2, 3, 5, 10, 20, 40] 9 1 40 = .ok P ∧ Legacy.computeFopt 1 2 = .ok v1 ∧
      Legacy.computeFopt 20 4 = .ok v2 ∧ Spec.Sound P p1 p2 v1 v2 0 (1 / 10 ^ 13) := by
  have hk := known_instances inconsistent [2, 3, 5, 10, 20, 40] 15 1 2 4 (by decide +kernel) (by norm_num)
  constructor
  · obtain ⟨P, p1, p2, v1, v2, h, hv1, hv2, -, -, -, -, hs⟩ := C92_points 15 [2, 3, 5, 10, 20, 40] 2 1 40 1 2 2 4 .null
      (by rw [Biobj.functions_eq]; decide +kernel) hk (by norm_num) (by norm_num) (by norm_num)
      (fun h => absurd h.1 (by norm_num)) (fun h => absurd h.1 (by norm_num))
    exact ⟨P, p1, p2, v1, v2, h, hv1, hv2, by simpa [Spec.tolerance] using hs⟩
  · obtain ⟨P, p1, p2, v1, v2, h, hv1, hv2, -, -, -, -, hs⟩ := C92_points 15 [2, 3, 5, 10, 20, 40] 9 1 40 1 20 2 4 .null
      (by rw [Biobj.functions_eq]; decide +kernel) hk (by norm_num) (by norm_num) (by norm_num)
      (fun h => absurd h.1 (by norm_num)) (fun h => absurd h.2.2 (by norm_num))
    exact ⟨P, p1, p2, v1, v2, h, hv1, hv2, by simpa [Spec.tolerance] using hs⟩

/-- The same functions with mixed-integer variables in dimension 80, and a stop in dimension 45 (sphere and attractive sector). -/
example (qsort : Permutation.SortFn) (hq : Permutation.Spec.IsSort qsort) :
    (∃ P q1 q2 v1 v2, getMixint qsort 15 [5, 10, 20, 40, 80, 160] 2 1 (5 * 16) = .ok P ∧ Legacy.computeFopt 1 2 = .ok v1 ∧
      Legacy.computeFopt 2 4 = .ok v2 ∧ Spec.Sound P q1 q2 v1 (v2 * (1 / 10 ^ 3)) 0 0) ∧
    getMixint qsort 15 [45] 3 1 45 = .assertFail := by
  have hk := known_instances inconsistent [5, 10, 20, 40, 80, 160] 15 1 2 4 (by decide +kernel) (by norm_num)
  constructor
  · obtain ⟨P, p1, p2, v1, v2, h, hv1, hv2, -, -, -, hs⟩ := C93_points qsort hq 15 [5, 10, 20, 40, 80, 160] 2 1 16 1 2 2 4 .null
      (by rw [Biobj.functions_eq]; decide +kernel) hk (by norm_num) (by norm_num) (by norm_num)
      ⟨by norm_num, by norm_num, fun h => absurd h.1 (by norm_num)⟩
      ⟨by norm_num, by norm_num, fun h => absurd h.1 (by norm_num)⟩
    exact ⟨P, p1, p2, v1, v2, h, hv1, hv2, by simpa [Spec.tolerance, Discretize.Spec.scale] using hs⟩
  · exact C93_dimension_45 qsort 15 [45] 3 1 1 6 2 4 (by norm_num) (by rw [Biobj.functions_eq]; decide +kernel)
      (by decide +kernel) (Or.inr ⟨by norm_num, by norm_num, by norm_num⟩)

end BiobjSuite
