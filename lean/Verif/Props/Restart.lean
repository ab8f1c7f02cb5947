import Verif.Model.Restart
import Mathlib.Logic.Function.Iterate

/-!
# C113: restarts signalled to observers
-/

namespace Restart
namespace Spec

/-- The observers that record restarts. -/
def Records (o : Observer) : Prop := o.active = true ∧ (o.kind = .bbob ∨ (o.kind = .biobj ∧ o.indicators = true))

/-- The calls have a restart signalled to `o` after evaluation `n - 1 ≥ 1` and before evaluation `n`. -/
def Line (o : Observer) (ops : List Op) (n : Nat) : Prop :=
  2 ≤ n ∧ ∃ a b c, ops = a ++ .signal (some o) :: b ++ .evaluate :: c ∧ a.count .evaluate = n - 1 ∧ .evaluate ∉ b

/-- Signals to nobody, to an inactive observer, or to one of a kind without restarts. -/
def Idle : Option Observer → Prop
  | none => True
  | some o => o.active = false ∨ o.kind = .toy ∨ o.kind = .rw ∨ o.kind = .old

end Spec

/-- A signal is waiting: the outermost logger has been evaluated and was told of a restart since the last evaluation. -/
def Pending (o : Observer) (ops : List Op) : Prop :=
  ∃ a b, ops = a ++ .signal (some o) :: b ∧ 0 < a.count .evaluate ∧ .evaluate ∉ b

/-- What holds after the calls `ops` on the logger of `o`. -/
structure Inv (o : Observer) (ops : List Op) (l : Layer) : Prop where
  obs : l.observer = o
  evals : l.evals = ops.count .evaluate
  flag : l.restarted = true ↔ Pending o ops
  mem : ∀ n, n ∈ l.rdat ↔ Spec.Line o ops n
  sorted : l.rdat.Pairwise (· < ·)

theorem snoc_split {α : Type} {l a b : List α} {x y : α} (h : l ++ [y] = a ++ x :: b) :
    (b = [] ∧ l = a ∧ y = x) ∨ ∃ b', b = b' ++ [y] ∧ l = a ++ x :: b' := by
  rcases List.eq_nil_or_concat b with rfl | ⟨b', z, rfl⟩
  · left
    have := List.append_inj' h rfl
    simpa using this
  · right
    rw [List.concat_eq_append] at h ⊢
    have h2 : l ++ [y] = (a ++ x :: b') ++ [z] := by simpa using h
    have := List.append_inj' h2 rfl
    have hz : y = z := by simpa using this.2
    exact ⟨b', by rw [hz], this.1⟩

theorem pending_evaluate (o : Observer) (ops : List Op) : ¬ Pending o (ops ++ [.evaluate]) := by
  rintro ⟨a, b, h, _, hb⟩
  rcases snoc_split h with ⟨_, _, h⟩ | ⟨b', rfl, _⟩
  · simp at h
  · simp at hb

theorem pending_signal (o : Observer) (ops : List Op) (p : Option Observer) :
    Pending o (ops ++ [.signal p]) ↔ Pending o ops ∨ (p = some o ∧ 0 < ops.count .evaluate) := by
  constructor
  · rintro ⟨a, b, h, h1, hb⟩
    rcases snoc_split h with ⟨_, rfl, h⟩ | ⟨b', rfl, rfl⟩
    · right; rename_i hsig; exact ⟨by injection hsig, h1⟩
    · left; exact ⟨a, b', rfl, h1, fun hm => hb (by simp [hm])⟩
  · rintro (⟨a, b, rfl, h1, hb⟩ | ⟨rfl, h1⟩)
    · exact ⟨a, b ++ [.signal p], by simp, h1, by simp [hb]⟩
    · exact ⟨ops, [], rfl, h1, by simp⟩

theorem line_signal (o : Observer) (ops : List Op) (p : Option Observer) (n : Nat) :
    Spec.Line o (ops ++ [.signal p]) n ↔ Spec.Line o ops n := by
  constructor
  · rintro ⟨h2, a, b, c, h, h1, hb⟩
    rcases snoc_split h with ⟨_, _, h⟩ | ⟨c', rfl, rfl⟩
    · simp at h
    · exact ⟨h2, a, b, c', rfl, h1, hb⟩
  · rintro ⟨h2, a, b, c, rfl, h1, hb⟩
    exact ⟨h2, a, b, c ++ [.signal p], by simp, h1, hb⟩

theorem count_of_not_mem {b : List Op} (h : Op.evaluate ∉ b) : b.count .evaluate = 0 := List.count_eq_zero.2 h

theorem line_evaluate (o : Observer) (ops : List Op) (n : Nat) :
    Spec.Line o (ops ++ [.evaluate]) n ↔ Spec.Line o ops n ∨ (n = ops.count .evaluate + 1 ∧ Pending o ops) := by
  constructor
  · rintro ⟨h2, a, b, c, h, h1, hb⟩
    rcases snoc_split h with ⟨_, rfl, _⟩ | ⟨c', rfl, rfl⟩
    · right
      refine ⟨?_, a, b, rfl, by omega, hb⟩
      simp only [List.count_append, List.count_cons, count_of_not_mem hb, h1]; simp; omega
    · left; exact ⟨h2, a, b, c', rfl, h1, hb⟩
  · rintro (⟨h2, a, b, c, rfl, h1, hb⟩ | ⟨rfl, a, b, rfl, h1, hb⟩)
    · exact ⟨h2, a, b, c ++ [.evaluate], by simp, h1, hb⟩
    · refine ⟨?_, a, b, [], rfl, ?_, hb⟩
      · have h0 := count_of_not_mem hb
        have h3 : (a ++ Op.signal (some o) :: b).count .evaluate = a.count .evaluate := by simp [h0]
        omega
      · simp [count_of_not_mem hb]

theorem line_le {o : Observer} {ops : List Op} {n : Nat} (h : Spec.Line o ops n) : n ≤ ops.count .evaluate := by
  obtain ⟨h2, a, b, c, rfl, h1, hb⟩ := h
  simp [h1]; omega

theorem layerEvaluate_records {o : Observer} (ho : Spec.Records o) {l : Layer} (hl : l.observer = o) :
    layerEvaluate l = ⟨o, l.evals + 1, false, if l.restarted then l.rdat ++ [l.evals + 1] else l.rdat⟩ := by
  obtain ⟨ob, ev, re, rd⟩ := l
  subst hl
  rcases ho.2 with hk | ⟨hk, hi⟩
  · simp only [layerEvaluate]; simp only at hk; rw [hk]
  · simp only [layerEvaluate]; simp only at hk hi; rw [hk, hi]; simp

theorem Inv.evaluate {o : Observer} (ho : Spec.Records o) {ops : List Op} {l : Layer} (h : Inv o ops l) :
    Inv o (ops ++ [.evaluate]) (layerEvaluate l) := by
  rw [layerEvaluate_records ho h.obs]
  refine ⟨rfl, by simp [h.evals], ?_, ?_, ?_⟩
  · simp [pending_evaluate]
  · intro n
    rw [line_evaluate, ← h.mem, ← h.flag]
    by_cases hr : l.restarted = true
    · simp [hr, h.evals]
    · simp [hr]
  · by_cases hr : l.restarted = true
    · simp only [hr, if_true]
      refine List.pairwise_append.2 ⟨h.sorted, by simp, ?_⟩
      intro x hx y hy
      have := line_le ((h.mem x).1 hx)
      simp at hy; rw [hy, h.evals]; omega
    · simp only [hr]; exact h.sorted

/-- A signal that does not concern `o`. -/
theorem Inv.other {o : Observer} {ops : List Op} {l : Layer} (h : Inv o ops l) {p : Option Observer} (hp : p ≠ some o) :
    Inv o (ops ++ [.signal p]) l := by
  refine ⟨h.obs, by simp [h.evals], ?_, ?_, h.sorted⟩
  · rw [pending_signal, h.flag]; simp [hp]
  · intro n; rw [line_signal, h.mem]

theorem Inv.signal {o : Observer} {ops : List Op} {l : Layer} (h : Inv o ops l) :
    Inv o (ops ++ [.signal (some o)]) (if l.evals > 0 then { l with restarted := true } else l) := by
  by_cases hn : l.evals > 0
  · rw [if_pos hn]
    refine ⟨h.obs, by simp [h.evals], ?_, ?_, h.sorted⟩
    · rw [pending_signal]; simp only [true_iff, true_and]
      right; rw [← h.evals]; exact hn
    · intro n; rw [line_signal]; exact h.mem n
  · rw [if_neg hn]
    refine ⟨h.obs, by simp [h.evals], ?_, ?_, h.sorted⟩
    · rw [pending_signal, h.flag]
      have : ¬ 0 < ops.count .evaluate := by rw [← h.evals]; exact hn
      simp [this]
    · intro n; rw [line_signal]; exact h.mem n

theorem signal_idle {p : Option Observer} (hp : Spec.Idle p) (s : State) : signal p s = .ok s := by
  match p, hp with
  | none, _ => rfl
  | some q, hq =>
    unfold signal
    by_cases ha : q.active = false
    · simp [ha]
    · rcases hq with h | h | h | h
      · exact absurd h ha
      all_goals simp [ha, h, Kind.hasRestart]

theorem signal_self {o : Observer} (ho : Spec.Records o) {l : Layer} (hl : l.observer = o) (ls : List Layer) (d : Bool) :
    signal (some o) ⟨l :: ls, d⟩ = .ok ⟨(if l.evals > 0 then { l with restarted := true } else l) :: ls, d⟩ := by
  have hr : o.kind.hasRestart = true := by rcases ho.2 with h | ⟨h, _⟩ <;> simp [h, Kind.hasRestart]
  simp [signal, ho.1, hr, restartFunction, hl]

theorem records_not_idle {o : Observer} (ho : Spec.Records o) : ¬ Spec.Idle (some o) := by
  rintro (h | h | h | h)
  · simp [ho.1] at h
  all_goals rcases ho.2 with h' | ⟨h', _⟩ <;> simp [h] at h'

theorem run_inv {o : Observer} (ho : Spec.Records o) (d : Bool) (ops : List Op)
    (hops : ∀ p, .signal p ∈ ops → p = some o ∨ Spec.Idle p) :
    ∀ (pre : List Op) (l : Layer) (ls : List Layer), Inv o pre l →
      ∃ l', run ⟨l :: ls, d⟩ ops = .ok ⟨l' :: (ls.map (layerEvaluate^[ops.count .evaluate])), d⟩ ∧ Inv o (pre ++ ops) l' := by
  induction ops with
  | nil => intro pre l ls h; exact ⟨l, by simp [run], by simpa using h⟩
  | cons op ops ih =>
    intro pre l ls h
    have ih := ih fun p hp => hops p (List.mem_cons_of_mem _ hp)
    cases op with
    | evaluate =>
      obtain ⟨l', h1, h2⟩ := ih _ _ (ls.map layerEvaluate) (h.evaluate ho)
      refine ⟨l', ?_, by simpa using h2⟩
      simp only [run, step, Restart.evaluate, Res.ok_bind, List.map_cons]
      rw [h1]
      simp [List.map_map, Function.iterate_succ]
    | signal p =>
      have hc : (Op.signal p :: ops).count .evaluate = ops.count .evaluate := by simp
      rw [hc]
      rcases hops p (by simp) with rfl | hp
      · obtain ⟨l', h1, h2⟩ := ih _ _ ls h.signal
        refine ⟨l', ?_, by simpa using h2⟩
        simp only [run, step, signal_self ho h.obs, Res.ok_bind]
        exact h1
      · have hne : p ≠ some o := fun e => records_not_idle ho (e ▸ hp)
        obtain ⟨l', h1, h2⟩ := ih _ _ ls (h.other hne)
        refine ⟨l', ?_, by simpa using h2⟩
        simp only [run, step, signal_idle hp, Res.ok_bind]
        exact h1

theorem inv_fresh (o : Observer) : Inv o [] (fresh o) := by
  refine ⟨rfl, rfl, ?_, ?_, by simp [fresh]⟩
  · simp [fresh, Pending]
  · intro n; simp [fresh, Spec.Line]

/-- **C113** (partial: signals are for the observer that was added last). After an observer that records restarts is added to a problem,
whatever other observers the problem has, any evaluations and any signals to it (or to observers without restarts) succeed; its restart
file gets one line for exactly those evaluations `n ≥ 2` for which a restart was signalled since evaluation `n - 1`, in increasing order;
and the other observers see the evaluations only.
Missing: signals for an observer that is not the outermost one, see `C113_wrong_logger` and `C113_confused`. -/
theorem C113_lines_partial (o : Observer) (ho : Spec.Records o) (s : State) (ops : List Op)
    (hops : ∀ p, .signal p ∈ ops → p = some o ∨ Spec.Idle p) :
    ∃ l, run (add (some o) s) ops =
        .ok ⟨l :: (s.layers.map (layerEvaluate^[ops.count .evaluate])), s.plainData⟩ ∧
      l.observer = o ∧ l.evals = ops.count .evaluate ∧ (∀ n, n ∈ l.rdat ↔ Spec.Line o ops n) ∧
      l.rdat.Pairwise (· < ·) := by
  have : add (some o) s = ⟨fresh o :: s.layers, s.plainData⟩ := by simp [add, ho.1]
  rw [this]
  obtain ⟨l, h1, h2⟩ := run_inv ho s.plainData ops hops [] (fresh o) s.layers (inv_fresh o)
  exact ⟨l, h1, h2.obs, by simpa using h2.evals, by simpa using h2.mem, h2.sorted⟩

/-- **C113** (signals without effect). Signals to no observer, to an inactive one or to one without restarts change nothing, on any
problem, observed or not. -/
theorem C113_silent (p : Option Observer) (hp : Spec.Idle p) (s : State) : signal p s = .ok s := signal_idle hp s

/-- **C113** (negative). Of two observers of the same kind on a problem, a restart signalled to the first one is recorded by the second
one, and not by the first one, at the next evaluation. -/
theorem C113_wrong_logger (o q : Observer) (ho : Spec.Records o) (hq : Spec.Records q) (hk : o.kind = q.kind) (d : Bool) :
    ∃ lo lq, run (add (some q) (add (some o) ⟨[], d⟩)) [.evaluate, .signal (some o), .evaluate] = .ok ⟨[lq, lo], d⟩ ∧
      lo.observer = o ∧ lq.observer = q ∧ lo.rdat = [] ∧ lq.rdat = [2] := by
  have e : add (some q) (add (some o) ⟨[], d⟩) = ⟨[fresh q, fresh o], d⟩ := by simp [add, ho.1, hq.1]
  have hr : o.kind.hasRestart = true := by rcases ho.2 with h | ⟨h, _⟩ <;> simp [h, Kind.hasRestart]
  have f1 : layerEvaluate (fresh q) = ⟨q, 1, false, []⟩ := by rw [layerEvaluate_records hq rfl]; rfl
  have f2 : layerEvaluate (fresh o) = ⟨o, 1, false, []⟩ := by rw [layerEvaluate_records ho rfl]; rfl
  have f3 : layerEvaluate ⟨q, 1, true, []⟩ = ⟨q, 2, false, [2]⟩ := by rw [layerEvaluate_records hq rfl]; rfl
  have f4 : layerEvaluate ⟨o, 1, false, []⟩ = ⟨o, 2, false, []⟩ := by rw [layerEvaluate_records ho rfl]; rfl
  refine ⟨⟨o, 2, false, []⟩, ⟨q, 2, false, [2]⟩, ?_, rfl, rfl, rfl, rfl⟩
  rw [hk] at hr
  simp [e, run, step, Restart.evaluate, signal, ho.1, hr, restartFunction, hk, f1, f2, f3, f4]

/-- **C113** (negative). A restart signalled to an active observer with restarts is undefined behaviour if the last added observer is of
another kind, or if the problem is not observed and has data of its own; an unobserved problem without data fails an assertion. -/
theorem C113_confused (o : Observer) (ho : Spec.Records o) :
    (∀ (l : Layer) (ls : List Layer) (d : Bool), l.observer.kind ≠ o.kind → signal (some o) ⟨l :: ls, d⟩ = .ub) ∧
    signal (some o) ⟨[], true⟩ = .ub ∧ signal (some o) ⟨[], false⟩ = .assertFail := by
  have hr : o.kind.hasRestart = true := by rcases ho.2 with h | ⟨h, _⟩ <;> simp [h, Kind.hasRestart]
  refine ⟨fun l ls d h => ?_, ?_, ?_⟩ <;> simp [signal, ho.1, hr, restartFunction]
  exact h

/-- An observer of the bbob kind. -/
def exO : Observer := ⟨0, .bbob, true, false⟩
/-- A toy observer. -/
def exT : Observer := ⟨1, .toy, true, false⟩

/-- The hypotheses of `C113_lines_partial` are met over a toy observer, with a signal before the first evaluation (not recorded), two
signals before the third one (one line) and one to the toy observer; the line is that of evaluation 3. -/
example : Spec.Records exO ∧
    (∀ p, .signal p ∈ [Op.signal (some exO), .evaluate, .evaluate, .signal (some exO), .signal (some exO), .evaluate,
      .signal (some exT), .evaluate] → p = some exO ∨ Spec.Idle p) ∧
    (run (add (some exO) (add (some exT) ⟨[], false⟩))
      [.signal (some exO), .evaluate, .evaluate, .signal (some exO), .signal (some exO), .evaluate, .signal (some exT), .evaluate]) =
      .ok ⟨[⟨exO, 4, false, [3]⟩, ⟨exT, 4, false, []⟩], false⟩ := by
  refine ⟨by simp [Spec.Records, exO], ?_, by decide⟩
  intro p hp
  simp at hp
  rcases hp with rfl | rfl | rfl | rfl <;> simp [Spec.Idle, exT]

/-- The hypotheses of `C113_wrong_logger` and `C113_confused` are met. -/
example : Spec.Records exO ∧ Spec.Records { exO with id := 2 } ∧ exT.kind ≠ exO.kind := by simp [Spec.Records, exO, exT]

/-- The hypothesis of `C113_silent` is met by an active toy observer on a problem observed by a bbob observer. -/
example : Spec.Idle (some exT) ∧ signal (some exT) (add (some exO) ⟨[], true⟩) = .ok (add (some exO) ⟨[], true⟩) := by
  refine ⟨by simp [Spec.Idle, exT], by decide⟩

end Restart
