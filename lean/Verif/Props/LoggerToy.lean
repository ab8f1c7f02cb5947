import Verif.Model.LoggerToy
import Verif.Props.Triggers

/-!
# The log file of the toy observer: C109
-/

noncomputable section

namespace LoggerToy
open Triggers Classical

namespace Spec

/-- One evaluation: the solution and its value. -/
structure Eval where
  x : List ℝ
  y : ℝ

/-- One run: a problem is observed, solutions are evaluated on it, and it is freed. -/
structure Session where
  info : Info
  evals : List Eval

/-- The calls of the runs, one after the other, if `k` problems have been observed before. -/
def calls : Nat → List Session → List Op
  | _, [] => []
  | k, s :: ss => (.observe s.info :: s.evals.map fun e => .evaluate k e.x (.real e.y)) ++ .free k :: calls (k + 1) ss

/-- A line as read from the file. -/
structure Line where
  number : Nat
  value : ℝ
  target : ℝ
  solution : List ℝ

/-- The entry of the file for a line. -/
def Line.entry (l : Line) : Entry := .line l.number l.value l.target l.solution

/-- The lines of one run:
- every line shows the number of an evaluation, its value, its solution, and the target it reaches;
- the numbers increase and the targets decrease;
- the first hitting time of every target can be read off: the number of the first line that shows this target or a
  smaller one is the number of the first evaluation that reaches the target, and there is no such line if no evaluation
  reaches it. -/
structure Lines (n : Nat) (prec : ℝ) (evals : List Eval) (lines : List Line) : Prop where
  content : ∀ l ∈ lines, ∃ i e, evals[i]? = some e ∧ l.number = i + 1 ∧ l.value = e.y ∧ l.solution = e.x ∧
    Triggers.Spec.LogReached n prec e.y l.target
  order : lines.Pairwise fun a b => a.number < b.number ∧ b.target < a.target
  hitting : ∀ τ ∈ Triggers.Spec.logGrid n, (lines.find? fun l => decide (l.target ≤ τ)).map Line.number =
    (evals.findIdx? fun e => decide (Triggers.Spec.clamp prec e.y ≤ τ)).map (· + 1)

/-- Settings and values in the range of `C25`. -/
def InRange (c : Settings) (evals : List Eval) : Prop :=
  Triggers.Spec.InRange c.triggers c.precision (evals.map Eval.y)

end Spec

open Spec

/-- The lines that are written, from a state of the logger on. -/
def written (n : Nat) (prec : ℝ) : ℤ → Nat → List Eval → List Line
  | _, _, [] => []
  | cur, count, e :: es =>
    let key := keyOf n prec e.y
    if key < cur then ⟨count + 1, e.y, targetOf n prec key, e.x⟩ :: written n prec key (count + 1) es
    else written n prec cur (count + 1) es

theorem InRange.cons {c : Settings} {e : Eval} {es : List Eval} (h : Spec.InRange c (e :: es)) :
    Triggers.Spec.InRange c.triggers c.precision [e.y] ∧ Spec.InRange c es := by
  obtain ⟨h1, h2, h3, h4, h5⟩ := h
  exact ⟨⟨h1, h2, h3, h4, fun v hv => h5 v (by simp at hv; simp [hv])⟩, h1, h2, h3, h4,
    fun v hv => h5 v (by simp only [List.map_cons]; exact List.mem_cons_of_mem _ hv)⟩

/-- The evaluations of a run. -/
theorem run_evals (c : Settings) (k : Nat) : ∀ (es : List Eval) (_ : Spec.InRange c es) (s : State) (l : Logger)
    (_ : s.loggers[k]? = some (some l)) (_ : l.targets.triggers = c.triggers) (_ : l.targets.precision = c.precision),
    ∃ l', run c s (es.map fun e => .evaluate k e.x (.real e.y)) =
      .ok ⟨s.file ++ (written c.triggers c.precision l.targets.exponent l.evaluations es).map Line.entry,
        s.loggers.set k (some l')⟩
  | [], _, s, l, hl, _, _ => by
    refine ⟨l, ?_⟩
    obtain ⟨f, ls⟩ := s
    have h : ls.set k (some l) = ls := by
      obtain ⟨hk, e⟩ := List.getElem?_eq_some_iff.1 hl
      have : ls[k] = some l := e
      rw [← this, List.set_getElem_self]
    simp [run, written, h]
  | e :: es, hr, s, l, hl, ht, hp => by
    obtain ⟨he, hr⟩ := InRange.cons hr
    have hs := (logTrigger_eq he l.targets ht hp).2
    simp only [List.map_cons, run, step, hl, trigger, hs, Res.ok_bind]
    have hk : k < s.loggers.length := (List.getElem?_eq_some_iff.1 hl).1
    by_cases hlt : keyOf c.triggers c.precision e.y < l.targets.exponent
    · simp only [hlt, decide_true, if_true]
      let l1 : Logger := ⟨l.evaluations + 1, { l.targets with
        exponent := keyOf c.triggers c.precision e.y
        value := targetOf c.triggers c.precision (keyOf c.triggers c.precision e.y) }⟩
      obtain ⟨l', hl'⟩ := run_evals c k es hr
        ⟨s.file ++ [.line (l.evaluations + 1) e.y
          (targetOf c.triggers c.precision (keyOf c.triggers c.precision e.y)) e.x],
          s.loggers.set k (some l1)⟩ l1 (by simp [hk]) ht hp
      refine ⟨l', ?_⟩
      rw [hl']
      simp [written, hlt, Line.entry, l1]
    · simp only [hlt, decide_false, if_false]
      obtain ⟨l', hl'⟩ := run_evals c k es hr
        ⟨s.file ++ [], s.loggers.set k (some ⟨l.evaluations + 1, l.targets⟩)⟩
        ⟨l.evaluations + 1, l.targets⟩ (by simp [hk]) ht hp
      refine ⟨l', ?_⟩
      rw [hl']
      simp [written, hlt]

theorem run_append (c : Settings) : ∀ (as bs : List Op) (s : State),
    run c s (as ++ bs) = (run c s as).bind fun s => run c s bs
  | [], _, _ => rfl
  | a :: as, bs, s => by
    simp only [List.cons_append, run]
    cases step c s a with
    | ok s' => exact run_append c as bs s'
    | error => rfl
    | assertFail => rfl
    | ub => rfl

/-! ### What is written is right -/

theorem written_content {n : Nat} (hn : 1 ≤ n) {prec : ℝ} (hp : 0 < prec) :
    ∀ (es : List Eval) (cur : ℤ) (count : Nat), ∀ l ∈ written n prec cur count es, ∃ i e, es[i]? = some e ∧
      l.number = count + i + 1 ∧ l.value = e.y ∧ l.solution = e.x ∧ Triggers.Spec.LogReached n prec e.y l.target ∧
      l.target = targetOf n prec (keyOf n prec e.y) ∧ keyOf n prec e.y < cur
  | [], _, _, l, h => by simp [written] at h
  | e :: es, cur, count, l, h => by
    have rest : ∀ cur', cur' ≤ cur → l ∈ written n prec cur' (count + 1) es → ∃ i e', (e :: es)[i]? = some e' ∧
        l.number = count + i + 1 ∧ l.value = e'.y ∧ l.solution = e'.x ∧
        Triggers.Spec.LogReached n prec e'.y l.target ∧ l.target = targetOf n prec (keyOf n prec e'.y) ∧
        keyOf n prec e'.y < cur := fun cur' hc h => by
      obtain ⟨i, e', h1, h2, h3, h4, h5, h6, h7⟩ := written_content hn hp es cur' (count + 1) l h
      exact ⟨i + 1, e', by simpa using h1, by omega, h3, h4, h5, h6, by omega⟩
    unfold written at h
    dsimp only at h
    split_ifs at h with hlt
    · rcases List.mem_cons.1 h with rfl | h
      · exact ⟨0, e, rfl, rfl, rfl, rfl, (targetOf_keyOf hn hp e.y).1, rfl, hlt⟩
      · exact rest _ hlt.le h
    · exact rest _ le_rfl h

theorem written_order {n : Nat} (hn : 1 ≤ n) {prec : ℝ} (hp : 0 < prec) : ∀ (es : List Eval) (cur : ℤ) (count : Nat),
    (written n prec cur count es).Pairwise fun a b => a.number < b.number ∧ b.target < a.target
  | [], _, _ => List.Pairwise.nil
  | e :: es, cur, count => by
    unfold written
    dsimp only
    split_ifs with hlt
    · refine List.Pairwise.cons (fun l hl => ?_) (written_order hn hp es _ _)
      obtain ⟨i, e', -, h2, -, -, -, h6, h7⟩ := written_content hn hp es _ _ l hl
      exact ⟨by simp only; omega, by rw [h6]; exact targetOf_strictMono hn prec h7⟩
    · exact written_order hn hp es _ _

theorem reached_le {n : Nat} (hn : 1 ≤ n) {prec : ℝ} (hp : 0 < prec) (v : ℝ) {τ : ℝ}
    (hτ : τ ∈ Triggers.Spec.logGrid n) :
    Triggers.Spec.clamp prec v ≤ τ ↔ targetOf n prec (keyOf n prec v) ≤ τ := by
  obtain ⟨⟨-, h1⟩, h2⟩ := (targetOf_keyOf hn hp v).1
  exact ⟨fun h => h2 ⟨hτ, h⟩, fun h => h1.trans h⟩

theorem written_hitting {n : Nat} (hn : 1 ≤ n) {prec : ℝ} (hp : 0 < prec) {τ : ℝ}
    (hτ : τ ∈ Triggers.Spec.logGrid n) : ∀ (es : List Eval) (cur : ℤ) (count : Nat)
    (_ : ∀ e ∈ es, targetOf n prec (keyOf n prec e.y) ≤ τ → keyOf n prec e.y < cur),
    ((written n prec cur count es).find? fun l => decide (l.target ≤ τ)).map Line.number =
      (es.findIdx? fun e => decide (Triggers.Spec.clamp prec e.y ≤ τ)).map (· + (count + 1))
  | [], _, _, _ => rfl
  | e :: es, cur, count, hcur => by
    rw [List.findIdx?_cons]
    by_cases ht : targetOf n prec (keyOf n prec e.y) ≤ τ
    · have hlt := hcur e (by simp) ht
      rw [decide_eq_true ((reached_le hn hp e.y hτ).2 ht), if_pos rfl]
      unfold written
      dsimp only
      rw [if_pos hlt, List.find?_cons_of_pos (by simpa using ht)]
      simp
    · have hne : ¬ Triggers.Spec.clamp prec e.y ≤ τ := fun h => ht ((reached_le hn hp e.y hτ).1 h)
      rw [decide_eq_false hne, if_neg (by simp)]
      have key : ∀ cur', (∀ e ∈ es, targetOf n prec (keyOf n prec e.y) ≤ τ → keyOf n prec e.y < cur') →
          ((written n prec cur' (count + 1) es).find? fun l => decide (l.target ≤ τ)).map Line.number =
          ((es.findIdx? fun e => decide (Triggers.Spec.clamp prec e.y ≤ τ)).map (· + 1)).map (· + (count + 1)) :=
        fun cur' h => by
          rw [written_hitting hn hp hτ es cur' (count + 1) h, Option.map_map]
          congr 1
          funext i
          simp only [Function.comp]
          omega
      unfold written
      dsimp only
      split_ifs with hlt
      · rw [List.find?_cons_of_neg (by simpa using ht)]
        refine key _ fun e' he' h' => ?_
        exact (targetOf_strictMono hn prec).lt_iff_lt.1 (by push Not at ht; linarith)
      · exact key _ fun e' he' h' => hcur e' (by simp [he']) h'

theorem written_lines {c : Settings} {es : List Eval} (h : Spec.InRange c es) :
    Lines c.triggers c.precision es (written c.triggers c.precision 2147483647 0 es) := by
  obtain ⟨hn, hn2, hp1, hp2, hv⟩ := h
  have hp : 0 < c.precision := lt_of_lt_of_le (pow10_pos _) hp1
  refine ⟨fun l hl => ?_, written_order hn hp es _ _, fun τ hτ => ?_⟩
  · obtain ⟨i, e, h1, h2, h3, h4, h5, -⟩ := written_content hn hp es _ _ l hl
    exact ⟨i, e, h1, by omega, h3, h4, h5⟩
  · rw [written_hitting hn hp hτ es 2147483647 0 fun e he _ =>
      (logTrigger_eq (v := e.y) ⟨hn, hn2, hp1, hp2, fun w hw => hv w (by
        simp only [List.mem_singleton] at hw
        exact hw ▸ List.mem_map_of_mem he)⟩ (logInit c.dblMax c.triggers c.precision) rfl rfl).1]

/-! ### Runs one after the other -/

theorem run_sessions (c : Settings) : ∀ (ss : List Session) (_ : ∀ s ∈ ss, Spec.InRange c s.evals) (st : State),
    ∃ ls, run c st (calls st.loggers.length ss) =
      .ok ⟨st.file ++ (ss.map fun s => Entry.heading s.info ::
        (written c.triggers c.precision 2147483647 0 s.evals).map Line.entry).flatten, ls⟩
  | [], _, st => ⟨st.loggers, by simp [calls, run]⟩
  | s :: ss, h, st => by
    obtain ⟨l', h1⟩ := run_evals c st.loggers.length s.evals (h s (by simp))
      ⟨st.file ++ [.heading s.info], st.loggers ++ [some ⟨0, logInit c.dblMax c.triggers c.precision⟩]⟩
      ⟨0, logInit c.dblMax c.triggers c.precision⟩ (by simp) rfl rfl
    obtain ⟨ls, h2⟩ := run_sessions c ss (fun s hs => h s (by simp [hs]))
      ⟨(st.file ++ [.heading s.info]) ++ (written c.triggers c.precision 2147483647 0 s.evals).map Line.entry,
        st.loggers ++ [none]⟩
    refine ⟨ls, ?_⟩
    unfold calls
    rw [List.cons_append, run]
    dsimp only [step]
    rw [Res.ok_bind, run_append, h1, Res.ok_bind, run]
    dsimp only [step]
    have e : (st.loggers ++ [some (⟨0, logInit c.dblMax c.triggers c.precision⟩ : Logger)]).set st.loggers.length
        (some l') = st.loggers ++ [some l'] := by
      rw [List.set_append_right _ _ le_rfl]; simp
    rw [e]
    simp only [List.getElem?_concat_length]
    rw [Res.ok_bind, List.set_append_right _ _ le_rfl]
    simp only [Nat.sub_self, List.set_cons_zero]
    have h2' := h2
    simp only [List.length_append, List.length_singleton] at h2'
    show run c ⟨(st.file ++ [.heading s.info]) ++ (written c.triggers c.precision 2147483647 0 s.evals).map Line.entry,
      st.loggers ++ [none]⟩ _ = _
    rw [h2']
    simp

/-- **C109** (file).
If the problems of an experiment are observed, used and freed one after the other, the log file contains,
after what it contained before, one section for every problem in this order: its heading, then exactly the lines from
which the first hitting times of all targets can be read. Missing: infinite values (see `C109_infinite`), problems observed
at the same time (see `C109_interleaved`), and `number_target_triggers` 0 or more than 1000000. -/
theorem C109_file_partial (c : Settings) (old : List Entry) (ss : List Session) (h : ∀ s ∈ ss, Spec.InRange c s.evals) :
    ∃ st sections, run c (start old) (calls 0 ss) = .ok st ∧
      List.Forall₂ (fun s => Lines c.triggers c.precision s.evals) ss sections ∧
      st.file = old ++ (List.zipWith (fun s ls => Entry.heading s.info :: ls.map Line.entry) ss sections).flatten := by
  obtain ⟨ls, e⟩ := run_sessions c ss h (start old)
  refine ⟨_, ss.map fun s => written c.triggers c.precision 2147483647 0 s.evals, e, ?_, ?_⟩
  · rw [List.forall₂_map_right_iff]
    exact List.forall₂_same.2 fun s hs => written_lines (h s hs)
  · simp only [start]
    congr 2
    rw [List.zipWith_map_right, List.zipWith_self]

theorem reached_unique {n : Nat} {prec v t t' : ℝ} (h : Triggers.Spec.LogReached n prec v t)
    (h' : Triggers.Spec.LogReached n prec v t') : t = t' := IsLeast.unique h h'

theorem find_self {ls : List Line} (h : ls.Pairwise fun a b => a.number < b.number ∧ b.target < a.target) :
    ∀ {l : Line}, l ∈ ls → (ls.find? fun m => decide (m.target ≤ l.target)) = some l := by
  induction ls with
  | nil => intro l h; simp at h
  | cons m ls ih =>
    intro l hl
    rw [List.pairwise_cons] at h
    rcases List.mem_cons.1 hl with rfl | hl
    · rw [List.find?_cons_of_pos (by simp)]
    · rw [List.find?_cons_of_neg (by simpa using (h.1 l hl).2)]
      exact ih h.2 hl

theorem lines_subset {n : Nat} {prec : ℝ} {es : List Eval} {a b : List Line} (ha : Lines n prec es a)
    (hb : Lines n prec es b) : ∀ l ∈ a, l ∈ b := by
  intro l hl
  obtain ⟨i, e, h1, h2, h3, h4, h5⟩ := ha.content l hl
  have hτ := h5.1.1
  have e1 := ha.hitting l.target hτ
  rw [find_self ha.order hl, ← hb.hitting l.target hτ] at e1
  obtain ⟨m, em, en⟩ := Option.map_eq_some_iff.1 e1.symm
  have hm := List.mem_of_find?_eq_some em
  obtain ⟨j, e', k1, k2, k3, k4, k5⟩ := hb.content m hm
  have hij : i = j := by omega
  subst hij
  rw [h1] at k1
  obtain rfl := Option.some.inj k1
  have : l = m := by
    obtain ⟨a1, a2, a3, a4⟩ := l
    obtain ⟨b1, b2, b3, b4⟩ := m
    simp only at *
    subst h3 h4 k3 k4
    rw [reached_unique h5 k5, en]
  exact this ▸ hm

/-- **C109** (no choice).
The lines of a run are determined by its evaluations. -/
theorem C109_lines_unique {n : Nat} {prec : ℝ} {es : List Eval} {a b : List Line} (ha : Lines n prec es a)
    (hb : Lines n prec es b) : a = b := by
  have na : a.Nodup := ha.order.imp fun h e => by simp [e] at h
  have nb : b.Nodup := hb.order.imp fun h e => by simp [e] at h
  have hp : a.Perm b := (List.perm_ext_iff_of_nodup na nb).2 fun l => ⟨lines_subset ha hb l, lines_subset hb ha l⟩
  exact hp.eq_of_pairwise (le := fun a b => a.number < b.number ∧ b.target < a.target)
    (fun x y _ _ h h' => absurd h.1 (by omega)) ha.order hb.order

/-- **C109** (infinite values).
If a solution gets an infinite value, as every solution outside the box of a problem of the suite
sbox-cost does, then a number that does not fit is converted to `int`: undefined behaviour, whatever was done before. -/
theorem C109_infinite (c : Settings) (s : State) (k : Nat) (x : List ℝ) (l : Logger)
    (hl : s.loggers[k]? = some (some l)) : step c s (.evaluate k x .infinite) = .ub := by
  simp [step, hl, trigger, Res.bind]

/-- **C109** (several problems at a time).
If two problems are observed at the same time, the file does not tell on which of them a
line was written: two experiments with evaluations on different problems leave the same file. -/
theorem C109_interleaved (c : Settings) (old : List Entry) (a b : Info) (e : Eval) (h : Spec.InRange c [e]) :
    ∃ s s', run c (start old) [.observe a, .observe b, .evaluate 0 e.x (.real e.y)] = .ok s ∧
      run c (start old) [.observe a, .observe b, .evaluate 1 e.x (.real e.y)] = .ok s' ∧ s.file = s'.file ∧
      ∃ t, s.file = old ++ [.heading a, .heading b, .line 1 e.y t e.x] := by
  have hs := (logTrigger_eq h (logInit c.dblMax c.triggers c.precision) rfl rfl)
  have hlt : keyOf c.triggers c.precision e.y < (logInit c.dblMax c.triggers c.precision).exponent := hs.1
  have h2 := hs.2
  simp only [hlt, decide_true, if_true] at h2
  refine ⟨_, _, by simp [run, step, start, trigger, h2, Res.bind]; rfl,
    by simp [run, step, start, trigger, h2, Res.bind]; rfl, by simp, _, by simp; rfl⟩

/-! ### Cases -/

theorem in_range {n : Nat} (hn : 1 ≤ n) (hn' : n ≤ 1000000) (es : List Eval) (h : ∀ e ∈ es, |e.y| ≤ 10 ^ 4) :
    Spec.InRange ⟨n, 1 / 10 ^ 8, 10 ^ 308⟩ es := by
  have big : (10 : ℝ) ^ 8 ≤ 10 ^ (400 : ℝ) := by
    rw [← Real.rpow_natCast]
    exact Real.rpow_le_rpow_of_exponent_le (by norm_num) (by norm_num)
  refine ⟨hn, hn', ?_, ?_, ?_⟩
  · rw [Real.rpow_neg (by norm_num), one_div]
    exact inv_anti₀ (by positivity) big
  · refine le_trans (b := 1) (by norm_num) (Real.one_le_rpow (by norm_num) (by norm_num))
  · intro v hv
    obtain ⟨e, he, rfl⟩ := List.mem_map.1 hv
    have := h e he
    exact this.trans (le_trans (by norm_num) big)

/-- Three evaluations with a hundred targets per power of ten: in range. -/
example : Spec.InRange ⟨100, 1 / 10 ^ 8, 10 ^ 308⟩ [⟨[0, 0], 1000⟩, ⟨[1, 0], 1001⟩, ⟨[1, 1], 5⟩] :=
  in_range (by norm_num) (by norm_num) _ (by norm_num)

/-- The targets 1, 10, 100, ... and values 1000, 1000, 10: lines for the first and the third. -/
example : Lines 1 (1 / 10 ^ 8) [⟨[0], 1000⟩, ⟨[2], 1000⟩, ⟨[1], 10⟩] [⟨1, 1000, 1000, [0]⟩, ⟨3, 10, 10, [1]⟩] := by
  have k1 : keyOf 1 (1 / 10 ^ 8) 1000 = 3 := by
    unfold keyOf
    norm_num
    rw [show (1000 : ℝ) = 10 ^ (3 : ℝ) by norm_num, Real.logb_rpow (by norm_num) (by norm_num)]
    norm_num
  have k2 : keyOf 1 (1 / 10 ^ 8) 10 = 1 := by
    unfold keyOf
    norm_num
  have hz : zeroExp 1 (1 / 10 ^ 8) = -9 := by
    unfold zeroExp
    rw [show ((1 : ℝ) / 10 ^ 8 / 10) = 10 ^ (-9 : ℝ) by
      rw [show (-9 : ℝ) = ((-9 : ℤ) : ℝ) by norm_num, Real.rpow_intCast]; norm_num,
      Real.logb_rpow (by norm_num) (by norm_num)]
    norm_num
  have t1 : targetOf 1 (1 / 10 ^ 8) 3 = 1000 := by
    unfold targetOf
    rw [hz]
    norm_num
  have t2 : targetOf 1 (1 / 10 ^ 8) 1 = 10 := by
    unfold targetOf
    rw [hz]
    norm_num
  have := written_lines (in_range (n := 1) le_rfl (by norm_num) [⟨[0], 1000⟩, ⟨[2], 1000⟩, ⟨[1], 10⟩] (by norm_num))
  have e : written 1 (1 / 10 ^ 8) 2147483647 0 [⟨[0], 1000⟩, ⟨[2], 1000⟩, ⟨[1], 10⟩] =
      [⟨1, 1000, 1000, [0]⟩, ⟨3, 10, 10, [1]⟩] := by
    unfold written written written written
    simp only [k1, k2, t1, t2]
    norm_num
  rw [← e]
  exact this

end LoggerToy
