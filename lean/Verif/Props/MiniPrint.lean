import Mathlib.Tactic.Common
import Verif.Model.MiniPrint

/-!
# The minimal display of progress in Python (C137)

`/repo/build/python/src/cocoex/utilities.py` lines 422-482.
-/

namespace MiniPrint

/-! ### Specification -/

namespace Spec

/-- How the output is read: each symbol belongs to the last dimension and the last function printed before it, after the dimension. -/
def labels : Option Nat → Option Nat → List Token → List (Option Nat × Option Nat × Char)
  | _, _, [] => []
  | d, f, .symbol c :: l => (d, f, c) :: labels d f l
  | _, _, .heading d :: l => labels (some d) none l
  | d, _, .func f :: l => labels d (some f) l
  | d, f, .newline :: l => labels d f l
  | d, f, .text _ :: l => labels d f l
  | d, f, .done _ :: l => labels d f l

/-- The symbols on the current line after some output, if there were `n` before. -/
def onLine : Nat → List Token → Nat
  | n, [] => n
  | n, .symbol _ :: l => onLine (n + 1) l
  | _, .newline :: l => onLine 0 l
  | _, .heading _ :: l => onLine 0 l
  | n, .func _ :: l => onLine n l
  | n, .text _ :: l => onLine n l
  | n, .done _ :: l => onLine n l

/-- The numbers of sweeps that are printed. -/
def sweeps (l : List Token) : List Nat := l.filterMap fun t => match t with
  | .done k => some k
  | _ => none

/-- The texts that are printed. -/
def texts (l : List Token) : List (List Char) := l.filterMap fun t => match t with
  | .text s => some s
  | _ => none

/-- The text of a call, if it is the last one of a sweep and has a text. -/
def wanted (c : Call) : Option (List Char) :=
  match c.final, c.message with
  | true, .text t => some t
  | _, _ => none

/-- The symbol of a call: target hit, restarted, other. -/
def symbol : Bool → Bool → Char
  | true, _ => '|'
  | false, true => ':'
  | false, false => '.'

end Spec

open Spec

/-! ### Reading -/

theorem symbol_eq (c : Call) : MiniPrint.symbol c = Spec.symbol c.hit c.restarted := by
  unfold MiniPrint.symbol
  cases c.hit <;> cases c.restarted <;> rfl

theorem read_ending (c : Call) (k : Nat) (d f : Option Nat) (x : List Token) : labels d f (ending c k ++ x) = labels d f x := by
  unfold ending
  split
  · cases c.message <;> rfl
  · rfl

theorem call_read (s : State) (c : Call) (x : List Token) :
    labels s.dim s.fn ((call s c).2 ++ x) =
      (some c.dim, some c.fn, Spec.symbol c.hit c.restarted) :: labels (call s c).1.dim (call s c).1.fn x ∧
      (call s c).1.dim = some c.dim ∧ (call s c).1.fn = some c.fn := by
  rw [← symbol_eq]
  unfold call
  by_cases hn : isNew s c = true
  · simp only [hn, if_true, Bool.or_true, Bool.not_true, Bool.and_false, Bool.false_and, Bool.false_eq_true, if_false, List.nil_append,
      List.append_assoc, and_self, and_true]
    split <;> simp [labels, read_ending]
  · have hd : s.dim = some c.dim := by
      by_contra h
      exact hn (by simp [isNew, h])
    by_cases hf : s.fn = some c.fn
    · simp [hn, hf, hd, labels, read_ending]
    · have hf' : (s.fn != some c.fn) = true := by simpa using hf
      simp only [hn, hf', if_false, Bool.false_eq_true, if_true, Bool.true_or, hd, List.nil_append, List.append_assoc]
      split <;> simp [labels, read_ending]

theorem run_read : ∀ (cs : List Call) (s : State),
    labels s.dim s.fn (run s cs) = cs.map fun c => (some c.dim, some c.fn, Spec.symbol c.hit c.restarted)
  | [], _ => rfl
  | c :: cs, s => by
    rw [run, (call_read s c _).1, run_read cs, List.map_cons]

/-! ### Lines -/

theorem onLine_append : ∀ (a b : List Token) (n : Nat), onLine n (a ++ b) = onLine (onLine n a) b
  | [], _, _ => rfl
  | .symbol _ :: a, b, n => onLine_append a b (n + 1)
  | .newline :: a, b, _ => onLine_append a b 0
  | .heading _ :: a, b, _ => onLine_append a b 0
  | .func _ :: a, b, n => onLine_append a b n
  | .text _ :: a, b, n => onLine_append a b n
  | .done _ :: a, b, n => onLine_append a b n

/-- No function is printed on a line with fifty symbols, where the output starts with `n` symbols on the line. -/
def Short (n : Nat) (l : List Token) : Prop := ∀ a f b, l = a ++ Token.func f :: b → onLine n a < 50

theorem short_nil (n : Nat) : Short n [] := by intro a f b h; simp at h

theorem short_append {n : Nat} {a b : List Token} (ha : Short n a) (hb : Short (onLine n a) b) : Short n (a ++ b) := by
  intro x f y h
  rcases List.append_eq_append_iff.mp h with ⟨z, hz, hb'⟩ | ⟨z, hz, ha'⟩
  · rw [hz, onLine_append]
    exact hb z f y hb'
  · cases z with
    | nil =>
      simp only [List.nil_append] at ha'
      rw [List.append_nil] at hz
      rw [← hz]
      exact hb [] f y ha'.symm
    | cons w z =>
      simp only [List.cons_append, List.cons.injEq] at ha'
      rw [← ha'.1] at hz
      exact ha x f z hz

theorem short_func {n : Nat} (h : n < 50) (f : Nat) : Short n [.func f] := by
  intro a g b e
  cases a with
  | nil => exact h
  | cons w a =>
    simp only [List.cons_append, List.cons.injEq] at e
    exact absurd e.2 (by simp)

theorem short_free {n : Nat} {l : List Token} (h : ∀ f, Token.func f ∉ l) : Short n l := by
  intro a f b e
  exact absurd (e ▸ by simp) (h f)

theorem ending_free (c : Call) (k f : Nat) : Token.func f ∉ ending c k := by
  unfold ending
  split
  · cases c.message <;> simp
  · simp

theorem onLine_ending (c : Call) (k n : Nat) : onLine n (ending c k) = n := by
  unfold ending
  split
  · cases c.message <;> rfl
  · rfl

theorem call_lines (s : State) (c : Call) : Short s.calls (call s c).2 ∧ onLine s.calls (call s c).2 = (call s c).1.calls := by
  have hlast : ∀ n k, Short n ([Token.symbol (MiniPrint.symbol c)] ++ ending c k) := fun n k =>
    short_free fun f => by simp [ending_free]
  unfold call
  by_cases hn : isNew s c = true
  · simp only [hn, if_true, Bool.or_true, Bool.not_true, Bool.and_false, Bool.false_and, Bool.false_eq_true, if_false, List.nil_append]
    have h0 : onLine s.calls ((if s.dim.isSome = true then [Token.newline] else []) ++ [Token.heading c.dim]) = 0 := by
      split <;> rfl
    constructor
    · rw [List.append_assoc]
      refine short_append (short_append (short_free fun f => ?_) ?_) (hlast _ _)
      · split <;> simp
      · rw [h0]; exact short_func (by omega) _
    · rw [onLine_append, onLine_append, onLine_append, h0, onLine_ending]
      rfl
  · simp only [hn, Bool.false_eq_true, if_false, Bool.or_false, Bool.not_false, Bool.and_true, List.nil_append]
    by_cases hf : (s.fn != some c.fn) = true
    · simp only [hf, if_true, Bool.true_and, decide_eq_true_eq]
      by_cases hc : s.calls ≥ 50
      · simp only [if_pos hc]
        constructor
        · rw [List.append_assoc]
          refine short_append (short_append (short_free fun f => by simp) (short_func (by simp [onLine]) _)) (hlast _ _)
        · rw [onLine_append, onLine_append, onLine_ending]; rfl
      · simp only [if_neg hc, List.nil_append]
        constructor
        · rw [List.append_assoc]
          exact short_append (short_func (by omega) _) (hlast _ _)
        · rw [onLine_append, onLine_append, onLine_ending]; rfl
    · simp only [hf, Bool.false_and, Bool.false_eq_true, if_false, List.nil_append]
      exact ⟨hlast _ _, by rw [onLine_append, onLine_ending]; rfl⟩

theorem run_lines : ∀ (cs : List Call) (s : State), Short s.calls (run s cs)
  | [], _ => short_nil _
  | c :: cs, s => by
    rw [run]
    refine short_append (call_lines s c).1 ?_
    rw [(call_lines s c).2]
    exact run_lines cs _

/-- A line ends only before a dimension or with fifty symbols, where the output starts with `n` symbols on the line. -/
def Full (n : Nat) (l : List Token) : Prop := ∀ a b, l = a ++ Token.newline :: b → 50 ≤ onLine n a ∨ ∃ d r, b = .heading d :: r

theorem full_append {n : Nat} {a b : List Token} (ha : Full n a) (hb : Full (onLine n a) b) : Full n (a ++ b) := by
  intro x y h
  rcases List.append_eq_append_iff.mp h with ⟨z, hz, hb'⟩ | ⟨z, hz, ha'⟩
  · rw [hz, onLine_append]
    exact hb z y hb'
  · cases z with
    | nil =>
      simp only [List.nil_append] at ha'
      rw [List.append_nil] at hz
      rw [← hz]
      exact hb [] y ha'.symm
    | cons w z =>
      simp only [List.cons_append, List.cons.injEq] at ha'
      rw [← ha'.1] at hz
      rcases ha x z hz with h1 | ⟨d, r, rfl⟩
      · exact .inl h1
      · exact .inr ⟨d, r ++ b, by rw [ha'.2]; rfl⟩

theorem full_free {n : Nat} {l : List Token} (h : Token.newline ∉ l) : Full n l := by
  intro a b e
  exact absurd (e ▸ by simp) h

theorem full_newline {n : Nat} (h : 50 ≤ n) (f : Nat) : Full n [.newline, .func f] := by
  intro a b e
  cases a with
  | nil => exact .inl h
  | cons w a =>
    simp only [List.cons_append, List.cons.injEq] at e
    cases a with
    | nil => simp at e
    | cons v a => simp at e

theorem full_heading (n d : Nat) : Full n [.newline, .heading d] := by
  intro a b e
  cases a with
  | nil =>
    simp only [List.nil_append, List.cons.injEq, true_and] at e
    exact .inr ⟨d, [], e.symm⟩
  | cons w a =>
    simp only [List.cons_append, List.cons.injEq] at e
    cases a with
    | nil => simp at e
    | cons v a => simp at e

theorem ending_no_newline (c : Call) (k : Nat) : Token.newline ∉ ending c k := by
  unfold ending
  split
  · cases c.message <;> simp
  · simp

theorem call_full (s : State) (c : Call) : Full s.calls (call s c).2 := by
  have hlast : ∀ n k, Full n ([Token.symbol (MiniPrint.symbol c)] ++ ending c k) := fun n k =>
    full_free (by simp [ending_no_newline])
  unfold call
  by_cases hn : isNew s c = true
  · simp only [hn, if_true, Bool.or_true, Bool.not_true, Bool.and_false, Bool.false_and, Bool.false_eq_true, if_false, List.nil_append]
    rw [List.append_assoc]
    refine full_append (full_append ?_ (full_free (by simp))) (hlast _ _)
    split
    · exact full_heading _ _
    · exact full_free (by simp)
  · simp only [hn, Bool.false_eq_true, if_false, Bool.or_false, Bool.not_false, Bool.and_true, List.nil_append]
    by_cases hf : (s.fn != some c.fn) = true
    · simp only [hf, if_true, Bool.true_and, decide_eq_true_eq]
      rw [List.append_assoc]
      by_cases hc : s.calls ≥ 50
      · simp only [if_pos hc]
        exact full_append (full_newline hc _) (hlast _ _)
      · simp only [if_neg hc, List.nil_append]
        exact full_append (full_free (by simp)) (hlast _ _)
    · simp only [hf, Bool.false_eq_true, if_false, List.nil_append]
      exact hlast _ _

theorem run_full : ∀ (cs : List Call) (s : State), Full s.calls (run s cs)
  | [], _ => full_free (by simp [run])
  | c :: cs, s => by
    rw [run]
    refine full_append (call_full s c) ?_
    rw [(call_lines s c).2]
    exact run_full cs _

theorem call_texts (s : State) (c : Call) : texts (call s c).2 = (wanted c).toList := by
  have he : ∀ k, texts (ending c k) = (wanted c).toList := by
    intro k
    unfold ending texts wanted
    cases c.final <;> cases c.message <;> simp
  have hs : ∀ a b, texts (a ++ b) = texts a ++ texts b := fun a b => List.filterMap_append
  unfold call
  simp only
  rw [hs, he]
  have h0 : ∀ l : List Token, (∀ k, Token.text k ∉ l) → texts l = [] := by
    intro l hl
    unfold texts
    rw [List.filterMap_eq_nil_iff]
    intro t ht
    cases t <;> first | rfl | exact absurd ht (hl _)
  rw [h0]
  · rfl
  · intro k
    simp only [List.mem_append, List.mem_singleton, reduceCtorEq, or_false]
    split <;> split <;> (try split) <;> (try split) <;> simp

theorem run_texts : ∀ (cs : List Call) (s : State), texts (run s cs) = cs.filterMap wanted
  | [], _ => rfl
  | c :: cs, s => by
    have ha : texts (run s (c :: cs)) = texts (call s c).2 ++ texts (run (call s c).1 cs) := List.filterMap_append
    rw [ha, call_texts, run_texts cs, List.filterMap_cons]
    cases wanted c <;> rfl

/-! ### Sweeps -/

theorem call_sweeps (s : State) (c : Call) :
    sweeps (call s c).2 = (if c.final = true ∧ c.message = .yes then [s.sweeps + 1] else []) ∧
      (call s c).1.sweeps = s.sweeps + (if c.final then 1 else 0) := by
  have he : ∀ k, sweeps (ending c k) = if c.final = true ∧ c.message = .yes then [k] else [] := by
    intro k
    unfold ending sweeps
    cases c.final <;> cases c.message <;> simp
  have hs : ∀ a b, sweeps (a ++ b) = sweeps a ++ sweeps b := fun a b => List.filterMap_append
  unfold call
  simp only
  rw [hs, he]
  constructor
  · have h0 : ∀ l : List Token, (∀ k, Token.done k ∉ l) → sweeps l = [] := by
      intro l hl
      unfold sweeps
      rw [List.filterMap_eq_nil_iff]
      intro t ht
      cases t <;> first | rfl | exact absurd ht (hl _)
    rw [h0]
    · cases hc : c.final <;> simp <;> (cases isNew s c <;> simp)
    · intro k
      simp only [List.mem_append, List.mem_singleton, reduceCtorEq, or_false]
      split <;> split <;> (try split) <;> (try split) <;> simp
  · cases c.final <;> cases isNew s c <;> simp

theorem run_sweeps : ∀ (cs : List Call) (s : State), (∀ c ∈ cs, c.final = true → c.message = .yes) →
    sweeps (run s cs) = List.range' (s.sweeps + 1) (cs.filter (·.final)).length
  | [], s, _ => by simp [run, sweeps]
  | c :: cs, s, h => by
    have hc := call_sweeps s c
    have ha : sweeps (run s (c :: cs)) = sweeps (call s c).2 ++ sweeps (run (call s c).1 cs) := List.filterMap_append
    rw [ha, hc.1, run_sweeps cs _ fun x hx => h x (List.mem_cons_of_mem _ hx), hc.2]
    cases hf : c.final
    · simp [hf]
    · have := h c (by simp) hf
      simp [hf, this, List.range'_succ]

/-! ### C137 -/

/-- C137: reading the output gives, for each call in order, one symbol that says whether the target was hit or the algorithm restarted,
below the dimension and behind the function of the problem. -/
theorem C137_read (cs : List Call) :
    labels none none (run State.init cs) = cs.map fun c => (some c.dim, some c.fn, Spec.symbol c.hit c.restarted) :=
  run_read cs State.init

/-- C137: no function is printed on a line that has fifty symbols already. -/
theorem C137_lines (cs : List Call) (a b : List Token) (f : Nat) (h : run State.init cs = a ++ .func f :: b) : onLine 0 a < 50 :=
  run_lines cs State.init a f b h

/-- C137: a line ends only before a dimension or if it has fifty symbols. -/
theorem C137_full (cs : List Call) (a b : List Token) (h : run State.init cs = a ++ .newline :: b) :
    50 ≤ onLine 0 a ∨ ∃ d r, b = .heading d :: r :=
  run_full cs State.init a b h

/-- C137: the texts given for the ends of sweeps are printed, and no other ones. -/
theorem C137_texts (cs : List Call) : texts (run State.init cs) = cs.filterMap wanted :=
  run_texts cs State.init

/-- C137: the message at the end of each sweep over the suite has the number of sweeps so far. -/
theorem C137_sweeps (cs : List Call) (h : ∀ c ∈ cs, c.final = true → c.message = .yes) :
    sweeps (run State.init cs) = List.range' 1 (cs.filter (·.final)).length :=
  run_sweeps cs State.init h

/-- C137: a dimension is printed exactly at the first call, when the dimension changes, and when the index gets smaller (the next sweep). -/
theorem C137_heading (pre : List Call) (p c : Call) (s : State) (hs : s = (pre ++ [p]).foldl (fun s c => (call s c).1) State.init) :
    (∃ d, Token.heading d ∈ (call s c).2) ↔ p.dim ≠ c.dim ∨ c.index < p.index := by
  have h : s.dim = some p.dim ∧ s.last = some p.index := by
    rw [hs, List.foldl_append]
    simp only [List.foldl_cons, List.foldl_nil]
    exact ⟨(call_read _ p []).2.1, rfl⟩
  have hnew : isNew s c = true ↔ p.dim ≠ c.dim ∨ c.index < p.index := by
    simp [isNew, h.1, h.2]
  rw [← hnew]
  have hend : ∀ d k, Token.heading d ∉ ending c k := by
    intro d k
    unfold ending
    split
    · cases c.message <;> simp
    · simp
  unfold call
  by_cases hn : isNew s c = true
  · simp [hn]
  · simp only [hn, Bool.false_eq_true, if_false, iff_false, not_exists, List.mem_append, not_or, List.not_mem_nil, not_false_eq_true,
      true_and, List.mem_singleton, reduceCtorEq]
    intro d
    refine ⟨⟨?_, trivial⟩, hend _ _⟩
    split
    · split <;> simp
    · simp

/-! ### Cases -/

/-- Two functions in dimension 2 and one in dimension 3, which ends the sweep. -/
def example_calls : List Call :=
  [⟨2, 0, 1, true, false, false, .none⟩, ⟨2, 1, 1, false, true, false, .none⟩, ⟨2, 15, 2, false, false, false, .none⟩,
    ⟨3, 30, 2, false, false, true, .yes⟩]

example : run State.init example_calls = [.heading 2, .func 1, .symbol '|', .symbol ':', .func 2, .symbol '.', .newline, .heading 3,
    .func 2, .symbol '.', .done 1] := by decide

example : ∀ c ∈ example_calls, c.final = true → c.message = .yes := by decide

end MiniPrint
