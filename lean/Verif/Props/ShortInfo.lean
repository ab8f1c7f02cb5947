import Mathlib.Tactic.Common
import Mathlib.Data.List.Chain
import Mathlib.Tactic.NormNum
import Mathlib.Data.Nat.Digits.Lemmas
import Verif.Model.ShortInfo

/-!
# Progress and timing in Python (C134)

`/repo/build/python/src/cocoex/utilities.py` lines 485-560 and `/repo/build/python/example/example_experiment.py` lines 80-112.
-/

namespace ShortInfo

/-! ### Specification -/

namespace Spec

/-- The id, in lower case, goes on with `f`, the function, behind its first `_f`: `_f`, the number, then the end or an underscore. -/
def FunctionOf (id f : List Char) : Prop :=
  ∃ a n r, id.map Char.toLower = a ++ '_' :: 'f' :: (n ++ r) ∧ ¬ ['_', 'f'] <:+: a ∧ '_' ∉ n ∧ r.head?.getD '_' = '_' ∧ f = 'f' :: n

/-- Consecutive problems of one function. -/
structure Fun where
  f : List Char
  rs : List Run

/-- Consecutive problems of one dimension. -/
structure Dim where
  d : Nat
  fs : List Fun

/-- All runs of a function. -/
def Fun.runs (b : Fun) : Nat := (b.rs.map (·.runs)).sum

/-- The problems of a dimension, in their order. -/
def Dim.rs (b : Dim) : List Run := b.fs.flatMap (·.rs)

/-- All evaluations of a dimension. -/
def Dim.evals (b : Dim) : Nat := (b.rs.map (·.evals)).sum

/-- The times read at the first problem of a dimension. -/
def Dim.t1 (b : Dim) : ℚ := (b.rs.head?.map (·.t1)).getD 0

/-- See `Dim.t1`. -/
def Dim.t2 (b : Dim) : ℚ := (b.rs.head?.map (·.t2)).getD 0

/-- A function in dimension `d`: some problem, and some run. -/
structure Fun.Ok (d : Nat) (b : Fun) : Prop where
  some : b.rs ≠ []
  dim : ∀ r ∈ b.rs, r.dim = d
  fn : ∀ r ∈ b.rs, FunctionOf r.id b.f
  runs : 0 < b.runs

/-- A dimension: some function, some evaluation, and neighbouring functions are different. -/
structure Dim.Ok (b : Dim) : Prop where
  pos : 0 < b.d
  some : b.fs ≠ []
  ok : ∀ f ∈ b.fs, f.Ok b.d
  evals : 0 < b.evals
  change : b.fs.IsChain fun x y => x.f ≠ y.f

/-- An experiment: dimensions, neighbouring ones different. -/
structure Ok (bs : List Dim) : Prop where
  ok : ∀ b ∈ bs, b.Ok
  change : bs.IsChain fun x y => x.d ≠ y.d

/-- Each dimension with its seconds per evaluation: from the first problem of the dimension (from `t0` for the first dimension) to the
first problem of the next one (to `tEnd` for the last). -/
def timed (t0 tEnd : ℚ) : List Dim → List (Dim × ℚ)
  | [] => []
  | b :: bs => (b, ((bs.head?.map (·.t1)).getD tEnd - t0) / b.evals) :: timed ((bs.head?.map (·.t2)).getD t0) tEnd bs

/-- What is to be printed: for each dimension a heading, its functions with the numbers of runs, and its seconds per evaluation. -/
def text (l : List (Dim × ℚ)) : List Piece :=
  l.flatMap fun (b, q) => .heading b.d :: (b.fs.flatMap fun f => [.func f.f, .runs f.runs]) ++ [.done b.d q]

end Spec

open Spec

/-! ### Ids -/

theorem after_append : ∀ (a r : List Char), ¬ ['_', 'f'] <:+: a → after (a ++ '_' :: 'f' :: r) = some r
  | [], r, _ => by simp [after]
  | c :: a, r, h => by
    have h' : ¬ ['_', 'f'] <:+: a := fun e => h (List.infix_cons e)
    rw [List.cons_append, after, if_neg, after_append a r h']
    rintro ⟨rfl, hf⟩
    cases a with
    | nil => simp at hf
    | cons x a =>
      simp only [List.cons_append, List.head?_cons, Option.some.injEq] at hf
      subst hf
      exact h ⟨[], a, rfl⟩

theorem funcOf_eq {id f : List Char} (h : FunctionOf id f) : funcOf id = some f := by
  obtain ⟨a, n, r, e, ha, hn, hr, rfl⟩ := h
  rw [funcOf, e, after_append a _ ha, Option.map_some]
  congr 2
  rw [List.takeWhile_append_of_pos (by
    intro x hx
    have : x ≠ '_' := by rintro rfl; exact hn hx
    simpa using this)]
  cases r with
  | nil => simp
  | cons c r =>
    simp only [List.head?_cons, Option.getD_some] at hr
    subst hr
    simp

/-! ### Calls -/

theorem call_same {id f : List Char} (h : FunctionOf id f) (d : Nat) (t0 t1 t2 : ℚ) (E : Nat) (tab : List (Nat × ℚ)) (R : Nat) :
    call ⟨some f, d, t0, E, tab, R⟩ id d t1 t2 = .ok (⟨some f, d, t0, E, tab, R⟩, []) := by
  simp [call, funcOf_eq h, Res.ok_bind]

theorem call_fun {id f : List Char} (h : FunctionOf id f) {g : List Char} (hg : f ≠ g) (d : Nat) (t0 t1 t2 : ℚ) (E : Nat)
    (tab : List (Nat × ℚ)) {R : Nat} (hR : R ≠ 0) :
    call ⟨some g, d, t0, E, tab, R⟩ id d t1 t2 = .ok (⟨some f, d, t0, E, tab, 0⟩, [.runs R, .func f]) := by
  simp [call, funcOf_eq h, Res.ok_bind, hg, functionDone, hR]

theorem call_dim {id f : List Char} (h : FunctionOf id f) (g : List Char) {d d' : Nat} (hd : d' ≠ d) (h0 : d ≠ 0) (t0 t1 t2 : ℚ)
    {E : Nat} (hE : E ≠ 0) (tab : List (Nat × ℚ)) {R : Nat} (hR : R ≠ 0) :
    call ⟨some g, d, t0, E, tab, R⟩ id d' t1 t2 = .ok (⟨some f, d', t2, 0, put tab d ((t1 - t0) / E), 0⟩,
      [.runs R, .done d ((t1 - t0) / E), .heading d', .func f]) := by
  simp [call, funcOf_eq h, Res.ok_bind, hd, functionDone, hR, dimensionDone, hE, h0]

theorem call_first {id f : List Char} (h : FunctionOf id f) {d : Nat} (hd : d ≠ 0) (t0 t1 t2 : ℚ) :
    call (.init t0) id d t1 t2 = .ok (⟨some f, d, t0, 0, [], 0⟩, [.heading d, .func f]) := by
  simp [call, funcOf_eq h, Res.ok_bind, hd, Info.init]

/-! ### Blocks -/

/-- More text in front. -/
def prepend (p : List Piece) (x : Res (Info × List Piece)) : Res (Info × List Piece) := x.bind fun (s, b) => .ok (s, p ++ b)

theorem prepend_nil (x : Res (Info × List Piece)) : prepend [] x = x := by
  cases x <;> simp [prepend, Res.bind]

theorem prepend_prepend (p q : List Piece) (x : Res (Info × List Piece)) : prepend p (prepend q x) = prepend (p ++ q) x := by
  cases x <;> simp [prepend, Res.bind]

theorem experiment_cons {s s' : Info} {r : Run} {a : List Piece} (h : call s r.id r.dim r.t1 r.t2 = .ok (s', a)) (rs : List Run) :
    experiment s (r :: rs) = prepend a (experiment (add s' r.evals r.runs) rs) := by
  rw [experiment, h, Res.ok_bind]; rfl

theorem same_runs (f : List Char) (d : Nat) (t0 : ℚ) (tab : List (Nat × ℚ)) (rest : List Run) : ∀ (rs : List Run) (E R : Nat),
    (∀ r ∈ rs, r.dim = d ∧ FunctionOf r.id f) →
      experiment ⟨some f, d, t0, E, tab, R⟩ (rs ++ rest) =
        experiment ⟨some f, d, t0, E + (rs.map (·.evals)).sum, tab, R + (rs.map (·.runs)).sum⟩ rest
  | [], E, R, _ => by simp
  | r :: rs, E, R, h => by
    obtain ⟨hd, hf⟩ := h r (by simp)
    rw [List.cons_append, experiment_cons (by rw [hd]; exact call_same hf d t0 r.t1 r.t2 E tab R), prepend_nil, add,
      same_runs f d t0 tab rest rs _ _ fun x hx => h x (List.mem_cons_of_mem _ hx)]
    simp [Nat.add_assoc]

theorem functions (d : Nat) (t0 : ℚ) (tab : List (Nat × ℚ)) (rest : List Run) : ∀ (fs : List Fun) (f : List Char) (E R : Nat),
    R ≠ 0 → (∀ b ∈ fs, b.Ok d) → (fs.IsChain fun x y => x.f ≠ y.f) → (∀ b ∈ fs.head?, b.f ≠ f) →
      ∃ f' R' p, R' ≠ 0 ∧ p ++ [Piece.runs R'] = .runs R :: (fs.flatMap fun b => [.func b.f, .runs b.runs]) ∧
        experiment ⟨some f, d, t0, E, tab, R⟩ (fs.flatMap (·.rs) ++ rest) =
          prepend p (experiment ⟨some f', d, t0, E + ((fs.flatMap (·.rs)).map (·.evals)).sum, tab, R'⟩ rest)
  | [], f, E, R, hR, _, _, _ => ⟨f, R, [], hR, by simp, by simp [prepend_nil]⟩
  | b :: fs, f, E, R, hR, hok, hc, hh => by
    have hb := hok b (by simp)
    obtain ⟨r, rs, hrs⟩ := List.exists_cons_of_ne_nil hb.some
    have hruns : b.runs = r.runs + (rs.map (·.runs)).sum := by simp [Fun.runs, hrs]
    have hpos := hb.runs
    have hne : b.f ≠ f := hh b (by simp)
    obtain ⟨f', R', p, h1, h2, h3⟩ := functions d t0 tab rest fs b.f (E + r.evals + (rs.map (·.evals)).sum) b.runs (by omega)
      (fun x hx => hok x (List.mem_cons_of_mem _ hx)) hc.tail
      (fun x hx => by
        cases fs with
        | nil => simp at hx
        | cons y fs =>
          simp only [List.head?_cons, Option.mem_def, Option.some.injEq] at hx
          subst hx
          rw [List.isChain_cons_cons] at hc
          exact fun e => hc.1 e.symm)
    refine ⟨f', R', [.runs R, .func b.f] ++ p, h1, ?_, ?_⟩
    · rw [List.append_assoc, h2]; simp
    · have hfn : FunctionOf r.id b.f := hb.fn r (by simp [hrs])
      have hdim : r.dim = d := hb.dim r (by simp [hrs])
      rw [List.flatMap_cons, hrs, List.append_assoc, List.cons_append,
        experiment_cons (by rw [hdim]; exact call_fun hfn hne d t0 r.t1 r.t2 E tab hR), add,
        same_runs b.f d t0 tab _ rs _ _ (fun x hx => ⟨hb.dim x (by simp [hrs, hx]), hb.fn x (by simp [hrs, hx])⟩)]
      simp only [Nat.zero_add]
      rw [← hruns, h3, prepend_prepend]
      simp [Nat.add_assoc]

/-- A dimension after the call for its first problem `r`. -/
theorem dimension (t0 : ℚ) (tab : List (Nat × ℚ)) (rest : List Run) (b : Dim) (hb : b.Ok) :
    ∃ r rs f, b.rs = r :: rs ∧ r.dim = b.d ∧ FunctionOf r.id f ∧
      ∃ f' R' p, R' ≠ 0 ∧ .func f :: p ++ [Piece.runs R'] = (b.fs.flatMap fun b => [.func b.f, .runs b.runs]) ∧
        experiment (add ⟨some f, b.d, t0, 0, tab, 0⟩ r.evals r.runs) (rs ++ rest) =
          prepend p (experiment ⟨some f', b.d, t0, b.evals, tab, R'⟩ rest) := by
  obtain ⟨x, fs, hfs⟩ := List.exists_cons_of_ne_nil hb.some
  have hx := hb.ok x (by simp [hfs])
  obtain ⟨r, rs, hrs⟩ := List.exists_cons_of_ne_nil hx.some
  have hruns : x.runs = r.runs + (rs.map (·.runs)).sum := by simp [Fun.runs, hrs]
  have hpos := hx.runs
  have hc := hb.change
  rw [hfs] at hc
  obtain ⟨f', R', p, h1, h2, h3⟩ := functions b.d t0 tab rest fs x.f (r.evals + (rs.map (·.evals)).sum) x.runs (by omega)
      (fun y hy => hb.ok y (by simp [hfs, hy])) hc.tail
      (fun y hy => by
        cases fs with
        | nil => simp at hy
        | cons z fs =>
          simp only [List.head?_cons, Option.mem_def, Option.some.injEq] at hy
          subst hy
          rw [List.isChain_cons_cons] at hc
          exact fun e => hc.1 e.symm)
  refine ⟨r, rs ++ fs.flatMap (·.rs), x.f, by simp [Dim.rs, hfs, hrs], hx.dim r (by simp [hrs]), hx.fn r (by simp [hrs]),
    f', R', p, h1, ?_, ?_⟩
  · rw [List.cons_append, h2, hfs]; simp
  · rw [add, List.append_assoc,
      same_runs x.f b.d t0 tab _ rs _ _ (fun y hy => ⟨hx.dim y (by simp [hrs, hy]), hx.fn y (by simp [hrs, hy])⟩)]
    simp only [Nat.zero_add]
    rw [← hruns, h3]
    simp [Dim.evals, Dim.rs, hfs, hrs, Nat.add_assoc]

/-- The rest of an experiment and its end. -/
def toEnd (s : Info) (rs : List Run) (t1 t2 : ℚ) : Res (Info × List Piece) :=
  (experiment s rs).bind fun (s, a) => (finish s t1 t2).bind fun (s, b) => .ok (s, a ++ b)

theorem toEnd_prepend {s s' : Info} {rs rs' : List Run} {p : List Piece} (h : experiment s rs = prepend p (experiment s' rs'))
    (t1 t2 : ℚ) : toEnd s rs t1 t2 = prepend p (toEnd s' rs' t1 t2) := by
  rw [toEnd, h, toEnd]
  cases experiment s' rs' with
  | ok x =>
    simp only [prepend, Res.ok_bind]
    cases finish x.1 t1 t2 <;> simp [Res.bind]
  | _ => rfl

theorem dimensions (tEnd t2 : ℚ) : ∀ (bs : List Dim) (f : List Char) (d : Nat) (t0 : ℚ) (E : Nat) (tab : List (Nat × ℚ)) (R : Nat),
    d ≠ 0 → E ≠ 0 → R ≠ 0 → Spec.Ok bs → (∀ b ∈ bs.head?, b.d ≠ d) →
      ∃ s, toEnd ⟨some f, d, t0, E, tab, R⟩ (bs.flatMap (·.rs)) tEnd t2 =
          .ok (s, [.runs R, .done d (((bs.head?.map (·.t1)).getD tEnd - t0) / E)] ++
            text (timed ((bs.head?.map (·.t2)).getD t0) tEnd bs)) ∧
        s.table = (timed ((bs.head?.map (·.t2)).getD t0) tEnd bs).foldl (fun t x => put t x.1.d x.2)
          (put tab d (((bs.head?.map (·.t1)).getD tEnd - t0) / E))
  | [], f, d, t0, E, tab, R, hd, hE, hR, _, _ => by
    refine ⟨⟨some f, d, t2, 0, put tab d ((tEnd - t0) / E), 0⟩, ?_, ?_⟩
    · simp [toEnd, experiment, finish, functionDone, dimensionDone, hE, hR, Res.ok_bind, text, timed]
    · simp [timed]
  | b :: bs, f, d, t0, E, tab, R, hd, hE, hR, hok, hh => by
    have hb := hok.ok b (by simp)
    have hbe := hb.evals
    have hbp := hb.pos
    have hne : b.d ≠ d := hh b (by simp)
    obtain ⟨r, rs, g, hrs, hdim, hfn, f', R', p, h1, h2, h3⟩ :=
      dimension b.t2 (put tab d ((b.t1 - t0) / E)) (bs.flatMap (·.rs)) b hb
    have ht1 : b.t1 = r.t1 := by simp [Dim.t1, hrs]
    have ht2 : b.t2 = r.t2 := by simp [Dim.t2, hrs]
    obtain ⟨s, h4, h5⟩ := dimensions tEnd t2 bs f' b.d b.t2 b.evals (put tab d ((b.t1 - t0) / E)) R' (by omega) (by omega) h1
      ⟨fun x hx => hok.ok x (List.mem_cons_of_mem _ hx), hok.change.tail⟩
      (fun x hx => by
        have hc := hok.change
        cases bs with
        | nil => simp at hx
        | cons z bs =>
          simp only [List.head?_cons, Option.mem_def, Option.some.injEq] at hx
          subst hx
          rw [List.isChain_cons_cons] at hc
          exact fun e => hc.1 e.symm)
    have hcall : call ⟨some f, d, t0, E, tab, R⟩ r.id r.dim r.t1 r.t2 = .ok (⟨some g, b.d, b.t2, 0, put tab d ((b.t1 - t0) / E), 0⟩,
        [.runs R, .done d ((b.t1 - t0) / E), .heading b.d, .func g]) := by
      rw [hdim, ht1, ht2]
      exact call_dim hfn f hne hd t0 r.t1 r.t2 hE tab hR
    refine ⟨s, ?_, ?_⟩
    · rw [List.flatMap_cons, hrs, List.cons_append, toEnd_prepend (experiment_cons hcall _), toEnd_prepend h3, prepend_prepend, h4]
      simp only [prepend, Res.ok_bind, List.head?_cons, Option.map_some, Option.getD_some, timed, text, List.flatMap_cons]
      rw [← h2]
      simp
    · rw [h5]
      simp only [List.head?_cons, Option.map_some, Option.getD_some, timed, List.foldl_cons]

theorem put_new : ∀ (tab : List (Nat × ℚ)) (d : Nat) (q : ℚ), (∀ e ∈ tab, e.1 ≠ d) → put tab d q = tab ++ [(d, q)]
  | [], _, _, _ => rfl
  | e :: tab, d, q, h => by
    rw [put, if_neg (h e (by simp)), put_new tab d q fun x hx => h x (List.mem_cons_of_mem _ hx)]; rfl

theorem foldl_put : ∀ (l : List (Dim × ℚ)) (tab : List (Nat × ℚ)), ((tab.map (·.1)) ++ l.map (·.1.d)).Nodup →
    l.foldl (fun t x => put t x.1.d x.2) tab = tab ++ l.map fun x => (x.1.d, x.2)
  | [], tab, _ => by simp
  | x :: l, tab, h => by
    have hx : ∀ e ∈ tab, e.1 ≠ x.1.d := by
      intro e he heq
      rw [List.nodup_append] at h
      exact h.2.2 e.1 (List.mem_map_of_mem he) x.1.d (by simp) heq
    rw [List.foldl_cons, put_new tab _ _ hx, foldl_put l _ (by simpa using h)]
    simp

theorem timed_dims (tEnd : ℚ) : ∀ (bs : List Dim) (t0 : ℚ), (timed t0 tEnd bs).map (·.1.d) = bs.map (·.d)
  | [], _ => rfl
  | b :: bs, t0 => by simp [timed, timed_dims tEnd bs]

/-! ### C134 -/

/-- C134 (for experiments that call the object before each problem, as its documentation says, and in which every function has a run and
every dimension an evaluation): no exception; the text is a heading for each dimension, each function once with the number of its runs
over all instances, and the seconds per evaluation of each dimension. -/
theorem C134_text_partial (t tEnd t2 : ℚ) (bs : List Dim) (hne : bs ≠ []) (h : Spec.Ok bs) :
    ∃ s, whole t (bs.flatMap (·.rs)) tEnd t2 = .ok (s, text (timed t tEnd bs)) ∧
      s.table = (timed t tEnd bs).foldl (fun t x => put t x.1.d x.2) [] := by
  obtain ⟨b, bs, rfl⟩ := List.exists_cons_of_ne_nil hne
  have hb := h.ok b (by simp)
  have hbe := hb.evals
  have hbp := hb.pos
  obtain ⟨r, rs, g, hrs, hdim, hfn, f', R', p, h1, h2, h3⟩ := dimension t [] (bs.flatMap (·.rs)) b hb
  obtain ⟨s, h4, h5⟩ := dimensions tEnd t2 bs f' b.d t b.evals [] R' (by omega) (by omega) h1
    ⟨fun x hx => h.ok x (List.mem_cons_of_mem _ hx), h.change.tail⟩
    (fun x hx => by
      have hc := h.change
      cases bs with
      | nil => simp at hx
      | cons z bs =>
        simp only [List.head?_cons, Option.mem_def, Option.some.injEq] at hx
        subst hx
        rw [List.isChain_cons_cons] at hc
        exact fun e => hc.1 e.symm)
  have hcall : call (.init t) r.id r.dim r.t1 r.t2 = .ok (⟨some g, b.d, t, 0, [], 0⟩, [.heading b.d, .func g]) := by
    rw [hdim]; exact call_first hfn (by omega) t r.t1 r.t2
  refine ⟨s, ?_, ?_⟩
  · change toEnd (.init t) _ _ _ = _
    rw [List.flatMap_cons, hrs, List.cons_append, toEnd_prepend (experiment_cons hcall _), toEnd_prepend h3, prepend_prepend, h4]
    simp only [prepend, Res.ok_bind, timed, text, List.flatMap_cons]
    rw [← h2]
    simp
  · rw [h5]
    simp only [timed, List.foldl_cons]

/-- C134: the table at the end has one line for each dimension, with its seconds per evaluation, if no dimension comes back later. -/
theorem C134_table_partial (t tEnd t2 : ℚ) (bs : List Dim) (hne : bs ≠ []) (h : Spec.Ok bs) (hd : (bs.map (·.d)).Nodup) :
    ∃ s p, whole t (bs.flatMap (·.rs)) tEnd t2 = .ok (s, p) ∧ s.table = (timed t tEnd bs).map fun x => (x.1.d, x.2) := by
  obtain ⟨s, h1, h2⟩ := C134_text_partial t tEnd t2 bs hne h
  refine ⟨s, _, h1, ?_⟩
  rw [h2, foldl_put _ _ (by simpa [timed_dims] using hd)]
  simp

/-- C134: nothing is printed and nothing changes if only the instance has changed. -/
theorem C134_quiet (s : Info) (id f : List Char) (t1 t2 : ℚ) (hf : FunctionOf id f) (hs : s.f = some f) :
    call s id s.d t1 t2 = .ok (s, []) := by
  obtain ⟨f', d, t0, E, tab, R⟩ := s
  simp only at hs
  subst hs
  exact call_same hf d t0 t1 t2 E tab R

/-- C134: numbers of runs below 1000 take five characters with the parentheses and the blanks behind, larger ones no blank. -/
theorem C134_width (n : Nat) (h : 0 < n) : (runsText n).length = max 5 ((Nat.digits 10 n).length + 2) := by
  rw [runsText]
  simp only [List.length_cons, List.length_append, List.length_map, List.length_reverse, List.length_replicate]
  rw [Nat.digits_len 10 n (by norm_num) (by omega)]
  omega

/-- C134: without a run since the last call the object raises an exception at the next function or dimension. -/
theorem C134_no_run (s : Info) (id f g : List Char) (dim : Nat) (t1 t2 : ℚ) (hf : FunctionOf id f) (hg : s.f = some g)
    (hc : f ≠ g ∨ dim ≠ s.d) (hr : s.runs = 0) : call s id dim t1 t2 = .error := by
  rw [call, funcOf_eq hf]
  have h1 : (s.f.isSome = true ∧ (some f ≠ s.f ∨ dim ≠ s.d)) := by rw [hg]; simpa using hc
  simp only
  rw [if_pos h1, functionDone, if_pos hr]
  rfl

theorem foldl_add : ∀ (rs : List Run) (s : Info), rs.foldl (fun s r => add s r.evals r.runs) s =
    { s with evals := s.evals + (rs.map (·.evals)).sum, runs := s.runs + (rs.map (·.runs)).sum }
  | [], s => by simp
  | r :: rs, s => by
    rw [List.foldl_cons, foldl_add rs]
    simp [add, Nat.add_assoc]

/-- C134 fails for the example experiment, which does not call the object: whatever the dimensions and functions are, one number of runs
is printed and the table has one line, for dimension 0. -/
theorem C134_example_wrong (t t1 t2 : ℚ) (rs : List Run) (he : 0 < (rs.map (·.evals)).sum) (hr : 0 < (rs.map (·.runs)).sum) :
    ∃ s, batchLoop t rs t1 t2 = .ok (s, [.runs (rs.map (·.runs)).sum, .done 0 ((t1 - t) / (rs.map (·.evals)).sum)]) ∧
      s.table = [(0, (t1 - t) / (rs.map (·.evals)).sum)] := by
  rw [batchLoop, foldl_add]
  simp only [Info.init, Nat.zero_add, finish, functionDone, dimensionDone]
  rw [if_neg (by omega), Res.ok_bind]
  simp only
  rw [if_neg (by omega), Res.ok_bind]
  exact ⟨_, rfl, rfl⟩

/-- C134: a batch of the example experiment without problems ends with an exception. -/
theorem C134_empty_batch (t t1 t2 : ℚ) : batchLoop t [] t1 t2 = .error := rfl

/-! ### Cases -/

/-- Two instances of f001 and one of f002 in dimension 2, f002 in dimension 3. -/
def example_dims : List Dim :=
  [⟨2, [⟨"f001".toList, [⟨"bbob_f001_i01_d02".toList, 2, 1, 1, 10, 1⟩, ⟨"bbob_f001_i02_d02".toList, 2, 5, 5, 20, 12⟩]⟩,
        ⟨"f002".toList, [⟨"bbob_f002_i01_d02".toList, 2, 7, 7, 10, 2⟩]⟩]⟩,
   ⟨3, [⟨"f002".toList, [⟨"bbob_f002_i01_d03".toList, 3, 9, 10, 4, 1⟩]⟩]⟩]

theorem example_id (n rest : List Char) (hn : '_' ∉ n)
    (h : ("bbob_f".toList ++ n ++ '_' :: rest).map Char.toLower = "bbob_f".toList ++ n ++ '_' :: rest) :
    FunctionOf ("bbob_f".toList ++ n ++ '_' :: rest) ('f' :: n) :=
  ⟨"bbob".toList, n, '_' :: rest, by rw [h]; simp, by decide, hn, rfl, rfl⟩

example : Spec.Ok example_dims := by
  have h1 := example_id "001".toList "i01_d02".toList (by decide) (by decide)
  have h2 := example_id "001".toList "i02_d02".toList (by decide) (by decide)
  have h3 := example_id "002".toList "i01_d02".toList (by decide) (by decide)
  have h4 := example_id "002".toList "i01_d03".toList (by decide) (by decide)
  refine ⟨?_, by simp [example_dims]⟩
  intro b hb
  simp only [example_dims, List.mem_cons, List.not_mem_nil, or_false] at hb
  rcases hb with rfl | rfl
  · refine ⟨by decide, by simp, ?_, by decide, by simp⟩
    intro f hf
    simp only [List.mem_cons, List.not_mem_nil, or_false] at hf
    rcases hf with rfl | rfl
    · refine ⟨by simp, by simp, ?_, by decide⟩
      intro r hr
      simp only [List.mem_cons, List.not_mem_nil, or_false] at hr
      rcases hr with rfl | rfl
      · exact h1
      · exact h2
    · refine ⟨by simp, by simp, ?_, by decide⟩
      intro r hr
      simp only [List.mem_cons, List.not_mem_nil, or_false] at hr
      subst hr
      exact h3
  · refine ⟨by decide, by simp, ?_, by decide, by simp⟩
    intro f hf
    simp only [List.mem_cons, List.not_mem_nil, or_false] at hf
    subst hf
    refine ⟨by simp, by simp, ?_, by decide⟩
    intro r hr
    simp only [List.mem_cons, List.not_mem_nil, or_false] at hr
    subst hr
    exact h4

/-- Its timings: 40 evaluations from time 0 to 9, 4 evaluations from time 10 to 12. -/
example : (timed 0 12 example_dims).map (fun x => (x.1.d, x.2)) = [(2, 9 / 40), (3, 1 / 2)] := by
  simp [timed, example_dims, Dim.evals, Dim.rs, Dim.t1, Dim.t2]
  norm_num

example : runsText 13 = "(13) ".toList := by
  have h : Nat.log 10 13 = 1 := by rw [Nat.log_eq_iff (by decide)]; decide
  simp [runsText, h, Nat.digitChar]

end ShortInfo
