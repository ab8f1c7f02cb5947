import Mathlib.Tactic.Common
import Mathlib.Data.List.Chain
import Verif.Model.SameFunction
import Verif.Props.PyArgs

/-!
# Counting instances of the same function in Python (C133)

`/repo/build/python/src/cocoex/utilities.py` lines 368-419.
-/

namespace SameFunction

/-! ### Specification -/

namespace Spec

/-- The parts of an id: at least one, without underscores. -/
def Parts (ps : List (List Char)) : Prop := ps ≠ [] ∧ ∀ p ∈ ps, '_' ∉ p

/-- The id with the given parts. -/
def text : List (List Char) → List Char
  | [] => []
  | [p] => p
  | p :: q :: ps => p ++ '_' :: text (q :: ps)

/-- The parts that do not name an instance. -/
def kind (ps : List (List Char)) : List (List Char) := ps.filter fun p => p.head? ≠ some 'i'

/-- The number of calls directly before that are of this kind; `before` is the sequence of the earlier calls. -/
def streak (before : List (List (List Char))) (ps : List (List Char)) : Nat :=
  (before.reverse.takeWhile fun q => kind q = kind ps).length

/-- The parts of the id of a problem: prefix, function, instance and dimension. -/
def problem (pre : List (List Char)) (f i d : List Char) : List (List Char) := pre ++ ['f' :: f, 'i' :: i, 'd' :: d]

/-- Problems in the order of a suite: blocks of problems of the same kind, those of neighbouring blocks of different kinds. -/
structure Blocks (bs : List (List (List (List Char)))) : Prop where
  parts : ∀ b ∈ bs, ∀ ps ∈ b, Parts ps
  full : ∀ b ∈ bs, b ≠ []
  same : ∀ b ∈ bs, ∀ p ∈ b, ∀ q ∈ b, kind p = kind q
  change : bs.IsChain fun b c => ∀ p ∈ b, ∀ q ∈ c, kind p ≠ kind q

end Spec

open Spec

/-! ### Texts -/

theorem split_text : ∀ {ps : List (List Char)}, Parts ps → PyArgs.split '_' (text ps) = ps
  | [], h => absurd rfl h.1
  | [p], h => PyArgs.split_absent (h.2 p (by simp))
  | p :: q :: ps, h => by
    rw [text, PyArgs.split_append (h.2 p (by simp)), split_text ⟨by simp, fun r hr => h.2 r (List.mem_cons_of_mem _ hr)⟩]

theorem filter_text {ps : List (List Char)} (h : Parts ps) : filter (text ps) = kind ps := by
  rw [filter, split_text h, kind]
  congr 1
  funext p
  by_cases e : p.head? = some 'i' <;> simp [e]

/-! ### Counting -/

/-- What the attributes say about the calls so far, latest first. -/
structure Inv (s : State) (h : List (List (List Char))) : Prop where
  count : s.count = match h with
    | [] => 0
    | p :: _ => (h.takeWhile fun q => kind q = kind p).length
  last : s.last = h.head?.map kind

theorem call_inv {s : State} {h : List (List (List Char))} (hi : Inv s h) {ps : List (List Char)} (hp : Parts ps) :
    (call s (text ps)).2 = (h.takeWhile fun q => kind q = kind ps).length ∧ Inv (call s (text ps)).1 (ps :: h) := by
  have hc := hi.count
  have hl := hi.last
  rw [call]
  simp only [filter_text hp]
  cases h with
  | nil =>
    simp only at hc
    simp only [hc, true_or, if_true, Nat.zero_add, Nat.sub_self, List.takeWhile_nil, List.length_nil, true_and]
    exact ⟨by simp, by simp⟩
  | cons p h =>
    simp only [List.head?_cons, Option.map_some] at hc hl
    have hne : s.count ≠ 0 := by rw [hc]; simp
    by_cases e : kind ps = kind p
    · have hs : ¬ (s.count = 0 ∨ some (kind ps) ≠ s.last) := by rw [hl, e]; simp [hne]
      rw [if_neg hs]
      have hcc : (List.takeWhile (fun q => decide (kind q = kind ps)) (p :: h)).length = s.count := by rw [e]; exact hc.symm
      refine ⟨by simp only [Nat.add_sub_cancel]; exact hcc.symm, ?_, ?_⟩
      · simp only [List.takeWhile_cons_of_pos, decide_true, List.length_cons]
        rw [hcc]
      · simp [hl, e]
    · have hs : s.count = 0 ∨ some (kind ps) ≠ s.last := by rw [hl]; simp [e]
      rw [if_pos hs]
      have hz : List.takeWhile (fun q => decide (kind q = kind ps)) (p :: h) = [] := by
        rw [List.takeWhile_cons_of_neg]; simpa using fun e' => e (Eq.symm e')
      refine ⟨by simp [hz], ?_, by simp⟩
      simp only [List.takeWhile_cons_of_pos, decide_true, List.length_cons]
      rw [hz]
      rfl

theorem run_inv (ids : List (List (List Char))) : ∀ (s : State) (h : List (List (List Char))), Inv s h → (∀ p ∈ ids, Parts p) →
    ∀ (k : Nat) (hk : k < ids.length),
      (run s (ids.map text))[k]? = some (((ids.take k).reverse ++ h).takeWhile fun q => kind q = kind ids[k]).length := by
  induction ids with
  | nil => intro s h _ _ k hk; simp at hk
  | cons p ids ih =>
    intro s h hi hp k hk
    have hc := call_inv hi (hp p (by simp))
    rw [List.map_cons, run]
    cases k with
    | zero => simp [hc.1]
    | succ k =>
      rw [List.getElem?_cons_succ,
        ih _ _ hc.2 (fun q hq => hp q (List.mem_cons_of_mem _ hq)) k (by simpa using hk)]
      simp

theorem inv_init : Inv State.init [] := ⟨rfl, rfl⟩

/-! ### C133 -/

/-- C133: every call answers the number of directly preceding calls whose ids differ in parts that start with `i` only. -/
theorem C133_answers (ids : List (List (List Char))) (hp : ∀ p ∈ ids, Parts p) (k : Nat) (hk : k < ids.length) :
    (run State.init (ids.map text))[k]? = some (streak (ids.take k) ids[k]) := by
  rw [run_inv ids _ _ inv_init hp k hk, streak, List.append_nil]

/-- C133: every text is an id, so nothing is left out in `C133_answers`. -/
theorem C133_every_text (s : List Char) : ∃ ps, Parts ps ∧ text ps = s := by
  induction s with
  | nil => exact ⟨[[]], ⟨by simp, by simp⟩, rfl⟩
  | cons c s ih =>
    obtain ⟨ps, hp, e⟩ := ih
    by_cases hc : c = '_'
    · refine ⟨[] :: ps, ⟨by simp, ?_⟩, ?_⟩
      · intro p h
        rcases List.mem_cons.mp h with rfl | h
        · simp
        · exact hp.2 p h
      · cases ps with
        | nil => exact absurd rfl hp.1
        | cons p ps => rw [text, e, hc]; rfl
    · cases ps with
      | nil => exact absurd rfl hp.1
      | cons p ps =>
        refine ⟨(c :: p) :: ps, ⟨by simp, ?_⟩, ?_⟩
        · intro q h
          rcases List.mem_cons.mp h with rfl | h
          · rw [List.mem_cons, not_or]; exact ⟨fun h => hc h.symm, hp.2 p (by simp)⟩
          · exact hp.2 q (List.mem_cons_of_mem _ h)
        · cases ps with
          | nil => rw [text] at e ⊢; rw [e]
          | cons q ps => rw [text] at e ⊢; rw [← e]; rfl

/-- C133: the ids of two problems with the same prefix are of the same kind exactly if function and dimension are the same. -/
theorem C133_problems (pre : List (List Char)) (f i d f' i' d' : List Char) :
    kind (problem pre f i d) = kind (problem pre f' i' d') ↔ f = f' ∧ d = d' := by
  simp [kind, problem]

/-- One block: the state is about calls whose last one is of another kind or `j` of this kind. -/
theorem block (b : List (List (List Char))) : ∀ (s : State) (h : List (List (List Char))), Inv s h → (∀ p ∈ b, Parts p) →
    (∀ p ∈ b, ∀ q ∈ b, kind p = kind q) → ∀ j, (∀ p ∈ b, (h.takeWhile fun q => kind q = kind p).length = j) →
      ∀ (limit : Nat) (rest : List (List Char)), ∃ t, Inv t (b.reverse ++ h) ∧
        run s (b.map text ++ rest) = List.range' j b.length ++ run t rest ∧
        loop limit s (b.map text ++ rest) = (b.take (limit + 1 - j)).map text ++ loop limit t rest := by
  induction b with
  | nil => intro s h hi _ _ j _ limit rest; exact ⟨s, hi, by simp, by simp⟩
  | cons p b ih =>
    intro s h hi hp hs j hj limit rest
    have hc := call_inv hi (hp p (by simp))
    obtain ⟨t, ht, hr, hl⟩ := ih _ _ hc.2 (fun q hq => hp q (List.mem_cons_of_mem _ hq))
      (fun q hq r hr => hs q (List.mem_cons_of_mem _ hq) r (List.mem_cons_of_mem _ hr)) (j + 1)
      (fun q hq => by
        have e : kind p = kind q := hs p (by simp) q (List.mem_cons_of_mem _ hq)
        rw [List.takeWhile_cons_of_pos (by simpa using e), List.length_cons, hj q (List.mem_cons_of_mem _ hq)]) limit rest
    refine ⟨t, by simpa using ht, ?_, ?_⟩
    · rw [List.map_cons, List.cons_append, run, hr, hc.1, hj p (by simp)]
      simp [List.range'_succ]
    · rw [List.map_cons, List.cons_append, loop, hl, hc.1, hj p (by simp)]
      by_cases hle : j > limit
      · rw [if_pos hle]
        have e1 : limit + 1 - j = 0 := by omega
        have e2 : limit + 1 - (j + 1) = 0 := by omega
        rw [e1, e2]; simp
      · rw [if_neg hle]
        have e1 : limit + 1 - j = (limit + 1 - (j + 1)) + 1 := by omega
        rw [e1, List.take_succ_cons, List.map_cons, List.cons_append]

theorem blocks_gen (limit : Nat) (bs : List (List (List (List Char)))) : ∀ (s : State) (h : List (List (List Char))), Inv s h →
    Blocks bs → (∀ b ∈ bs.head?, ∀ p ∈ b, ∀ q ∈ h.head?, kind q ≠ kind p) →
      run s (bs.flatten.map text) = bs.flatMap (fun b => List.range b.length) ∧
      loop limit s (bs.flatten.map text) = (bs.flatMap fun b => b.take (limit + 1)).map text := by
  induction bs with
  | nil => intro s h _ _ _; exact ⟨rfl, rfl⟩
  | cons b bs ih =>
    intro s h hi hb hh
    obtain ⟨t, ht, hr, hl⟩ := block b s h hi (hb.parts b (by simp)) (hb.same b (by simp)) 0
      (fun p hp => by
        cases h with
        | nil => simp
        | cons q h =>
          have := hh b (by simp) p hp q (by simp)
          rw [List.takeWhile_cons_of_neg (by simpa using this)]; rfl) limit (bs.flatten.map text)
    have hih := ih t _ ht
      ⟨fun c hc => hb.parts c (List.mem_cons_of_mem _ hc), fun c hc => hb.full c (List.mem_cons_of_mem _ hc),
        fun c hc => hb.same c (List.mem_cons_of_mem _ hc), hb.change.tail⟩
      (fun c hc p hp q hq => by
        have hne := hb.full b (by simp)
        have hq' : q ∈ b := by
          have : b.reverse ≠ [] := by simpa using hne
          rw [List.head?_append_of_ne_nil _ this] at hq
          exact List.mem_reverse.mp (List.mem_of_mem_head? hq)
        cases bs with
        | nil => simp at hc
        | cons c' bs =>
          simp only [List.head?_cons, Option.mem_def, Option.some.injEq] at hc
          subst hc
          have := hb.change
          rw [List.isChain_cons_cons] at this
          exact this.1 q hq' p hp)
    rw [List.flatten_cons, List.map_append, hr, hl, hih.1, hih.2]
    simp [List.range_eq_range']

/-- C133: along a suite whose problems of one function and dimension follow each other, the answers are 0, 1, 2, … for the problems of
each function and dimension. -/
theorem C133_suite (bs : List (List (List (List Char)))) (hb : Blocks bs) :
    run State.init (bs.flatten.map text) = bs.flatMap (fun b => List.range b.length) :=
  (blocks_gen 0 bs _ _ inv_init hb (by simp)).1

/-- C133: a loop that goes on with the next problem if the answer is greater than `limit` runs the first `limit + 1` problems of each
function and dimension, in their order. -/
theorem C133_loop (limit : Nat) (bs : List (List (List (List Char)))) (hb : Blocks bs) :
    loop limit State.init (bs.flatten.map text) = (bs.flatMap fun b => b.take (limit + 1)).map text :=
  (blocks_gen limit bs _ _ inv_init hb (by simp)).2

/-! ### Cases -/

/-- Two functions of the noisy suite with two instances each. -/
def example_blocks : List (List (List (List Char))) :=
  let pre := ["bbob".toList, "noisy".toList]
  [[problem pre "101".toList "01".toList "02".toList, problem pre "101".toList "02".toList "02".toList],
   [problem pre "102".toList "01".toList "02".toList, problem pre "102".toList "02".toList "02".toList]]

example : Blocks example_blocks :=
  ⟨by unfold Parts; decide, by decide, by decide, by unfold example_blocks; simp [kind, problem]⟩

example : text (problem ["bbob".toList, "noisy".toList] "101".toList "01".toList "02".toList) = "bbob_noisy_f101_i01_d02".toList := by decide

example : run State.init (example_blocks.flatten.map text) = [0, 1, 0, 1] := by decide

/-- The example of the documentation, which speaks of the first five instances, runs six of fifteen. -/
example (pre : List (List Char)) (hpre : ∀ p ∈ pre, '_' ∉ p) (f d : List Char) (hf : '_' ∉ f) (hd : '_' ∉ d) (is : List (List Char))
    (hi : ∀ i ∈ is, '_' ∉ i) (h15 : is.length = 15) :
    (loop 5 State.init (is.map fun i => text (problem pre f i d))).length = 6 := by
  have hb : Blocks [is.map fun i => problem pre f i d] := by
    refine ⟨?_, ?_, ?_, by simp⟩
    · intro b hb ps hps
      simp only [List.mem_singleton] at hb
      subst hb
      obtain ⟨i, h, rfl⟩ := List.mem_map.mp hps
      refine ⟨by simp [problem], ?_⟩
      intro p hp
      simp only [problem, List.mem_append, List.mem_cons, List.not_mem_nil, or_false] at hp
      rcases hp with hp | rfl | rfl | rfl
      · exact hpre p hp
      · simpa using hf
      · simpa using hi i h
      · simpa using hd
    · intro b hb
      simp only [List.mem_singleton] at hb
      subst hb
      intro e
      rw [List.map_eq_nil_iff] at e
      rw [e] at h15
      simp at h15
    · intro b hb p hp q hq
      simp only [List.mem_singleton] at hb
      subst hb
      obtain ⟨i, -, rfl⟩ := List.mem_map.mp hp
      obtain ⟨j, -, rfl⟩ := List.mem_map.mp hq
      exact (C133_problems pre f i d f j d).mpr ⟨rfl, rfl⟩
  have := C133_loop 5 _ hb
  simp only [List.flatten_cons, List.flatten_nil, List.append_nil, List.map_map, List.flatMap_cons, List.flatMap_nil] at this
  have e : (is.map fun i => text (problem pre f i d)) = is.map (text ∘ fun i => problem pre f i d) := rfl
  rw [e, this]
  simp [h15]

end SameFunction
