import Verif.Model.Messages
import Mathlib.Tactic.Common

/-!
# The texts of messages (C132)

`/repo/src/coco_runtime_c.c` and `/repo/src/coco_runtime_matlab.c`.
-/

namespace Messages

open Observer

/-! ### Specification -/

namespace Spec

/-- A part of a format: text without percent signs, a percent sign, or a conversion with its flags and its letter. -/
inductive Piece where
  | lit (t : List Char)
  | percent
  | conv (flags : List Char) (letter : Char)

/-- Parts as programs contain them. -/
def Piece.Ok : Piece → Prop
  | .lit t => '%' ∉ t
  | .percent => True
  | .conv flags letter => (∀ c ∈ flags, isFlag c = true) ∧ isConv letter = true

/-- The format that consists of the parts. -/
def format : List Piece → List Char
  | [] => []
  | .lit t :: ps => t ++ format ps
  | .percent :: ps => '%' :: '%' :: format ps
  | .conv flags letter :: ps => '%' :: (flags ++ letter :: format ps)

/-- The number of conversions. -/
def holes : List Piece → Nat
  | [] => 0
  | .conv _ _ :: ps => holes ps + 1
  | _ :: ps => holes ps

/-- The text with the arguments in place of the conversions. -/
def text : List Piece → List (List Char) → List Char
  | [], _ => []
  | .lit t :: ps, args => t ++ text ps args
  | .percent :: ps, args => '%' :: text ps args
  | .conv _ _ :: ps, args => args.headD [] ++ text ps args.tail

/-- Messages that the current level shows: errors always, others if their level is at most the current one. -/
def shown (cur : Level) : Kind → Prop
  | .error => True
  | .warning => cur ≠ .error
  | .info => cur = .info ∨ cur = .debug
  | .infoPartial => cur = .info ∨ cur = .debug
  | .debug => cur = .debug

end Spec

open Spec

theorem printed_iff (cur : Level) (k : Kind) : k.printed cur = true ↔ shown cur k := by
  cases cur <;> cases k <;> simp [Kind.printed, shown, Level.num]

theorem before_ok (t s : List Char) : before t (.ok s) = .ok (t ++ s) := rfl

theorem expand_lit (t r : List Char) (args : List (List Char)) (h : '%' ∉ t) :
    expand .plain (t ++ r) args = before t (expand .plain r args) := by
  induction t with
  | nil =>
    rw [List.nil_append]
    cases expand .plain r args <;> rfl
  | cons c t ih =>
    rw [List.mem_cons, not_or] at h
    rw [List.cons_append, expand, if_neg fun e => h.1 e.symm, ih h.2]
    cases expand .plain r args <;> rfl

theorem flag_ne {c : Char} (h : isFlag c = true) : c ≠ '%' := by
  rintro rfl
  revert h
  decide

theorem conv_ne {c : Char} (h : isConv c = true) : c ≠ '%' ∧ isFlag c = false := by
  simp only [isConv, List.mem_cons, List.not_mem_nil, or_false, decide_eq_true_eq] at h
  rcases h with rfl | rfl | rfl | rfl | rfl | rfl | rfl | rfl | rfl | rfl <;> decide

theorem expand_conv (st : At) (hst : st ≠ .plain) (flags : List Char) (letter : Char) (r a : List Char) (as : List (List Char))
    (hf : ∀ c ∈ flags, isFlag c = true) (hl : isConv letter = true) :
    expand st (flags ++ letter :: r) (a :: as) = before a (expand .plain r as) := by
  induction flags generalizing st with
  | nil =>
    have h := conv_ne hl
    cases st with
    | plain => exact absurd rfl hst
    | first => simp [expand, h.1, h.2, hl]
    | flags => simp [expand, h.2, hl]
  | cons c flags ih =>
    have hc := hf c (.head _)
    have hn := flag_ne hc
    have := ih .flags (by decide) fun c h => hf c (.tail _ h)
    cases st with
    | plain => exact absurd rfl hst
    | first => simp only [List.cons_append, expand, hn, and_false, if_false, hc, if_true, this]
    | flags => simp only [List.cons_append, expand, reduceCtorEq, false_and, if_false, hc, if_true, this]

theorem expand_format (ps : List Piece) (hp : ∀ p ∈ ps, p.Ok) : ∀ args : List (List Char), holes ps ≤ args.length →
    expand .plain (format ps) args = .ok (text ps args) := by
  induction ps with
  | nil => intro args _; rfl
  | cons p ps ih =>
    have ih := ih fun p h => hp p (.tail _ h)
    have h0 := hp p (.head _)
    intro args hl
    cases p with
    | lit t => rw [format, expand_lit t _ _ h0, ih args hl, before_ok, text]
    | percent =>
      simp only [format, expand, if_true, and_self, ih args hl, before_ok, text]
      rfl
    | conv flags letter =>
      cases args with
      | nil => simp [holes] at hl
      | cons a as =>
        rw [format, expand, if_pos rfl, expand_conv .first (by decide) flags letter _ a as h0.1 h0.2,
          ih as (by simpa [holes] using hl), before_ok]
        rfl

/-! ### C132 -/

/-- **C132** (C, Python, Java, Rust). For every format and at least as many arguments as conversions: a message that the current level shows
is printed with its prefix and the arguments in place of the conversions, whatever characters the arguments contain and however long they
are; other messages print nothing. -/
theorem C132_c (cur : Level) (k : Kind) (ps : List Piece) (hp : ∀ p ∈ ps, p.Ok) (args : List (List Char)) (hl : holes ps ≤ args.length) :
    (shown cur k → printC cur k (format ps) args = .ok (k.head ++ text ps args ++ k.tail)) ∧
    (¬ shown cur k → printC cur k (format ps) args = .ok []) := by
  constructor
  · intro h
    rw [printC, if_pos ((printed_iff cur k).mpr h), expand_format ps hp args hl, Res.ok_bind]
  · intro h
    rw [printC, if_neg fun e => h ((printed_iff cur k).mp e)]

/-- **C132** (partial: Matlab, messages of less than 500 characters without percent signs). They are printed as in C. -/
theorem C132_matlab_partial (cur : Level) (k : Kind) (ps : List Piece) (hp : ∀ p ∈ ps, p.Ok) (args : List (List Char))
    (hl : holes ps ≤ args.length) (hlen : shown cur k → (text ps args).length < 500) (hpc : shown cur k → '%' ∉ text ps args) :
    printMatlab cur k (format ps) args = printC cur k (format ps) args := by
  unfold printMatlab printC
  split
  · rename_i h
    have hs := (printed_iff cur k).mp h
    have hlen := hlen hs
    have e := expand_lit (text ps args) [] [] (hpc hs)
    rw [List.append_nil] at e
    rw [expand_format ps hp args hl, Res.ok_bind, Res.ok_bind, if_neg (by omega), e]
    simp only [expand, before_ok, Res.ok_bind, List.append_nil]
  · rfl

theorem expand_none (t : List Char) : ∀ st : At, expand st t [] = .ub ∨
    ∃ out, expand st t [] = .ok out ∧ out.length ≤ t.length ∧ (st = .plain → '%' ∈ t → out.length < t.length) := by
  induction t with
  | nil =>
    intro st
    cases st with
    | plain => exact .inr ⟨[], rfl, by simp, by simp⟩
    | first => exact .inl rfl
    | flags => exact .inl rfl
  | cons c t ih =>
    intro st
    have other : ∀ st : At, st ≠ .plain → expand st (c :: t) [] = .ub ∨
        ∃ out, expand st (c :: t) [] = .ok out ∧ out.length ≤ (c :: t).length ∧
          (st = .plain → '%' ∈ c :: t → out.length < (c :: t).length) := by
      intro st hst
      have e : expand st (c :: t) [] = if st = .first ∧ c = '%' then before [c] (expand .plain t [])
          else if isFlag c then expand .flags t [] else if isConv c then .ub else .ub := by
        cases st with
        | plain => exact absurd rfl hst
        | first => rw [expand]; intro h; cases h
        | flags => rw [expand]; intro h; cases h
      rw [e]
      split
      · rcases ih .plain with h | ⟨out, h, h1, h2⟩
        · exact .inl (by rw [h]; rfl)
        · exact .inr ⟨c :: out, by rw [h]; rfl, by simpa using h1, fun h => absurd h hst⟩
      · split
        · rcases ih .flags with h | ⟨out, h, h1, h2⟩
          · exact .inl h
          · exact .inr ⟨out, h, by simp; omega, fun h => absurd h hst⟩
        · split <;> exact .inl rfl
    cases st with
    | first => exact other _ (by decide)
    | flags => exact other _ (by decide)
    | plain =>
      rw [expand]
      split
      · rename_i hc
        rcases ih .first with h | ⟨out, h, h1, h2⟩
        · exact .inl h
        · exact .inr ⟨out, h, by simp; omega, fun _ _ => by simp; omega⟩
      · rename_i hc
        rcases ih .plain with h | ⟨out, h, h1, h2⟩
        · exact .inl (by rw [h]; rfl)
        · refine .inr ⟨c :: out, by rw [h]; rfl, by simpa using h1, fun _ hm => ?_⟩
          rcases List.mem_cons.mp hm with e | e
          · exact absurd e.symm hc
          · simpa using h2 rfl e

/-- **C132** (the full statement is false for Matlab). No shown message with a percent sign is printed as it is: it is shorter or undefined
(an argument is read that was not given). Shown messages of 500 characters and more overflow a buffer. -/
theorem C132_matlab_wrong (cur : Level) (k : Kind) (ps : List Piece) (hp : ∀ p ∈ ps, p.Ok) (args : List (List Char))
    (hl : holes ps ≤ args.length) (hs : shown cur k) :
    (500 ≤ (text ps args).length → printMatlab cur k (format ps) args = .ub) ∧
    ('%' ∈ text ps args → printMatlab cur k (format ps) args ≠ printC cur k (format ps) args) := by
  have h := (printed_iff cur k).mpr hs
  unfold printMatlab printC
  rw [if_pos h, if_pos h, expand_format ps hp args hl, Res.ok_bind, Res.ok_bind]
  constructor
  · intro hlen
    rw [if_pos (by omega)]
  · intro hm
    split
    · simp
    · rcases expand_none (text ps args) .plain with e | ⟨out, e, -, h2⟩
      · rw [e]
        simp [Res.bind]
      · rw [e, Res.ok_bind]
        intro hc
        have := h2 rfl hm
        simp only [Res.ok.injEq] at hc
        have := congrArg List.length hc
        simp only [List.length_append] at this
        omega

/-- **C132** (a folder name). A result folder whose name contains `%d` makes the message about the folder, which is shown by default,
undefined in Matlab. -/
theorem C132_folder (a b : List Char) (ha : '%' ∉ a) :
    printMatlab initLevel .info "Results will be output to folder %s".toList [a ++ "%d".toList ++ b] = .ub := by
  have e : expand .plain "Results will be output to folder %s".toList [a ++ "%d".toList ++ b] =
      .ok ("Results will be output to folder ".toList ++ (a ++ '%' :: 'd' :: b)) := by
    have := expand_format [.lit "Results will be output to folder ".toList, .conv [] 's']
      (by
        intro p hp
        simp only [List.mem_cons, List.not_mem_nil, or_false] at hp
        rcases hp with rfl | rfl
        · change '%' ∉ _
          decide +kernel
        · exact ⟨by simp, by decide⟩) [a ++ "%d".toList ++ b] (by simp [holes])
    have f : format [.lit "Results will be output to folder ".toList, .conv [] 's'] = "Results will be output to folder %s".toList := by
      decide +kernel
    rw [f] at this
    rw [this]
    simp [text]
  have hlit : '%' ∉ "Results will be output to folder ".toList ++ a := by
    rw [List.mem_append, not_or]
    exact ⟨by decide +kernel, ha⟩
  rw [printMatlab, if_pos (by decide), e, Res.ok_bind]
  split
  · rfl
  · rw [← List.append_assoc, expand_lit _ _ _ hlit]
    have : expand .plain ('%' :: 'd' :: b) [] = .ub := by
      simp [expand, isFlag, isConv]
    rw [this]
    rfl

/-! ### Cases that meet the hypotheses -/

example : printC .info .warning (format [.lit "Function string '".toList, .conv [] 's', .lit "' not supported".toList]) ["50%".toList] =
      .ok "COCO WARNING: Function string '50%' not supported\n".toList ∧
    printMatlab .info .warning (format [.lit "Function string '".toList, .conv [] 's', .lit "' not supported".toList]) ["cocofun".toList] =
      .ok "COCO WARNING: Function string 'cocofun' not supported\n".toList ∧
    printMatlab .info .warning (format [.lit "Function string '".toList, .conv [] 's', .lit "' not supported".toList]) ["50%%".toList] =
      .ok "COCO WARNING: Function string '50%' not supported\n".toList := by
  decide +kernel

end Messages
