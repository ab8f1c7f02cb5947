import Mathlib.Data.List.Basic
import Mathlib.Data.List.TakeWhile
import Mathlib.Tactic.Common
import Verif.Model.OptionKeys
import Verif.Props.Options
import Verif.Props.Str
import Verif.Props.FileSystem
import Verif.Model.InfoFile

/-!
# C101: unknown options are reported, known ones are not

For option strings of the form `key1: value1 key2: "value 2" ...` the keys found by `coco_option_keys` are the written ones, and the
warning names exactly those which are not known. This is not so for all option strings, see the theorems at the end.
-/

namespace OptionKeys
open CStr Str Options
open Observer (strdupf)

/-! ### Specification -/

namespace Spec

/-- A value: words, or a text in quotation marks with blanks around it. -/
inductive Value where
  | plain (v : List Char)
  | quoted (before text after : List Char)

/-- A key, the white space before the colon, and the value with the white space around it. -/
structure Item where
  key : List Char
  gap : List Char
  value : Value

def Value.text : Value → List Char
  | .plain v => v
  | .quoted b t a => b ++ '"' :: (t ++ '"' :: a)

/-- What is written for an item. -/
def Item.text (i : Item) : List Char := i.key ++ (i.gap ++ ':' :: i.value.text)

/-- What is written for items. -/
def text (items : List Item) : List Char := items.flatMap Item.text

/-- A character that is neither a colon nor a quotation mark. -/
def Plain (c : Char) : Prop := c ≠ ':' ∧ c ≠ '"' ∧ c ≠ nul

def Value.Ok : Value → Prop
  | .plain v => ∀ c ∈ v, Plain c
  | .quoted b t a => (∀ c ∈ b, Plain c) ∧ (∀ c ∈ a, Plain c) ∧ t ≠ [] ∧ ∀ c ∈ t, c ≠ '"' ∧ c ≠ nul

/-- Keys are words; a text in quotation marks is not empty, and can contain anything but quotation marks. -/
structure Item.Ok (i : Item) : Prop where
  key : i.key ≠ [] ∧ ∀ c ∈ i.key, isSpace c = false ∧ Plain c
  gap : ∀ c ∈ i.gap, isSpace c = true
  value : i.value.Ok

/-- The end of the value. -/
def Value.tail : Value → List Char
  | .plain v => v
  | .quoted _ _ a => a

def Value.Empty : Value → Prop
  | .plain v => v = []
  | .quoted _ _ _ => False

/-- The last value is not empty, and the others end with a blank. -/
def Separated : List Item → Prop
  | [] => True
  | [i] => ¬ i.value.Empty
  | i :: j :: rest => i.value.tail.getLast? = some ' ' ∧ Separated (j :: rest)

/-- The lines naming some keys. -/
def lines (keys : List (List Char)) : List Char := keys.flatMap fun k => " ".toList ++ k ++ "\n".toList

end Spec

open OptionKeys.Spec

/-! ### Proof -/

theorem format_ok : ∀ (t : List Char), '%' ∉ t → format t = .ok t := by
  intro t
  induction t with
  | nil => intro _; rfl
  | cons c t ih =>
    intro h
    have hc : c ≠ '%' := fun h' => h (by rw [h']; exact List.mem_cons_self)
    have ht := ih (fun h' => h (List.mem_cons_of_mem _ h'))
    unfold format
    split
    · simp_all
    · simp_all
    · simp_all
    · rename_i c' cs _ _ h
      cases h
      rw [ht]; rfl

theorem strdupFormat_ok (t : List Char) (h : t.length < 220) (hp : '%' ∉ t) : strdupFormat t = .ok t := by
  unfold strdupFormat
  rw [if_neg (by omega), format_ok t hp, Res.ok_bind]
  exact FileSystem.strdupf_ok t (by omega)

/-- An item with the quoted text replaced. -/
def Value.cleaned : Value → List Char
  | .plain v => v
  | .quoted b _ a => b ++ ("STR".toList ++ a)

def cleanItem (i : Item) : List Char := i.key ++ (i.gap ++ ':' :: Value.cleaned i.value)

def cleaned (items : List Item) : List Char := items.flatMap cleanItem

theorem space_plain {c : Char} (h : isSpace c = true) : c ≠ ':' ∧ c ≠ '"' ∧ c ≠ nul := by
  refine ⟨?_, ?_, ?_⟩ <;> (rintro rfl; revert h; decide)

theorem strtok_cons {d : Char} {x rest : List Char} (hx : x ≠ []) (hd : d ∉ x) :
    strtok d [] (x ++ d :: rest) = x :: strtok d [] rest := by
  rw [strtok_append d x [] (d :: rest) hd, List.append_nil, strtok]
  simp [hx]

theorem strtok_end {d : Char} {x : List Char} (hx : x ≠ []) (hd : d ∉ x) : strtok d [] x = [x] := strtok_single d x hx hd

theorem head_no_quote {i : Item} (hi : i.Ok) : '"' ∉ i.key ++ (i.gap ++ [':']) := by
  simp only [List.mem_append, List.mem_singleton, not_or]
  refine ⟨fun h => (hi.key.2 _ h).2.2.1 rfl, fun h => (space_plain (hi.gap _ h)).2.1 rfl, by decide⟩

theorem text_cons (i : Item) (rest : List Item) : text (i :: rest) = i.key ++ (i.gap ++ ':' :: i.value.text) ++ text rest := rfl

theorem cleaned_cons (i : Item) (rest : List Item) :
    cleaned (i :: rest) = i.key ++ (i.gap ++ ':' :: Value.cleaned i.value) ++ cleaned rest := rfl

/-- The pieces between quotation marks, from an even one on. -/
theorem cleanLoop_even : ∀ (items : List Item), (∀ i ∈ items, i.Ok) → ∀ (p acc : List Char) (n : Nat), '"' ∉ p →
    n % 2 = 0 → n ≠ 0 →
    cleanLoop n (some acc) (strtok '"' [] (p ++ text items)) = .ok (some (acc ++ p ++ cleaned items)) := by
  intro items
  induction items with
  | nil =>
    intro _ p acc n hp hn hn0
    simp only [text, cleaned, List.flatMap_nil, List.append_nil]
    by_cases h : p = []
    · subst h; simp [strtok, cleanLoop]
    · rw [strtok_end h hp, cleanLoop, if_neg hn0]
      simp [hn, cleanLoop]
  | cons i rest ih =>
    intro hok p acc n hp hn hn0
    have hi := hok i (by simp)
    have hr := ih (fun j hj => hok j (by simp [hj]))
    have hh := head_no_quote hi
    cases hv : i.value with
    | plain v =>
      have hvo := hi.value
      rw [hv] at hvo
      have e : p ++ text (i :: rest) = (p ++ (i.key ++ (i.gap ++ [':'])) ++ v) ++ text rest := by
        rw [text_cons, hv]; simp [Value.text]
      rw [e, hr _ acc n (by
        simp only [List.mem_append, not_or] at hh ⊢
        exact ⟨⟨hp, hh⟩, fun h => (hvo _ h).2.1 rfl⟩) hn hn0, cleaned_cons, hv]
      simp [Value.cleaned]
    | quoted b t a =>
      have hvo := hi.value
      rw [hv] at hvo
      obtain ⟨hb, ha, ht0, ht⟩ := hvo
      have e : p ++ text (i :: rest) = (p ++ (i.key ++ (i.gap ++ [':'])) ++ b) ++ '"' :: (t ++ '"' :: (a ++ text rest)) := by
        rw [text_cons, hv]; simp [Value.text]
      rw [e, strtok_cons (by simp) (by
        simp only [List.mem_append, not_or] at hh ⊢
        exact ⟨⟨hp, hh⟩, fun h => (hb _ h).2.1 rfl⟩), strtok_cons ht0 (fun h => (ht _ h).1 rfl), cleanLoop, if_neg hn0]
      rw [if_pos hn, cleanLoop, if_neg (by omega), if_neg (by omega), hr a _ (n + 1 + 1) (fun h => (ha _ h).2.1 rfl) (by omega) (by omega), cleaned_cons, hv]
      simp [Value.cleaned]

/-- All pieces between quotation marks. -/
theorem cleanLoop_all : ∀ (items : List Item), (∀ i ∈ items, i.Ok) → ∀ (p : List Char), '"' ∉ p → (p ≠ [] ∨ items ≠ []) →
    ((p ++ text items).takeWhile (· ≠ '"')).length < 220 → '%' ∉ (p ++ text items).takeWhile (· ≠ '"') →
    cleanLoop 0 none (strtok '"' [] (p ++ text items)) = .ok (some (p ++ cleaned items)) := by
  intro items
  induction items with
  | nil =>
    intro _ p hp hne hl hpc
    simp only [text, cleaned, List.flatMap_nil, List.append_nil] at hl hpc ⊢
    have hp0 : p ≠ [] := by rcases hne with h | h; exact h; exact absurd rfl h
    have htw : p.takeWhile (· ≠ '"') = p := by
      apply List.takeWhile_eq_self_iff.mpr
      intro c hc
      simp only [ne_eq, decide_eq_true_eq]
      rintro rfl
      exact hp hc
    rw [htw] at hl hpc
    rw [strtok_end hp0 hp, cleanLoop, if_pos rfl, strdupFormat_ok p hl hpc]
    rfl
  | cons i rest ih =>
    intro hok p hp _ hl hpc
    have hi := hok i (by simp)
    have hr := ih (fun j hj => hok j (by simp [hj]))
    have hh := head_no_quote hi
    cases hv : i.value with
    | plain v =>
      have hvo := hi.value
      rw [hv] at hvo
      have e : p ++ text (i :: rest) = (p ++ (i.key ++ (i.gap ++ [':'])) ++ v) ++ text rest := by
        rw [text_cons, hv]; simp [Value.text]
      rw [e] at hl hpc ⊢
      rw [hr _ (by
        simp only [List.mem_append, not_or] at hh ⊢
        exact ⟨⟨hp, hh⟩, fun h => (hvo _ h).2.1 rfl⟩) (Or.inl (by simp)) hl hpc, cleaned_cons, hv]
      simp [Value.cleaned]
    | quoted b t a =>
      have hvo := hi.value
      rw [hv] at hvo
      obtain ⟨hb, ha, ht0, ht⟩ := hvo
      have e : p ++ text (i :: rest) = (p ++ (i.key ++ (i.gap ++ [':'])) ++ b) ++ '"' :: (t ++ '"' :: (a ++ text rest)) := by
        rw [text_cons, hv]; simp [Value.text]
      have hq : '"' ∉ p ++ (i.key ++ (i.gap ++ [':'])) ++ b := by
        simp only [List.mem_append, not_or] at hh ⊢
        exact ⟨⟨hp, hh⟩, fun h => (hb _ h).2.1 rfl⟩
      have htw : ((p ++ (i.key ++ (i.gap ++ [':'])) ++ b) ++ '"' :: (t ++ '"' :: (a ++ text rest))).takeWhile (· ≠ '"') =
          p ++ (i.key ++ (i.gap ++ [':'])) ++ b := by
        rw [List.takeWhile_append_of_pos (by
          intro c hc
          simp only [ne_eq, decide_eq_true_eq]
          rintro rfl
          exact hq hc)]
        simp
      rw [e, htw] at hl hpc
      rw [e, strtok_cons (by simp) hq, strtok_cons ht0 (fun h => (ht _ h).1 rfl), cleanLoop, if_pos rfl,
        strdupFormat_ok _ hl hpc, Res.ok_bind, cleanLoop, if_neg (by omega), if_neg (by omega), cleanLoop_even rest (fun j hj => hok j (by simp [hj])) a _ 2 (fun h => (ha _ h).2.1 rfl) rfl (by omega),
        cleaned_cons, hv]
      simp [Value.cleaned]

theorem dropWhile_head {p : Char → Bool} {l : List Char} (h : ∀ c, l.head? = some c → p c = false) : l.dropWhile p = l := by
  cases l with
  | nil => rfl
  | cons c l => rw [List.dropWhile_cons_of_neg (by simp [h c rfl])]

theorem takeWhile_head {p : Char → Bool} {l : List Char} (h : ∀ c, l.head? = some c → p c = false) : l.takeWhile p = [] := by
  cases l with
  | nil => rfl
  | cons c l => rw [List.takeWhile_cons_of_neg (by simp [h c rfl])]

/-- Trimming the piece before a colon. -/
theorem trim_piece (p key gap : List Char) (hk0 : key ≠ []) (hk : ∀ c ∈ key, isSpace c = false) (hg : ∀ c ∈ gap, isSpace c = true)
    (hn : nul ∉ p ++ (key ++ gap)) : trim (p ++ (key ++ gap)) = p.dropWhile isSpace ++ key := by
  rw [C16_trim _ hn, Str.Spec.trimmed]
  have h1 : (p ++ (key ++ gap)).dropWhile isSpace = p.dropWhile isSpace ++ (key ++ gap) := by
    rw [List.dropWhile_append]
    split
    · rename_i h
      rw [List.isEmpty_iff] at h
      rw [h, List.nil_append]
      apply dropWhile_head
      intro c hc
      rw [List.head?_append] at hc
      cases key with
      | nil => exact absurd rfl hk0
      | cons k key => simp at hc; subst hc; exact hk _ (by simp)
    · rfl
  rw [h1, List.reverse_append, List.reverse_append, List.append_assoc, List.dropWhile_append_of_pos (by
    intro c hc; exact hg c (by simpa using hc))]
  rw [dropWhile_head, List.reverse_append, List.reverse_reverse, List.reverse_reverse]
  intro c hc
  rw [List.head?_append, List.head?_reverse] at hc
  cases hl : key.getLast? with
  | none => exact absurd (List.getLast?_eq_none_iff.mp hl) hk0
  | some k =>
    rw [hl] at hc
    simp at hc
    subst hc
    exact hk _ (List.mem_of_getLast? hl)

theorem key_first (p key gap : List Char) (hk0 : key ≠ []) (hk : ∀ c ∈ key, isSpace c = false) (hg : ∀ c ∈ gap, isSpace c = true)
    (hp : ∀ c ∈ p, isSpace c = true) (hn : nul ∉ p ++ (key ++ gap)) : keyOf 0 (p ++ (key ++ gap)) = key := by
  unfold keyOf
  rw [trim_piece p key gap hk0 hk hg hn]
  have : p.dropWhile isSpace = [] := List.dropWhile_eq_nil_iff.mpr hp
  rw [this]
  simp

theorem key_next (n : Nat) (hn0 : n ≠ 0) (p key gap : List Char) (hk0 : key ≠ []) (hk : ∀ c ∈ key, isSpace c = false)
    (hg : ∀ c ∈ gap, isSpace c = true) (hp : p.getLast? = some ' ') (hn : nul ∉ p ++ (key ++ gap)) :
    keyOf n (p ++ (key ++ gap)) = key := by
  unfold keyOf
  rw [trim_piece p key gap hk0 hk hg hn]
  simp only [hn0, if_false]
  unfold afterLast
  rw [List.reverse_append, List.takeWhile_append_of_pos, takeWhile_head]
  · simp
  · intro c hc
    rw [List.head?_reverse] at hc
    have hsuf : p.dropWhile isSpace <:+ p := List.dropWhile_suffix _
    obtain ⟨l, hl⟩ := hsuf
    rw [← hl, List.getLast?_append, hc] at hp
    simp at hp
    simp [hp]
  · intro c hc
    have := hk c (by simpa using hc)
    simp only [ne_eq, decide_eq_true_eq]
    rintro rfl
    revert this
    decide

theorem cleaned_value_plain {i : Item} (hi : i.Ok) : ∀ c ∈ Value.cleaned i.value, Plain c := by
  have hv := hi.value
  intro c hc
  cases h : i.value with
  | plain v => rw [h] at hv hc; exact hv c hc
  | quoted b t a =>
    rw [h] at hv hc
    simp only [Value.cleaned, List.mem_append] at hc
    rcases hc with hc | hc | hc
    · exact hv.1 c hc
    · have : ∀ c ∈ "STR".toList, c ≠ ':' ∧ c ≠ '"' ∧ c ≠ nul := by decide +kernel
      exact this c hc
    · exact hv.2.1 c hc

theorem cleaned_last {v : Value} (h : v.tail.getLast? = some ' ') : (Value.cleaned v).getLast? = some ' ' := by
  cases v with
  | plain v => exact h
  | quoted b t a =>
    have h' : a.getLast? = some ' ' := h
    rw [Value.cleaned, List.getLast?_append, List.getLast?_append, h']
    rfl

theorem cleaned_ne {v : Value} (h : ¬ v.Empty) : Value.cleaned v ≠ [] := by
  cases v with
  | plain v => exact h
  | quoted b t a =>
    have : "STR".toList ≠ [] := by decide +kernel
    simp [Value.cleaned]

/-- The keys in the pieces between colons. -/
theorem keyLoop_items : ∀ (items : List Item), (∀ i ∈ items, i.Ok) → Separated items → items ≠ [] → ∀ (p : List Char) (n : Nat),
    (∀ c ∈ p, Plain c) → (n = 0 ∧ (∀ c ∈ p, isSpace c = true) ∨ n ≠ 0 ∧ p.getLast? = some ' ') →
    keyLoop n (strtok ':' [] (p ++ cleaned items)) = items.map (·.key) := by
  intro items
  induction items with
  | nil => intro _ _ h; exact absurd rfl h
  | cons i rest ih =>
    intro hok hsep _ p n hp hpn
    have hi := hok i (by simp)
    have hcv := cleaned_value_plain hi
    have e : p ++ cleaned (i :: rest) = (p ++ (i.key ++ i.gap)) ++ ':' :: (Value.cleaned i.value ++ cleaned rest) := by
      rw [cleaned_cons]; simp
    have hno : ':' ∉ p ++ (i.key ++ i.gap) := by
      simp only [List.mem_append, not_or]
      exact ⟨fun h => (hp _ h).1 rfl, fun h => (hi.key.2 _ h).2.1 rfl, fun h => (space_plain (hi.gap _ h)).1 rfl⟩
    have hnul : nul ∉ p ++ (i.key ++ i.gap) := by
      simp only [List.mem_append, not_or]
      exact ⟨fun h => (hp _ h).2.2 rfl, fun h => (hi.key.2 _ h).2.2.2 rfl, fun h => (space_plain (hi.gap _ h)).2.2 rfl⟩
    have hkey : keyOf n (p ++ (i.key ++ i.gap)) = i.key := by
      rcases hpn with ⟨rfl, h⟩ | ⟨h0, h⟩
      · exact key_first _ _ _ hi.key.1 (fun c hc => (hi.key.2 c hc).1) hi.gap h hnul
      · exact key_next n h0 _ _ _ hi.key.1 (fun c hc => (hi.key.2 c hc).1) hi.gap h hnul
    rw [e, strtok_cons (by simp [hi.key.1]) hno]
    cases rest with
    | nil =>
      have hne := cleaned_ne (v := i.value) hsep
      rw [show cleaned [] = [] from rfl, List.append_nil, strtok_end hne (fun h => (hcv _ h).1 rfl), keyLoop,
        if_neg (by simp), hkey, keyLoop, if_pos ⟨by omega, rfl⟩]
      rfl
    | cons j rest' =>
      obtain ⟨h1, h2⟩ := hsep
      have := ih (fun k hk => hok k (by simp [hk])) h2 (by simp) (Value.cleaned i.value) (n + 1) hcv
        (Or.inr ⟨by omega, cleaned_last h1⟩)
      rw [keyLoop, if_neg, hkey, this]
      · rfl
      · rintro ⟨_, h⟩
        rw [h] at this
        simp [keyLoop] at this

theorem optionKeys_items (items : List Item) (hok : ∀ i ∈ items, i.Ok) (hsep : Separated items) (hne : items ≠ [])
    (lead : List Char) (hlead : ∀ c ∈ lead, isSpace c = true)
    (hlen : ((lead ++ text items).takeWhile (· ≠ '"')).length < 220) (hpc : '%' ∉ (lead ++ text items).takeWhile (· ≠ '"')) :
    optionKeys (lead ++ text items) = .ok (some (items.map (·.key))) := by
  have hlp : ∀ c ∈ lead, Plain c := fun c hc => space_plain (hlead c hc)
  have h0 : lead ++ text items ≠ [] := by
    cases items with
    | nil => exact absurd rfl hne
    | cons i rest => rw [text_cons]; simp
  unfold optionKeys
  rw [if_neg h0, split_eq, Res.ok_bind, cleanLoop_all items hok lead (fun h => (hlp _ h).2.1 rfl) (Or.inr hne) hlen hpc, Res.ok_bind]
  dsimp only
  rw [split_eq, Res.ok_bind, keyLoop_items items hok hsep hne lead 0 hlp (Or.inl ⟨rfl, hlead⟩)]
  unfold allocateKeys
  rw [if_neg (by simpa using hne)]

theorem outputLoop_ok : ∀ (ks : List (List Char)) (s : List Char), s.length + (lines ks).length ≤ 441 →
    outputLoop s ks = .ok (s ++ lines ks) := by
  intro ks
  induction ks with
  | nil => intro s _; simp [outputLoop, lines]
  | cons k ks ih =>
    intro s h
    have e : lines (k :: ks) = " ".toList ++ k ++ "\n".toList ++ lines ks := rfl
    rw [e] at h ⊢
    simp only [List.length_append] at h
    rw [outputLoop, FileSystem.strdupf_ok _ (by simp only [List.length_append]; omega), Res.ok_bind, ih _ (by
      simp only [List.length_append]; omega)]
    simp only [List.append_assoc]

/-! ### Theorems -/

/-- C101: the keys found are the keys written, if the text before the first quotation mark has less than 220 characters and no
`%`. -/
theorem C101_keys_partial (items : List Item) (hok : ∀ i ∈ items, i.Ok) (hsep : Separated items) (hne : items ≠ [])
    (lead : List Char) (hlead : ∀ c ∈ lead, isSpace c = true)
    (hlen : ((lead ++ text items).takeWhile (· ≠ '"')).length < 220) (hpc : '%' ∉ (lead ++ text items).takeWhile (· ≠ '"')) :
    optionKeys (lead ++ text items) = .ok (some (items.map (·.key))) :=
  optionKeys_items items hok hsep hne lead hlead hlen hpc

/-- C101: the warning names exactly the keys that are not known, and there is none if there are no such keys (if the texts fit
the buffer of `coco_strdupf`). -/
theorem C101_warning_partial (known : List (List Char)) (ignored valid : List Char) (items : List Item) (hok : ∀ i ∈ items, i.Ok)
    (hsep : Separated items) (hne : items ≠ [])
    (lead : List Char) (hlead : ∀ c ∈ lead, isSpace c = true)
    (hlen : ((lead ++ text items).takeWhile (· ≠ '"')).length < 220) (hpc : '%' ∉ (lead ++ text items).takeWhile (· ≠ '"'))
    (hk : valid.length + (lines known).length ≤ 441)
    (hu : ignored.length + (lines ((items.map (·.key)).filter fun k => k ∉ known)).length ≤ 441) :
    checkKeys known ignored valid (lead ++ text items) =
      .ok (if ∀ i ∈ items, i.key ∈ known then none
        else some (ignored ++ lines ((items.map (·.key)).filter fun k => k ∉ known) ++ (valid ++ lines known))) := by
  unfold checkKeys
  rw [C101_keys_partial items hok hsep hne lead hlead hlen hpc, Res.ok_bind]
  dsimp only
  rw [C14_redundant known _ (by simpa using hne), Res.ok_bind]
  have hiff : (items.map (·.key)).filter (fun k => decide (k ∉ known)) = [] ↔ ∀ i ∈ items, i.key ∈ known := by
    rw [List.filter_eq_nil_iff]
    simp
  by_cases h : ∀ i ∈ items, i.key ∈ known
  · rw [if_pos (hiff.mpr h), if_pos h]
  · rw [if_neg (fun h' => h (hiff.mp h')), if_neg h]
    dsimp only
    rw [outputLoop_ok _ _ hu, Res.ok_bind, outputLoop_ok _ _ hk, Res.ok_bind]

/-- C101: the lists of known keys of all observers and of the suites fit the buffer. -/
theorem C101_known_fit :
    (∀ a ∈ additionalKeys,
      "Valid keys for observer options are:\n".toList.length + (lines (observerKeys ++ a)).length ≤ 441) ∧
    "Valid keys for suite options are:\n".toList.length + (lines suiteKeys).length ≤ 441 ∧
    "Valid keys for suite instance are:\n".toList.length + (lines instanceKeys).length ≤ 441 := by
  decide +kernel

/-- C101 for observers: no warning for known keys, whatever the values, as long as the text before the first quotation
mark has less than 220 characters and no `%`. -/
theorem C101_observer_partial (a : List (List Char)) (ha : a ∈ additionalKeys) (items : List Item) (hok : ∀ i ∈ items, i.Ok)
    (hsep : Separated items) (hne : items ≠ [])
    (hlen : ((text items).takeWhile (· ≠ '"')).length < 220) (hpc : '%' ∉ (text items).takeWhile (· ≠ '"'))
    (hu : (lines ((items.map (·.key)).filter fun k => k ∉ observerKeys ++ a)).length ≤ 380) :
    checkObserver a (text items) =
      .ok (if ∀ i ∈ items, i.key ∈ observerKeys ++ a then none
        else some ("coco_observer(): Some keys in observer options were ignored:\n".toList ++
          lines ((items.map (·.key)).filter fun k => k ∉ observerKeys ++ a) ++
          ("Valid keys for observer options are:\n".toList ++ lines (observerKeys ++ a)))) := by
  have h61 : "coco_observer(): Some keys in observer options were ignored:\n".toList.length = 61 := by decide +kernel
  unfold checkObserver
  rw [(C14_add observerKeys a (by unfold observerKeys; simp)).1, Res.ok_bind]
  dsimp only
  have := C101_warning_partial (observerKeys ++ a) "coco_observer(): Some keys in observer options were ignored:\n".toList
    "Valid keys for observer options are:\n".toList items hok hsep hne [] (by simp) hlen hpc (C101_known_fit.1 a ha)
    (by rw [h61]; omega)
  rw [List.nil_append] at this
  exact this

/-- The documented keys of all observers. -/
def Spec.observerKeys : List String :=
  ["outer_folder", "result_folder", "algorithm_name", "algorithm_info", "number_target_triggers", "log_target_precision",
    "lin_target_precision", "number_evaluation_triggers", "base_evaluation_triggers", "precision_x", "precision_f", "precision_g",
    "log_discrete_as_int"]

/-- The documented further keys of the observers bbob, bbob-biobj, rw and toy. -/
def Spec.additionalKeys : List (List String) :=
  [["prefix"], ["log_nondominated", "log_decision_variables", "compute_indicators", "produce_all_data"],
    ["log_variables", "log_constraints", "low_dim_vars", "low_dim_cons", "log_only_better", "log_time"], ["file_name"]]

/-- The documented keys of the suite options. -/
def Spec.suiteKeys : List String := ["dimensions", "dimension_indices", "function_indices", "instance_indices"]

/-- The documented keys of the suite instance. -/
def Spec.instanceKeys : List String := ["year", "instances"]

theorem none_iff {known : List (List Char)} {ignored valid : List Char} {items : List Item} (hok : ∀ i ∈ items, i.Ok)
    (hsep : Separated items) (hne : items ≠ [])
    (hlen : ((text items).takeWhile (· ≠ '"')).length < 220) (hpc : '%' ∉ (text items).takeWhile (· ≠ '"')) :
    checkKeys known ignored valid (text items) = .ok none ↔ ∀ i ∈ items, i.key ∈ known := by
  unfold checkKeys
  have := C101_keys_partial items hok hsep hne [] (by simp) (by simpa using hlen) (by simpa using hpc)
  rw [List.nil_append] at this
  rw [this, Res.ok_bind]
  dsimp only
  rw [C14_redundant known _ (by simpa using hne), Res.ok_bind]
  have hf : (items.map (·.key)).filter (fun k => k ∉ known) = [] ↔ ∀ i ∈ items, i.key ∈ known := by
    rw [List.filter_eq_nil_iff]
    simp
  by_cases h : (items.map (·.key)).filter (fun k => k ∉ known) = []
  · rw [if_pos h]
    exact ⟨fun _ => hf.1 h, fun _ => rfl⟩
  · rw [if_neg h]
    refine ⟨fun e => ?_, fun e => absurd (hf.2 e) h⟩
    dsimp only at e
    cases h1 : outputLoop ignored ((items.map (·.key)).filter (fun k => k ∉ known)) with
    | ok a =>
      rw [h1, Res.ok_bind] at e
      cases h2 : outputLoop valid known with
      | ok b => rw [h2, Res.ok_bind] at e; cases e
      | error => rw [h2] at e; cases e
      | assertFail => rw [h2] at e; cases e
      | ub => rw [h2] at e; cases e
    | error => rw [h1] at e; cases e
    | assertFail => rw [h1] at e; cases e
    | ub => rw [h1] at e; cases e

/-- C101: there is no warning exactly if all keys are documented, for suites and for observers (if there is one, it may stop the
process, see `C101_warning_partial`). -/
theorem C101_documented_partial (items : List Item) (hok : ∀ i ∈ items, i.Ok) (hsep : Separated items) (hne : items ≠ [])
    (hlen : ((text items).takeWhile (· ≠ '"')).length < 220) (hpc : '%' ∉ (text items).takeWhile (· ≠ '"')) :
    (checkSuite (text items) = .ok none ↔ ∀ i ∈ items, i.key ∈ Spec.suiteKeys.map String.toList) ∧
    (checkInstance (text items) = .ok none ↔ ∀ i ∈ items, i.key ∈ Spec.instanceKeys.map String.toList) ∧
    ∀ (a : List String), a ∈ Spec.additionalKeys →
      (checkObserver (a.map String.toList) (text items) = .ok none ↔
        ∀ i ∈ items, i.key ∈ (Spec.observerKeys ++ a).map String.toList) := by
  refine ⟨none_iff hok hsep hne hlen hpc, none_iff hok hsep hne hlen hpc, fun a _ => ?_⟩
  unfold checkObserver
  rw [(C14_add observerKeys _ (by unfold observerKeys; simp)).1, Res.ok_bind]
  dsimp only
  rw [none_iff hok hsep hne hlen hpc, List.map_append]
  rfl

/-- C101: the further keys passed by the observers are the documented ones. -/
theorem C101_additional : additionalKeys = Spec.additionalKeys.map (·.map String.toList) := rfl

theorem strtok_first (d : Char) (s : List Char) (h : s.takeWhile (· ≠ d) ≠ []) :
    ∃ ts, strtok d [] s = s.takeWhile (· ≠ d) :: ts := by
  have hno : d ∉ s.takeWhile (· ≠ d) := by
    intro hm
    have := List.mem_takeWhile_imp hm
    simp at this
  have e := List.takeWhile_append_dropWhile (p := fun c => decide (c ≠ d)) (l := s)
  cases hdw : s.dropWhile (· ≠ d) with
  | nil =>
    rw [hdw, List.append_nil] at e
    refine ⟨[], ?_⟩
    conv_lhs => rw [← e]
    exact strtok_end h hno
  | cons c rest =>
    have hc : c = d := by
      have := List.head?_dropWhile_not (p := fun c => decide (c ≠ d)) s
      rw [hdw] at this
      simpa using this
    subst hc
    refine ⟨strtok c [] rest, ?_⟩
    conv_lhs => rw [← e, hdw]
    exact strtok_cons h hno

/-- C101 fails for long option strings: with 220 or more characters before the first quotation mark the process is stopped, whatever
the keys (e.g. a list of 80 instances). -/
theorem C101_long_stops (s : List Char) (h : 220 ≤ (s.takeWhile (· ≠ '"')).length) : optionKeys s = .assertFail := by
  have hne : s.takeWhile (· ≠ '"') ≠ [] := by
    intro h'
    rw [h'] at h
    simp at h
  have hs : s ≠ [] := by rintro rfl; simp at hne
  obtain ⟨ts, hts⟩ := strtok_first '"' s hne
  unfold optionKeys
  rw [if_neg hs, split_eq, Res.ok_bind, hts, cleanLoop, if_pos rfl]
  unfold strdupFormat
  rw [if_pos h]
  rfl

theorem format_ub : ∀ (a : List Char) (c : Char) (b : List Char), '%' ∉ a → c ≠ '%' → format (a ++ '%' :: c :: b) = .ub := by
  intro a
  induction a with
  | nil =>
    intro c b _ hc
    rw [List.nil_append]
    unfold format
    split
    · simp_all
    · simp_all
    · rfl
    · rename_i h0 h
      simp only [List.cons.injEq] at h
      exact absurd h.1.symm h0
  | cons x a ih =>
    intro c b ha hc
    have hx : x ≠ '%' := fun h => ha (by rw [h]; exact List.mem_cons_self)
    have := ih c b (fun h => ha (List.mem_cons_of_mem _ h)) hc
    rw [List.cons_append]
    unfold format
    split
    · simp_all
    · simp_all
    · simp_all
    · rename_i h
      cases h
      rw [this]; rfl

/-- C101 fails for option strings with `%`: they are used as a format, so that arguments are read that do not exist. -/
theorem C101_percent (a b : List Char) (c : Char) (ha : '%' ∉ a) (hc : c ≠ '%') (hq : '"' ∉ a ++ '%' :: c :: b)
    (hl : (a ++ '%' :: c :: b).length < 220) : optionKeys (a ++ '%' :: c :: b) = .ub := by
  unfold optionKeys
  rw [if_neg (by simp), split_eq, Res.ok_bind, strtok_end (by simp) hq, cleanLoop, if_pos rfl]
  unfold strdupFormat
  rw [if_neg (by omega), format_ub a c b ha hc]
  rfl

/-- C101 fails for an option string with quotation marks only: the code reads from a null pointer. -/
theorem C101_only_quotes (n : Nat) : optionKeys (List.replicate (n + 1) '"') = .ub := by
  have h : ∀ n, strtok '"' [] (List.replicate n '"') = [] := by
    intro n
    induction n with
    | zero => rfl
    | succ n ih => rw [List.replicate_succ, strtok, if_pos rfl, if_pos rfl, ih]
  unfold optionKeys
  rw [if_neg (by simp), split_eq, Res.ok_bind, h]
  rfl

theorem strtok_sub (d : Char) : ∀ (s cur : List Char), ∀ t ∈ strtok d cur s,
    t.length ≤ s.length + cur.length ∧ ∀ x ∈ t, x ∈ cur ∨ x ∈ s := by
  intro s
  induction s with
  | nil =>
    intro cur t ht
    unfold strtok at ht
    split at ht
    · simp at ht
    · simp at ht; subst ht; simp
  | cons c s ih =>
    intro cur t ht
    have hrest : t ∈ strtok d [] s → t.length ≤ (c :: s).length + cur.length ∧ ∀ x ∈ t, x ∈ cur ∨ x ∈ c :: s := by
      intro h
      obtain ⟨h1, h2⟩ := ih [] t h
      refine ⟨by simp at h1 ⊢; omega, fun x hx => ?_⟩
      rcases h2 x hx with h | h
      · simp at h
      · exact Or.inr (by simp [h])
    unfold strtok at ht
    split at ht
    · split at ht
      · exact hrest ht
      · rw [List.mem_cons] at ht
        rcases ht with rfl | ht
        · refine ⟨by simp, fun x hx => Or.inl (by simpa using hx)⟩
        · exact hrest ht
    · obtain ⟨h1, h2⟩ := ih (c :: cur) t ht
      refine ⟨by simp at h1 ⊢; omega, fun x hx => ?_⟩
      rcases h2 x hx with h | h
      · rw [List.mem_cons] at h
        rcases h with h | h
        · exact Or.inr (by simp [h])
        · exact Or.inl h
      · exact Or.inr (by simp [h])

theorem strtok_ne_nil (d : Char) : ∀ (s cur : List Char), (cur ≠ [] ∨ ∃ c ∈ s, c ≠ d) → strtok d cur s ≠ [] := by
  intro s
  induction s with
  | nil =>
    intro cur h
    rcases h with h | ⟨c, h, _⟩
    · unfold strtok; rw [if_neg h]; simp
    · simp at h
  | cons c s ih =>
    intro cur h
    unfold strtok
    by_cases hc : c = d
    · rw [if_pos hc]
      by_cases h0 : cur = []
      · rw [if_pos h0]
        apply ih
        right
        rcases h with h | ⟨x, hx, hxd⟩
        · exact absurd h0 h
        · rw [List.mem_cons] at hx
          rcases hx with rfl | hx
          · exact absurd hc hxd
          · exact ⟨x, hx, hxd⟩
      · rw [if_neg h0]; simp
    · rw [if_neg hc]
      exact ih (c :: cur) (Or.inl (by simp))

/-- C101: nothing else goes wrong: a string with less than 220 characters, no `%`, and not only quotation marks never
stops the process. -/
theorem C101_safe (s : List Char) (hl : s.length < 220) (hp : '%' ∉ s) (hq : ∃ c ∈ s, c ≠ '"') : ∃ r, optionKeys s = .ok r := by
  obtain ⟨c, hc, hcq⟩ := hq
  have hs : s ≠ [] := by rintro rfl; simp at hc
  have hmem : ∀ t ∈ strtok '"' [] s, t.length ≤ s.length ∧ '%' ∉ t := by
    have := strtok_sub '"' s []
    intro t ht
    obtain ⟨h1, h2⟩ := this t ht
    refine ⟨by simpa using h1, fun h => ?_⟩
    rcases h2 _ h with h | h
    · simp at h
    · exact hp h
  have hloop : ∀ (ts : List (List Char)) (n : Nat) (acc : List Char), n ≠ 0 → ∃ t, cleanLoop n (some acc) ts = .ok (some t) := by
    intro ts
    induction ts with
    | nil => intro n acc _; exact ⟨acc, rfl⟩
    | cons t ts ih =>
      intro n acc hn
      rw [cleanLoop, if_neg hn]
      exact ih (n + 1) _ (by omega)
  unfold optionKeys
  rw [if_neg hs, split_eq, Res.ok_bind]
  cases hts : strtok '"' [] s with
  | nil =>
    exact absurd hts (strtok_ne_nil '"' s [] (Or.inr ⟨c, hc, hcq⟩))
  | cons t ts =>
    obtain ⟨h1, h2⟩ := hmem t (by rw [hts]; simp)
    rw [cleanLoop, if_pos rfl, strdupFormat_ok t (by omega) h2, Res.ok_bind]
    obtain ⟨u, hu⟩ := hloop ts (0 + 1) t (by omega)
    rw [hu, Res.ok_bind]
    dsimp only
    rw [split_eq, Res.ok_bind]
    exact ⟨_, rfl⟩

/-! ### Examples -/

/-- `result_folder: RS algorithm_info: "a: b" prefx : x`. -/
def exampleItems : List Item :=
  [⟨"result_folder".toList, [], .plain " RS ".toList⟩,
    ⟨"algorithm_info".toList, [], .quoted " ".toList "a: b".toList " ".toList⟩,
    ⟨"prefx".toList, " ".toList, .plain " x".toList⟩]

example : text exampleItems = "result_folder: RS algorithm_info: \"a: b\" prefx : x".toList := by decide +kernel

example : ∀ i ∈ exampleItems, i.Ok := by
  intro i hi
  simp only [exampleItems, List.mem_cons, List.not_mem_nil, or_false] at hi
  rcases hi with rfl | rfl | rfl
  · exact ⟨by unfold Plain; decide +kernel, by decide +kernel, by unfold Value.Ok Plain; decide +kernel⟩
  · exact ⟨by unfold Plain; decide +kernel, by decide +kernel, by unfold Value.Ok Plain; decide +kernel⟩
  · exact ⟨by unfold Plain; decide +kernel, by decide +kernel, by unfold Value.Ok Plain; decide +kernel⟩

example : Separated exampleItems ∧ exampleItems ≠ [] ∧ ((text exampleItems).takeWhile (· ≠ '"')).length < 220 ∧
    '%' ∉ (text exampleItems).takeWhile (· ≠ '"') := by
  refine ⟨⟨by decide +kernel, by decide +kernel, ?_⟩, by simp [exampleItems], by decide +kernel, by decide +kernel⟩
  show ¬ " x".toList = []
  decide +kernel

example : ["prefix".toList] ∈ additionalKeys ∧
    (lines ((exampleItems.map (·.key)).filter fun k => k ∉ observerKeys ++ ["prefix".toList])).length ≤ 380 := by decide +kernel

example : optionKeys (text exampleItems) = .ok (some ["result_folder".toList, "algorithm_info".toList, "prefx".toList]) := by
  decide +kernel

/-- C101: a list of 80 instances stops the process. -/
theorem C101_eighty_instances :
    checkInstance ("instances: ".toList ++ List.intercalate ",".toList ((List.range' 1 80).map InfoFile.dec)) = .assertFail := by
  unfold checkInstance checkKeys
  rw [C101_long_stops _ (by decide +kernel)]
  rfl

/-- C101 fails after an empty text in quotation marks: what follows is taken for a quoted text, and an unknown key is not reported. -/
theorem C101_empty_quotes : checkObserver ["prefix".toList] "algorithm_info: \"\" prefx: a".toList = .ok none ∧
    checkObserver ["prefix".toList] "algorithm_info: \"i\" prefx: a".toList ≠ .ok none := by decide +kernel

/-- C101 fails if the options are separated by line ends: a known key is reported as ignored. -/
theorem C101_line_end : checkInstance "year: 2016\ninstances: 1-5".toList = .ok (some
    "coco_suite(): Some keys in suite instance were ignored:\n 2016\ninstances\nValid keys for suite instance are:\n year\n instances\n".toList) ∧
    checkInstance "year: 2016 instances: 1-5".toList = .ok none := by decide +kernel

end OptionKeys
