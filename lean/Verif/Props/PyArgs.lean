import Mathlib.Tactic.Common
import Verif.Model.PyArgs

/-!
# Arguments of experiment scripts in Python (C128)

`/repo/build/python/src/cocoex/utilities.py` lines 27-109.
-/

namespace PyArgs

/-! ### Specification -/

namespace Spec

/-- `name` is the beginning of `k` and of no other known name. -/
def Names (known : List (List Char)) (name k : List Char) : Prop :=
  ∃ a b, known = a ++ k :: b ∧ name <+: k ∧ ∀ k' ∈ a ++ b, ¬ name <+: k'

/-- The argument is `name=text`, where `name` stands for the known name `k` and `text` for the value `v`. -/
def Means {V : Type} (S : Sem V) (known : List (List Char)) (arg k : List Char) (v : V) : Prop :=
  ∃ name text, arg = name ++ '=' :: text ∧ '=' ∉ name ∧ '=' ∉ text ∧ Names known name k ∧ v = S.eval text

/-- The first argument for `k` has the value `v`. -/
def First {V : Type} (S : Sem V) (known : List (List Char)) (args : List (List Char)) (k : List Char) (v : V) : Prop :=
  ∃ pre a post, args = pre ++ a :: post ∧ Means S known a k v ∧ ∀ x ∈ pre, ∀ w, ¬ Means S known x k w

end Spec

open Spec

variable {V : Type}

/-! ### Texts -/

theorem split_ne_nil (c : Char) (s : List Char) : split c s ≠ [] := by
  induction s with
  | nil => simp [split]
  | cons x s ih =>
    rw [split]
    split
    · simp
    · split <;> simp

theorem split_absent {c : Char} {s : List Char} (h : c ∉ s) : split c s = [s] := by
  induction s with
  | nil => rfl
  | cons x s ih =>
    rw [List.mem_cons, not_or] at h
    rw [split, if_neg fun e => h.1 e.symm, ih h.2]

theorem split_append {c : Char} {a : List Char} (h : c ∉ a) (s : List Char) : split c (a ++ c :: s) = a :: split c s := by
  induction a with
  | nil => simp [split]
  | cons x a ih =>
    rw [List.mem_cons, not_or] at h
    rw [List.cons_append, split, if_neg fun e => h.1 e.symm, ih h.2]

theorem split_one {c : Char} {s a : List Char} (h : split c s = [a]) : s = a ∧ c ∉ a := by
  by_cases hc : c ∈ s
  · obtain ⟨x, y, rfl, hx⟩ := List.append_of_mem hc |>.elim fun p hp => hp.elim fun q hq => by
      exact (show ∃ x y, s = x ++ c :: y ∧ c ∉ x from by
        clear h hp hq
        induction s with
        | nil => simp at hc
        | cons z s ih =>
          by_cases hz : z = c
          · exact ⟨[], s, by simp [hz], by simp⟩
          · have : c ∈ s := by
              rcases List.mem_cons.mp hc with e | e
              · exact absurd e.symm hz
              · exact e
            obtain ⟨x, y, e, hx⟩ := ih this
            exact ⟨z :: x, y, by simp [e], by simp [hx]; exact fun e => hz e.symm⟩)
    rw [split_append hx] at h
    injection h with _ h
    exact absurd h (split_ne_nil c y)
  · rw [split_absent hc] at h
    injection h with h
    exact ⟨h, h ▸ hc⟩

theorem split_two {c : Char} {s a b : List Char} : split c s = [a, b] ↔ s = a ++ c :: b ∧ c ∉ a ∧ c ∉ b := by
  constructor
  · intro h
    induction s generalizing a with
    | nil => simp [split] at h
    | cons x s ih =>
      rw [split] at h
      by_cases hx : x = c
      · rw [if_pos hx] at h
        injection h with h1 h2
        obtain ⟨e, hb⟩ := split_one h2
        subst h1
        exact ⟨by simp [hx, e], by simp, hb⟩
      · rw [if_neg hx] at h
        cases hs : split c s with
        | nil => exact absurd hs (split_ne_nil c s)
        | cons p ps =>
          rw [hs] at h
          simp only [List.cons.injEq] at h
          obtain ⟨rfl, rfl⟩ := h
          obtain ⟨e, h1, h2⟩ := ih hs
          refine ⟨by rw [e]; rfl, ?_, h2⟩
          rw [List.mem_cons, not_or]
          exact ⟨fun e => hx e.symm, h1⟩
  · rintro ⟨rfl, h1, h2⟩
    rw [split_append h1, split_absent h2]

/-! ### Names -/

theorem starts_iff {name k : List Char} : starts name k = true ↔ name <+: k := List.isPrefixOf_iff_prefix

theorem find_iff {known : List (List Char)} {name k : List Char} : find known name = some k ↔ Names known name k := by
  constructor
  · intro h
    have hk := List.find?_some h
    simp only [Bool.and_eq_true, beq_iff_eq] at hk
    have hm := List.mem_of_find?_eq_some h
    obtain ⟨a, b, e⟩ := List.append_of_mem hm
    refine ⟨a, b, e, starts_iff.mp hk.1, ?_⟩
    intro k' hk' hp
    have h2 := hk.2
    rw [e, List.filter_append, List.filter_cons_of_pos (by simpa using hk.1), List.length_append, List.length_cons] at h2
    rcases List.mem_append.mp hk' with hm' | hm'
    · have : k' ∈ a.filter (starts name) := List.mem_filter.mpr ⟨hm', starts_iff.mpr hp⟩
      have := List.length_pos_of_mem this
      omega
    · have : k' ∈ b.filter (starts name) := List.mem_filter.mpr ⟨hm', starts_iff.mpr hp⟩
      have := List.length_pos_of_mem this
      omega
  · rintro ⟨a, b, e, hp, hn⟩
    have ha : a.filter (starts name) = [] := by
      rw [List.filter_eq_nil_iff]
      intro x hx h
      exact hn x (by simp [hx]) (starts_iff.mp h)
    have hb : b.filter (starts name) = [] := by
      rw [List.filter_eq_nil_iff]
      intro x hx h
      exact hn x (by simp [hx]) (starts_iff.mp h)
    have hlen : (known.filter (starts name)).length = 1 := by
      rw [e, List.filter_append, List.filter_cons_of_pos (starts_iff.mpr hp), ha, hb]
      rfl
    unfold find
    rw [hlen, e, List.find?_append]
    have : a.find? (fun k => starts name k && 1 == 1) = none := by
      rw [List.find?_eq_none]
      intro x hx h
      simp at h
      exact hn x (by simp [hx]) (starts_iff.mp h)
    rw [this]
    simp [starts_iff.mpr hp]

theorem Names.unique {known : List (List Char)} {name k k' : List Char} (h : Names known name k) (h' : Names known name k') : k = k' := by
  have h1 := find_iff.mpr h
  have h2 := find_iff.mpr h'
  rw [h1] at h2
  exact Option.some.inj h2

theorem Means.unique {S : Sem V} {known : List (List Char)} {arg k k' : List Char} {v v' : V} (h : Means S known arg k v)
    (h' : Means S known arg k' v') : k = k' ∧ v = v' := by
  obtain ⟨n, t, e, h1, h2, h3, rfl⟩ := h
  obtain ⟨n', t', e', h1', h2', h3', rfl⟩ := h'
  have a := split_two.mpr ⟨e, h1, h2⟩
  have b := split_two.mpr ⟨e', h1', h2'⟩
  rw [a] at b
  injection b with b1 b2
  injection b2 with b2 _
  subst b1 b2
  exact ⟨Names.unique h3 h3', rfl⟩

/-! ### Dictionaries -/

theorem get_put (d : Dict V) (k : List Char) (v : V) (k' : List Char) : get (put d k v) k' = if k = k' then some v else get d k' := by
  induction d with
  | nil => rfl
  | cons e d ih =>
    rw [put]
    by_cases he : e.1 = k
    · rw [if_pos he, get, get]
      by_cases h : k = k'
      · rw [if_pos h, if_pos h]
      · rw [if_neg h, if_neg h, if_neg (he ▸ h)]
    · rw [if_neg he, get, get, ih]
      by_cases h : e.1 = k'
      · rw [if_pos h, if_pos h, if_neg fun x => he (h.trans x.symm)]
      · rw [if_neg h, if_neg h]

/-! ### Arguments without specials -/

theorem step_iff {S : Sem V} {known : List (List Char)} {res res' : Dict V} {arg : List Char} :
    step S (some known) [] res arg = some res' ↔ ∃ k v, Means S known arg k v ∧
      ((get res k = none ∧ res' = put res k v) ∨ ∃ w, get res k = some w ∧ S.ne w v = false ∧ res' = res) := by
  constructor
  · intro h
    unfold step at h
    split at h
    · rename_i name value hs
      rw [get] at h
      simp only [plain, Option.getD_some] at h
      cases hf : find known name with
      | none => simp [hf] at h
      | some k =>
        rw [hf] at h
        obtain ⟨e, h1, h2⟩ := split_two.mp hs
        refine ⟨k, S.eval value, ⟨name, value, e, h1, h2, find_iff.mp hf, rfl⟩, ?_⟩
        cases hg : get res k with
        | none => simp [hg] at h; exact .inl ⟨rfl, h.symm⟩
        | some w =>
          simp only [hg] at h
          split at h
          · cases h
          · rename_i hne
            exact .inr ⟨w, rfl, by simpa using hne, (Option.some.inj h).symm⟩
    · cases h
  · rintro ⟨k, v, ⟨name, value, e, h1, h2, h3, rfl⟩, h⟩
    unfold step
    rw [split_two.mpr ⟨e, h1, h2⟩]
    simp only [get, plain, Option.getD_some, find_iff.mpr h3]
    rcases h with ⟨hg, rfl⟩ | ⟨w, hg, hne, rfl⟩
    · rw [hg]
    · simp [hg, hne]

/-- All arguments have a meaning that fits to what is there and to each other. -/
def Fits (S : Sem V) (known : List (List Char)) (res : Dict V) (args : List (List Char)) : Prop :=
  (∀ a ∈ args, ∃ k v, Means S known a k v) ∧
    (∀ a ∈ args, ∀ k v w, Means S known a k v → get res k = some w → S.ne w v = false) ∧
    ∀ pre a mid b post k v w, args = pre ++ a :: (mid ++ b :: post) → get res k = none → Means S known a k v → Means S known b k w →
      (∀ x ∈ pre, ∀ u, ¬ Means S known x k u) → S.ne v w = false

theorem loop_ok {S : Sem V} {known : List (List Char)} (args : List (List Char)) : ∀ res : Dict V,
    ((∃ d, loop S (some known) [] res args = some d) ↔ Fits S known res args) ∧
      ∀ d, loop S (some known) [] res args = some d →
        ∀ k v, get d k = some v ↔ get res k = some v ∨ (get res k = none ∧ First S known args k v) := by
  induction args with
  | nil =>
    intro res
    refine ⟨⟨fun _ => ⟨by simp, by simp, fun pre a mid b post k v w e => by simp at e⟩, fun _ => ⟨res, rfl⟩⟩, ?_⟩
    intro d hd k v
    obtain rfl : res = d := Option.some.inj hd
    constructor
    · exact fun h => .inl h
    · rintro (h | ⟨-, pre, a, post, e, -⟩)
      · exact h
      · simp at e
  | cons arg args ih =>
    intro res
    constructor
    · constructor
      · rintro ⟨d, hd⟩
        rw [loop] at hd
        cases hst : step S (some known) [] res arg with
        | none => simp [hst] at hd
        | some res' =>
          rw [hst] at hd
          obtain ⟨k, v, hm, hcase⟩ := step_iff.mp hst
          obtain ⟨f1, f2, f3⟩ := ((ih res').1.mp ⟨d, hd⟩)
          refine ⟨?_, ?_, ?_⟩
          · intro a ha
            rcases List.mem_cons.mp ha with rfl | ha
            · exact ⟨k, v, hm⟩
            · exact f1 a ha
          · intro a ha k' v' w' hm' hg
            rcases List.mem_cons.mp ha with rfl | ha
            · obtain ⟨rfl, rfl⟩ := Means.unique hm hm'
              rcases hcase with ⟨hn, -⟩ | ⟨w, hw, hne, -⟩
              · rw [hn] at hg; cases hg
              · rw [hw] at hg; cases hg; exact hne
            · refine f2 a ha k' v' w' hm' ?_
              rcases hcase with ⟨hn, rfl⟩ | ⟨w, hw, hne, rfl⟩
              · rw [get_put, if_neg]
                · exact hg
                · rintro rfl; rw [hn] at hg; cases hg
              · exact hg
          · intro pre a mid b post k' v' w' e hg ha hb hpre
            cases pre with
            | nil =>
              rw [List.nil_append] at e
              injection e with e1 e2
              subst e1
              obtain ⟨rfl, rfl⟩ := Means.unique hm ha
              rcases hcase with ⟨hn, rfl⟩ | ⟨w, hw, hne, rfl⟩
              · refine f2 b (by rw [e2]; simp) k w' v hb ?_
                rw [get_put, if_pos rfl]
              · rw [hg] at hw; cases hw
            | cons x pre =>
              rw [List.cons_append] at e
              injection e with e1 e2
              subst e1
              have hk : k ≠ k' := by
                rintro rfl
                exact hpre arg (by simp) v hm
              refine f3 pre a mid b post k' v' w' e2 ?_ ha hb fun y hy => hpre y (by simp [hy])
              rcases hcase with ⟨hn, rfl⟩ | ⟨w, hw, hne, rfl⟩
              · rw [get_put, if_neg hk]; exact hg
              · exact hg
      · rintro ⟨f1, f2, f3⟩
        obtain ⟨k, v, hm⟩ := f1 arg (by simp)
        have hst : ∃ res', step S (some known) [] res arg = some res' ∧
            ((get res k = none ∧ res' = put res k v) ∨ ∃ w, get res k = some w ∧ S.ne w v = false ∧ res' = res) := by
          cases hg : get res k with
          | none => exact ⟨_, step_iff.mpr ⟨k, v, hm, .inl ⟨hg, rfl⟩⟩, .inl ⟨rfl, rfl⟩⟩
          | some w =>
            have hne := f2 arg (by simp) k v w hm hg
            exact ⟨_, step_iff.mpr ⟨k, v, hm, .inr ⟨w, hg, hne, rfl⟩⟩, .inr ⟨w, rfl, hne, rfl⟩⟩
        obtain ⟨res', hst, hcase⟩ := hst
        rw [loop, hst]
        refine (ih res').1.mpr ⟨fun a ha => f1 a (by simp [ha]), ?_, ?_⟩
        · intro a ha k' v' w' hm' hg
          rcases hcase with ⟨hn, rfl⟩ | ⟨w, hw, hne, rfl⟩
          · rw [get_put] at hg
            by_cases hk : k = k'
            · subst hk
              rw [if_pos rfl] at hg
              cases hg
              obtain ⟨mid, post, e⟩ := List.append_of_mem ha
              exact f3 [] arg mid a post k v v' (by rw [e]; rfl) hn hm hm' (by simp)
            · rw [if_neg hk] at hg
              exact f2 a (by simp [ha]) k' v' w' hm' hg
          · exact f2 a (by simp [ha]) k' v' w' hm' hg
        · intro pre a mid b post k' v' w' e hg ha hb hpre
          have hk : k ≠ k' ∧ get res k' = none := by
            rcases hcase with ⟨hn, rfl⟩ | ⟨w, hw, hne, rfl⟩
            · rw [get_put] at hg
              by_cases hk : k = k'
              · rw [if_pos hk] at hg; cases hg
              · rw [if_neg hk] at hg; exact ⟨hk, hg⟩
            · refine ⟨?_, hg⟩
              rintro rfl
              rw [hw] at hg; cases hg
          refine f3 (arg :: pre) a mid b post k' v' w' (by rw [e]; rfl) hk.2 ha hb ?_
          intro x hx u hu
          rcases List.mem_cons.mp hx with rfl | hx
          · exact hk.1 (Means.unique hm hu).1
          · exact hpre x hx u hu
    · intro d hd k' v'
      rw [loop] at hd
      cases hst : step S (some known) [] res arg with
      | none => simp [hst] at hd
      | some res' =>
        rw [hst] at hd
        obtain ⟨k, v, hm, hcase⟩ := step_iff.mp hst
        rw [(ih res').2 d hd k' v']
        have key : ∀ u, First S known (arg :: args) k' u ↔ (k = k' ∧ u = v) ∨ (k ≠ k' ∧ First S known args k' u) := by
          intro u
          constructor
          · rintro ⟨pre, a, post, e, ha, hpre⟩
            cases pre with
            | nil =>
              rw [List.nil_append] at e
              injection e with e1 e2
              subst e1
              obtain ⟨h1, h2⟩ := Means.unique hm ha
              exact .inl ⟨h1, h2.symm⟩
            | cons x pre =>
              rw [List.cons_append] at e
              injection e with e1 e2
              subst e1
              refine .inr ⟨?_, pre, a, post, e2, ha, fun y hy => hpre y (by simp [hy])⟩
              rintro rfl
              exact hpre arg (by simp) v hm
          · rintro (⟨rfl, rfl⟩ | ⟨hk, pre, a, post, e, ha, hpre⟩)
            · exact ⟨[], arg, args, rfl, hm, by simp⟩
            · refine ⟨arg :: pre, a, post, by rw [e]; rfl, ha, ?_⟩
              intro x hx w hw
              rcases List.mem_cons.mp hx with rfl | hx
              · exact hk (Means.unique hm hw).1
              · exact hpre x hx w hw
        rw [key]
        rcases hcase with ⟨hn, rfl⟩ | ⟨w, hw, hne, rfl⟩
        · rw [get_put]
          by_cases hk : k = k'
          · subst hk
            rw [if_pos rfl, hn]
            simp [eq_comm]
          · rw [if_neg hk]
            simp [hk]
        · by_cases hk : k = k'
          · subst hk
            rw [hw]; simp
          · simp [hk]

/-! ### C128 -/

/-- The arguments are accepted exactly if each is `name=value` with one `=`, where the name is the beginning of exactly one known name, and
the values for the same name do not differ from the first one. -/
theorem C128_accept (S : Sem V) (known args : List (List Char)) :
    (∃ d, argsToDict S (some known) [] args = some d) ↔ (∀ a ∈ args, ∃ k v, Means S known a k v) ∧
      ∀ pre a mid b post k v w, args = pre ++ a :: (mid ++ b :: post) → Means S known a k v → Means S known b k w →
        (∀ x ∈ pre, ∀ u, ¬ Means S known x k u) → S.ne v w = false := by
  rw [argsToDict, (loop_ok args []).1]
  constructor
  · rintro ⟨h1, -, h3⟩
    exact ⟨h1, fun pre a mid b post k v w e => h3 pre a mid b post k v w e rfl⟩
  · rintro ⟨h1, h3⟩
    exact ⟨h1, fun a _ k v w _ h => by simp [get] at h, fun pre a mid b post k v w e _ => h3 pre a mid b post k v w e⟩

/-- The value of a name is the one of the first argument for it, and no other names have values. -/
theorem C128_values (S : Sem V) (known args : List (List Char)) (d : Dict V) (h : argsToDict S (some known) [] args = some d)
    (k : List Char) (v : V) : get d k = some v ↔ First S known args k v := by
  rw [(loop_ok args []).2 d h k v]
  simp [get]

/-- The order of the arguments does not matter (if different values are recognised as different). -/
theorem C128_order (S : Sem V) (hS : ∀ v w, S.ne v w = false ↔ v = w) (known args args' : List (List Char)) (hp : args.Perm args')
    (d : Dict V) (h : argsToDict S (some known) [] args = some d) :
    ∃ d', argsToDict S (some known) [] args' = some d' ∧ ∀ k, get d' k = get d k := by
  obtain ⟨h1, h2⟩ := (C128_accept S known args).mp ⟨d, h⟩
  have all : ∀ a ∈ args, ∀ b ∈ args, ∀ k v w, Means S known a k v → Means S known b k w → v = w := by
    have hfst : ∀ b ∈ args, ∀ k w, Means S known b k w → First S known args k w := by
      intro b hb k w hw
      obtain ⟨pre, post, e⟩ := List.append_of_mem hb
      by_cases hx : ∀ x ∈ pre, ∀ u, ¬ Means S known x k u
      · exact ⟨pre, b, post, e, hw, hx⟩
      · have : ∃ p0 x0 q0 u, pre = p0 ++ x0 :: q0 ∧ Means S known x0 k u ∧ ∀ x ∈ p0, ∀ u, ¬ Means S known x k u := by
          clear e
          induction pre with
          | nil => simp at hx
          | cons y pre ih =>
            by_cases hy : ∃ u, Means S known y k u
            · obtain ⟨u, hu⟩ := hy
              exact ⟨[], y, pre, u, rfl, hu, by simp⟩
            · have : ¬ ∀ x ∈ pre, ∀ u, ¬ Means S known x k u := by
                intro hall
                apply hx
                intro x hx' u hu
                rcases List.mem_cons.mp hx' with rfl | hx'
                · exact hy ⟨u, hu⟩
                · exact hall x hx' u hu
              obtain ⟨p0, x0, q0, u, e, hu, hp0⟩ := ih this
              refine ⟨y :: p0, x0, q0, u, by rw [e]; rfl, hu, ?_⟩
              intro x hx' w hw'
              rcases List.mem_cons.mp hx' with rfl | hx'
              · exact hy ⟨w, hw'⟩
              · exact hp0 x hx' w hw'
        obtain ⟨p0, x0, q0, u, e0, hu, hp0⟩ := this
        have e1 : args = p0 ++ x0 :: (q0 ++ b :: post) := by rw [e, e0]; simp
        have := (hS u w).mp (h2 p0 x0 q0 b post k u w e1 hu hw hp0)
        subst this
        exact ⟨p0, x0, q0 ++ b :: post, e1, hu, hp0⟩
    intro a ha b hb k v w hv hw
    have e1 := (C128_values S known args d h k v).mpr (hfst a ha k v hv)
    have e2 := (C128_values S known args d h k w).mpr (hfst b hb k w hw)
    rw [e1] at e2
    exact Option.some.inj e2
  have hmem : ∀ a, a ∈ args' ↔ a ∈ args := fun a => hp.mem_iff.symm
  obtain ⟨d', hd'⟩ := (C128_accept S known args').mpr ⟨fun a ha => h1 a ((hmem a).mp ha),
    fun pre a mid b post k v w e hv hw _ => (hS v w).mpr
      (all a ((hmem a).mp (by rw [e]; simp)) b ((hmem b).mp (by rw [e]; simp)) k v w hv hw)⟩
  have hval : ∀ (as : List (List Char)) (x : Dict V), argsToDict S (some known) [] as = some x → (∀ a, a ∈ as ↔ a ∈ args) →
      ∀ k v, get x k = some v ↔ ∃ a ∈ args, Means S known a k v := by
    intro as x hx hm k v
    rw [C128_values S known as x hx]
    constructor
    · rintro ⟨pre, a, post, e, ha, -⟩
      exact ⟨a, (hm a).mp (by rw [e]; simp), ha⟩
    · rintro ⟨a, ha, hv⟩
      by_contra hno
      cases hg : get x k with
      | some w =>
        obtain ⟨pre, b, post, e, hb, hpre⟩ := (C128_values S known as x hx k w).mp hg
        have : v = w := all a ha b ((hm b).mp (by rw [e]; simp)) k v w hv hb
        subst this
        exact hno ⟨pre, b, post, e, hb, hpre⟩
      | none =>
        have hex : ∃ b ∈ as, ∃ u, Means S known b k u := ⟨a, (hm a).mpr ha, v, hv⟩
        have : ∃ u, First S known as k u := by
          clear hx hm hno hg
          induction as with
          | nil => simp at hex
          | cons y as ih =>
            by_cases hy : ∃ u, Means S known y k u
            · obtain ⟨u, hu⟩ := hy
              exact ⟨u, [], y, as, rfl, hu, by simp⟩
            · obtain ⟨b, hb, u, hu⟩ := hex
              have hb' : b ∈ as := by
                rcases List.mem_cons.mp hb with rfl | hb
                · exact absurd ⟨u, hu⟩ hy
                · exact hb
              obtain ⟨u', pre, c, post, e, hc, hpre⟩ := ih ⟨b, hb', u, hu⟩
              refine ⟨u', y :: pre, c, post, by rw [e]; rfl, hc, ?_⟩
              intro z hz w hw
              rcases List.mem_cons.mp hz with rfl | hz
              · exact hy ⟨w, hw⟩
              · exact hpre z hz w hw
        obtain ⟨u, hu⟩ := this
        rw [(C128_values S known as x hx k u).mpr hu] at hg
        cases hg
  refine ⟨d', hd', fun k => ?_⟩
  apply Option.ext
  intro v
  have a1 := hval args' d' hd' hmem k v
  have a2 := hval args d h (fun _ => Iff.rfl) k v
  exact a1.trans a2.symm

/-- An abbreviation can be replaced by the full name, and this by another abbreviation. -/
theorem C128_abbreviation (S : Sem V) (known : List (List Char)) (name name' k text : List Char) (h : Names known name k)
    (h' : Names known name' k) (hn : '=' ∉ name) (hn' : '=' ∉ name') (ht : '=' ∉ text) (before after : List (List Char)) :
    argsToDict S (some known) [] (before ++ (name ++ '=' :: text) :: after) =
      argsToDict S (some known) [] (before ++ (name' ++ '=' :: text) :: after) := by
  have hst : ∀ res, step S (some known) [] res (name ++ '=' :: text) = step S (some known) [] res (name' ++ '=' :: text) := by
    intro res
    unfold step
    rw [split_two.mpr ⟨rfl, hn, ht⟩, split_two.mpr ⟨rfl, hn', ht⟩]
    simp only [get, plain, Option.getD_some, find_iff.mpr h, find_iff.mpr h']
  unfold argsToDict
  generalize ([] : Dict V) = res
  induction before generalizing res with
  | nil => simp only [List.nil_append, loop, hst]
  | cons x before ih =>
    rw [List.cons_append, List.cons_append, loop, loop]
    cases step S (some known) [] res x with
    | none => rfl
    | some res' => exact ih res'

/-- A known name that is the beginning of another known name cannot be set, not even with its full name. -/
theorem C128_hidden_name (S : Sem V) (known : List (List Char)) (a b c : List (List Char)) (k k' : List Char)
    (hk : known = a ++ k :: (b ++ k' :: c) ∨ known = a ++ k' :: (b ++ k :: c)) (hp : k <+: k') (hne : k ≠ k') :
    (∀ name, ¬ Names known name k) ∧
      ∀ args d, argsToDict S (some known) [] args = some d → get d k = none := by
  have hno : ∀ name, ¬ Names known name k := by
    rintro name ⟨x, y, e, h1, h2⟩
    have hm : k' ∈ known := by rcases hk with hk | hk <;> (rw [hk]; simp)
    have : k' ∈ x ++ y := by
      rw [e] at hm
      rcases List.mem_append.mp hm with h | h
      · exact List.mem_append.mpr (.inl h)
      · rcases List.mem_cons.mp h with h | h
        · exact absurd h.symm hne
        · exact List.mem_append.mpr (.inr h)
    exact h2 k' this (h1.trans hp)
  refine ⟨hno, fun args d h => ?_⟩
  cases hg : get d k with
  | none => rfl
  | some v =>
    obtain ⟨pre, x, post, e, ⟨n, t, -, -, -, hn, -⟩, -⟩ := (C128_values S known args d h k v).mp hg
    exact absurd hn (hno n)

/-- Without known names every name is accepted as it is. -/
theorem C128_any_name (S : Sem V) (name text : List Char) (hn : '=' ∉ name) (ht : '=' ∉ text) (res : Dict V)
    (hg : get res name = none) : step S none [] res (name ++ '=' :: text) = some (put res name (S.eval text)) := by
  have hf : find [name] name = some name := find_iff.mpr ⟨[], [], rfl, List.prefix_rfl, by simp⟩
  unfold step
  rw [split_two.mpr ⟨rfl, hn, ht⟩]
  simp only [get, plain, Option.getD_none, hf, hg]

/-- `batch=x/y` sets the two names to the two numbers, whatever they were before, and is refused in all other cases. -/
theorem C128_batch (S : Sem V) (known : Option (List (List Char))) (n1 n2 value : List Char) (h1 : '/' ∉ n1) (h2 : '/' ∉ n2)
    (hv : '=' ∉ value) (res : Dict V) :
    (∀ t1 t2 v1 v2, value = t1 ++ '/' :: t2 → '/' ∉ t1 → '/' ∉ t2 → S.int t1 = some v1 → S.int t2 = some v2 →
      step S known [("batch".toList, n1 ++ '/' :: n2)] res ("batch".toList ++ '=' :: value) = some (put (put res n1 v1) n2 v2)) ∧
    ((¬ ∃ t1 t2 v1 v2, value = t1 ++ '/' :: t2 ∧ '/' ∉ t1 ∧ '/' ∉ t2 ∧ S.int t1 = some v1 ∧ S.int t2 = some v2) →
      step S known [("batch".toList, n1 ++ '/' :: n2)] res ("batch".toList ++ '=' :: value) = none) := by
  have hb : '=' ∉ "batch".toList := by decide +kernel
  have hst : step S known [("batch".toList, n1 ++ '/' :: n2)] res ("batch".toList ++ '=' :: value) =
      batch S (n1 ++ '/' :: n2) res value := by
    unfold step
    rw [split_two.mpr ⟨rfl, hb, hv⟩]
    simp only [get, if_pos]
  have hsp : split '/' (n1 ++ '/' :: n2) = [n1, n2] := split_two.mpr ⟨rfl, h1, h2⟩
  rw [hst, batch, hsp]
  constructor
  · rintro t1 t2 v1 v2 rfl ht1 ht2 e1 e2
    rw [split_two.mpr ⟨rfl, ht1, ht2⟩]
    simp [putInts, e1, e2]
  · intro hno
    by_cases hl : ([n1, n2].length ≠ (split '/' value).length)
    · rw [if_pos hl]
    · rw [if_neg hl]
      rcases hs : split '/' value with _ | ⟨t1, _ | ⟨t2, _ | ⟨t3, l⟩⟩⟩
      · exact absurd hs (split_ne_nil _ _)
      · rw [hs] at hl; simp at hl
      · obtain ⟨e, ht1, ht2⟩ := split_two.mp hs
        simp only [List.zip_cons_cons, List.zip_nil_right, putInts]
        cases e1 : S.int t1 with
        | none => rfl
        | some v1 =>
          cases e2 : S.int t2 with
          | none => rfl
          | some v2 => exact absurd ⟨t1, t2, v1, v2, e, ht1, ht2, e1, e2⟩ hno
      · rw [hs] at hl; simp at hl

/-! ### Concrete cases -/

/-- Values are texts, decimal numbers are integers. -/
def Spec.texts : Sem (List Char) where
  eval s := s
  int s := if s ≠ [] ∧ s.all Char.isDigit then some s else none
  ne v w := v != w

/-- The names of the example experiment. -/
def Spec.experiment : List (List Char) :=
  ["suite_name".toList, "budget_multiplier".toList, "suite_filter_options".toList, "batches".toList, "current_batch".toList]

example : argsToDict Spec.texts (some Spec.experiment) [] ["budget=10".toList, "suite_n=bbob".toList, "budget_mult=10".toList] =
    some [("budget_multiplier".toList, "10".toList), ("suite_name".toList, "bbob".toList)] := by decide +kernel

example : argsToDict Spec.texts (some Spec.experiment) [] ["suite=bbob".toList] = none := by decide +kernel

example : argsToDict Spec.texts (some Spec.experiment) [] ["budget=10".toList, "budget_m=20".toList] = none := by decide +kernel

example : ∀ v w, Spec.texts.ne v w = false ↔ v = w := by
  intro v w
  simp [Spec.texts]

example : argsToDict Spec.texts (some Spec.experiment) [("batch".toList, "current_batch/batches".toList)] ["batch=3/32".toList] =
    some [("current_batch".toList, "3".toList), ("batches".toList, "32".toList)] := by decide +kernel

/-- With `batch` the order of the arguments matters: after `batch` a different number of batches is refused, before it is forgotten. -/
theorem C128_batch_order :
    argsToDict Spec.texts (some Spec.experiment) [("batch".toList, "current_batch/batches".toList)]
      ["batch=3/32".toList, "batches=4".toList] = none ∧
    argsToDict Spec.texts (some Spec.experiment) [("batch".toList, "current_batch/batches".toList)]
      ["batches=4".toList, "batch=3/32".toList] = some [("batches".toList, "32".toList), ("current_batch".toList, "3".toList)] := by
  decide +kernel

/-- The name `budget` cannot be given beside `budget_multiplier`. -/
example : argsToDict Spec.texts (some ["budget".toList, "budget_multiplier".toList]) [] ["budget=10".toList] = none := by decide +kernel

/-- **C128** (specials). A special other than `batch` is refused, and arguments whose names are not special do not depend on specials. -/
theorem C128_other_special (S : Sem V) (known : Option (List (List Char))) (specials : Dict (List Char)) {name text : List Char}
    (hn : '=' ∉ name) (ht : '=' ∉ text) (res : Dict V) :
    ((∃ names, (name, names) ∈ specials) → name ≠ "batch".toList → step S known specials res (name ++ '=' :: text) = none) ∧
    ((¬ ∃ names, (name, names) ∈ specials) →
      step S known specials res (name ++ '=' :: text) = step S known [] res (name ++ '=' :: text)) := by
  have hs : split '=' (name ++ '=' :: text) = [name, text] := split_two.mpr ⟨rfl, hn, ht⟩
  have hg : (∃ names, (name, names) ∈ specials) ↔ get specials name ≠ none := by
    clear hs
    induction specials with
    | nil => simp [get]
    | cons e d ih =>
      rw [get]
      by_cases he : e.1 = name
      · rw [if_pos he]
        subst he
        exact ⟨fun _ => by simp, fun _ => ⟨e.2, .head _⟩⟩
      · rw [if_neg he, ← ih]
        constructor
        · rintro ⟨names, hm⟩
          rcases List.mem_cons.mp hm with h | h
          · exact absurd (by rw [← h]) he
          · exact ⟨names, h⟩
        · rintro ⟨names, hm⟩
          exact ⟨names, List.mem_cons_of_mem _ hm⟩
  constructor
  · intro h hb
    obtain ⟨names, e⟩ := Option.ne_none_iff_exists'.1 (hg.mp h)
    unfold step
    rw [hs]
    simp only [e, if_neg hb]
  · intro h
    have e : get specials name = none := by
      by_contra hc
      exact h (hg.mpr hc)
    unfold step
    rw [hs]
    simp only [e, get]

/-- `budget` is a special that is not known to the function. -/
example : argsToDict Spec.texts (some Spec.experiment) [("budget".toList, "a/b".toList)] ["budget=3/32".toList] = none := by decide +kernel

end PyArgs
