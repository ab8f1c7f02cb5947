import Verif.Model.Observer
import Verif.Props.Options

/-!
Properties C28 (log level), C29 (adding and removing observers), C70 (formatted duplication) and C71
(integer observer options).
-/

namespace Observer
open CStr Str Options

/-! ### C28 -/

/-- The level a name denotes. -/
def Spec.levelOf (name : String) : Option Level :=
  match name with
  | "error" => some .error
  | "warning" => some .warning
  | "info" => some .info
  | "debug" => some .debug
  | _ => none

/-- Level `a` is within level `b` in the order error, warning, info, debug. -/
def Spec.within (a b : Level) : Bool :=
  match a, b with
  | .error, _ => true
  | .warning, .error => false
  | .warning, _ => true
  | .info, .info => true
  | .info, .debug => true
  | .info, _ => false
  | .debug, .debug => true
  | .debug, _ => false

/-- The level in force after setting the given names one after the other, started at info: that of the last
known name. -/
def Spec.current (names : List String) : Level := ((names.filterMap Spec.levelOf).getLast?).getD .info

theorem levelOf_eq (name : String) :
    Spec.levelOf name =
      if name.toList = "error".toList then some .error
      else if name.toList = "warning".toList then some .warning
      else if name.toList = "info".toList then some .info
      else if name.toList = "debug".toList then some .debug
      else none := by
  simp only [String.toList_inj]
  unfold Spec.levelOf
  split <;> simp_all

theorem emit_eq (cur : Level) (m : Msg) : emit cur m = if Spec.within m.level cur then [m] else [] := by
  unfold emit
  cases m.level <;> cases cur <;> rfl

theorem setLogLevel_eq (cur : Level) (name : String) :
    setLogLevel cur name.toList =
      ((Spec.levelOf name).getD cur,
       if Spec.levelOf name = none ∧ name ≠ "" ∧ Spec.within .warning cur = true then
         [⟨.warning, unknownLevel name.toList⟩] else [],
       cur.name) := by
  have e : (name.toList = []) ↔ name = "" := by
    rw [← String.toList_inj]; rfl
  rw [levelOf_eq]
  unfold setLogLevel
  rw [emit_eq]
  by_cases h1 : name.toList = "error".toList
  · simp only [h1, if_true]; cases cur <;> rfl
  by_cases h2 : name.toList = "warning".toList
  · simp only [h2, if_true]
    cases cur <;> rfl
  by_cases h3 : name.toList = "info".toList
  · simp only [h3, if_true]
    cases cur <;> rfl
  by_cases h4 : name.toList = "debug".toList
  · simp only [h4, if_true]
    cases cur <;> rfl
  simp only [h1, h2, h3, h4, if_false]
  by_cases h5 : name = ""
  · rw [if_pos (e.2 h5)]
    simp only [h5]
    cases cur <;> rfl
  · rw [if_neg (fun h => h5 (e.1 h))]
    simp only [h5, not_false_eq_true, ne_eq, true_and]
    cases cur <;> rfl

/-- **C28** (one call). The returned string is the name of the level in force; a known name becomes the new
level, any other string (in particular the empty one) leaves it unchanged; a warning is issued exactly for
an unknown non-empty name, unless the level is error. -/
theorem C28_set (cur : Level) (name : String) :
    setLogLevel cur name.toList =
      ((Spec.levelOf name).getD cur,
       if Spec.levelOf name = none ∧ name ≠ "" ∧ cur ≠ .error then
         [⟨.warning, unknownLevel name.toList⟩] else [],
       cur.name) := by
  rw [setLogLevel_eq]
  have : Spec.within .warning cur = true ↔ cur ≠ .error := by cases cur <;> decide
  simp only [this]

/-- The names set in a sequence of calls. -/
def Spec.names : List (String ⊕ Msg) → List String
  | [] => []
  | .inl n :: cs => n :: Spec.names cs
  | .inr _ :: cs => Spec.names cs

/-- The calls of the model. -/
def Spec.calls (cs : List (String ⊕ Msg)) : List LevelCall :=
  cs.map fun
  | .inl n => .set n.toList
  | .inr m => .message m

theorem levelRun_append (cur : Level) (xs ys : List LevelCall) :
    levelRun cur (xs ++ ys) =
      ((levelRun (levelRun cur xs).1 ys).1,
       (levelRun cur xs).2.1 ++ (levelRun (levelRun cur xs).1 ys).2.1,
       (levelRun cur xs).2.2 ++ (levelRun (levelRun cur xs).1 ys).2.2) := by
  induction xs generalizing cur with
  | nil => simp [levelRun]
  | cons x xs ih =>
    cases x with
    | set n => simp [levelRun, ih]
    | message m => simp [levelRun, ih]

theorem names_append (xs ys : List (String ⊕ Msg)) : Spec.names (xs ++ ys) = Spec.names xs ++ Spec.names ys := by
  induction xs with
  | nil => rfl
  | cons x xs ih => cases x <;> simp [Spec.names, ih]

theorem levelRun_level (cs : List (String ⊕ Msg)) (cur : Level) :
    (levelRun cur (Spec.calls cs)).1 = (((Spec.names cs).filterMap Spec.levelOf).getLast?).getD cur := by
  induction cs generalizing cur with
  | nil => rfl
  | cons x cs ih =>
    cases x with
    | inr m => simpa [Spec.calls, levelRun, Spec.names] using ih cur
    | inl n =>
      have := ih ((Spec.levelOf n).getD cur)
      simp only [Spec.calls, List.map_cons, levelRun, setLogLevel_eq, Spec.names] at this ⊢
      rw [this]
      cases h : Spec.levelOf n with
      | none => simp [h]
      | some l =>
        simp only [List.filterMap_cons, h, Option.getD_some]
        rw [List.getLast?_cons]
        simp

/-- **C28** (every history). After any sequence of calls, started with the initial level info, a further
call of `coco_set_log_level` returns the name of the level set by the last call with a known name (info if
there was none), and a message is printed if and only if its level is within that level. -/
theorem C28_history (cs : List (String ⊕ Msg)) (name : String) (m : Msg) :
    (levelRun initLevel (Spec.calls (cs ++ [.inl name]))).2.2
      = (levelRun initLevel (Spec.calls cs)).2.2 ++ [(Spec.current (Spec.names cs)).name] ∧
    (levelRun initLevel (Spec.calls (cs ++ [.inr m]))).2.1
      = (levelRun initLevel (Spec.calls cs)).2.1
        ++ (if Spec.within m.level (Spec.current (Spec.names cs)) then [m] else []) := by
  have h := levelRun_level cs initLevel
  have e : (levelRun initLevel (Spec.calls cs)).1 = Spec.current (Spec.names cs) := h
  constructor
  · simp only [Spec.calls, List.map_append, List.map_cons, List.map_nil] at e ⊢
    rw [levelRun_append, e]
    simp only [levelRun, setLogLevel_eq]
  · simp only [Spec.calls, List.map_append, List.map_cons, List.map_nil] at e ⊢
    rw [levelRun_append, e]
    simp only [levelRun, emit_eq, List.append_nil]

example : (levelRun initLevel (Spec.calls [.inl "warning", .inl "loud", .inr ⟨.info, ['a']⟩, .inl "", .inl "debug",
    .inr ⟨.info, ['b']⟩, .inl "error"])).2 =
    ([⟨.warning, "coco_set_log_level(): unknown level loud".toList⟩, ⟨.info, ['b']⟩],
     ["info".toList, "warning".toList, "warning".toList, "warning".toList, "debug".toList]) := by decide +kernel

/-! ### C70 -/

/-- **C70** (partial). Texts of at most 441 characters are duplicated unchanged, texts of 442 or 443
characters stop the process. Longer texts are not covered: see `C70_overflow`. -/
theorem C70_strdupf_partial (text : List Char) :
    (text.length ≤ 441 → strdupf text = .ok text) ∧
    (441 < text.length → text.length ≤ 443 → strdupf text = .error) := by
  unfold strdupf
  constructor
  · intro h; rw [if_neg (by omega), if_neg (by omega)]
  · intro h h'; rw [if_neg (by omega), if_pos (by omega)]

/-- **C70** (refutation). Longer texts are written beyond the end of the buffer before the length is
checked. -/
theorem C70_overflow (text : List Char) (h : 443 < text.length) : strdupf text = .ub := by
  unfold strdupf
  rw [if_pos (by omega)]

example : strdupf (List.replicate 441 'x') = .ok (List.replicate 441 'x') ∧
    strdupf (List.replicate 442 'x') = .error ∧ strdupf (List.replicate 444 'x') = .ub := by decide +kernel

/-! ### C29 -/

/-- **C29** (no observer). A missing or inactive observer changes nothing, neither when it is added nor when
it is removed. -/
theorem C29_inactive (p : Option Prob) (name : List Char) :
    addObserver p none = .ok p ∧ addObserver p (some ⟨name, false⟩) = .ok p ∧
    removeObserver p none = .ok p ∧ removeObserver p (some ⟨name, false⟩) = .ok p := by
  cases p <;> exact ⟨rfl, rfl, rfl, rfl⟩

theorem strstr_paren (a b : List Char) (h : '(' ∉ a) : strstr (a ++ '(' :: b) ['('] = some a.length := by
  induction a with
  | nil => rw [List.nil_append, strstr]; simp
  | cons c a ih =>
    rw [List.cons_append, strstr, if_neg, ih (fun h' => h (by simp [h']))]
    · rfl
    · simp only [List.isPrefixOf, Bool.and_true, beq_iff_eq]
      intro e; exact h (by rw [e]; simp)

theorem strstr_no_paren (a : List Char) (h : '(' ∉ a) : strstr a ['('] = none := by
  induction a with
  | nil => rw [strstr]; simp
  | cons c a ih =>
    rw [strstr, if_neg, ih (fun h' => h (by simp [h']))]
    · rfl
    · simp only [List.isPrefixOf, Bool.and_true, beq_iff_eq]
      intro e; exact h (by rw [e]; simp)

theorem remove_paren (a b : List Char) (h : '(' ∉ a) :
    removeFromString (a ++ '(' :: b) ['('] [] = .ok a := by
  unfold removeFromString
  simp only [List.cons_ne_nil, if_false, if_true, strstr_paren a b h]
  rw [if_neg (by simp)]
  simp

theorem remove_no_paren (a : List Char) (h : '(' ∉ a) : removeFromString a ['('] [] = .error := by
  unfold removeFromString
  simp only [List.cons_ne_nil, if_false, if_true, strstr_no_paren a h]

/-- **C29** (round trip, partial: names without an opening parenthesis and of at most 441 characters
together). Adding an active observer gives a different problem, named after the observer and the problem;
removing the same observer gives back the original problem. -/
theorem C29_add_remove_partial (p : Prob) (o : Obs) (ha : o.active = true) (hn : '(' ∉ o.name)
    (hl : o.name.length + p.name.length + 2 ≤ 441) :
    ∃ q, addObserver (some p) (some o) = .ok (some q) ∧ q ≠ p ∧ q.name = o.name ++ '(' :: (p.name ++ [')']) ∧
      removeObserver (some q) (some o) = .ok (some p) := by
  refine ⟨.wrapped (o.name ++ '(' :: (p.name ++ [')'])) p, ?_, ?_, rfl, ?_⟩
  · have e : o.name ++ ['('] ++ p.name ++ [')'] = o.name ++ '(' :: (p.name ++ [')']) := by simp
    simp only [addObserver, ha, Bool.true_eq_false, if_false, transformedAllocate, e]
    rw [(C70_strdupf_partial _).1 (by simp; omega)]
    rfl
  · intro h
    have : ∀ (p : Prob) n, Prob.wrapped n p ≠ p := by
      intro p
      induction p with
      | raw => intro n h; cases h
      | wrapped m r ih => intro n h; injection h with h1 h2; exact ih _ h2
    exact this _ _ h
  · simp only [removeObserver, ha, Bool.true_eq_false, if_false, Prob.name]
    rw [remove_paren _ _ hn]
    simp

/-- Adding several observers, the first of the list first. -/
def Spec.addAll (p : Option Prob) : List Obs → Res (Option Prob)
  | [] => .ok p
  | o :: os => (addObserver p (some o)).bind fun q => Spec.addAll q os

/-- Removing several observers, the first of the list first. -/
def Spec.removeAll (p : Option Prob) : List Obs → Res (Option Prob)
  | [] => .ok p
  | o :: os => (removeObserver p (some o)).bind fun q => Spec.removeAll q os

theorem removeAll_append (p : Option Prob) (xs ys : List Obs) :
    Spec.removeAll p (xs ++ ys) = (Spec.removeAll p xs).bind fun q => Spec.removeAll q ys := by
  induction xs generalizing p with
  | nil => rfl
  | cons x xs ih =>
    simp only [List.cons_append, Spec.removeAll, ih]
    cases removeObserver p (some x) <;> rfl

/-- **C29** (nesting, partial as above). Any number of nested observers (active or not) can be removed in
the reverse order, which gives back the original problem. -/
theorem C29_nested_partial (os : List Obs) (p : Prob) (hn : ∀ o ∈ os, '(' ∉ o.name)
    (hl : (os.map fun o => o.name.length + 2).sum + p.name.length ≤ 441) :
    ∃ q, Spec.addAll (some p) os = .ok (some q) ∧ Spec.removeAll (some q) os.reverse = .ok (some p) := by
  induction os generalizing p with
  | nil => exact ⟨p, rfl, rfl⟩
  | cons o os ih =>
    simp only [List.map_cons, List.sum_cons] at hl
    cases ha : o.active with
    | false =>
      obtain ⟨q, h1, h2⟩ := ih p (fun o ho => hn o (by simp [ho])) (by omega)
      refine ⟨q, ?_, ?_⟩
      · simp [Spec.addAll, addObserver, ha, h1]
      · rw [List.reverse_cons, removeAll_append, h2]
        simp [Spec.removeAll, removeObserver, ha]
    | true =>
      obtain ⟨r, r1, r2, r3, r4⟩ := C29_add_remove_partial p o ha (hn o (by simp)) (by omega)
      obtain ⟨q, h1, h2⟩ := ih r (fun o ho => hn o (by simp [ho])) (by rw [r3]; simp; omega)
      refine ⟨q, ?_, ?_⟩
      · simp [Spec.addAll, r1, h1]
      · rw [List.reverse_cons, removeAll_append, h2]
        simp [Spec.removeAll, r4]

/-- The observers of the library meet the hypothesis on names, except that any name starting with
`bbob-constrained` is accepted. -/
theorem C29_names (name : List Char) (o : Obs) (h : observer name = some o)
    (hc : name.take 16 ≠ "bbob-constrained".toList ∨ name = "bbob-constrained".toList
      ∨ name = "bbob-constrained-active-only".toList) :
    o.active = true ∧ '(' ∉ o.name := by
  unfold observer at h
  split at h
  · cases h
  split at h
  · cases h
  split at h
  · rename_i hk
    injection h with h
    subst h
    refine ⟨rfl, ?_⟩
    rcases hc with hc | rfl | rfl
    · simp only [known, hc, decide_false, Bool.or_false, decide_eq_true_eq, List.mem_cons, List.not_mem_nil,
        or_false] at hk
      rcases hk with rfl | rfl | rfl | rfl | rfl | rfl | rfl | rfl | rfl | rfl | rfl <;> decide +kernel
    · decide +kernel
    · decide +kernel
  · cases h

example : observer "bbob-mixint".toList = some ⟨"bbob-mixint".toList, true⟩ ∧
    observer "bbob_mixint".toList = none ∧ observer "no_observer".toList = none ∧
    observer "bbob-constrained-active-only".toList = some ⟨"bbob-constrained-active-only".toList, true⟩ := by
  decide +kernel

example : ∃ q, Spec.addAll (some (.raw 7 "BBOB suite problem f1 instance 1 in 2D".toList))
      [⟨"rw".toList, true⟩, ⟨"toy".toList, false⟩, ⟨"bbob".toList, true⟩] = .ok (some q) ∧
    q.name = "bbob(rw(BBOB suite problem f1 instance 1 in 2D))".toList ∧
    Spec.removeAll (some q) [⟨"bbob".toList, true⟩, ⟨"toy".toList, false⟩, ⟨"rw".toList, true⟩]
      = .ok (some (.raw 7 "BBOB suite problem f1 instance 1 in 2D".toList)) := by
  refine ⟨.wrapped "bbob(rw(BBOB suite problem f1 instance 1 in 2D))".toList
    (.wrapped "rw(BBOB suite problem f1 instance 1 in 2D)".toList
      (.raw 7 "BBOB suite problem f1 instance 1 in 2D".toList)), ?_, rfl, ?_⟩ <;> decide +kernel

theorem first_paren {s : List Char} (h : '(' ∈ s) : ∃ a b, s = a ++ '(' :: b ∧ '(' ∉ a := by
  induction s with
  | nil => cases h
  | cons c s ih =>
    by_cases hc : c = '('
    · exact ⟨[], s, by simp [hc], by simp⟩
    · obtain ⟨a, b, e, ha⟩ := ih (by simpa [Ne.symm hc] using h)
      exact ⟨c :: a, b, by simp [e], by simp [Ne.symm hc, ha]⟩

/-- **C29** (refutation). Removing an active observer from a problem whose name is not of the form
"observer name, parenthesis, ..." stops the process, instead of returning the problem as documented. -/
theorem C29_not_observed_aborts (p : Prob) (o : Obs) (ha : o.active = true)
    (hp : ∀ rest, p.name ≠ o.name ++ '(' :: rest) : removeObserver (some p) (some o) = .error := by
  simp only [removeObserver, ha, Bool.true_eq_false, if_false]
  by_cases h : '(' ∈ p.name
  · obtain ⟨a, b, e, hab⟩ := first_paren h
    rw [e, remove_paren a b hab, Res.ok_bind, if_pos]
    rintro rfl
    exact hp b e
  · rw [remove_no_paren _ h]; rfl

example : removeObserver (some (.raw 7 "BBOB suite problem f1 instance 1 in 2D".toList)) (some ⟨"bbob".toList, true⟩)
    = .error := by decide +kernel

/-- **C29** (refutation). An accepted observer name with a parenthesis cannot be removed again. -/
theorem C29_parenthesis : ∃ (name : List Char) (o : Obs) (p q : Prob), observer name = some o ∧
    addObserver (some p) (some o) = .ok (some q) ∧ removeObserver (some q) (some o) = .error :=
  ⟨"bbob-constrained(a)".toList, ⟨"bbob-constrained(a)".toList, true⟩, .raw 0 ['p'],
    .wrapped "bbob-constrained(a)(p)".toList (.raw 0 ['p']), by decide +kernel, by decide +kernel, by decide +kernel⟩

/-! ### C71 -/

/-- `text` contains the entry `key: number` (first occurrence of the key), the number being a decimal
number without leading zero, optionally negative, that is followed by a space or the end. -/
structure Spec.IntEntry (options key : List Char) (v : Int) : Prop where
  ex : ∃ (pre gap sp ds rest : List Char) (neg : Bool),
    Options.Spec.Entry options pre key gap sp ((if neg then ['-'] else []) ++ (ds ++ rest)) ∧ ds ≠ [] ∧
    (∀ c ∈ ds, isDigit c = true) ∧ ds.head? ≠ some '0' ∧ decimal ds < 2 ^ 31 ∧
    (∀ c, rest.head? = some c → c = ' ') ∧ v = if neg then -(decimal ds : Int) else decimal ds

/-- The option is not given. -/
def Spec.Absent (options key : List Char) : Prop :=
  options.length ≤ 1000000000 ∧ ∀ k, ¬ Str.Spec.OccursAt options key k

theorem intOption_given {options key : List Char} {v default lo hi : Int} (h : Spec.IntEntry options key v) :
    intOption options key default lo hi = .ok (if lo ≤ v ∧ v ≤ hi then v else default) := by
  obtain ⟨pre, gap, sp, ds, rest, neg, he, hd, hds, h0, hval, hr, hv⟩ := h.ex
  unfold intOption
  rw [C12_read_int neg he hd hds h0 hval (by intro c hc; rw [hr c hc]; decide), ← hv]
  simp only [Res.ok_bind, Option.getD_some]
  rw [if_pos (by decide)]
  clear hv
  by_cases h1 : lo ≤ v ∧ v ≤ hi
  · rw [if_pos h1, if_neg (by omega)]
  · rw [if_neg h1, if_pos (by omega)]

theorem intOption_absent {options key : List Char} {default lo hi : Int} (hk : key ≠ [])
    (h : Spec.Absent options key) : intOption options key default lo hi = .ok default := by
  unfold intOption
  rw [(C12_absent options key 1 hk h.1 h.2).2.2.1]
  simp

/-- **C71** (given values). A number given for `precision_x`, `precision_f`, `precision_g` or
`log_discrete_as_int` is used if it is within its range (1 to 32, or 0 and 1), otherwise the default (8, 15,
3 and 0) is used. -/
theorem C71_given (options : List Char) (s : Settings) (h : settings options = .ok s) (v : Int) :
    (Spec.IntEntry options "precision_x".toList v → s.precisionX = if 1 ≤ v ∧ v ≤ 32 then v else 8) ∧
    (Spec.IntEntry options "precision_f".toList v → s.precisionF = if 1 ≤ v ∧ v ≤ 32 then v else 15) ∧
    (Spec.IntEntry options "precision_g".toList v → s.precisionG = if 1 ≤ v ∧ v ≤ 32 then v else 3) ∧
    (Spec.IntEntry options "log_discrete_as_int".toList v →
      s.discreteAsInt = if 0 ≤ v ∧ v ≤ 1 then v else 0) := by
  unfold settings at h
  cases h1 : sizeOption options "number_target_triggers".toList 100 0 <;> rw [h1] at h <;> try cases h
  cases h2 : sizeOption options "number_evaluation_triggers".toList 20 4 <;> rw [Res.ok_bind, h2] at h <;> try cases h
  cases h3 : intOption options "precision_x".toList 8 1 32 <;> rw [Res.ok_bind, h3] at h <;> try cases h
  cases h4 : intOption options "precision_f".toList 15 1 32 <;> rw [Res.ok_bind, h4] at h <;> try cases h
  cases h5 : intOption options "precision_g".toList 3 1 32 <;> rw [Res.ok_bind, h5] at h <;> try cases h
  cases h6 : intOption options "log_discrete_as_int".toList 0 0 1 <;> rw [Res.ok_bind, h6] at h <;> try cases h
  refine ⟨fun hv => ?_, fun hv => ?_, fun hv => ?_, fun hv => ?_⟩
  · rw [intOption_given hv] at h3; injection h3 with h3; exact h3.symm
  · rw [intOption_given hv] at h4; injection h4 with h4; exact h4.symm
  · rw [intOption_given hv] at h5; injection h5 with h5; exact h5.symm
  · rw [intOption_given hv] at h6; injection h6 with h6; exact h6.symm

theorem intOption_range {options key : List Char} {default lo hi v : Int} (hd : lo ≤ default ∧ default ≤ hi)
    (h : intOption options key default lo hi = .ok v) : lo ≤ v ∧ v ≤ hi := by
  unfold intOption at h
  cases hr : readInt options key with
  | error => rw [hr] at h; cases h
  | assertFail => rw [hr] at h; cases h
  | ub => rw [hr] at h; cases h
  | ok r =>
    rw [hr, Res.ok_bind] at h
    simp only at h
    split at h
    · split at h
      · injection h with h; subst h; exact hd
      · injection h with h; subst h; omega
    · injection h with h; subst h; exact hd

theorem sizeOption_range {options key : List Char} {default lo v : Nat} (hd : lo ≤ default)
    (h : sizeOption options key default lo = .ok v) : lo ≤ v := by
  unfold sizeOption at h
  cases hr : readSizeT options key with
  | error => rw [hr] at h; cases h
  | assertFail => rw [hr] at h; cases h
  | ub => rw [hr] at h; cases h
  | ok r =>
    rw [hr, Res.ok_bind] at h
    simp only at h
    split at h
    · split at h
      · injection h with h; subst h; exact hd
      · injection h with h; subst h; omega
    · injection h with h; subst h; exact hd

/-- **C71** (ranges). Whatever the options string is, the settings of the observer are in their ranges. -/
theorem C71_ranges (options : List Char) (s : Settings) (h : settings options = .ok s) :
    (1 ≤ s.precisionX ∧ s.precisionX ≤ 32) ∧ (1 ≤ s.precisionF ∧ s.precisionF ≤ 32) ∧
    (1 ≤ s.precisionG ∧ s.precisionG ≤ 32) ∧ (s.discreteAsInt = 0 ∨ s.discreteAsInt = 1) ∧
    4 ≤ s.evaluationTriggers := by
  unfold settings at h
  cases h1 : sizeOption options "number_target_triggers".toList 100 0 <;> rw [h1] at h <;> try cases h
  cases h2 : sizeOption options "number_evaluation_triggers".toList 20 4 <;> rw [Res.ok_bind, h2] at h <;> try cases h
  cases h3 : intOption options "precision_x".toList 8 1 32 <;> rw [Res.ok_bind, h3] at h <;> try cases h
  cases h4 : intOption options "precision_f".toList 15 1 32 <;> rw [Res.ok_bind, h4] at h <;> try cases h
  cases h5 : intOption options "precision_g".toList 3 1 32 <;> rw [Res.ok_bind, h5] at h <;> try cases h
  cases h6 : intOption options "log_discrete_as_int".toList 0 0 1 <;> rw [Res.ok_bind, h6] at h <;> try cases h
  have a := intOption_range (by omega) h6
  exact ⟨intOption_range (by omega) h3, intOption_range (by omega) h4, intOption_range (by omega) h5,
    by simp only; omega, sizeOption_range (by omega) h2⟩

/-- **C71** (defaults). Without the keys, the defaults are used. -/
theorem C71_defaults (options : List Char)
    (h : ∀ key ∈ ["number_target_triggers".toList, "number_evaluation_triggers".toList, "precision_x".toList,
      "precision_f".toList, "precision_g".toList, "log_discrete_as_int".toList], Spec.Absent options key) :
    settings options = .ok ⟨100, 20, 8, 15, 3, 0⟩ := by
  have hs : ∀ (key : List Char) (d lo : Nat), key ≠ [] → Spec.Absent options key →
      sizeOption options key d lo = .ok d := by
    intro key d lo hk ha
    unfold sizeOption
    rw [(C12_absent options key 1 hk ha.1 ha.2).2.2.2]
    simp
  unfold settings
  rw [hs _ _ _ (by decide) (h _ (by simp)), Res.ok_bind, hs _ _ _ (by decide) (h _ (by simp)), Res.ok_bind,
    intOption_absent (by decide) (h _ (by simp)), Res.ok_bind, intOption_absent (by decide) (h _ (by simp)),
    Res.ok_bind, intOption_absent (by decide) (h _ (by simp)), Res.ok_bind,
    intOption_absent (by decide) (h _ (by simp)), Res.ok_bind]

example : settings "result_folder: a precision_x: 33 precision_f: 7 log_discrete_as_int: 1".toList
    = .ok ⟨100, 20, 8, 7, 3, 1⟩ := by decide +kernel

example : Spec.IntEntry "result_folder: a precision_x: 33 precision_f: 7".toList "precision_x".toList 33 := by
  refine ⟨"result_folder: a ".toList, [], [' '], ['3', '3'], " precision_f: 7".toList, false, ?_, by decide,
    by decide, by decide, by decide, by decide, by decide⟩
  refine { text := by decide, name_ne := by decide, name_colon := by decide, gap_colon := by decide,
           sp_space := by decide, first := ?_, len := by decide }
  intro p hp hocc
  have he : strfind "result_folder: a precision_x: 33 precision_f: 7".toList "precision_x".toList = .ok (17 : Int) := by
    decide +kernel
  rcases C13_strfind "result_folder: a precision_x: 33 precision_f: 7".toList "precision_x".toList (by decide)
    (by decide) with ⟨e, h⟩ | ⟨k, e, h1, h2⟩
  · exact h p hocc
  · rw [he] at e
    injection e with e
    have e17 : "result_folder: a ".toList.length = 17 := by decide
    exact h2 p (by omega) hocc

example : settings [] = .ok ⟨100, 20, 8, 15, 3, 0⟩ := by decide +kernel

/-- **C71** (negative number of targets). The check for a negative `number_target_triggers` is void: -1 is
accepted as 2^64 - 1. -/
theorem C71_negative_targets : ∃ s, settings "number_target_triggers: -1".toList = .ok s ∧
    s.targetTriggers = 2 ^ 64 - 1 := ⟨⟨2 ^ 64 - 1, 20, 8, 15, 3, 0⟩, by decide +kernel, rfl⟩

end Observer
