import Verif.Lemmas.MemorySuites

/-
C102: the memory of problems.  Creating a problem of a suite, attaching observers to it and freeing
it releases exactly the memory that was allocated.
-/

namespace Memory

/-! ### Specification -/

/-- The problems of the suites, by the numbers of their functions (the dimensions of mixed-integer
problems are multiples of 5). -/
def Valid : Request → Prop
  | .toy f _ => 1 ≤ f ∧ f ≤ 6
  | .bbob f _ | .largescale f _ | .sbox f _ => 1 ≤ f ∧ f ≤ 24
  | .noisy f _ => 101 ≤ f ∧ f ≤ 130
  | .mixint f n => 1 ≤ f ∧ f ≤ 24 ∧ n % 5 = 0
  | .constrained f _ _ _ => 1 ≤ f ∧ f ≤ 54
  | .biobj f g _ => (1 ≤ f ∧ f ≤ 24) ∧ 1 ≤ g ∧ g ≤ 24
  | .biobjMixint f g n => (1 ≤ f ∧ f ≤ 24) ∧ (1 ≤ g ∧ g ≤ 24) ∧ n % 5 = 0

/-- The number of objectives of a problem. -/
def objectives : Request → Nat
  | .biobj .. | .biobjMixint .. => 2
  | _ => 1

/-- The memory that is in use after `m`, started with `h`, has ended normally, and what it returned. -/
def After {α : Type} (m : M α) (h : Heap) (Q : α → Multiset Blk → Prop) : Prop :=
  ∃ a h', m h = .ok (a, h') ∧ Q a h'.live

/-! ### Helpers -/

theorem create_ok {r : Request} (h : Valid r) : Tr 0 (create r) (Made (objectives r)) := by
  cases r with
  | toy f n => exact toy_ok n h.1 h.2
  | bbob f n => exact bbob_ok n h.1 h.2
  | largescale f n => exact largescale_ok n h.1 h.2
  | sbox f n => exact sbox_ok n h.1 h.2
  | noisy f n => exact noisy_ok n h.1 h.2
  | mixint f n => exact mixint_ok h.1 h.2.1 h.2.2
  | constrained f n a b => exact constrained_ok n a b h.1 h.2
  | biobj f g n =>
    exact Tr.conseq (biobjOf_ok (bbob_ok n h.1.1 h.1.2) (bbob_ok n h.2.1 h.2.2))
      fun _ _ h => h.made
  | biobjMixint f g n =>
    exact Tr.conseq (biobjMixint_ok h.1.1 h.1.2 h.2.1.1 h.2.1.2 h.2.2) fun _ _ h => h.made

theorem leak_made {k : Nat} {p : Prob} {L : Multiset Blk} (h : Made k p L) :
    leak p.fields = if 1 < k then 1 else 0 := by
  rw [leak, h.2]

theorem session_ok {r : Request} (h : Valid r) (loggers : List Transform) :
    Tr 0 (session r loggers) (fun _ L => L.card = if 1 < objectives r then loggers.length else 0) := by
  unfold session
  refine Tr.bind' (create_ok h) ?_
  intro p L hp
  refine Tr.bind' (wrapAll_ok _ loggers hp.1) ?_
  rintro q _ ⟨k, Lq, rfl, hk, hq, -⟩
  refine Tr.frame' k rfl hq.frees ?_
  rintro _ _ rfl
  rw [zero_add, hk, leak_made hp]
  split <;> simp

theorem bbob_none {f : Nat} (h : ¬ (1 ≤ f ∧ f ≤ 24)) : bbobScript f = none := by
  unfold bbobScript
  split <;> first | rfl | (exfalso; omega)

theorem largescale_none {f : Nat} (h : ¬ (1 ≤ f ∧ f ≤ 24)) : largescaleScript f = none := by
  unfold largescaleScript
  split <;> first | rfl | (exfalso; omega)

theorem toy_none {f : Nat} (h : ¬ (1 ≤ f ∧ f ≤ 6)) : toyScript f = none := by
  unfold toyScript
  split <;> first | rfl | (exfalso; omega)

theorem noisy_none {f : Nat} (h : ¬ (101 ≤ f ∧ f ≤ 130)) : noisyScript f = none := by
  unfold noisyScript
  split <;> first | rfl | (exfalso; omega)

theorem cons_none {f : Nat} (h : ¬ (1 ≤ f ∧ f ≤ 9)) : consScript f = none := by
  unfold consScript
  split <;> first | rfl | (exfalso; omega)

/-- `m` stops the process. -/
def Stops {α : Type} (m : M α) : Prop := ∀ h, m h = .error

theorem Stops.bind {α β : Type} {m : M α} (h : Stops m) (f : α → M β) : Stops (m >>= f) := by
  intro s
  show (m s).bind _ = _
  rw [h s]
  rfl

theorem Stops.after {α β : Type} {m : M α} {Q : α → Multiset Blk → Prop} {f : α → M β}
    (hm : Tr 0 m Q) (hf : ∀ a, Stops (f a)) : Stops (m >>= f) := by
  intro s
  obtain ⟨a, L, s', e, -⟩ := hm s s.live (by simp)
  show (m s).bind _ = _
  rw [e]
  exact hf a s'

theorem callFor_stops (e : Env) {o : Option (List Stmt)} (h : o = none) : Stops (callFor e o) := by
  subst h
  exact fun _ => rfl

theorem cont_stops {f : Nat} (n : Nat) (h : ¬ (1 ≤ f ∧ f ≤ 24)) : Stops (contProblem f n) := by
  unfold contProblem
  split
  · exact callFor_stops _ (bbob_none h)
  · exact callFor_stops _ (largescale_none h)

theorem biobjOf_stops {first second : M Prob} (h : Stops first ∨ Tr 0 first (Made 1) ∧ Stops second) :
    Stops (biobjOf first second) := by
  unfold biobjOf
  refine .after Tr.alloc' fun _ => .after Tr.alloc' fun _ => ?_
  rcases h with h | ⟨h, h'⟩
  · exact .bind h _
  · exact .after h fun _ => .bind h' _

theorem create_stops {r : Request} (h : ¬ Valid r) : Stops (create r) := by
  cases r with
  | toy f n => exact callFor_stops _ (toy_none h)
  | bbob f n => exact callFor_stops _ (bbob_none h)
  | largescale f n => exact callFor_stops _ (largescale_none h)
  | sbox f n => exact .bind (callFor_stops _ (bbob_none h)) _
  | noisy f n =>
    show Stops (noisyProblem f n)
    unfold noisyProblem
    rw [noisy_none h]
    exact fun _ => rfl
  | mixint f n =>
    show Stops (mixintProblem f n)
    unfold mixintProblem
    split
    · exact fun _ => rfl
    · rename_i hn
      refine .after Tr.alloc' fun _ => .after Tr.alloc' fun _ => .bind (cont_stops _ ?_) _
      exact fun h' => h ⟨h'.1, h'.2, not_not.mp hn⟩
  | constrained f n a b =>
    show Stops (constrainedProblem f n a b)
    unfold constrainedProblem
    rw [cons_none (by simp only [Valid] at h; omega)]
    exact fun _ => rfl
  | biobj f g n =>
    refine biobjOf_stops ?_
    by_cases hf : 1 ≤ f ∧ f ≤ 24
    · exact .inr ⟨bbob_ok n hf.1 hf.2, callFor_stops _ (bbob_none fun hg => h ⟨hf, hg⟩)⟩
    · exact .inl (callFor_stops _ (bbob_none hf))
  | biobjMixint f g n =>
    show Stops (biobjMixintProblem f g n)
    unfold biobjMixintProblem
    split
    · exact fun _ => rfl
    · rename_i hn
      refine .after Tr.alloc' fun _ => .after Tr.alloc' fun _ => .bind (biobjOf_stops ?_) _
      by_cases hf : 1 ≤ f ∧ f ≤ 24
      · exact .inr ⟨cont_ok n hf.1 hf.2, cont_stops _ fun hg => h ⟨hf, hg, not_not.mp hn⟩⟩
      · exact .inl (cont_stops _ hf)

/-! ### The theorems -/

/-- A single-objective problem (with or without constraints) of any suite, function and dimension is
created, any number of observers is attached to it, and it is freed: nothing undefined happens (no
block is released twice, or without having been allocated), and the memory in use is what it was
before. -/
theorem C102_balanced (r : Request) (hr : Valid r) (h1 : objectives r = 1) (loggers : List Transform)
    (h : Heap) : After (session r loggers) h (fun _ live => live = h.live) := by
  obtain ⟨a, L, h', e, q, l⟩ := session_ok hr loggers h h.live (by simp)
  refine ⟨a, h', e, ?_⟩
  rw [if_neg (by omega)] at q
  rw [l, Multiset.card_eq_zero.mp q, zero_add]

/-- A bi-objective problem that is created and freed without an observer: as for other problems. -/
theorem C102_plain (r : Request) (hr : Valid r) (h : Heap) :
    After (session r []) h (fun _ live => live = h.live) := by
  obtain ⟨a, L, h', e, q, l⟩ := session_ok hr [] h h.live (by simp)
  refine ⟨a, h', e, ?_⟩
  have : L = 0 := by
    apply Multiset.card_eq_zero.mp
    simpa using q
  rw [l, this, zero_add]

/-- A problem in use owns memory: after its creation more memory is in use than before, and freeing
it releases exactly the difference. -/
theorem C102_owned (r : Request) (hr : Valid r) (h : Heap) :
    ∃ p h', create r h = .ok (p, h') ∧ h.live < h'.live ∧
      After (freeProb p) h' (fun _ live => live = h.live) := by
  obtain ⟨p, L, h', e, q, l⟩ := create_ok hr h h.live (by simp)
  refine ⟨p, h', e, ?_, ?_⟩
  · rw [l]
    obtain ⟨⟨-, Lb, rfl, -⟩, -⟩ := q
    refine lt_of_le_of_ne (Multiset.le_add_left _ _) ?_
    intro heq
    have := congrArg Multiset.card heq
    simp [Fields.blocks] at this
    omega
  · obtain ⟨a, K, h'', e', q', l'⟩ := q.1.frees h' h.live l
    refine ⟨a, h'', e', ?_⟩
    rw [l', q', zero_add]

/-- Attaching an observer to a single-objective problem of a suite and removing it again gives back
the same problem and the same memory; the problem is then freed as if there had been no observer. -/
theorem C102_observer (r : Request) (hr : Valid r) (h1 : objectives r = 1) (logger : Transform)
    (h : Heap) : ∃ p h', create r h = .ok (p, h') ∧
      After (wrap ⟨0, 0, false⟩ logger p >>= removeObserver) h' (fun q live => q = p ∧ live = h'.live) := by
  obtain ⟨p, L, h', e, q, l⟩ := create_ok hr h h.live (by simp)
  refine ⟨p, h', e, ?_⟩
  obtain ⟨a, K, h'', e', ⟨rfl, q'⟩, l'⟩ :=
    remove_wrap ⟨0, 0, false⟩ logger (p := p) q.1.1 h' h'.live (by simp)
  refine ⟨_, h'', e', rfl, ?_⟩
  rw [leak_made q, if_neg (by omega)] at q'
  rw [l', Multiset.card_eq_zero.mp q', zero_add]

/-- A whole experiment: any number of single-objective problems of any suites, each with any
observers, one after the other.  No memory is lost however long it runs. -/
theorem C102_sequence (rs : List (Request × List Transform))
    (hr : ∀ r ∈ rs, Valid r.1 ∧ objectives r.1 = 1) (h : Heap) :
    After (sessions rs) h (fun _ live => live = h.live) := by
  induction rs generalizing h with
  | nil => exact ⟨(), h, rfl, rfl⟩
  | cons r rs ih =>
    obtain ⟨r, ts⟩ := r
    have hr0 := hr (r, ts) (by simp)
    obtain ⟨_, h', e, l⟩ := C102_balanced r hr0.1 hr0.2 ts h
    obtain ⟨_, h'', e', l'⟩ := ih (fun x hx => hr x (by simp [hx])) h'
    refine ⟨(), h'', ?_, l'.trans l⟩
    show (session r ts h).bind _ = _
    rw [e]
    exact e'

/-- For no request and no observers is there undefined behaviour: the numbers of the functions that a
suite does not have stop the process with a message. -/
theorem C102_defined (r : Request) (loggers : List Transform) (h : Heap) :
    session r loggers h ≠ .ub ∧ (session r loggers h = .error ↔ ¬ Valid r) := by
  by_cases hr : Valid r
  · obtain ⟨a, L, h', e, -⟩ := session_ok hr loggers h h.live (by simp)
    rw [e]
    simp [hr]
  · have := (create_stops hr).bind (fun p => wrapAll ⟨0, 0, false⟩ loggers p >>= freeProb) h
    have e : session r loggers h = .error := this
    rw [e]
    simp [hr]

/-- Bi-objective problems.  Claimed: creating a problem, attaching observers and freeing it leaves no
memory in use.  What holds: it never goes wrong, the memory in use before is untouched, and exactly
one block is lost for each observer.  (`coco_problem_duplicate` overwrites the vector for the nadir
point that `coco_problem_allocate` has allocated, /repo/src/coco_problem.c line 251.) -/
theorem C102_biobj_partial (r : Request) (hr : Valid r) (h2 : objectives r = 2)
    (loggers : List Transform) (h : Heap) :
    After (session r loggers) h (fun _ live => h.live ≤ live ∧
      live.card = h.live.card + loggers.length) := by
  obtain ⟨a, L, h', e, q, l⟩ := session_ok hr loggers h h.live (by simp)
  refine ⟨a, h', e, ?_, ?_⟩
  · rw [l]
    exact Multiset.le_add_left _ _
  · rw [if_pos (by omega)] at q
    rw [l, Multiset.card_add, q, Nat.add_comm]

/-- The claim fails for bi-objective problems with an observer: the memory in use grows. -/
theorem C102_biobj_leaks : ∃ r loggers, Valid r ∧ ∀ h : Heap,
    ¬ After (session r loggers) h (fun _ live => live = h.live) := by
  refine ⟨.biobj 1 2 2, [.loggerToy], ⟨⟨by decide, by decide⟩, by decide, by decide⟩, ?_⟩
  rintro h ⟨a, h', e, l⟩
  obtain ⟨b, h'', e', -, c⟩ := C102_biobj_partial (.biobj 1 2 2)
    ⟨⟨by decide, by decide⟩, by decide, by decide⟩ rfl [.loggerToy] h
  rw [e] at e'
  cases e'
  rw [l] at c
  simp at c

/-! ### Concrete cases -/

/-- The hypotheses are met by the problems of each suite. -/
example : Valid (.bbob 21 40) ∧ objectives (.bbob 21 40) = 1 ∧ Valid (.largescale 24 640) ∧
    Valid (.noisy 130 5) ∧ Valid (.sbox 7 3) ∧ Valid (.toy 6 2) ∧ Valid (.mixint 22 80) ∧
    Valid (.constrained 54 10 true (List.replicate 19 false)) ∧
    objectives (.constrained 54 10 true (List.replicate 19 false)) = 1 := by
  simp [Valid, objectives]

example : Valid (.biobj 1 24 5) ∧ objectives (.biobj 1 24 5) = 2 ∧ Valid (.biobjMixint 3 21 160) := by
  simp [Valid, objectives]

/-- The number of blocks in use afterwards. -/
def inUse {α : Type} : Res (α × Heap) → Option Nat
  | .ok (_, h) => some h.live.card
  | _ => none

/-- A sphere problem of the bbob suite in dimension 3 uses 31 blocks, and none after it is freed. -/
example : inUse (create (.bbob 1 3) ⟨0, 0⟩) = some 31 ∧
    inUse (session (.bbob 1 3) [.loggerToy] ⟨0, 0⟩) = some 0 := by
  decide +kernel

/-- The observer of the toy suite on a bi-objective problem of two sphere functions, computed: one
block is lost. -/
example : inUse (session (.biobj 1 1 1) [.loggerToy] ⟨0, 0⟩) = some 1 := by
  decide +kernel

/-- A request outside the suites stops the process. -/
example : create (.bbob 25 3) ⟨0, 0⟩ = .error := rfl

end Memory
