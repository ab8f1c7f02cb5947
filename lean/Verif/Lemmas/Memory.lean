import Mathlib.Tactic.Abel
import Verif.Model.Memory

/-
Reasoning about the heap: triples with a frame, ownership of a problem, and a decidable check of
constructors that implies that they are sound.
-/

namespace Memory

/-- `m`, started with the blocks `P` (and any others), ends without undefined behaviour with blocks
`L` in the place of `P`, where the result `a` and `L` satisfy `Q`. -/
def Tr {α : Type} (P : Multiset Blk) (m : M α) (Q : α → Multiset Blk → Prop) : Prop :=
  ∀ (h : Heap) (F : Multiset Blk), h.live = P + F →
    ∃ a L h', m h = .ok (a, h') ∧ Q a L ∧ h'.live = L + F

namespace Tr

variable {α β : Type} {P F : Multiset Blk} {m : M α} {Q R : α → Multiset Blk → Prop}

theorem pure' {a : α} (h : Q a P) : Tr P (pure a) Q := by
  intro s F hs
  exact ⟨a, P, s, rfl, h, hs⟩

theorem bind' {f : α → M β} {R : β → Multiset Blk → Prop} (hm : Tr P m Q)
    (hf : ∀ a L, Q a L → Tr L (f a) R) : Tr P (m >>= f) R := by
  intro s F hs
  obtain ⟨a, L, s', e, q, l⟩ := hm s F hs
  obtain ⟨b, L', s'', e', r, l'⟩ := hf a L q s' F l
  refine ⟨b, L', s'', ?_, r, l'⟩
  show (m s).bind _ = _
  rw [e]
  exact e'

theorem frame (F : Multiset Blk) (hm : Tr P m Q) :
    Tr (P + F) m (fun a L => ∃ L', L = L' + F ∧ Q a L') := by
  intro s G hs
  obtain ⟨a, L, s', e, q, l⟩ := hm s (F + G) (by rw [hs, add_assoc])
  exact ⟨a, L + F, s', e, ⟨L, rfl, q⟩, by rw [l, add_assoc]⟩

theorem conseq (hm : Tr P m Q) (h : ∀ a L, Q a L → R a L) : Tr P m R := by
  intro s G hs
  obtain ⟨a, L, s', e, q, l⟩ := hm s G hs
  exact ⟨a, L, s', e, h a L q, l⟩

theorem cast {P' : Multiset Blk} (h : P = P') (hm : Tr P m Q) : Tr P' m Q := h ▸ hm

/-- A step that needs only part of the blocks. -/
theorem bindF {f : α → M β} {R : β → Multiset Blk → Prop} {P' : Multiset Blk} (F : Multiset Blk)
    (hP : P' = P + F) (hm : Tr P m Q) (hf : ∀ a L, Q a L → Tr (L + F) (f a) R) :
    Tr P' (m >>= f) R := by
  subst hP
  refine bind' (frame F hm) ?_
  rintro a L ⟨L', rfl, q⟩
  exact hf a L' q

theorem frame' {P' : Multiset Blk} (F : Multiset Blk)
    (hP : P' = P + F) (hm : Tr P m Q) (hf : ∀ a L, Q a L → R a (L + F)) : Tr P' m R := by
  subst hP
  refine conseq (frame F hm) ?_
  rintro a L ⟨L', rfl, q⟩
  exact hf a L' q

theorem allocB {f : Blk → M β} {R : β → Multiset Blk → Prop}
    (hf : ∀ b, Tr ({b} + P) (f b) R) : Tr P (alloc >>= f) R := by
  intro s F hs
  refine hf s.next ⟨s.next + 1, s.next ::ₘ s.live⟩ F ?_
  simp [hs, ← Multiset.singleton_add, add_assoc]

theorem freeB {f : Unit → M β} {R : β → Multiset Blk → Prop} {b : Blk} (F : Multiset Blk)
    (hP : P = {b} + F) (hf : Tr F (f ()) R) : Tr P (Memory.free b >>= f) R := by
  subst hP
  intro s G hs
  have hm : b ∈ s.live := by rw [hs]; simp
  have : Memory.free b s = .ok ((), ⟨s.next, s.live.erase b⟩) := if_pos hm
  show ∃ a L h', (Memory.free b s).bind _ = _ ∧ _
  rw [this]
  refine hf ⟨s.next, s.live.erase b⟩ G ?_
  simp only [hs]
  rw [add_assoc, Multiset.singleton_add, Multiset.erase_cons_head]

theorem pureB {a : α} {f : α → M β} {R : β → Multiset Blk → Prop} (h : Tr P (f a) R) :
    Tr P (pure a >>= f) R := h

theorem alloc' : Tr 0 alloc (fun b L => L = {b}) := by
  have : Tr 0 (alloc >>= pure) (fun b L => L = {b}) := allocB fun b => pure' (by simp)
  exact this

theorem free' (b : Blk) : Tr {b} (Memory.free b) (fun _ L => L = 0) := by
  have : Tr {b} (Memory.free b >>= pure) (fun _ L => L = 0) := freeB 0 (by simp) (pure' rfl)
  intro s F hs
  obtain ⟨a, L, s', e, q, l⟩ := this s F hs
  refine ⟨a, L, s', ?_, q, l⟩
  rw [← e]
  show _ = (Memory.free b s).bind _
  cases Memory.free b s <;> rfl

end Tr

/-- `m` returns its blocks to where they came from: nothing is left of `P`. -/
abbrev Frees (P : Multiset Blk) (m : M Unit) : Prop := Tr P m (fun _ L => L = 0)

theorem bind_assoc' {α β γ : Type} (m : M α) (f : α → M β) (g : β → M γ) :
    (m >>= f) >>= g = m >>= fun a => f a >>= g := by
  funext h
  show ((m h).bind _).bind _ = (m h).bind _
  cases m h <;> rfl

/-- The block of an optional pointer. -/
def ob : Option Blk → Multiset Blk
  | none => 0
  | some b => {b}

@[simp] theorem ob_none : ob none = 0 := rfl
@[simp] theorem ob_some (b : Blk) : ob (some b) = {b} := rfl

namespace Tr
variable {β : Type} {P F : Multiset Blk}

theorem freeOptB {f : Unit → M β} {R : β → Multiset Blk → Prop} {o : Option Blk}
    (F : Multiset Blk) (hP : P = ob o + F) (hf : Tr F (f ()) R) : Tr P (freeOpt o >>= f) R := by
  cases o with
  | none =>
    subst hP
    rw [ob_none, zero_add]
    exact hf
  | some b => exact freeB F hP hf

theorem dupOptB {f : Option Blk → M β} {R : β → Multiset Blk → Prop} {o : Option Blk}
    (hf : ∀ o' : Option Blk, o'.isSome = o.isSome → Tr (ob o' + P) (f o') R) :
    Tr P (dupOpt o >>= f) R := by
  cases o with
  | none =>
    have := hf none rfl
    rw [ob_none, zero_add] at this
    exact this
  | some b =>
    show Tr P ((alloc >>= _) >>= f) R
    rw [bind_assoc']
    exact allocB fun c => hf (some c) rfl

theorem allocIfB {f : Option Blk → M β} {R : β → Multiset Blk → Prop} {b : Bool}
    (hf : ∀ o : Option Blk, o.isSome = b → Tr (ob o + P) (f o) R) :
    Tr P (allocIf b >>= f) R := by
  cases b with
  | false =>
    have := hf none rfl
    rw [ob_none, zero_add] at this
    exact this
  | true =>
    show Tr P ((alloc >>= _) >>= f) R
    rw [bind_assoc']
    exact allocB fun c => hf (some c) rfl

end Tr

/-! ### Vectors and matrices -/

/-- The chunk `c` is of kind `k` and consists of the blocks `L`. -/
def IsChunk (e : Env) : Kind → Chunk → Multiset Blk → Prop
  | .vec, .vec b, L => L = {b}
  | .mat s, .mat b rs, L => rs.length = e.size s ∧ L = {b} + (rs : Multiset Blk)
  | .null, .null, L => L = 0
  | _, _, _ => False

theorem allocN_ok (n : Nat) :
    Tr 0 (allocN n) (fun rs L => rs.length = n ∧ L = (rs : Multiset Blk)) := by
  induction n with
  | zero => exact Tr.pure' ⟨rfl, rfl⟩
  | succ n ih =>
    refine Tr.allocB fun b => ?_
    refine Tr.bindF {b} (by abel) ih ?_
    rintro rs L ⟨h1, rfl⟩
    refine Tr.pure' ⟨by simp [h1], ?_⟩
    rw [← Multiset.cons_coe, ← Multiset.singleton_add]; abel

theorem freeN_ok (rs : List Blk) : Frees (rs : Multiset Blk) (freeN rs.length rs) := by
  induction rs with
  | nil => exact Tr.pure' rfl
  | cons b rs ih =>
    refine Tr.freeB (rs : Multiset Blk) ?_ ih
    rw [← Multiset.cons_coe, ← Multiset.singleton_add]

theorem allocChunk_ok (e : Env) (k : Kind) : Tr 0 (allocChunk e k) (IsChunk e k) := by
  cases k with
  | vec => exact Tr.allocB fun b => Tr.pure' (by simp [IsChunk])
  | null => exact Tr.pure' rfl
  | mat s =>
    refine Tr.allocB fun b => ?_
    refine Tr.bindF {b} (by abel) (allocN_ok _) ?_
    rintro rs L ⟨h1, rfl⟩
    exact Tr.pure' ⟨h1, by abel⟩

theorem freeChunk_ok {e : Env} {k k' : Kind} {c : Chunk} {L : Multiset Blk}
    (hc : IsChunk e k' c L) (hk : k' = k ∨ k' = .null) : Frees L (freeChunk e k c) := by
  have null : ∀ k, freeChunk e k .null = pure () := by intro k; cases k <;> rfl
  rcases hk with rfl | rfl
  · cases k' <;> cases c <;> simp only [IsChunk] at hc
    · subst hc; exact Tr.free' _
    · obtain ⟨h, rfl⟩ := hc
      show Tr _ (freeN _ _ >>= fun _ => free _) _
      rw [← h]
      refine Tr.bindF _ (add_comm _ _) (freeN_ok _) ?_
      rintro _ L rfl
      rw [zero_add]
      exact Tr.free' _
    · subst hc; exact Tr.pure' rfl
  · cases c <;> simp only [IsChunk] at hc
    subst hc
    rw [null]
    exact Tr.pure' rfl

/-! ### Stores -/

/-- The kinds of the pointers of a store. -/
abbrev SStore := List (String × Kind)

/-- The store `s` has the pointers `S` and consists of the blocks `L`. -/
def IsStore (e : Env) : SStore → Store → Multiset Blk → Prop
  | [], [], L => L = 0
  | (x, k) :: S, (y, c) :: s, L =>
    x = y ∧ ∃ L1 L2, L = L1 + L2 ∧ IsChunk e k c L1 ∧ IsStore e S s L2
  | _, _, _ => False

/-- The kinds left after the release of the named pointers. -/
def consume : List (String × Kind) → SStore → Option SStore
  | [], S => some S
  | (x, k) :: fs, S =>
    match take x S with
    | none => none
    | some (k', S') => if k' = k ∨ k' = .null then consume fs S' else none

theorem take_ok {e : Env} {x : String} : ∀ {S : SStore} {s : Store} {L : Multiset Blk}
    {k : Kind} {S' : SStore}, IsStore e S s L → take x S = some (k, S') →
    ∃ c s' L1 L2, take x s = some (c, s') ∧ L = L1 + L2 ∧ IsChunk e k c L1 ∧ IsStore e S' s' L2
  | [], _, _, _, _, _, h => by simp [take] at h
  | (_, _) :: _, [], _, _, _, hs, _ => by simp [IsStore] at hs
  | (y, k0) :: S, (z, c) :: s, L, k, S', hs, h => by
    obtain ⟨rfl, L1, L2, rfl, hc, hs'⟩ := hs
    unfold take at h ⊢
    by_cases hx : x = y
    · rw [if_pos hx] at h ⊢
      simp only [Option.some.injEq, Prod.mk.injEq] at h
      obtain ⟨rfl, rfl⟩ := h
      exact ⟨c, s, L1, L2, rfl, rfl, hc, hs'⟩
    · rw [if_neg hx] at h ⊢
      cases ht : take x S with
      | none => simp [ht] at h
      | some r =>
        obtain ⟨k1, S1⟩ := r
        rw [ht] at h
        simp only [Option.map_some, Option.some.injEq, Prod.mk.injEq] at h
        obtain ⟨rfl, rfl⟩ := h
        obtain ⟨c', s', M1, M2, e1, rfl, i1, i2⟩ := take_ok hs' ht
        exact ⟨c', (y, c) :: s', M1, L1 + M2, by rw [e1]; rfl, by abel, i1, rfl, L1, M2, rfl, hc, i2⟩

theorem freeFields_ok {e : Env} : ∀ {fs : List (String × Kind)} {S : SStore} {s : Store}
    {L : Multiset Blk}, IsStore e S s L → consume fs S = some [] → Frees L (freeFields e fs s)
  | [], S, s, L, hs, h => by
    simp only [consume, Option.some.injEq] at h
    subst h
    cases s with
    | nil => exact Tr.pure' hs
    | cons a s => simp [IsStore] at hs
  | (x, k) :: fs, S, s, L, hs, h => by
    unfold consume at h
    cases ht : take x S with
    | none => simp [ht] at h
    | some r =>
      obtain ⟨k', S'⟩ := r
      rw [ht] at h
      simp only at h
      split at h
      · rename_i hk
        obtain ⟨c, s', L1, L2, e1, rfl, i1, i2⟩ := take_ok hs ht
        unfold freeFields
        rw [e1]
        refine Tr.bindF L2 rfl (freeChunk_ok i1 hk) ?_
        rintro _ _ rfl
        rw [zero_add]
        exact freeFields_ok i2 h
      · cases h

theorem allocFields_ok (e : Env) (fs : List (String × Kind)) :
    Tr 0 (allocFields e fs) (IsStore e fs) := by
  induction fs with
  | nil => exact Tr.pure' rfl
  | cons a fs ih =>
    obtain ⟨x, k⟩ := a
    refine Tr.bind' (allocChunk_ok e k) ?_
    intro c L hc
    refine Tr.bindF L (by abel) ih ?_
    intro s L' hs
    exact Tr.pure' ⟨rfl, L, L', by abel, hc, hs⟩

theorem freeStruct_ok {e : Env} {fs : List (String × Kind)} {S : SStore} {d : Blk} {s : Store}
    {L : Multiset Blk} (hs : IsStore e S s L) (h : consume fs S = some []) :
    Frees ({d} + L) (freeStruct e fs (d, s)) := by
  refine Tr.bindF {d} (by abel) (freeFields_ok hs h) ?_
  rintro _ _ rfl
  rw [zero_add]
  exact Tr.free' d

theorem hasAll_ok {e : Env} {xs : List String} {S : SStore} {s : Store} {L : Multiset Blk}
    (hs : IsStore e S s L) (h : hasAll S xs = true) : hasAll s xs = true := by
  have key : ∀ (S : SStore) (s : Store) (L : Multiset Blk) (x : String), IsStore e S s L →
      (S.any fun r => r.1 = x) = true → (s.any fun r => r.1 = x) = true := by
    intro S
    induction S with
    | nil => intro s L x _ h; simp at h
    | cons a S ih =>
      intro s L x hs h
      obtain ⟨y, k⟩ := a
      cases s with
      | nil => simp [IsStore] at hs
      | cons b s =>
        obtain ⟨z, c⟩ := b
        obtain ⟨rfl, L1, L2, rfl, hc, hs'⟩ := hs
        rw [List.any_cons, Bool.or_eq_true] at h ⊢
        rcases h with h | h
        · exact Or.inl h
        · exact Or.inr (ih s L2 x hs' h)
  unfold hasAll at h ⊢
  rw [List.all_eq_true] at h ⊢
  intro x hx
  exact key S s L x hs (h x hx)

/-! ### The generic fields -/

/-- The blocks of the generic fields. -/
def Fields.blocks (f : Fields) : Multiset Blk :=
  {f.self} + {f.smallest} + {f.largest} + ob f.bestParameter + ob f.bestValue + ob f.nadir
    + ob f.noiseFree + ob f.initial + ob f.name + ob f.id + ob f.type

/-- The nadir vector exists exactly for several objectives. -/
def Fields.WF (f : Fields) : Prop := f.nadir.isSome = decide (1 < f.nObj)

theorem newFields_ok (n c : Nat) :
    Tr 0 (newFields n c) (fun f L => L = f.blocks ∧ f.WF ∧ f.nObj = n ∧ f.nCons = c ∧
      f.initial = none ∧ f.name = none ∧ f.id = none ∧ f.type = none) := by
  unfold newFields
  refine Tr.allocB fun a1 => ?_
  refine Tr.allocB fun a2 => ?_
  refine Tr.allocB fun a3 => ?_
  refine Tr.allocIfB fun a4 h4 => ?_
  refine Tr.allocIfB fun a5 h5 => ?_
  refine Tr.allocB fun a6 => ?_
  refine Tr.allocIfB fun a7 h7 => ?_
  refine Tr.pure' ⟨?_, h7, rfl, rfl, rfl, rfl, rfl, rfl⟩
  simp only [Fields.blocks, ob_none, ob_some]
  abel

/-- The number of blocks lost by `coco_problem_duplicate`. -/
def leak (f : Fields) : Nat := if 1 < f.nObj then 1 else 0

theorem dupFields_ok {o : Fields} (ho : o.WF) :
    Tr 0 (dupFields o) (fun f L => ∃ k, L = f.blocks + k ∧ k.card = leak o ∧ f.WF ∧
      f.nObj = o.nObj ∧ f.nCons = o.nCons ∧ f.initial.isSome = o.initial.isSome) := by
  unfold dupFields
  refine Tr.bind' (newFields_ok _ _) ?_
  rintro f _ ⟨rfl, hw, hn, hc, hi, hname, hid, hty⟩
  refine Tr.dupOptB fun a1 h1 => ?_
  unfold Fields.WF at ho hw
  cases hnad : o.nadir with
  | none =>
    have h1n : ¬ 1 < o.nObj := by
      intro h; rw [hnad] at ho; simp [h] at ho
    show Tr _ (pure f.nadir >>= _) _
    refine Tr.pureB ?_
    refine Tr.dupOptB fun a2 h2 => ?_
    refine Tr.dupOptB fun a3 h3 => ?_
    refine Tr.dupOptB fun a4 h4 => ?_
    refine Tr.pure' ⟨0, ?_, ?_, hw, hn, hc, h1⟩
    · simp only [Fields.blocks, hi, hname, hid, hty, ob_none]
      abel
    · simp [leak, h1n]
  | some nd =>
    have h1n : 1 < o.nObj := by
      rw [hnad] at ho; simpa using ho
    show Tr _ ((alloc >>= _) >>= _) _
    rw [bind_assoc']
    refine Tr.allocB fun b => ?_
    refine Tr.pureB ?_
    refine Tr.dupOptB fun a2 h2 => ?_
    refine Tr.dupOptB fun a3 h3 => ?_
    refine Tr.dupOptB fun a4 h4 => ?_
    rw [hn] at hw
    cases hfn : f.nadir with
    | none => rw [hfn] at hw; simp [h1n] at hw
    | some c =>
      refine Tr.pure' ⟨{c}, ?_, ?_, ?_, hn, hc, h1⟩
      · simp only [Fields.blocks, hi, hname, hid, hty, hfn, ob_none, ob_some]
        abel
      · simp [leak, h1n]
      · show (some b).isSome = decide (1 < f.nObj)
        rw [hn]; simp [h1n]

theorem freeGeneric_ok (f : Fields) : Frees f.blocks (freeGeneric f) := by
  unfold freeGeneric Fields.blocks
  refine Tr.freeB ({f.self} + {f.largest} + ob f.bestParameter + ob f.bestValue + ob f.nadir
    + ob f.noiseFree + ob f.initial + ob f.name + ob f.id + ob f.type) (by abel) ?_
  refine Tr.freeB ({f.self} + ob f.bestParameter + ob f.bestValue + ob f.nadir
    + ob f.noiseFree + ob f.initial + ob f.name + ob f.id + ob f.type) (by abel) ?_
  refine Tr.freeOptB ({f.self} + ob f.bestValue + ob f.nadir
    + ob f.noiseFree + ob f.initial + ob f.name + ob f.id + ob f.type) (by abel) ?_
  refine Tr.freeOptB ({f.self} + ob f.nadir
    + ob f.noiseFree + ob f.initial + ob f.name + ob f.id + ob f.type) (by abel) ?_
  refine Tr.freeOptB ({f.self}
    + ob f.noiseFree + ob f.initial + ob f.name + ob f.id + ob f.type) (by abel) ?_
  refine Tr.freeOptB ({f.self} + ob f.noiseFree + ob f.initial + ob f.id + ob f.type) (by abel) ?_
  refine Tr.freeOptB ({f.self} + ob f.noiseFree + ob f.initial + ob f.type) (by abel) ?_
  refine Tr.freeOptB ({f.self} + ob f.noiseFree + ob f.initial) (by abel) ?_
  refine Tr.freeOptB ({f.self} + ob f.noiseFree) (by abel) ?_
  refine Tr.freeOptB ({f.self}) (by abel) ?_
  exact Tr.free' _

/-- A function that changes only the strings of a problem. -/
def Sets (m : Fields → M Fields) : Prop :=
  ∀ f, Tr f.blocks (m f) (fun g L => L = g.blocks ∧ g.nObj = f.nObj ∧ g.nCons = f.nCons ∧
    g.nadir = f.nadir ∧ g.initial = f.initial)

theorem setIdF_ok : Sets setIdF := by
  intro f
  unfold setIdF
  refine Tr.freeOptB ({f.self} + {f.smallest} + {f.largest} + ob f.bestParameter + ob f.bestValue
    + ob f.nadir + ob f.noiseFree + ob f.initial + ob f.name + ob f.type)
    (by unfold Fields.blocks; abel) ?_
  refine Tr.allocB fun b => Tr.pure' ⟨?_, rfl, rfl, rfl, rfl⟩
  simp only [Fields.blocks, ob_some]
  abel

theorem setNameF_ok : Sets setNameF := by
  intro f
  unfold setNameF
  refine Tr.freeOptB ({f.self} + {f.smallest} + {f.largest} + ob f.bestParameter + ob f.bestValue
    + ob f.nadir + ob f.noiseFree + ob f.initial + ob f.id + ob f.type)
    (by unfold Fields.blocks; abel) ?_
  refine Tr.allocB fun b => Tr.pure' ⟨?_, rfl, rfl, rfl, rfl⟩
  simp only [Fields.blocks, ob_some]
  abel

theorem setTypeF_ok : Sets setTypeF := by
  intro f
  unfold setTypeF
  refine Tr.freeOptB ({f.self} + {f.smallest} + {f.largest} + ob f.bestParameter + ob f.bestValue
    + ob f.nadir + ob f.noiseFree + ob f.initial + ob f.name + ob f.id)
    (by unfold Fields.blocks; abel) ?_
  refine Tr.allocB fun b => Tr.pure' ⟨?_, rfl, rfl, rfl, rfl⟩
  simp only [Fields.blocks, ob_some]
  abel

/-! ### Ownership -/

/-- The part of `coco_problem_free` before the generic fields are released. -/
def freeRest : Prob → M Unit
  | .base _ b subs => freeBase b (freeList subs)
  | .transformed _ td e t user inner => do
    freeProb inner
    freeUser e t user
    free td
  | .stacked _ d p q => do
    freeProb p
    freeProb q
    free d

theorem freeProb_eq (p : Prob) : freeProb p = (freeRest p >>= fun _ => freeGeneric p.fields) := by
  cases p with
  | base f b subs => rw [freeProb]; rfl
  | transformed f td e t user inner =>
    rw [freeProb]
    simp only [freeRest, freeWrapper, bind_assoc']
    rfl
  | stacked f d p q =>
    rw [freeProb]
    simp only [freeRest, bind_assoc']
    rfl

/-- The problem `p` owns exactly the blocks `L`: its own fields and what is released before them. -/
def Owns (p : Prob) (L : Multiset Blk) : Prop :=
  p.fields.WF ∧ ∃ Lb, L = p.fields.blocks + Lb ∧ Frees Lb (freeRest p)

theorem Owns.frees {p : Prob} {L : Multiset Blk} (h : Owns p L) : Frees L (freeProb p) := by
  obtain ⟨-, Lb, rfl, hf⟩ := h
  rw [freeProb_eq]
  refine Tr.bindF p.fields.blocks (by abel) hf ?_
  rintro _ _ rfl
  rw [zero_add]
  exact freeGeneric_ok _

theorem freeRest_withFields (g : Fields) (p : Prob) : freeRest (p.withFields g) = freeRest p := by
  cases p <;> rfl

theorem fields_withFields (g : Fields) (p : Prob) : (p.withFields g).fields = g := by
  cases p <;> rfl

theorem onFields_ok {m : Fields → M Fields} (hm : Sets m) {p : Prob} {L : Multiset Blk}
    (h : Owns p L) : Tr L (onFields m p) (fun q L' => Owns q L' ∧ q.fields.nObj = p.fields.nObj ∧
      q.fields.nCons = p.fields.nCons ∧ q.fields.initial = p.fields.initial) := by
  obtain ⟨hw, Lb, rfl, hf⟩ := h
  refine Tr.bindF Lb rfl (hm _) ?_
  rintro g _ ⟨rfl, h1, h2, h3, h4⟩
  refine Tr.pure' ⟨⟨?_, Lb, ?_, ?_⟩, ?_, ?_, ?_⟩
  · rw [fields_withFields]; unfold Fields.WF at *; rw [h1, h3, hw]
  · rw [fields_withFields]
  · rw [freeRest_withFields]; exact hf
  · rw [fields_withFields, h1]
  · rw [fields_withFields, h2]
  · rw [fields_withFields, h4]

/-- The data released for a transformation is the data allocated for it. -/
theorem transform_consume (t : Transform) (fs : List (String × Kind)) (h : t.fields = some fs) :
    consume t.freed fs = some [] := by
  have : ∀ t : Transform, (t.fields.map fun fs => consume t.freed fs) = none ∨
      (t.fields.map fun fs => consume t.freed fs) = some (some []) := by
    intro t
    cases t
    case loggerBbob log => cases log <;> decide
    all_goals decide
  have h1 := this t
  rw [h] at h1
  simpa using h1

theorem allocUser_ok (e : Env) (t : Transform) :
    Tr 0 (allocUser e t) (fun u Lu => Frees Lu (freeUser e t u)) := by
  unfold allocUser
  cases ht : t.fields with
  | none => exact Tr.pure' (Tr.pure' rfl)
  | some fs =>
    refine Tr.allocB fun d => ?_
    refine Tr.bindF {d} (by abel) (allocFields_ok e fs) ?_
    intro s Ls hs
    refine Tr.pure' ?_
    exact Tr.cast (by abel) (freeStruct_ok (d := d) hs (transform_consume t fs ht))

theorem wrap_ok {p : Prob} {L : Multiset Blk} (e : Env) (t : Transform) (h : Owns p L) :
    Tr L (wrap e t p) (fun q L' => ∃ k Lq, L' = Lq + k ∧ k.card = leak p.fields ∧ Owns q Lq ∧
      q.fields.nObj = p.fields.nObj ∧ q.fields.nCons = p.fields.nCons ∧
      q.fields.initial.isSome = p.fields.initial.isSome) := by
  unfold wrap
  refine Tr.bindF L (by abel) (allocUser_ok e t) ?_
  intro u Lu hu
  refine Tr.dupOptB fun old _ => ?_
  refine Tr.allocB fun td => ?_
  refine Tr.bindF ({td} + (ob old + (Lu + L))) (by abel) (dupFields_ok h.1) ?_
  rintro f _ ⟨k, rfl, hk, hw, hn, hc, hi⟩
  refine Tr.bindF (k + ({td} + (ob old + (Lu + L)))) (by abel) (setNameF_ok f) ?_
  rintro g _ ⟨rfl, h1, h2, h3, h4⟩
  refine Tr.freeOptB (g.blocks + k + {td} + Lu + L) (by abel) ?_
  refine Tr.pure' ⟨k, g.blocks + ({td} + Lu + L), by abel, hk, ⟨?_, {td} + Lu + L, rfl, ?_⟩, ?_, ?_, ?_⟩
  · show g.WF
    unfold Fields.WF at *
    rw [h3, h1, hw]
  · refine Tr.bindF ({td} + Lu) (by abel) h.frees ?_
    rintro _ _ rfl
    refine Tr.bindF {td} (by abel) hu ?_
    rintro _ _ rfl
    rw [zero_add]
    exact Tr.free' td
  · show g.nObj = _
    rw [h1, hn]
  · show g.nCons = _
    rw [h2, hc]
  · show g.initial.isSome = _
    rw [h4, hi]

theorem stack_ok {p q : Prob} {L L' : Multiset Blk} (hp : Owns p L) (hq : Owns q L') :
    Tr (L + L') (stack p q) (fun r Lr => Owns r Lr ∧
      r.fields.nObj = p.fields.nObj + q.fields.nObj ∧
      r.fields.nCons = p.fields.nCons + q.fields.nCons ∧
      (0 < q.fields.nCons → r.fields.initial.isSome = q.fields.initial.isSome)) := by
  unfold stack
  refine Tr.bindF (L + L') (by abel) (newFields_ok _ _) ?_
  rintro f _ ⟨rfl, hw, hn, hc, hi, hname, hid, hty⟩
  refine Tr.allocB fun s => ?_
  refine Tr.allocB fun id => ?_
  refine Tr.freeB ({id} + (f.blocks + (L + L'))) (by abel) ?_
  refine Tr.allocB fun s => ?_
  refine Tr.allocB fun name => ?_
  refine Tr.freeB ({name} + ({id} + (f.blocks + (L + L')))) (by abel) ?_
  have fin : ∀ initial, (0 < q.fields.nCons → initial.isSome = q.fields.initial.isSome) → Tr (ob initial + ({name} + ({id} + (f.blocks + (L + L')))))
      (alloc >>= fun d => (pure (.stacked { f with id := some id, name := some name, initial } d p q)
        : M Prob)) (fun r Lr => Owns r Lr ∧
      r.fields.nObj = p.fields.nObj + q.fields.nObj ∧
      r.fields.nCons = p.fields.nCons + q.fields.nCons ∧
      (0 < q.fields.nCons → r.fields.initial.isSome = q.fields.initial.isSome)) := by
    intro initial hini
    refine Tr.allocB fun d => ?_
    refine Tr.pure' ⟨⟨hw, {d} + L + L', ?_, ?_⟩, hn, hc, hini⟩
    · simp only [Prob.fields, Fields.blocks, hi, hname, hid, hty, ob_none, ob_some]
      abel
    · refine Tr.bindF ({d} + L') (by abel) hp.frees ?_
      rintro _ _ rfl
      refine Tr.bindF {d} (by abel) hq.frees ?_
      rintro _ _ rfl
      rw [zero_add]
      exact Tr.free' d
  refine Tr.dupOptB fun o ho => fin o fun hq => ?_
  rw [ho, if_pos ⟨by omega, hq⟩]

theorem remove_wrap {p : Prob} (e : Env) (t : Transform) (hp : p.fields.WF) :
    Tr 0 (wrap e t p >>= removeObserver) (fun q L => q = p ∧ L.card = leak p.fields) := by
  unfold wrap
  rw [bind_assoc']
  refine Tr.bind' (allocUser_ok e t) ?_
  intro u Lu hu
  rw [bind_assoc']
  refine Tr.dupOptB fun old _ => ?_
  rw [bind_assoc']
  refine Tr.allocB fun td => ?_
  rw [bind_assoc']
  refine Tr.bindF ({td} + (ob old + Lu)) (by abel) (dupFields_ok hp) ?_
  rintro f _ ⟨k, rfl, hk, hw, hn, hc, -⟩
  rw [bind_assoc']
  refine Tr.bindF (k + ({td} + (ob old + Lu))) (by abel) (setNameF_ok f) ?_
  rintro g _ ⟨rfl, h1, h2, h3⟩
  rw [bind_assoc']
  refine Tr.freeOptB (g.blocks + k + {td} + Lu) (by abel) ?_
  show Tr _ (removeObserver (.transformed g td e t u p)) _
  unfold removeObserver
  refine Tr.allocB fun pre => ?_
  refine Tr.freeB (g.blocks + k + {td} + Lu) (by abel) ?_
  unfold freeWrapper
  rw [bind_assoc']
  refine Tr.bindF (g.blocks + k + {td}) (by abel) hu ?_
  rintro _ _ rfl
  rw [bind_assoc']
  refine Tr.freeB (g.blocks + k) (by abel) ?_
  refine Tr.bindF k rfl (freeGeneric_ok g) ?_
  rintro _ _ rfl
  rw [zero_add]
  exact Tr.pure' ⟨rfl, hk⟩

/-! ### The check of constructors -/

/-- What is known about a problem under construction: a basic problem (with at least `n`
sub-problems; `hs` if there may be any), or a problem that can be freed. -/
inductive SProb where
  | none
  | base (fn : FreeFn) (data vd : Option SStore) (n : Nat) (hs : Bool)
  | whole
deriving DecidableEq, Repr

/-- What is known about the variables of a constructor. -/
structure SFrame where
  store : SStore
  prob : SProb
  aux : Bool
deriving DecidableEq, Repr

/-- Whether the data of a basic problem is what its free function releases. -/
def completeBase (fn : FreeFn) (data vd : Option SStore) (hs : Bool) : Bool :=
  (match data with
    | none => fn.data = []
    | some S => consume fn.data S = some []) &&
  (match fn.vd, vd with
    | none, none => true
    | some fs, some S => consume fs S = some []
    | _, _ => false) &&
  (!hs || fn.subs)

/-- Whether the problem can be freed. -/
def SProb.complete : SProb → Bool
  | .none => false
  | .base fn data vd _ hs => completeBase fn data vd hs
  | .whole => true

/-- The check of one operation. -/
def checkOp (v : SFrame) : Op → Option SFrame
  | .alloc x k => some { v with store := (x, k) :: v.store }
  | .free x k =>
    match take x v.store with
    | none => none
    | some (k', S) => if k' = k ∨ k' = .null then some { v with store := S } else none
  | .fromScalars fn _ =>
    if v.prob = .none then some { v with prob := .base fn none none 0 false } else none
  | .setFree fn =>
    match v.prob with
    | .base _ d vd n hs => some { v with prob := .base fn d vd n hs }
    | _ => none
  | .newData =>
    match v.prob with
    | .base fn none vd n hs => some { v with prob := .base fn (some []) vd n hs }
    | _ => none
  | .dataField x k =>
    match v.prob with
    | .base fn (some S) vd n hs => some { v with prob := .base fn (some ((x, k) :: S)) vd n hs }
    | _ => none
  | .newVd =>
    match v.prob with
    | .base fn d none n hs => some { v with prob := .base fn d (some []) n hs }
    | _ => none
  | .vdField x k =>
    match v.prob with
    | .base fn d (some S) n hs => some { v with prob := .base fn d (some ((x, k) :: S)) n hs }
    | _ => none
  | .wrap _ args | .wrapLarge _ args =>
    if v.prob.complete && hasAll v.store args then some { v with prob := .whole } else none
  | .setId _ | .setName | .setType _ => if v.prob = .none then none else some v
  | .auxNew _ => if v.aux then none else some { v with aux := true }
  | .auxWrap _ args => if v.aux && hasAll v.store args then some v else none
  | .auxFree => if v.aux then some { v with aux := false } else none

/-- The check of several operations. -/
def checkOps : List Op → SFrame → Option SFrame
  | [], v => some v
  | o :: os, v => (checkOp v o).bind (checkOps os)

/-- The check of one statement. -/
def checkStmt (v : SFrame) : Stmt → Option SFrame
  | .op o => checkOp v o
  | .newSubs n body =>
    match v.prob with
    | .base fn d vd k hs =>
      match checkOps body ⟨[], .none, false⟩ with
      | some ⟨[], p, false⟩ =>
        if p.complete then some { v with prob := .base fn d vd (if n = .one then k + 1 else k) true }
        else none
      | _ => none
    | _ => none
  | .onSub i body =>
    match v.prob with
    | .base fn d vd k hs =>
      if i < k then
        match checkOps body { v with prob := .whole } with
        | some w => if w.prob.complete then some { w with prob := .base fn d vd k hs } else none
        | none => none
      else none
    | _ => none
  | .forSubs body =>
    match v.prob with
    | .base fn d vd k hs =>
      match checkOps body { v with prob := .whole } with
      | some w => if w.prob.complete && w.store = v.store && w.aux = v.aux then some v else none
      | none => none
    | _ => none

/-- The check of a constructor. -/
def checkStmts : List Stmt → SFrame → Option SFrame
  | [], v => some v
  | s :: ss, v => (checkStmt v s).bind (checkStmts ss)

/-- A constructor whose local variables are all released and whose problem can be freed. -/
def sound (ss : List Stmt) : Bool :=
  match checkStmts ss ⟨[], .none, false⟩ with
  | some ⟨[], p, false⟩ => p.complete
  | _ => false

/-! ### Soundness of the check -/

/-- An optional structure. -/
def IsStruct (e : Env) : Option SStore → Option (Blk × Store) → Multiset Blk → Prop
  | none, none, L => L = 0
  | some S, some (d, s), L => ∃ L', L = {d} + L' ∧ IsStore e S s L'
  | _, _, _ => False

/-- A single-objective problem that owns `L`. -/
def Whole (p : Prob) (L : Multiset Blk) : Prop := Owns p L ∧ p.fields.nObj = 1

/-- The sub-problems own the blocks `L`. -/
def Subs : List Prob → Multiset Blk → Prop
  | [], L => L = 0
  | p :: ps, L => ∃ L1 L2, L = L1 + L2 ∧ Whole p L1 ∧ Subs ps L2

/-- The problem under construction agrees with what is known about it. -/
def IsProb (e : Env) : SProb → Option Prob → Multiset Blk → Prop
  | .none, none, L => L = 0
  | .base fn d vd n hs, some (.base f b ss), L =>
    b.env = e ∧ b.fn = fn ∧ f.WF ∧ f.nObj = 1 ∧ n ≤ ss.length ∧ (ss ≠ [] → hs = true) ∧
    ∃ L1 L2 L3, L = f.blocks + L1 + L2 + L3 ∧ IsStruct e d b.data L1 ∧ IsStruct e vd b.vd L2 ∧
      Subs ss L3
  | .whole, some p, L => Whole p L
  | _, _, _ => False

/-- The auxiliary problem agrees with what is known about it. -/
def IsAux : Bool → Option Prob → Multiset Blk → Prop
  | false, none, L => L = 0
  | true, some p, L => Whole p L
  | _, _, _ => False

/-- The variables agree with what is known about them. -/
def IsFrame (e : Env) (V : SFrame) (v : Frame) (L : Multiset Blk) : Prop :=
  ∃ L1 L2 L3, L = L1 + L2 + L3 ∧ IsStore e V.store v.store L1 ∧ IsProb e V.prob v.prob L2 ∧
    IsAux V.aux v.aux L3

theorem Subs.frees : ∀ {ps : List Prob} {L : Multiset Blk}, Subs ps L → Frees L (freeList ps)
  | [], L, h => by
    rw [freeList]
    exact Tr.pure' h
  | p :: ps, L, h => by
    obtain ⟨L1, L2, rfl, h1, h2⟩ := h
    rw [freeList]
    refine Tr.bindF L2 rfl h1.1.frees ?_
    rintro _ _ rfl
    rw [zero_add]
    exact Subs.frees h2

theorem Subs.append : ∀ {ps qs : List Prob} {L L' : Multiset Blk}, Subs ps L → Subs qs L' →
    Subs (ps ++ qs) (L + L')
  | [], qs, L, L', h, h' => by
    have : L = 0 := h
    subst this
    rw [zero_add]; exact h'
  | p :: ps, qs, L, L', h, h' => by
    obtain ⟨L1, L2, rfl, h1, h2⟩ := h
    exact ⟨L1, L2 + L', by abel, h1, Subs.append h2 h'⟩

theorem Subs.get : ∀ {ps : List Prob} {L : Multiset Blk} {i : Nat}, Subs ps L → i < ps.length →
    ∃ p L1 L2, ps[i]? = some p ∧ L = L1 + L2 ∧ Whole p L1 ∧
      ∀ q L', Whole q L' → Subs (ps.set i q) (L' + L2)
  | [], _, _, _, hi => by simp at hi
  | p :: ps, L, 0, h, _ => by
    obtain ⟨L1, L2, rfl, h1, h2⟩ := h
    exact ⟨p, L1, L2, rfl, rfl, h1, fun q L' hq => ⟨L', L2, rfl, hq, h2⟩⟩
  | p :: ps, L, i + 1, h, hi => by
    obtain ⟨L1, L2, rfl, h1, h2⟩ := h
    obtain ⟨r, M1, M2, e, rfl, w, s⟩ := Subs.get (i := i) h2 (by simpa using hi)
    refine ⟨r, M1, L1 + M2, by simpa using e, by abel, w, fun q L' hq => ?_⟩
    exact ⟨L1, L' + M2, by abel, h1, s q L' hq⟩

theorem subs_of_vd : ∀ fn : FreeFn, fn.vd = none → fn.subs = false := by
  intro fn h
  cases fn <;> first | rfl | simp [FreeFn.vd] at h

theorem IsProb.whole {e : Env} {P : SProb} {o : Option Prob} {L : Multiset Blk}
    (h : IsProb e P o L) (hc : P.complete = true) : ∃ p, o = some p ∧ Whole p L := by
  cases P with
  | none => simp [SProb.complete] at hc
  | whole =>
    cases o with
    | none => simp [IsProb] at h
    | some p => exact ⟨p, rfl, h⟩
  | base fn d vd n hs =>
    rcases o with _ | ⟨f, b, ss⟩ | _ | _
    all_goals try (simp [IsProb] at h; done)
    obtain ⟨h1, h2, hw, ho, hn, hss, L1, L2, L3, rfl, i1, i2, i3⟩ := h
    refine ⟨_, rfl, ⟨hw, L1 + L2 + L3, ?_, ?_⟩, ho⟩
    · show _ = f.blocks + _
      abel
    · obtain ⟨e', fn', bd, bv⟩ := b
      simp only at h1 h2 i1 i2
      subst h1 h2
      simp only [SProb.complete, completeBase, Bool.and_eq_true] at hc
      obtain ⟨⟨c1, c2⟩, c3⟩ := hc
      show Frees _ (freeBase _ (freeList ss))
      unfold freeBase
      have part1 : Frees L1 (freeData e' fn' bd) := by
        unfold freeData
        cases d with
        | none =>
          cases bd with
          | none =>
            simp only [decide_eq_true_eq] at c1
            simp only [c1, if_true]
            exact Tr.pure' i1
          | some r => simp [IsStruct] at i1
        | some S =>
          cases bd with
          | none => simp [IsStruct] at i1
          | some r =>
            obtain ⟨d0, s⟩ := r
            obtain ⟨L', rfl, is⟩ := i1
            exact freeStruct_ok is (by simpa using c1)
      refine Tr.bindF (L2 + L3) (by abel) part1 ?_
      rintro _ _ rfl
      rw [zero_add]
      show Frees _ (freeVd e' fn' (freeList ss) bv)
      unfold freeVd
      cases hv : fn'.vd with
      | none =>
        rw [hv] at c2
        cases vd with
        | some S => simp at c2
        | none =>
          cases bv with
          | some r => simp [IsStruct] at i2
          | none =>
            have hsub : fn'.subs = false := by
              exact subs_of_vd fn' hv
            rw [hsub, Bool.or_false, Bool.not_eq_true'] at c3
            have : ss = [] := by
              by_contra hne
              rw [hss hne] at c3
              cases c3
            subst this
            have e2 : L2 = 0 := i2
            have e3 : L3 = 0 := i3
            subst e2 e3
            exact Tr.pure' rfl
      | some fs =>
        rw [hv] at c2
        cases vd with
        | none => simp at c2
        | some S =>
          cases bv with
          | none => simp [IsStruct] at i2
          | some r =>
            obtain ⟨d0, s⟩ := r
            obtain ⟨L', rfl, is⟩ := i2
            have part2 : Frees L3 (if fn'.subs = true then freeList ss else pure PUnit.unit) := by
              by_cases hsub : fn'.subs = true
              · rw [if_pos hsub]; exact i3.frees
              · rw [if_neg hsub]
                rw [Bool.not_eq_true] at hsub
                rw [hsub, Bool.or_false, Bool.not_eq_true'] at c3
                have : ss = [] := by
                  by_contra hne
                  rw [hss hne] at c3
                  cases c3
                subst this
                exact Tr.pure' i3
            refine Tr.bindF ({d0} + L') (by abel) part2 ?_
            rintro _ _ rfl
            rw [zero_add]
            exact freeStruct_ok is (by simpa using c2)

theorem wrap_whole {p : Prob} {L : Multiset Blk} (e : Env) (t : Transform) (h : Whole p L) :
    Tr L (wrap e t p) Whole := by
  refine Tr.conseq (wrap_ok e t h.1) ?_
  rintro q _ ⟨k, Lq, rfl, hk, hq, hn, -⟩
  have : k = 0 := by
    rw [leak, if_neg (by have := h.2; omega)] at hk
    exact Multiset.card_eq_zero.mp hk
  subst this
  rw [add_zero]
  exact ⟨hq, by rw [hn]; exact h.2⟩

theorem onFields_whole {m : Fields → M Fields} (hm : Sets m) {p : Prob} {L : Multiset Blk}
    (h : Whole p L) : Tr L (onFields m p) Whole := by
  refine Tr.conseq (onFields_ok hm h.1) ?_
  rintro q L' ⟨hq, hn, -⟩
  exact ⟨hq, by rw [hn]; exact h.2⟩

theorem onFields_isProb {e : Env} {P : SProb} {m : Fields → M Fields} (hm : Sets m) {p : Prob}
    {L : Multiset Blk} (h : IsProb e P (some p) L) :
    Tr L (onFields m p) (fun q L' => IsProb e P (some q) L') := by
  cases P with
  | none => simp [IsProb] at h
  | whole => exact onFields_whole hm h
  | base fn d vd n hs =>
    rcases p with ⟨f, b, ss⟩ | _ | _
    all_goals try (simp [IsProb] at h; done)
    obtain ⟨h1, h2, hw, ho, hn, hss, L1, L2, L3, rfl, i1, i2, i3⟩ := h
    refine Tr.bindF (L1 + L2 + L3) (by abel) (hm f) ?_
    rintro g _ ⟨rfl, g1, g2, g3, -⟩
    refine Tr.pure' ⟨h1, h2, ?_, ?_, hn, hss, L1, L2, L3, by abel, i1, i2, i3⟩
    · unfold Fields.WF at *; rw [g1, g3, hw]
    · rw [g1]; exact ho

theorem scalars_ok {e : Env} (fn : FreeFn) (n c : Nat) (hn : n = 1) :
    Tr 0 (newFields n c >>= fun f => setNameF f) (fun f L => L = f.blocks ∧ f.WF ∧ f.nObj = 1 ∧
      IsProb e (.base fn none none 0 false) (some (.base f ⟨e, fn, none, none⟩ [])) L) := by
  refine Tr.bind' (newFields_ok n c) ?_
  rintro f _ ⟨rfl, hw, h1, -⟩
  refine Tr.conseq (setNameF_ok f) ?_
  rintro g _ ⟨rfl, g1, g2, g3, -⟩
  have w : g.WF := by unfold Fields.WF at *; rw [g1, g3, hw]
  have o : g.nObj = 1 := by rw [g1, h1]; exact hn
  exact ⟨rfl, w, o, rfl, rfl, w, o, Nat.le_refl 0, fun h => absurd rfl h,
    0, 0, 0, by abel, rfl, rfl, rfl⟩

theorem runOp_ok {e : Env} {V V' : SFrame} {v : Frame} {L : Multiset Blk} {o : Op}
    (h : IsFrame e V v L) (hc : checkOp V o = some V') :
    Tr L (runOp e v o) (fun w L' => IsFrame e V' w L') := by
  obtain ⟨S, P, A⟩ := V
  obtain ⟨s, p, a⟩ := v
  obtain ⟨L1, L2, L3, rfl, hs, hp, ha⟩ := h
  simp only at hs hp ha
  cases o with
  | alloc x k =>
    simp only [checkOp, Option.some.injEq] at hc
    subst hc
    refine Tr.bindF (L1 + L2 + L3) (by abel) (allocChunk_ok e k) ?_
    intro c Lc hcc
    exact Tr.pure' ⟨Lc + L1, L2, L3, by abel, ⟨rfl, Lc, L1, rfl, hcc, hs⟩, hp, ha⟩
  | free x k =>
    simp only [checkOp] at hc
    cases ht : take x S with
    | none => simp [ht] at hc
    | some r =>
      obtain ⟨k', S'⟩ := r
      rw [ht] at hc
      simp only at hc
      split at hc
      · rename_i hk
        simp only [Option.some.injEq] at hc
        subst hc
        obtain ⟨c, s', M1, M2, e1, rfl, i1, i2⟩ := take_ok hs ht
        simp only [runOp, e1]
        refine Tr.bindF (M2 + L2 + L3) (by abel) (freeChunk_ok i1 hk) ?_
        rintro _ _ rfl
        exact Tr.pure' ⟨M2, L2, L3, by abel, i2, hp, ha⟩
      · cases hc
  | fromScalars fn _ =>
    simp only [checkOp] at hc
    split at hc
    · rename_i hP
      simp only [Option.some.injEq] at hc
      subst hc hP
      cases p with
      | some q => simp [IsProb] at hp
      | none =>
        have : L2 = 0 := hp
        subst this
        have hb := scalars_ok (e := e) fn 1 0 rfl
        show Tr _ (newFields 1 0 >>= fun f => setNameF f >>= _) _
        rw [← bind_assoc']
        refine Tr.bindF (L1 + L3) (by abel) hb ?_
        rintro f Lf ⟨-, -, -, hf⟩
        exact Tr.pure' ⟨L1, Lf, L3, by abel, hs, hf, ha⟩
    · cases hc
  | setFree fn =>
    cases P with
    | none => simp [checkOp] at hc
    | whole => simp [checkOp] at hc
    | base fn0 d vd n hs' =>
      simp only [checkOp, Option.some.injEq] at hc
      subst hc
      rcases p with _ | ⟨f, b, ss⟩ | _ | _
      all_goals try (simp [IsProb] at hp; done)
      obtain ⟨h1, h2, hw, ho, hn, hss, K1, K2, K3, rfl, i1, i2, i3⟩ := hp
      exact Tr.pure' ⟨L1, _, L3, rfl, hs,
        ⟨h1, rfl, hw, ho, hn, hss, K1, K2, K3, rfl, i1, i2, i3⟩, ha⟩
  | newData =>
    cases P with
    | none => simp [checkOp] at hc
    | whole => simp [checkOp] at hc
    | base fn0 d vd n hs' =>
      cases d with
      | some S0 => simp [checkOp] at hc
      | none =>
        simp only [checkOp, Option.some.injEq] at hc
        subst hc
        rcases p with _ | ⟨f, b, ss⟩ | _ | _
        all_goals try (simp [IsProb] at hp; done)
        obtain ⟨h1, h2, hw, ho, hn, hss, K1, K2, K3, rfl, i1, i2, i3⟩ := hp
        obtain ⟨e', fn', bd, bv⟩ := b
        cases bd with
        | some r => simp [IsStruct] at i1
        | none =>
          have : K1 = 0 := i1
          subst this
          refine Tr.allocB fun d => ?_
          exact Tr.pure' ⟨L1, _, L3, by abel, hs,
            ⟨h1, h2, hw, ho, hn, hss, {d} + 0, K2, K3, rfl, ⟨0, rfl, rfl⟩, i2, i3⟩, ha⟩
  | dataField x k =>
    cases P with
    | none => simp [checkOp] at hc
    | whole => simp [checkOp] at hc
    | base fn0 d vd n hs' =>
      cases d with
      | none => simp [checkOp] at hc
      | some S0 =>
        simp only [checkOp, Option.some.injEq] at hc
        subst hc
        rcases p with _ | ⟨f, b, ss⟩ | _ | _
        all_goals try (simp [IsProb] at hp; done)
        obtain ⟨h1, h2, hw, ho, hn, hss, K1, K2, K3, rfl, i1, i2, i3⟩ := hp
        obtain ⟨e', fn', bd, bv⟩ := b
        cases bd with
        | none => simp [IsStruct] at i1
        | some r =>
          obtain ⟨d, s0⟩ := r
          obtain ⟨K, rfl, is⟩ := i1
          refine Tr.bindF _ (zero_add _).symm (allocChunk_ok e k) ?_
          intro c Lc hcc
          exact Tr.pure' ⟨L1, f.blocks + ({d} + (Lc + K)) + K2 + K3, L3, by abel, hs,
            ⟨h1, h2, hw, ho, hn, hss, {d} + (Lc + K), K2, K3, rfl,
              ⟨Lc + K, rfl, rfl, Lc, K, rfl, hcc, is⟩, i2, i3⟩, ha⟩
  | newVd =>
    cases P with
    | none => simp [checkOp] at hc
    | whole => simp [checkOp] at hc
    | base fn0 d vd n hs' =>
      cases vd with
      | some S0 => simp [checkOp] at hc
      | none =>
        simp only [checkOp, Option.some.injEq] at hc
        subst hc
        rcases p with _ | ⟨f, b, ss⟩ | _ | _
        all_goals try (simp [IsProb] at hp; done)
        obtain ⟨h1, h2, hw, ho, hn, hss, K1, K2, K3, rfl, i1, i2, i3⟩ := hp
        obtain ⟨e', fn', bd, bv⟩ := b
        cases bv with
        | some r => simp [IsStruct] at i2
        | none =>
          have : K2 = 0 := i2
          subst this
          refine Tr.allocB fun d => ?_
          exact Tr.pure' ⟨L1, f.blocks + K1 + ({d} + 0) + K3, L3, by abel, hs,
            ⟨h1, h2, hw, ho, hn, hss, K1, {d} + 0, K3, rfl, i1, ⟨0, rfl, rfl⟩, i3⟩, ha⟩
  | vdField x k =>
    cases P with
    | none => simp [checkOp] at hc
    | whole => simp [checkOp] at hc
    | base fn0 d vd n hs' =>
      cases vd with
      | none => simp [checkOp] at hc
      | some S0 =>
        simp only [checkOp, Option.some.injEq] at hc
        subst hc
        rcases p with _ | ⟨f, b, ss⟩ | _ | _
        all_goals try (simp [IsProb] at hp; done)
        obtain ⟨h1, h2, hw, ho, hn, hss, K1, K2, K3, rfl, i1, i2, i3⟩ := hp
        obtain ⟨e', fn', bd, bv⟩ := b
        cases bv with
        | none => simp [IsStruct] at i2
        | some r =>
          obtain ⟨d, s0⟩ := r
          obtain ⟨K, rfl, is⟩ := i2
          refine Tr.bindF _ (zero_add _).symm (allocChunk_ok e k) ?_
          intro c Lc hcc
          exact Tr.pure' ⟨L1, f.blocks + K1 + ({d} + (Lc + K)) + K3, L3, by abel, hs,
            ⟨h1, h2, hw, ho, hn, hss, K1, {d} + (Lc + K), K3, rfl, i1,
              ⟨Lc + K, rfl, rfl, Lc, K, rfl, hcc, is⟩, i3⟩, ha⟩
  | wrap t args =>
    simp only [checkOp] at hc
    split at hc
    · rename_i hP
      rw [Bool.and_eq_true] at hP
      simp only [Option.some.injEq] at hc
      subst hc
      obtain ⟨q, rfl, hq⟩ := hp.whole hP.1
      simp only [runOp, hasAll_ok hs hP.2, if_true]
      refine Tr.bindF (L1 + L3) (by abel) (wrap_whole e t hq) ?_
      intro r Lr hr
      exact Tr.pure' ⟨L1, Lr, L3, by abel, hs, hr, ha⟩
    · cases hc
  | wrapLarge t args =>
    simp only [checkOp] at hc
    split at hc
    · rename_i hP
      rw [Bool.and_eq_true] at hP
      simp only [Option.some.injEq] at hc
      subst hc
      obtain ⟨q, rfl, hq⟩ := hp.whole hP.1
      simp only [runOp, hasAll_ok hs hP.2, if_true]
      split
      · refine Tr.bindF (L1 + L3) (by abel) (wrap_whole e t hq) ?_
        intro r Lr hr
        exact Tr.pure' ⟨L1, Lr, L3, by abel, hs, hr, ha⟩
      · exact Tr.pure' ⟨L1, L2, L3, rfl, hs, hq, ha⟩
    · cases hc
  | setId _ =>
    simp only [checkOp] at hc
    split at hc
    · cases hc
    · rename_i hP
      simp only [Option.some.injEq] at hc
      subst hc
      cases p with
      | none => cases P <;> simp [IsProb] at hp hP
      | some q =>
        refine Tr.bindF (L1 + L3) (by abel) (onFields_isProb setIdF_ok hp) ?_
        intro r Lr hr
        exact Tr.pure' ⟨L1, Lr, L3, by abel, hs, hr, ha⟩
  | setName =>
    simp only [checkOp] at hc
    split at hc
    · cases hc
    · rename_i hP
      simp only [Option.some.injEq] at hc
      subst hc
      cases p with
      | none => cases P <;> simp [IsProb] at hp hP
      | some q =>
        refine Tr.bindF (L1 + L3) (by abel) (onFields_isProb setNameF_ok hp) ?_
        intro r Lr hr
        exact Tr.pure' ⟨L1, Lr, L3, by abel, hs, hr, ha⟩
  | setType _ =>
    simp only [checkOp] at hc
    split at hc
    · cases hc
    · rename_i hP
      simp only [Option.some.injEq] at hc
      subst hc
      cases p with
      | none => cases P <;> simp [IsProb] at hp hP
      | some q =>
        refine Tr.bindF (L1 + L3) (by abel) (onFields_isProb setTypeF_ok hp) ?_
        intro r Lr hr
        exact Tr.pure' ⟨L1, Lr, L3, by abel, hs, hr, ha⟩
  | auxNew _ =>
    simp only [checkOp] at hc
    split at hc
    · cases hc
    · rename_i hA
      rw [Bool.not_eq_true] at hA
      subst hA
      simp only [Option.some.injEq] at hc
      subst hc
      cases a with
      | some q => simp [IsAux] at ha
      | none =>
        have : L3 = 0 := ha
        subst this
        have hb := scalars_ok (e := e) .generic 1 0 rfl
        show Tr _ (newFields 1 0 >>= fun f => setNameF f >>= _) _
        rw [← bind_assoc']
        refine Tr.bindF (L1 + L2) (by abel) hb ?_
        rintro f Lf ⟨-, -, -, hf⟩
        obtain ⟨q, hq, hw⟩ := hf.whole rfl
        simp only [Option.some.injEq] at hq
        subst hq
        exact Tr.pure' ⟨L1, L2, Lf, by abel, hs, hp, hw⟩
  | auxWrap t args =>
    simp only [checkOp] at hc
    split at hc
    · rename_i hP
      rw [Bool.and_eq_true] at hP
      obtain ⟨hA, hall⟩ := hP
      simp only [Option.some.injEq] at hc
      subst hc hA
      cases a with
      | none => simp [IsAux] at ha
      | some q =>
        simp only [runOp, hasAll_ok hs hall, if_true]
        refine Tr.bindF (L1 + L2) (by abel) (wrap_whole e t ha) ?_
        intro r Lr hr
        exact Tr.pure' ⟨L1, L2, Lr, by abel, hs, hp, hr⟩
    · cases hc
  | auxFree =>
    simp only [checkOp] at hc
    split at hc
    · rename_i hA
      simp only [Option.some.injEq] at hc
      subst hc hA
      cases a with
      | none => simp [IsAux] at ha
      | some q =>
        have ha' : Whole q L3 := ha
        refine Tr.bindF (L1 + L2) (by abel) ha'.1.frees ?_
        rintro _ _ rfl
        exact Tr.pure' ⟨L1, L2, 0, by abel, hs, hp, rfl⟩
    · cases hc

theorem runOps_ok {e : Env} : ∀ {os : List Op} {V V' : SFrame} {v : Frame} {L : Multiset Blk},
    IsFrame e V v L → checkOps os V = some V' →
    Tr L (runOps e os v) (fun w L' => IsFrame e V' w L')
  | [], V, V', v, L, h, hc => by
    simp only [checkOps, Option.some.injEq] at hc
    subst hc
    exact Tr.pure' h
  | o :: os, V, V', v, L, h, hc => by
    unfold checkOps at hc
    cases ho : checkOp V o with
    | none => simp [ho] at hc
    | some W =>
      rw [ho] at hc
      refine Tr.bind' (runOp_ok h ho) ?_
      intro w L' hw
      exact runOps_ok hw hc

theorem init_ok (e : Env) : IsFrame e ⟨[], .none, false⟩ Frame.init 0 :=
  ⟨0, 0, 0, rfl, rfl, rfl, rfl⟩

theorem IsFrame.result {e : Env} {P : SProb} {w : Frame} {L : Multiset Blk}
    (h : IsFrame e ⟨[], P, false⟩ w L) (hc : P.complete = true) :
    Tr L (result w) Whole := by
  obtain ⟨s, p, a⟩ := w
  obtain ⟨L1, L2, L3, rfl, hs, hp, ha⟩ := h
  simp only at hs hp ha
  cases s with
  | cons _ _ => simp [IsStore] at hs
  | nil =>
    cases a with
    | some _ => simp [IsAux] at ha
    | none =>
      have e1 : L1 = 0 := hs
      have e3 : L3 = 0 := ha
      subst e1 e3
      rw [zero_add, add_zero]
      obtain ⟨q, rfl, hq⟩ := hp.whole hc
      exact Tr.pure' hq

theorem newSubs_ok {e : Env} {body : List Op} {P : SProb}
    (hb : checkOps body ⟨[], .none, false⟩ = some ⟨[], P, false⟩) (hc : P.complete = true) :
    ∀ n, Tr 0 (newSubs e body n) (fun ps L => ps.length = n ∧ Subs ps L)
  | 0 => Tr.pure' ⟨rfl, rfl⟩
  | n + 1 => by
    unfold newSubs
    refine Tr.bind' (runOps_ok (init_ok e) hb) ?_
    intro w Lw hw
    refine Tr.bind' (hw.result hc) ?_
    intro p Lp hp
    refine Tr.bindF Lp (by abel) (newSubs_ok hb hc n) ?_
    rintro ps Ls ⟨hl, hps⟩
    exact Tr.pure' ⟨by simp [hl], Lp, Ls, by abel, hp, hps⟩

/-- The variables of the constructor without the problem. -/
def IsRest (e : Env) (S : SStore) (A : Bool) (v : Frame) (L : Multiset Blk) : Prop :=
  ∃ L1 L3, L = L1 + L3 ∧ IsStore e S v.store L1 ∧ IsAux A v.aux L3

theorem onProb_ok {e : Env} {body : List Op} {S : SStore} {A : Bool} {W : SFrame}
    (hb : checkOps body ⟨S, .whole, A⟩ = some W) (hc : W.prob.complete = true) {v : Frame}
    {p : Prob} {L Lp : Multiset Blk} (hv : IsRest e S A v L) (hp : Whole p Lp) :
    Tr (L + Lp) (onProb e body v p) (fun r L' => ∃ L1 L2, L' = L1 + L2 ∧
      IsRest e W.store W.aux r.1 L1 ∧ Whole r.2 L2 ∧ r.1.prob = v.prob) := by
  obtain ⟨L1, L3, rfl, h1, h3⟩ := hv
  unfold onProb
  have hf : IsFrame e ⟨S, .whole, A⟩ { v with prob := some p } (L1 + L3 + Lp) :=
    ⟨L1, Lp, L3, by abel, h1, hp, h3⟩
  refine Tr.bind' (runOps_ok hf hb) ?_
  rintro w Lw ⟨K1, K2, K3, rfl, k1, k2, k3⟩
  obtain ⟨q, hq, hw⟩ := k2.whole hc
  unfold Memory.result
  rw [hq]
  show Tr _ (pure q >>= _) _
  refine Tr.pureB ?_
  exact Tr.pure' ⟨K1 + K3, K2, by abel, ⟨K1, K3, rfl, k1, k3⟩, hw, rfl⟩

theorem onEach_ok {e : Env} {body : List Op} {S : SStore} {A : Bool} {P : SProb}
    (hb : checkOps body ⟨S, .whole, A⟩ = some ⟨S, P, A⟩) (hc : P.complete = true) :
    ∀ {ps : List Prob} {v : Frame} {L Lp : Multiset Blk}, IsRest e S A v L → Subs ps Lp →
    Tr (L + Lp) (onEach e body v ps) (fun r L' => ∃ L1 L2, L' = L1 + L2 ∧
      IsRest e S A r.1 L1 ∧ Subs r.2 L2 ∧ r.2.length = ps.length ∧ r.1.prob = v.prob)
  | [], v, L, Lp, hv, hp => by
    have : Lp = 0 := hp
    subst this
    exact Tr.pure' ⟨L, 0, rfl, hv, rfl, rfl, rfl⟩
  | p :: ps, v, L, Lp, hv, hp => by
    obtain ⟨L1, L2, rfl, h1, h2⟩ := hp
    unfold onEach
    refine Tr.bindF L2 (by abel) (onProb_ok hb hc hv h1) ?_
    rintro ⟨w, q⟩ _ ⟨K1, K2, rfl, k1, k2, k3⟩
    refine Tr.bindF K2 (by abel) (onEach_ok hb hc k1 h2) ?_
    rintro ⟨w', qs⟩ _ ⟨J1, J2, rfl, j1, j2, j3, j4⟩
    refine Tr.pure' ⟨J1, K2 + J2, by abel, j1, ⟨K2, J2, rfl, k2, j2⟩, ?_, j4.trans k3⟩
    simpa using j3

theorem runStmt_ok {e : Env} {V V' : SFrame} {v : Frame} {L : Multiset Blk} {s : Stmt}
    (h : IsFrame e V v L) (hc : checkStmt V s = some V') :
    Tr L (runStmt e v s) (fun w L' => IsFrame e V' w L') := by
  cases s with
  | op o => exact runOp_ok h hc
  | newSubs n body =>
    obtain ⟨S, P, A⟩ := V
    obtain ⟨st, p, a⟩ := v
    obtain ⟨L1, L2, L3, rfl, hs, hp, ha⟩ := h
    simp only at hs hp ha
    simp only [checkStmt] at hc
    split at hc
    · rename_i fn d vd k hs'
      split at hc
      · rename_i P' hbody
        split at hc
        · rename_i hcomp
          simp only [Option.some.injEq] at hc
          subst hc
          rcases p with _ | ⟨f, b, ss⟩ | _ | _
          all_goals try (simp [IsProb] at hp; done)
          obtain ⟨h1, h2, hw, ho, hn, hss, K1, K2, K3, rfl, i1, i2, i3⟩ := hp
          refine Tr.bindF _ (zero_add _).symm (newSubs_ok (e := e) hbody hcomp (e.size n)) ?_
          rintro ps Lps ⟨hl, hps⟩
          refine Tr.pure' ⟨L1, f.blocks + K1 + K2 + (K3 + Lps), L3, by abel, hs, ?_, ha⟩
          refine ⟨h1, h2, hw, ho, ?_, fun _ => rfl, K1, K2, K3 + Lps, rfl, i1, i2, i3.append hps⟩
          rw [List.length_append, hl]
          split
          · rename_i hone
            subst hone
            show k + 1 ≤ ss.length + 1
            omega
          · omega
        · cases hc
      · cases hc
    · cases hc
  | onSub i body =>
    obtain ⟨S, P, A⟩ := V
    obtain ⟨st, p, a⟩ := v
    obtain ⟨L1, L2, L3, rfl, hs, hp, ha⟩ := h
    simp only at hs hp ha
    simp only [checkStmt] at hc
    split at hc
    · rename_i fn d vd k hs'
      split at hc
      · rename_i hik
        split at hc
        · rename_i W hbody
          split at hc
          · rename_i hcomp
            simp only [Option.some.injEq] at hc
            subst hc
            rcases p with _ | ⟨f, b, ss⟩ | _ | _
            all_goals try (simp [IsProb] at hp; done)
            obtain ⟨h1, h2, hw, ho, hn, hss, K1, K2, K3, rfl, i1, i2, i3⟩ := hp
            obtain ⟨q, M1, M2, eq, rfl, hwq, hset⟩ := i3.get (i := i) (by omega)
            simp only [runStmt, eq]
            refine Tr.bindF (f.blocks + K1 + K2 + M2) (P := L1 + L3 + M1) (by abel)
              (onProb_ok hbody hcomp ⟨L1, L3, rfl, hs, ha⟩ hwq) ?_
            rintro ⟨w, q'⟩ _ ⟨J1, J2, rfl, ⟨J3, J4, rfl, j3, j4⟩, j2, -⟩
            refine Tr.pure' ⟨J3, f.blocks + K1 + K2 + (J2 + M2), J4, by abel, j3, ?_, j4⟩
            refine ⟨h1, h2, hw, ho, ?_, ?_, K1, K2, J2 + M2, rfl, i1, i2, hset q' J2 j2⟩
            · rw [List.length_set]; exact hn
            · intro hne
              apply hss
              intro h0
              subst h0
              exact hne rfl
          · cases hc
        · cases hc
      · cases hc
    · cases hc
  | forSubs body =>
    obtain ⟨S, P, A⟩ := V
    obtain ⟨st, p, a⟩ := v
    obtain ⟨L1, L2, L3, rfl, hs, hp, ha⟩ := h
    simp only at hs hp ha
    simp only [checkStmt] at hc
    split at hc
    · rename_i fn d vd k hs'
      split at hc
      · rename_i W hbody
        split at hc
        · rename_i hcomp
          simp only [Bool.and_eq_true, decide_eq_true_eq] at hcomp
          obtain ⟨⟨c1, c2⟩, c3⟩ := hcomp
          simp only [Option.some.injEq] at hc
          subst hc
          obtain ⟨WS, WP, WA⟩ := W
          simp only at c1 c2 c3
          subst c2 c3
          rcases p with _ | ⟨f, b, ss⟩ | _ | _
          all_goals try (simp [IsProb] at hp; done)
          obtain ⟨h1, h2, hw, ho, hn, hss, K1, K2, K3, rfl, i1, i2, i3⟩ := hp
          refine Tr.bindF (f.blocks + K1 + K2) (P := L1 + L3 + K3) (by abel)
            (onEach_ok hbody c1 ⟨L1, L3, rfl, hs, ha⟩ i3) ?_
          rintro ⟨w, qs⟩ _ ⟨J1, J2, rfl, ⟨J3, J4, rfl, j3, j4⟩, j2, j5, -⟩
          refine Tr.pure' ⟨J3, f.blocks + K1 + K2 + J2, J4, by abel, j3, ?_, j4⟩
          refine ⟨h1, h2, hw, ho, ?_, ?_, K1, K2, J2, rfl, i1, i2, j2⟩
          · simp only at j5
            rw [j5]; exact hn
          · intro hne
            apply hss
            intro h0
            subst h0
            simp only [List.length_nil, List.length_eq_zero_iff] at j5
            exact hne j5
        · cases hc
      · cases hc
    · cases hc

theorem runStmts_ok {e : Env} : ∀ {ss : List Stmt} {V V' : SFrame} {v : Frame} {L : Multiset Blk},
    IsFrame e V v L → checkStmts ss V = some V' →
    Tr L (runStmts e ss v) (fun w L' => IsFrame e V' w L')
  | [], V, V', v, L, h, hc => by
    simp only [checkStmts, Option.some.injEq] at hc
    subst hc
    exact Tr.pure' h
  | o :: os, V, V', v, L, h, hc => by
    unfold checkStmts at hc
    cases ho : checkStmt V o with
    | none => simp [ho] at hc
    | some W =>
      rw [ho] at hc
      refine Tr.bind' (runStmt_ok h ho) ?_
      intro w L' hw
      exact runStmts_ok hw hc

/-- A constructor that passes the check returns a problem that owns everything allocated by it. -/
theorem call_ok (e : Env) {ss : List Stmt} (h : sound ss = true) : Tr 0 (call e ss) Whole := by
  unfold sound at h
  split at h
  · rename_i P hP
    refine Tr.bind' (runStmts_ok (init_ok e) hP) ?_
    intro w L hw
    exact hw.result h
  · cases h

end Memory
