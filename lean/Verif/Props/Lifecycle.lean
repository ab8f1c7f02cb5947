import Verif.Model.Lifecycle
import Mathlib.Data.List.Nodup
import Mathlib.Data.List.Perm.Subperm
import Mathlib.Tactic.Common

/-!
# Lifetimes of suites, observers and problems: C96
-/

namespace Lifecycle

namespace Spec

/-- A problem that the program uses: the pointer, its suite, and the observers on it, the last one first. -/
structure Handle where
  id : Nat
  suite : Nat
  observers : List Nat

/-- What a program that uses the library knows: the problems that it has to free, the problems that it got from the iteration of each suite
(which the suite frees), and the observers and suites that it has not freed. -/
structure View where
  held : List Handle
  lent : Nat → Option Handle
  observers : List Nat
  suites : List Nat

/-- At the start. -/
def View.init : View := ⟨[], fun _ => none, [], []⟩

/-- Problems can be evaluated while their suite and the observers on them have not been freed. -/
def View.Usable (v : View) (p : Nat) : Prop :=
  ∃ d, (d ∈ v.held ∨ ∃ s, v.lent s = some d) ∧ d.id = p ∧ d.suite ∈ v.suites ∧ ∀ o ∈ d.observers, o ∈ v.observers

/-- The observer is on a problem that has not been freed. -/
def View.Busy (v : View) (o : Nat) : Prop := ∃ d, (d ∈ v.held ∨ ∃ s, v.lent s = some d) ∧ o ∈ d.observers

/-- The calls that the program may make. Problems, observers and suites can be freed in any order. -/
def View.Allowed (v : View) : Op → Prop
  | .newObserver _ _ => True
  | .newSuite => True
  | .getProblem s _ => s ∈ v.suites
  | .nextProblem s _ o => s ∈ v.suites ∧ ∀ o', o = some o' → o' ∈ v.observers
  | .addObserver p o => (∃ d ∈ v.held, d.id = p ∧ d.suite ∈ v.suites) ∧ o ∈ v.observers
  | .removeObserver p o => (∃ d ∈ v.held, d.id = p) ∧ o ∈ v.observers
  | .evaluate p => v.Usable p
  | .recommend p => v.Usable p
  | .freeProblem p => ∃ d ∈ v.held, d.id = p
  | .freeObserver o => o ∈ v.observers
  | .freeSuite s => s ∈ v.suites

/-- What the program knows after a call, given the returned pointer. -/
def View.after (v : View) : Op → Option Nat → View
  | .newObserver _ _, some o => { v with observers := o :: v.observers }
  | .newSuite, some s => { v with suites := s :: v.suites }
  | .getProblem s _, some p => { v with held := ⟨p, s, []⟩ :: v.held }
  | .nextProblem s _ o, some p => { v with lent := Function.update v.lent s (some ⟨p, s, o.toList⟩) }
  | .addObserver p o, some q =>
    { v with held := v.held.map fun d => if d.id = p then ⟨q, d.suite, o :: d.observers⟩ else d }
  | .removeObserver p _, some q =>
    { v with held := v.held.map fun d => if d.id = p then ⟨q, d.suite, d.observers.tail⟩ else d }
  | .freeProblem p, _ => { v with held := v.held.filter fun d => d.id ≠ p }
  | .freeObserver o, _ => { v with observers := v.observers.filter fun o' => o' ≠ o }
  | .freeSuite s, _ => { v with suites := v.suites.filter fun s' => s' ≠ s, lent := Function.update v.lent s none }
  | _, _ => v

/-- The states that programs can reach with allowed calls. -/
inductive Reach : Heap → View → Prop
  | init : Reach Heap.init View.init
  | step {h h' : Heap} {v : View} {op : Op} {out : Option Nat} : Reach h v → v.Allowed op → Lifecycle.step h op = .ok (h', out) →
      Reach h' (v.after op out)

end Spec

open Spec

/-! ### Trees of objects -/

/-- Observers that are there have been there, with the same kind and name. -/
def Kinds (h h' : Heap) : Prop :=
  ∀ o, o < h.no → ∀ ob', h'.obs o = some ob' → ∃ ob, h.obs o = some ob ∧ ob'.kind = ob.kind ∧ ob'.name = ob.name

theorem Kinds.gone {h h' : Heap} (K : Kinds h h') (o : Nat) (ho : o < h.no) (e : h.obs o = none) : h'.obs o = none := by
  cases e' : h'.obs o with
  | none => rfl
  | some ob' =>
    obtain ⟨ob, h1, -⟩ := K o ho ob' e'
    rw [e] at h1
    cases h1

theorem Kinds.of_eq {h h' : Heap} (e : h'.obs = h.obs) : Kinds h h' := fun o _ ob' h1 => ⟨ob', by rw [← e, h1], rfl, rfl⟩

/-- The problem `p` is put together without loggers from the objects `l`. -/
inductive Plain (h : Heap) : Nat → List Nat → Prop
  | base {p su} : h.prob p = some ⟨.base, su⟩ → Plain h p [p]
  | wrap {p q su l} : h.prob p = some ⟨.wrap q, su⟩ → Plain h q l → p ∉ l → Plain h p (p :: l)
  | stacked {p q1 q2 su l1 l2} : h.prob p = some ⟨.stacked q1 q2, su⟩ → Plain h q1 l1 → Plain h q2 l2 → p ∉ l1 → p ∉ l2 →
      (∀ x ∈ l1, x ∉ l2) → Plain h p (p :: (l1 ++ l2))

/-- The problem `p` of the suite `s` has the observers `os` on it and consists of the objects `l`. -/
inductive Own (h : Heap) : Nat → Nat → List Nat → List Nat → Prop
  | plain {p s l n} : h.prob p = some ⟨n, some s⟩ → Plain h p l → Own h p s [] l
  | logger {p s os l k name ptr init q o} : h.prob p = some ⟨.logger k name ptr init q, some s⟩ → Own h q s os l → p ∉ l →
      o < h.no → (k = .toy → ptr = some o) → (k.linked = true → ptr = some o ∨ (ptr = none ∧ h.obs o = none)) →
      (∀ ob, h.obs o = some ob → ob.kind = k ∧ ob.name = name) →
      Own h p s (o :: os) (p :: l)

theorem Plain.nodup {h : Heap} {p : Nat} {l : List Nat} (t : Plain h p l) : l.Nodup := by
  induction t with
  | base _ => simp
  | wrap _ _ hp ih => exact List.nodup_cons.2 ⟨hp, ih⟩
  | stacked _ _ _ h1 h2 h3 ih1 ih2 =>
    refine List.nodup_cons.2 ⟨by simp [h1, h2], List.nodup_append.2 ⟨ih1, ih2, fun a ha b hb hab => ?_⟩⟩
    exact h3 a ha (hab ▸ hb)

theorem Own.nodup {h : Heap} {p s : Nat} {os l : List Nat} (t : Own h p s os l) : l.Nodup := by
  induction t with
  | plain _ t => exact t.nodup
  | logger _ _ hp _ _ _ _ ih => exact List.nodup_cons.2 ⟨hp, ih⟩

theorem Plain.mem {h : Heap} {p : Nat} {l : List Nat} (t : Plain h p l) : p ∈ l := by
  cases t <;> simp

theorem Own.mem {h : Heap} {p s : Nat} {os l : List Nat} (t : Own h p s os l) : p ∈ l := by
  cases t with
  | plain _ t => exact t.mem
  | logger => simp

theorem Plain.alive {h : Heap} {p : Nat} {l : List Nat} (t : Plain h p l) : ∀ x ∈ l, h.prob x ≠ none := by
  induction t with
  | base e => simp [e]
  | wrap e _ _ ih =>
    intro x hx
    rcases List.mem_cons.1 hx with rfl | hx
    · simp [e]
    · exact ih x hx
  | stacked e _ _ _ _ _ ih1 ih2 =>
    intro x hx
    rcases List.mem_cons.1 hx with rfl | hx
    · simp [e]
    · rcases List.mem_append.1 hx with hx | hx
      · exact ih1 x hx
      · exact ih2 x hx

theorem Own.alive {h : Heap} {p s : Nat} {os l : List Nat} (t : Own h p s os l) : ∀ x ∈ l, h.prob x ≠ none := by
  induction t with
  | plain _ t => exact t.alive
  | logger e _ _ _ _ _ _ ih =>
    intro x hx
    rcases List.mem_cons.1 hx with rfl | hx
    · simp [e]
    · exact ih x hx

theorem Plain.congr {h h' : Heap} {p : Nat} {l : List Nat} (t : Plain h p l) (e : ∀ x ∈ l, h'.prob x = h.prob x) :
    Plain h' p l := by
  induction t with
  | base hp => exact .base (by rw [e _ (by simp), hp])
  | wrap hp _ hn ih => exact .wrap (by rw [e _ (by simp), hp]) (ih fun x hx => e x (by simp [hx])) hn
  | stacked hp _ _ h1 h2 h3 ih1 ih2 =>
    exact .stacked (by rw [e _ (by simp), hp]) (ih1 fun x hx => e x (by simp [hx])) (ih2 fun x hx => e x (by simp [hx])) h1 h2 h3

theorem Own.congr {h h' : Heap} {p s : Nat} {os l : List Nat} (t : Own h p s os l) (e : ∀ x ∈ l, h'.prob x = h.prob x)
    (hno : h.no ≤ h'.no) (ho : Kinds h h') : Own h' p s os l := by
  induction t with
  | plain hp t => exact .plain (by rw [e _ t.mem, hp]) (t.congr e)
  | logger hp _ hn hlt htoy hlink hkind ih =>
    refine .logger (by rw [e _ (by simp), hp]) (ih fun x hx => e x (by simp [hx])) hn (by omega) htoy (fun hk => ?_) fun ob' h1 => ?_
    · rcases hlink hk with h1 | ⟨h1, h2⟩
      · exact .inl h1
      · exact .inr ⟨h1, ho.gone _ hlt h2⟩
    · obtain ⟨ob, h2, h3, h4⟩ := ho _ hlt ob' h1
      rw [h3, h4]
      exact hkind ob h2

theorem Plain.unique {h : Heap} {p : Nat} {l l' : List Nat} (t : Plain h p l) (t' : Plain h p l') : l = l' := by
  induction t generalizing l' with
  | base e => cases t' <;> simp_all
  | wrap e _ _ ih =>
    cases t' with
    | base e' => simp_all
    | wrap e' t' _ =>
      rw [e] at e'
      cases e'
      rw [ih t']
    | stacked e' => simp_all
  | stacked e _ _ _ _ _ ih1 ih2 =>
    cases t' with
    | base e' => simp_all
    | wrap e' t' _ => simp_all
    | stacked e' t1 t2 =>
      rw [e] at e'
      cases e'
      rw [ih1 t1, ih2 t2]

theorem Own.unique {h : Heap} {p s : Nat} {os l l' : List Nat} (t : Own h p s os l) (t' : Own h p s os l') : l = l' := by
  induction t generalizing l' with
  | plain e t => cases t' with | plain _ t' => exact t.unique t'
  | logger e _ _ _ _ _ _ ih =>
    cases t' with
    | logger e' t' =>
      rw [e] at e'
      simp only [Option.some.injEq, ProbObj.mk.injEq, Node.logger.injEq] at e'
      obtain ⟨⟨-, -, -, -, rfl⟩, -⟩ := e'
      rw [ih t']

theorem length_le {h : Heap} {l : List Nat} (hn : l.Nodup) (ha : ∀ x ∈ l, h.prob x ≠ none) (hlt : ∀ x, h.prob x ≠ none → x < h.np) :
    l.length ≤ h.np := by
  have : l.Subperm (List.range h.np) := hn.subperm fun x hx => List.mem_range.2 (hlt x (ha x hx))
  simpa using this.length_le

/-! ### Freeing -/

/-- The pointers between observers and loggers. -/
structure Link (h : Heap) : Prop where
  fwd : ∀ p k name o init q su, k.linked = true → h.prob p = some ⟨.logger k name (some o) init q, su⟩ →
    ∃ ob, h.obs o = some ob ∧ ob.observed = some p
  bwd : ∀ o ob p, h.obs o = some ob → ob.observed = some p → ∃ k name init q su, k.linked = true ∧
    h.prob p = some ⟨.logger k name (some o) init q, su⟩

/-- The observer after the objects `l` have been freed. -/
def unlink (l : List Nat) (ob : ObsObj) : ObsObj :=
  match ob.observed with
  | some p => if p ∈ l then { ob with observed := none } else ob
  | none => ob

/-- The heap after the objects `l` have been freed. -/
def erase (h : Heap) (l : List Nat) : Heap :=
  { h with prob := fun p => if p ∈ l then none else h.prob p, obs := fun o => (h.obs o).map (unlink l) }

theorem unlink_kind (l : List Nat) (ob : ObsObj) : (unlink l ob).kind = ob.kind ∧ (unlink l ob).name = ob.name := by
  unfold unlink
  split
  · split <;> exact ⟨rfl, rfl⟩
  · exact ⟨rfl, rfl⟩

theorem Kinds.erase (h : Heap) (l : List Nat) : Kinds h (erase h l) := by
  intro o _ ob' h1
  obtain ⟨ob, h2, rfl⟩ := Option.map_eq_some_iff.1 h1
  exact ⟨ob, h2, unlink_kind l ob⟩

theorem Heap.ext' {h h' : Heap} (h1 : ∀ p, h.prob p = h'.prob p) (h2 : ∀ o, h.obs o = h'.obs o) (h3 : h.suite = h'.suite)
    (h4 : h.np = h'.np) (h5 : h.no = h'.no) (h6 : h.ns = h'.ns) : h = h' := by
  cases h; cases h'
  simp only [Heap.mk.injEq]
  exact ⟨funext h1, funext h2, h3, h4, h5, h6⟩

theorem unlink_append (l1 l2 : List Nat) (ob : ObsObj) : unlink l2 (unlink l1 ob) = unlink (l1 ++ l2) ob := by
  unfold unlink
  cases e : ob.observed with
  | none => simp [e]
  | some p =>
    by_cases h1 : p ∈ l1
    · simp [h1]
    · by_cases h2 : p ∈ l2 <;> simp [h1, h2, e]

theorem erase_append (h : Heap) (l1 l2 : List Nat) : erase (erase h l1) l2 = erase h (l1 ++ l2) := by
  apply Heap.ext'
  · intro p
    simp only [erase, List.mem_append]
    by_cases h1 : p ∈ l1 <;> by_cases h2 : p ∈ l2 <;> simp [h1, h2]
  · intro o
    simp only [erase, Option.map_map]
    congr 1
    funext ob
    exact unlink_append l1 l2 ob
  all_goals rfl

theorem erase_mem (h : Heap) (l1 l2 : List Nat) (e : ∀ x, x ∈ l1 ↔ x ∈ l2) : erase h l1 = erase h l2 := by
  apply Heap.ext'
  · intro p; simp [erase, e]
  · intro o
    simp only [erase]
    congr 1
    funext ob
    unfold unlink
    cases ob.observed <;> simp [e]
  all_goals rfl

theorem Link.erase {h : Heap} (L : Link h) (l : List Nat) : Link (erase h l) := by
  constructor
  · intro p k name o init q su hk hp
    simp only [Lifecycle.erase] at hp
    split at hp
    · simp at hp
    · rename_i hpl
      obtain ⟨ob, h1, h2⟩ := L.fwd _ _ _ _ _ _ _ hk hp
      exact ⟨unlink l ob, by simp [Lifecycle.erase, h1], by simp [unlink, h2, hpl]⟩
  · intro o ob p ho hob
    simp only [Lifecycle.erase, Option.map_eq_some_iff] at ho
    obtain ⟨ob', h1, rfl⟩ := ho
    have hpl : p ∉ l ∧ ob'.observed = some p := by
      unfold unlink at hob
      split at hob
      · rename_i p' hp'
        split at hob
        · simp at hob
        · rename_i hn
          rw [hp'] at hob
          cases hob
          exact ⟨hn, hp'⟩
      · rename_i hp'
        rw [hp'] at hob
        simp at hob
    obtain ⟨k, name, init, q, su, hk, hp⟩ := L.bwd _ _ _ h1 hpl.2
    exact ⟨k, name, init, q, su, hk, by simp [Lifecycle.erase, hpl.1, hp]⟩

/-- Freeing an object that no observer points to. -/
theorem erase_single {h : Heap} {p : Nat} (hn : ∀ o ob, h.obs o = some ob → ob.observed ≠ some p) :
    h.setProb p none = erase h [p] := by
  apply Heap.ext'
  · intro x
    simp only [Heap.setProb, erase, Function.update_apply, List.mem_singleton]
  · intro o
    simp only [Heap.setProb, erase]
    cases e : h.obs o with
    | none => rfl
    | some ob =>
      have := hn o ob e
      simp only [Option.map_some, unlink]
      split
      · rename_i p' hp'
        rw [if_neg]
        rw [List.mem_singleton]
        rintro rfl
        exact this hp'
      · rfl
  all_goals rfl

theorem Link.not_observed {h : Heap} (L : Link h) {p : Nat} {v : ProbObj} (hp : h.prob p = some v)
    (hv : ∀ k name o init q, k.linked = true → v.node ≠ .logger k name (some o) init q) :
    ∀ o ob, h.obs o = some ob → ob.observed ≠ some p := by
  intro o ob ho hob
  obtain ⟨k, name, init, q, su, hk, e⟩ := L.bwd o ob p ho hob
  rw [hp] at e
  cases e
  exact hv _ _ _ _ _ hk rfl

theorem free_plain {h : Heap} {p : Nat} {l : List Nat} (t : Plain h p l) :
    ∀ (h0 : Heap) (fuel : Nat), Link h0 → (∀ x ∈ l, h0.prob x = h.prob x) → fuel > l.length → free fuel h0 p = .ok (erase h0 l) := by
  induction t with
  | @base p su e =>
    intro h0 fuel L heq hf
    obtain ⟨fuel, rfl⟩ : ∃ f, fuel = f + 1 := ⟨fuel - 1, by omega⟩
    have hp : h0.prob p = some ⟨.base, su⟩ := by rw [heq p (by simp), e]
    unfold free
    rw [hp]
    simp only [deref, Res.ok_bind]
    rw [erase_single (L.not_observed hp (by simp))]
  | @wrap p q su l e t hn ih =>
    intro h0 fuel L heq hf
    obtain ⟨fuel, rfl⟩ : ∃ f, fuel = f + 1 := ⟨fuel - 1, by omega⟩
    have hp : h0.prob p = some ⟨.wrap q, su⟩ := by rw [heq p (by simp), e]
    have hp1 : (erase h0 l).prob p = some ⟨.wrap q, su⟩ := by simp [erase, hn, hp]
    unfold free
    rw [hp]
    simp only [deref, Res.ok_bind]
    rw [ih h0 fuel L (fun x hx => heq x (by simp [hx])) (by simp at hf; omega), Res.ok_bind, hp1]
    simp only [Res.ok_bind]
    rw [erase_single ((L.erase l).not_observed hp1 (by simp)), erase_append]
    exact congrArg Res.ok (erase_mem _ _ _ (by intro x; simp [or_comm]))
  | @stacked p q1 q2 su l1 l2 e t1 t2 hn1 hn2 hd ih1 ih2 =>
    intro h0 fuel L heq hf
    obtain ⟨fuel, rfl⟩ : ∃ f, fuel = f + 1 := ⟨fuel - 1, by omega⟩
    have hp : h0.prob p = some ⟨.stacked q1 q2, su⟩ := by rw [heq p (by simp), e]
    have hp1 : (erase h0 (l1 ++ l2)).prob p = some ⟨.stacked q1 q2, su⟩ := by simp [erase, hn1, hn2, hp]
    simp only [List.length_cons, List.length_append] at hf
    unfold free
    rw [hp]
    simp only [deref, Res.ok_bind]
    rw [ih1 h0 fuel L (fun x hx => heq x (by simp [hx])) (by omega), Res.ok_bind,
      ih2 (erase h0 l1) fuel (L.erase l1) (fun x hx => by
        simp only [erase]
        rw [if_neg (fun h => hd x h hx)]
        exact heq x (by simp [hx])) (by omega), Res.ok_bind, erase_append, hp1]
    simp only [Res.ok_bind]
    rw [erase_single ((L.erase _).not_observed hp1 (by simp)), erase_append]
    exact congrArg Res.ok (erase_mem _ _ _ (by intro x; simp; tauto))

/-- Freeing a logger, without its inner problem. -/
theorem freeLogger_ok {h : Heap} (L : Link h) {p : Nat} {k : Kind} {name : String} {ptr : Option Nat} {init : Bool} {q : Nat}
    {su : Option Nat} (hp : h.prob p = some ⟨.logger k name ptr init q, su⟩) :
    freeLogger h p = .ok (erase h [p], some q) := by
  unfold freeLogger freeData
  rw [hp]
  simp only [deref, Res.ok_bind]
  cases hk : k.linked with
  | false =>
    simp only [Bool.false_eq_true, if_false, Res.ok_bind]
    rw [erase_single (L.not_observed hp (by rintro k' _ _ _ _ hk' e; cases e; rw [hk] at hk'; simp at hk'))]
  | true =>
    simp only [if_true]
    cases ptr with
    | none =>
      simp only [Res.ok_bind]
      rw [erase_single (L.not_observed hp (by rintro k' _ _ _ _ hk' e; cases e))]
    | some o =>
      obtain ⟨ob, ho, hob⟩ := L.fwd _ _ _ _ _ _ _ hk hp
      simp only [ho, deref, Res.ok_bind]
      refine congrArg (fun x => Res.ok (x, some q)) (Heap.ext' ?_ ?_ rfl rfl rfl rfl)
      · intro x
        simp only [Heap.setProb, Heap.setObs, erase, Function.update_apply, List.mem_singleton]
      · intro o'
        simp only [Heap.setProb, Heap.setObs, erase, Function.update_apply]
        split
        · rename_i e
          subst e
          simp [ho, unlink, hob]
        · rename_i e
          cases e' : h.obs o' with
          | none => rfl
          | some ob' =>
            simp only [Option.map_some, unlink]
            split
            · rename_i p' hp'
              rw [if_neg]
              rw [List.mem_singleton]
              rintro rfl
              obtain ⟨_, _, _, _, _, -, h2⟩ := L.bwd _ _ _ e' hp'
              rw [hp] at h2
              cases h2
              exact e rfl
            · rfl

theorem free_own {h : Heap} {p s : Nat} {os l : List Nat} (t : Own h p s os l) (L : Link h) (fuel : Nat) (hf : fuel > l.length) :
    free fuel h p = .ok (erase h l) := by
  induction t generalizing fuel with
  | plain _ t => exact free_plain t h fuel L (fun _ _ => rfl) hf
  | @logger p s os l k name ptr init q o hp t hn _ _ _ _ ih =>
    obtain ⟨fuel, rfl⟩ : ∃ f, fuel = f + 1 := ⟨fuel - 1, by omega⟩
    unfold free
    rw [hp]
    simp only [deref, Res.ok_bind]
    rw [ih fuel (by simp at hf; omega), Res.ok_bind,
      freeLogger_ok (L.erase l) (show (erase h l).prob p = some ⟨.logger k name ptr init q, some s⟩ by simp [erase, hn, hp]),
      Res.ok_bind]
    rw [erase_append]
    exact congrArg Res.ok (erase_mem _ _ _ (by intro x; simp [or_comm]))

/-! ### Evaluation -/

/-- A problem object with the flag of the bbob logger reset. -/
def noInit (v : ProbObj) : ProbObj :=
  match v.node with
  | .logger k name ptr _ q => { v with node := .logger k name ptr false q }
  | _ => v

/-- Heaps that differ only in the flags of bbob loggers. -/
structure Sim (h h' : Heap) : Prop where
  prob : ∀ p, (h'.prob p).map noInit = (h.prob p).map noInit
  obs : h'.obs = h.obs
  suite : h'.suite = h.suite
  np : h'.np = h.np
  no : h'.no = h.no
  ns : h'.ns = h.ns

theorem Sim.refl (h : Heap) : Sim h h := ⟨fun _ => rfl, rfl, rfl, rfl, rfl, rfl⟩

theorem Sim.trans {h1 h2 h3 : Heap} (a : Sim h1 h2) (b : Sim h2 h3) : Sim h1 h3 :=
  ⟨fun p => (b.prob p).trans (a.prob p), b.obs.trans a.obs, b.suite.trans a.suite, b.np.trans a.np, b.no.trans a.no, b.ns.trans a.ns⟩

theorem Sim.symm {h1 h2 : Heap} (a : Sim h1 h2) : Sim h2 h1 :=
  ⟨fun p => (a.prob p).symm, a.obs.symm, a.suite.symm, a.np.symm, a.no.symm, a.ns.symm⟩

theorem Sim.gone {h h' : Heap} (a : Sim h h') (p : Nat) : h'.prob p = none ↔ h.prob p = none := by
  have := a.prob p
  cases e : h.prob p <;> cases e' : h'.prob p <;> simp_all

theorem Sim.node {h h' : Heap} (a : Sim h h') {p : Nat} {n : Node} {su : Option Nat} (e : h.prob p = some ⟨n, su⟩) :
    (∀ k name ptr init q, n ≠ .logger k name ptr init q) → h'.prob p = some ⟨n, su⟩ := by
  intro hn
  have := a.prob p
  rw [e] at this
  cases e' : h'.prob p with
  | none => simp [e'] at this
  | some v =>
    obtain ⟨n', su'⟩ := v
    rw [e'] at this
    cases n with
    | logger k name ptr init q => exact (hn k name ptr init q rfl).elim
    | _ => cases n' <;> simp_all [noInit]

theorem Sim.logger {h h' : Heap} (a : Sim h h') {p : Nat} {k : Kind} {name : String} {ptr : Option Nat} {init : Bool} {q : Nat}
    {su : Option Nat} (e : h.prob p = some ⟨.logger k name ptr init q, su⟩) :
    ∃ init', h'.prob p = some ⟨.logger k name ptr init' q, su⟩ := by
  have := a.prob p
  rw [e] at this
  cases e' : h'.prob p with
  | none => simp [e'] at this
  | some v =>
    obtain ⟨n', su'⟩ := v
    rw [e'] at this
    cases n' <;> simp_all [noInit]

theorem Plain.sim {h h' : Heap} {p : Nat} {l : List Nat} (t : Plain h p l) (a : Sim h h') : Plain h' p l := by
  induction t with
  | base hp => exact .base (a.node hp (by simp))
  | wrap hp _ hn ih => exact .wrap (a.node hp (by simp)) ih hn
  | stacked hp _ _ h1 h2 h3 ih1 ih2 => exact .stacked (a.node hp (by simp)) ih1 ih2 h1 h2 h3

theorem Own.sim {h h' : Heap} {p s : Nat} {os l : List Nat} (t : Own h p s os l) (a : Sim h h') : Own h' p s os l := by
  induction t with
  | plain hp t =>
    refine .plain (a.node hp ?_) (t.sim a)
    intro k name ptr init q e
    cases t <;> simp_all
  | logger hp _ hn hlt htoy hlink hkind ih =>
    obtain ⟨init', hp'⟩ := a.logger hp
    exact .logger hp' ih hn (by rw [a.no]; exact hlt) htoy (by rw [a.obs]; exact hlink) (by rw [a.obs]; exact hkind)

theorem Link.sim {h h' : Heap} (L : Link h) (a : Sim h h') : Link h' := by
  constructor
  · intro p k name o init q su hk hp
    obtain ⟨init', hp'⟩ := a.symm.logger hp
    rw [a.obs]
    exact L.fwd _ _ _ _ _ _ _ hk hp'
  · intro o ob p ho hob
    rw [a.obs] at ho
    obtain ⟨k, name, init, q, su, hk, hp⟩ := L.bwd o ob p ho hob
    obtain ⟨init', hp'⟩ := a.logger hp
    exact ⟨k, name, init', q, su, hk, hp'⟩

theorem evaluate_plain {h : Heap} {p : Nat} {l : List Nat} (t : Plain h p l) (fuel : Nat) (hf : fuel > l.length) :
    evaluate fuel h p = .ok h := by
  induction t generalizing fuel with
  | base e =>
    obtain ⟨fuel, rfl⟩ : ∃ f, fuel = f + 1 := ⟨fuel - 1, by omega⟩
    unfold evaluate
    rw [e]
    rfl
  | wrap e _ _ ih =>
    obtain ⟨fuel, rfl⟩ : ∃ f, fuel = f + 1 := ⟨fuel - 1, by omega⟩
    unfold evaluate
    rw [e]
    simp only [deref, Res.ok_bind]
    exact ih fuel (by simp at hf; omega)
  | stacked e _ _ _ _ _ ih1 ih2 =>
    obtain ⟨fuel, rfl⟩ : ∃ f, fuel = f + 1 := ⟨fuel - 1, by omega⟩
    simp only [List.length_cons, List.length_append] at hf
    unfold evaluate
    rw [e]
    simp only [deref, Res.ok_bind]
    rw [ih1 fuel (by omega), Res.ok_bind, ih2 fuel (by omega)]

theorem recommend_plain {h : Heap} {p : Nat} {l : List Nat} (t : Plain h p l) (fuel : Nat) (hf : fuel > l.length) :
    recommend fuel h p = .ok h := by
  induction t generalizing fuel with
  | base e =>
    obtain ⟨fuel, rfl⟩ : ∃ f, fuel = f + 1 := ⟨fuel - 1, by omega⟩
    unfold recommend
    rw [e]
    rfl
  | wrap e _ _ ih =>
    obtain ⟨fuel, rfl⟩ : ∃ f, fuel = f + 1 := ⟨fuel - 1, by omega⟩
    unfold recommend
    rw [e]
    simp only [deref, Res.ok_bind]
    exact ih fuel (by simp at hf; omega)
  | stacked e _ _ _ _ _ ih1 ih2 =>
    obtain ⟨fuel, rfl⟩ : ∃ f, fuel = f + 1 := ⟨fuel - 1, by omega⟩
    unfold recommend
    rw [e]
    rfl

theorem ensureInit_ok {h : Heap} {p s : Nat} {name : String} {ptr : Option Nat} {init : Bool} {q o : Nat}
    (hp : h.prob p = some ⟨.logger .bbob name ptr init q, some s⟩) (hptr : ptr = some o) (ho : h.obs o ≠ none)
    (hs : h.suite s ≠ none) : ∃ h', ensureInit h p (some s) name ptr init q = .ok h' ∧ Sim h h' := by
  unfold ensureInit
  split
  · exact ⟨h, rfl, Sim.refl h⟩
  · subst hptr
    obtain ⟨ob, ho⟩ := Option.ne_none_iff_exists'.1 ho
    obtain ⟨so, hs⟩ := Option.ne_none_iff_exists'.1 hs
    refine ⟨h.setProb p (some ⟨.logger .bbob name (some o) true q, some s⟩), by
      simp only [readSuite, ho, hs, deref, Res.ok_bind], ?_⟩
    refine ⟨fun x => ?_, rfl, rfl, rfl, rfl, rfl⟩
    simp only [Heap.setProb, Function.update_apply]
    split
    · rename_i e
      subst e
      rw [hp]
      rfl
    · rfl

theorem evaluate_own {h : Heap} {p s : Nat} {os l : List Nat} (t : Own h p s os l) (hs : h.suite s ≠ none)
    (ho : ∀ o ∈ os, h.obs o ≠ none) : ∀ (h0 : Heap) (fuel : Nat), Sim h h0 → fuel > l.length →
    ∃ h', evaluate fuel h0 p = .ok h' ∧ Sim h h' := by
  induction t with
  | plain _ t =>
    intro h0 fuel a hf
    exact ⟨h0, evaluate_plain (t.sim a) fuel hf, a⟩
  | @logger p s os l k name ptr init q o hp t hn hlt htoy hlink hkind ih =>
    intro h0 fuel a hf
    obtain ⟨fuel, rfl⟩ : ∃ f, fuel = f + 1 := ⟨fuel - 1, by omega⟩
    simp only [List.length_cons] at hf
    obtain ⟨init', hp'⟩ := a.logger hp
    have hoo := ho o (by simp)
    have ih := ih hs (fun o ho' => ho o (by simp [ho']))
    unfold evaluate
    rw [hp']
    simp only [deref, Res.ok_bind]
    cases k with
    | toy =>
      obtain ⟨h', e, a'⟩ := ih h0 fuel a (by omega)
      dsimp only
      rw [e, Res.ok_bind, htoy rfl]
      obtain ⟨ob, hob⟩ := Option.ne_none_iff_exists'.1 hoo
      refine ⟨h', ?_, a'⟩
      simp only
      rw [a'.obs, hob]
      rfl
    | rw => exact ih h0 fuel a (by omega)
    | biobj => exact ih h0 fuel a (by omega)
    | bbob =>
      have hptr : ptr = some o := by
        rcases hlink rfl with h1 | ⟨-, h1⟩
        · exact h1
        · exact absurd h1 hoo
      obtain ⟨h1, e1, a1⟩ := ensureInit_ok hp' hptr (by rw [a.obs]; exact hoo) (by rw [a.suite]; exact hs)
      dsimp only
      rw [e1, Res.ok_bind]
      exact ih h1 fuel (a.trans a1) (by omega)

theorem recommend_own {h : Heap} {p s : Nat} {os l : List Nat} (t : Own h p s os l) (hs : h.suite s ≠ none)
    (ho : ∀ o ∈ os, h.obs o ≠ none) : ∀ (fuel : Nat), fuel > l.length →
    ∃ h', recommend fuel h p = .ok h' ∧ Sim h h' := by
  induction t with
  | plain _ t =>
    intro fuel hf
    exact ⟨h, recommend_plain t fuel hf, Sim.refl h⟩
  | @logger p s os l k name ptr init q o hp t hn hlt htoy hlink hkind ih =>
    intro fuel hf
    obtain ⟨fuel, rfl⟩ : ∃ f, fuel = f + 1 := ⟨fuel - 1, by omega⟩
    simp only [List.length_cons] at hf
    have hoo := ho o (by simp)
    have hos : ∀ o ∈ os, h.obs o ≠ none := fun o ho' => ho o (by simp [ho'])
    unfold recommend
    rw [hp]
    simp only [deref, Res.ok_bind]
    cases k with
    | toy => exact ih hs hos fuel (by omega)
    | rw => exact ih hs hos fuel (by omega)
    | biobj =>
      have hptr : ptr = some o := by
        rcases hlink rfl with h1 | ⟨-, h1⟩
        · exact h1
        · exact absurd h1 hoo
      obtain ⟨ob, hob⟩ := Option.ne_none_iff_exists'.1 hoo
      subst hptr
      simp only [hob, Res.ok_bind]
      exact evaluate_own t hs hos h fuel (Sim.refl h) (by omega)
    | bbob =>
      have hptr : ptr = some o := by
        rcases hlink rfl with h1 | ⟨-, h1⟩
        · exact h1
        · exact absurd h1 hoo
      obtain ⟨h1, e1, a1⟩ := ensureInit_ok hp hptr hoo hs
      dsimp only
      rw [e1, Res.ok_bind]
      exact evaluate_own t hs hos h1 fuel a1 (by omega)

/-! ### Forests -/

/-- Who frees a problem. -/
inductive Slot where
  | user
  | suite (s : Nat)

/-- The problems of the program. -/
def At (v : View) : Slot → Handle → Prop
  | .user, d => d ∈ v.held
  | .suite s, d => v.lent s = some d

/-- The object `x` is part of the problem. -/
def Part (h : Heap) (d : Handle) (x : Nat) : Prop := ∃ l, Own h d.id d.suite d.observers l ∧ x ∈ l

/-- The problem objects are the parts of the problems `R`, and each belongs to one of them. -/
structure Forest (h : Heap) (R : Slot → Handle → Prop) : Prop where
  lt : ∀ p, h.prob p ≠ none → p < h.np
  link : Link h
  own : ∀ σ d, R σ d → ∃ l, Own h d.id d.suite d.observers l
  disj : ∀ σ d σ' d' x, R σ d → R σ' d' → Part h d x → Part h d' x → σ = σ' ∧ d = d'
  cover : ∀ x, h.prob x ≠ none → ∃ σ d, R σ d ∧ Part h d x

theorem Forest.congr {h : Heap} {R R' : Slot → Handle → Prop} (F : Forest h R) (e : ∀ σ d, R' σ d ↔ R σ d) : Forest h R' := by
  have : R' = R := by funext σ d; exact propext (e σ d)
  rw [this]
  exact F

theorem Forest.sim {h h' : Heap} {R : Slot → Handle → Prop} (F : Forest h R) (a : Sim h h') : Forest h' R := by
  have hpart : ∀ d x, Part h' d x ↔ Part h d x := fun d x =>
    ⟨fun ⟨l, t, hx⟩ => ⟨l, t.sim a.symm, hx⟩, fun ⟨l, t, hx⟩ => ⟨l, t.sim a, hx⟩⟩
  refine ⟨fun p hp => ?_, F.link.sim a, fun σ d hd => ?_, fun σ d σ' d' x h1 h2 h3 h4 => ?_, fun x hx => ?_⟩
  · rw [a.np]
    exact F.lt p (fun e => hp ((a.gone p).2 e))
  · obtain ⟨l, t⟩ := F.own σ d hd
    exact ⟨l, t.sim a⟩
  · exact F.disj σ d σ' d' x h1 h2 ((hpart _ _).1 h3) ((hpart _ _).1 h4)
  · obtain ⟨σ, d, h1, h2⟩ := F.cover x (fun e => hx ((a.gone x).2 e))
    exact ⟨σ, d, h1, (hpart _ _).2 h2⟩

/-- A change of the heap that leaves the objects of the problems `old` as they are. -/
theorem Forest.transfer {h h' : Heap} {R R' : Slot → Handle → Prop} (F : Forest h R) (hlt : ∀ p, h'.prob p ≠ none → p < h'.np)
    (L : Link h') (hno : h.no ≤ h'.no) (ho : Kinds h h')
    (old new : Slot → Handle → Prop) (hR : ∀ σ d, R' σ d ↔ old σ d ∨ new σ d)
    (hold : ∀ σ d, old σ d → R σ d ∧ ∀ x, Part h d x → h'.prob x = h.prob x)
    (hnew : ∀ σ d, new σ d → ∃ l, Own h' d.id d.suite d.observers l)
    (hnd : ∀ σ d σ' d' x, new σ d → new σ' d' → Part h' d x → Part h' d' x → σ = σ' ∧ d = d')
    (hno' : ∀ σ d σ' d' x, new σ d → old σ' d' → Part h' d x → Part h d' x → False)
    (hcover : ∀ x, h'.prob x ≠ none → (∃ σ d, new σ d ∧ Part h' d x) ∨ ∃ σ d, old σ d ∧ Part h d x) : Forest h' R' := by
  have hkeep : ∀ σ d, old σ d → ∀ l, Own h d.id d.suite d.observers l → Own h' d.id d.suite d.observers l :=
    fun σ d hd l t => t.congr (fun x hxl => (hold σ d hd).2 x ⟨l, t, hxl⟩) hno ho
  have hpart : ∀ σ d, old σ d → ∀ x, Part h' d x ↔ Part h d x := by
    intro σ d hd x
    obtain ⟨l, t⟩ := F.own σ d (hold σ d hd).1
    have t' := hkeep σ d hd l t
    constructor
    · rintro ⟨l', t'', hx'⟩
      rw [t''.unique t'] at hx'
      exact ⟨l, t, hx'⟩
    · rintro ⟨l', t'', hx'⟩
      rw [t''.unique t] at hx'
      exact ⟨l, t', hx'⟩
  refine ⟨hlt, L, fun σ d hd => ?_, fun σ d σ' d' x h1 h2 h3 h4 => ?_, fun x hx => ?_⟩
  · rcases (hR σ d).1 hd with hd | hd
    · obtain ⟨l, t⟩ := F.own σ d (hold σ d hd).1
      exact ⟨l, hkeep σ d hd l t⟩
    · exact hnew σ d hd
  · rcases (hR σ d).1 h1 with hd | hd
    · rw [hpart σ d hd] at h3
      rcases (hR σ' d').1 h2 with hd' | hd'
      · rw [hpart σ' d' hd'] at h4
        exact F.disj σ d σ' d' x (hold _ _ hd).1 (hold _ _ hd').1 h3 h4
      · exact (hno' σ' d' σ d x hd' hd h4 h3).elim
    · rcases (hR σ' d').1 h2 with hd' | hd'
      · rw [hpart σ' d' hd'] at h4
        exact (hno' σ d σ' d' x hd hd' h3 h4).elim
      · exact hnd σ d σ' d' x hd hd' h3 h4
  · rcases hcover x hx with ⟨σ, d, h1, h2⟩ | ⟨σ, d, h1, h2⟩
    · exact ⟨σ, d, (hR σ d).2 (.inr h1), h2⟩
    · exact ⟨σ, d, (hR σ d).2 (.inl h1), (hpart σ d h1 x).2 h2⟩

theorem Forest.same {h h' : Heap} {R : Slot → Handle → Prop} (F : Forest h R) (hp : h'.prob = h.prob) (hnp : h'.np = h.np)
    (L : Link h') (hno : h.no ≤ h'.no) (ho : Kinds h h') : Forest h' R := by
  refine F.transfer (fun p h1 => ?_) L hno ho R (fun _ _ => False) (by simp) (fun σ d hd => ⟨hd, fun x _ => by rw [hp]⟩) (by simp)
    (by simp) (by simp) (fun x hx => .inr (F.cover x (by rwa [hp] at hx)))
  rw [hnp]
  rw [hp] at h1
  exact F.lt p h1

/-- Freeing one of the problems. -/
theorem Forest.remove {h : Heap} {R : Slot → Handle → Prop} (F : Forest h R) {σ : Slot} {d : Handle} (hd : R σ d) :
    ∃ h', freeProblem h d.id = .ok h' ∧ Forest h' (fun σ' d' => R σ' d' ∧ ¬ (σ' = σ ∧ d' = d)) ∧ h'.suite = h.suite ∧
      h'.np = h.np ∧ h'.no = h.no ∧ h'.ns = h.ns ∧ (∀ o, h'.obs o = none ↔ h.obs o = none) := by
  obtain ⟨l, t⟩ := F.own σ d hd
  refine ⟨erase h l, free_own t F.link _ ?_, ?_, rfl, rfl, rfl, rfl, ?_⟩
  · have := length_le t.nodup t.alive F.lt
    omega
  · have hdis : ∀ σ' d', R σ' d' → ((∀ x, Part h d' x → (erase h l).prob x = h.prob x) ↔ ¬ (σ' = σ ∧ d' = d)) := by
      intro σ' d' hd'
      constructor
      · rintro hx ⟨-, rfl⟩
        have := hx d'.id ⟨l, t, t.mem⟩
        simp only [erase, if_pos t.mem] at this
        exact t.alive _ t.mem this.symm
      · intro hne x hx
        simp only [erase]
        rw [if_neg]
        intro hxl
        exact hne (F.disj σ' d' σ d x hd' hd hx ⟨l, t, hxl⟩)
    refine F.transfer (fun p hp => ?_) (F.link.erase l) (Nat.le_refl _) (Kinds.erase h _)
      (fun σ' d' => R σ' d' ∧ ¬ (σ' = σ ∧ d' = d)) (fun _ _ => False) (by simp)
      (fun σ' d' ⟨h1, h2⟩ => ⟨h1, (hdis σ' d' h1).2 h2⟩) (by simp) (by simp) (by simp) (fun x hx => .inr ?_)
    · refine F.lt p (fun e => hp ?_)
      simp [erase, e]
    · have hxl : x ∉ l := by
        intro hxl
        simp [erase, hxl] at hx
      have hx' : h.prob x ≠ none := by simpa [erase, hxl] using hx
      obtain ⟨σ', d', h1, h2⟩ := F.cover x hx'
      refine ⟨σ', d', ⟨h1, ?_⟩, h2⟩
      rintro ⟨rfl, rfl⟩
      obtain ⟨l', t', hl'⟩ := h2
      rw [t'.unique t] at hl'
      exact hxl hl'
  · intro o
    simp [erase]

/-! ### New problems -/

theorem Plain.not_logger {h : Heap} {p : Nat} {l : List Nat} (t : Plain h p l) : ∀ x ∈ l, ∀ k name ptr init q su,
    h.prob x ≠ some ⟨.logger k name ptr init q, su⟩ := by
  induction t with
  | base e => intro x hx; simp_all
  | wrap e _ _ ih =>
    intro x hx
    rcases List.mem_cons.1 hx with rfl | hx
    · simp [e]
    · exact ih x hx
  | stacked e _ _ _ _ _ ih1 ih2 =>
    intro x hx
    rcases List.mem_cons.1 hx with rfl | hx
    · simp [e]
    · rcases List.mem_append.1 hx with hx | hx
      · exact ih1 x hx
      · exact ih2 x hx

/-- What the construction of a problem does. -/
structure Built (h h' : Heap) (p : Nat) (su : Option Nat) (l : List Nat) : Prop where
  plain : Plain h' p l
  root : ∃ n, h'.prob p = some ⟨n, su⟩
  fresh : ∀ x ∈ l, h.np ≤ x ∧ x < h'.np
  old : ∀ x, x < h.np → h'.prob x = h.prob x
  only : ∀ x, h.np ≤ x → h'.prob x ≠ none → x ∈ l
  np : h.np ≤ h'.np
  obs : h'.obs = h.obs
  suite : h'.suite = h.suite
  no : h'.no = h.no
  ns : h'.ns = h.ns

theorem build_ok (t : Shape) : ∀ (h : Heap) (su : Option Nat), (∀ x, h.prob x ≠ none → x < h.np) →
    ∃ l, Built h (build h su t).1 (build h su t).2 su l := by
  induction t with
  | base =>
    intro h su hlt
    refine ⟨[h.np], ⟨.base (su := su) ?_, ⟨.base, ?_⟩, ?_, ?_, ?_, ?_, rfl, rfl, rfl, rfl⟩⟩
    · simp [build, Heap.newProb, Heap.setProb]
    · simp [build, Heap.newProb, Heap.setProb]
    · simp [build, Heap.newProb]
    · intro x hx
      simp only [build, Heap.newProb, Heap.setProb, Function.update_apply]
      rw [if_neg (by omega)]
    · intro x hx hne
      simp only [build, Heap.newProb, Heap.setProb, Function.update_apply] at hne
      split at hne
      · simp [*]
      · exact absurd (hlt x hne) (by omega)
    · simp [build, Heap.newProb]
  | wrap t ih =>
    intro h su hlt
    obtain ⟨l, B⟩ := ih h none hlt
    set h1 := (build h none t).1 with e1
    set q := (build h none t).2 with e2
    have eb : build h su (.wrap t) = h1.newProb ⟨.wrap q, su⟩ := rfl
    have hnl : h1.np ∉ l := fun hm => by have := (B.fresh _ hm).2; omega
    have hold : ∀ x, x ≠ h1.np → (h1.newProb ⟨.wrap q, su⟩).1.prob x = h1.prob x := by
      intro x hx
      simp only [Heap.newProb, Heap.setProb, Function.update_apply]
      rw [if_neg hx]
    have hnew : (h1.newProb ⟨.wrap q, su⟩).1.prob h1.np = some ⟨.wrap q, su⟩ := by
      simp [Heap.newProb, Heap.setProb]
    rw [eb]
    refine ⟨h1.np :: l, ⟨.wrap hnew (B.plain.congr fun x hx => hold x (fun e => hnl (e ▸ hx))) hnl, ⟨_, hnew⟩, ?_, ?_, ?_, ?_, B.obs,
      B.suite, B.no, B.ns⟩⟩
    · intro x hx
      have := B.np
      rcases List.mem_cons.1 hx with rfl | hx
      · simp only [Heap.newProb]
        omega
      · have := B.fresh x hx
        simp only [Heap.newProb]
        omega
    · intro x hx
      have := B.np
      rw [hold x (by omega), B.old x hx]
    · intro x hx hne
      by_cases e : x = h1.np
      · simp [e]
      · rw [hold x e] at hne
        exact List.mem_cons_of_mem _ (B.only x hx hne)
    · have := B.np
      simp only [Heap.newProb]
      omega
  | stacked t1 t2 ih1 ih2 =>
    intro h su hlt
    obtain ⟨l1, B1⟩ := ih1 h none hlt
    set h1 := (build h none t1).1 with e1
    set q1 := (build h none t1).2 with e2
    have hlt1 : ∀ x, h1.prob x ≠ none → x < h1.np := by
      intro x hx
      by_cases hn : x < h.np
      · have := B1.np; omega
      · exact (B1.fresh x (B1.only x (by omega) hx)).2
    obtain ⟨l2, B2⟩ := ih2 h1 none hlt1
    set h2 := (build h1 none t2).1 with e3
    set q2 := (build h1 none t2).2 with e4
    have eb : build h su (.stacked t1 t2) = h2.newProb ⟨.stacked q1 q2, su⟩ := rfl
    have hn1 := B1.np
    have hn2 := B2.np
    have hnl1 : h2.np ∉ l1 := fun hm => by have := (B1.fresh _ hm).2; omega
    have hnl2 : h2.np ∉ l2 := fun hm => by have := (B2.fresh _ hm).2; omega
    have hold : ∀ x, x ≠ h2.np → (h2.newProb ⟨.stacked q1 q2, su⟩).1.prob x = h2.prob x := by
      intro x hx
      simp only [Heap.newProb, Heap.setProb, Function.update_apply]
      rw [if_neg hx]
    have hnew : (h2.newProb ⟨.stacked q1 q2, su⟩).1.prob h2.np = some ⟨.stacked q1 q2, su⟩ := by
      simp [Heap.newProb, Heap.setProb]
    rw [eb]
    refine ⟨h2.np :: (l1 ++ l2), ⟨.stacked hnew
      (B1.plain.congr fun x hx => ?_)
      (B2.plain.congr fun x hx => hold x (fun e => hnl2 (e ▸ hx))) hnl1 hnl2 ?_, ⟨_, hnew⟩, ?_, ?_, ?_, ?_, B2.obs.trans B1.obs,
      B2.suite.trans B1.suite, B2.no.trans B1.no, B2.ns.trans B1.ns⟩⟩
    · rw [hold x (fun e => hnl1 (e ▸ hx)), B2.old x (B1.fresh x hx).2]
    · intro x hx hx'
      have h3 := (B1.fresh x hx).2
      have h4 := (B2.fresh x hx').1
      omega
    · intro x hx
      simp only [Heap.newProb]
      rcases List.mem_cons.1 hx with rfl | hx
      · omega
      · rcases List.mem_append.1 hx with hx | hx
        · have := B1.fresh x hx
          omega
        · have := B2.fresh x hx
          omega
    · intro x hx
      rw [hold x (by omega), B2.old x (by omega), B1.old x hx]
    · intro x hx hne
      by_cases e : x = h2.np
      · simp [e]
      · rw [hold x e] at hne
        refine List.mem_cons_of_mem _ (List.mem_append.2 ?_)
        by_cases hx1 : x < h1.np
        · rw [B2.old x hx1] at hne
          exact .inl (B1.only x hx hne)
        · exact .inr (B2.only x (by omega) hne)
    · simp only [Heap.newProb]
      omega

/-- A new problem. -/
theorem Forest.insert {h h' : Heap} {R : Slot → Handle → Prop} (F : Forest h R) {p s : Nat} {l : List Nat}
    (B : Built h h' p (some s) l) (σ : Slot) :
    Forest h' (fun σ' d' => R σ' d' ∨ (σ' = σ ∧ d' = ⟨p, s, []⟩)) := by
  obtain ⟨n, hn⟩ := B.root
  have t : Own h' p s [] l := .plain hn B.plain
  have hpl : ∀ d x, Part h d x → x < h.np := fun d x ⟨l', t', hx⟩ => F.lt x (t'.alive x hx)
  have hpn : ∀ x, Part h' ⟨p, s, []⟩ x → h.np ≤ x := by
    rintro x ⟨l', t', hx⟩
    rw [t'.unique t] at hx
    exact (B.fresh x hx).1
  have hlog : ∀ x k name ptr init q su, h'.prob x = some ⟨.logger k name ptr init q, su⟩ ↔
      h.prob x = some ⟨.logger k name ptr init q, su⟩ := by
    intro x k name ptr init q su
    by_cases hx : x < h.np
    · rw [B.old x hx]
    · constructor
      · intro e
        exact absurd e (B.plain.not_logger x (B.only x (by omega) (by simp [e])) _ _ _ _ _ _)
      · intro e
        exact absurd (F.lt x (by simp [e])) hx
  refine F.transfer (fun x hx => ?_) ⟨?_, ?_⟩ (Nat.le_of_eq B.no.symm) (Kinds.of_eq B.obs) R (fun σ' d' => σ' = σ ∧ d' = ⟨p, s, []⟩)
    (fun _ _ => Iff.rfl) (fun σ' d' hd => ⟨hd, fun x hx => B.old x (hpl d' x hx)⟩) ?_ ?_ ?_ ?_
  · by_cases hn : x < h.np
    · have := B.np; omega
    · exact (B.fresh x (B.only x (by omega) hx)).2
  · intro x k name o init q su hk hx
    rw [B.obs]
    exact F.link.fwd _ _ _ _ _ _ _ hk ((hlog _ _ _ _ _ _ _).1 hx)
  · intro o ob x ho hob
    rw [B.obs] at ho
    obtain ⟨k, name, init, q, su, hk, hx⟩ := F.link.bwd o ob x ho hob
    exact ⟨k, name, init, q, su, hk, (hlog _ _ _ _ _ _ _).2 hx⟩
  · rintro σ' d' ⟨rfl, rfl⟩
    exact ⟨l, t⟩
  · rintro σ1 d1 σ2 d2 x ⟨rfl, rfl⟩ ⟨rfl, rfl⟩ _ _
    exact ⟨rfl, rfl⟩
  · rintro σ1 d1 σ2 d2 x ⟨rfl, rfl⟩ h2 h3 h4
    have := hpl _ _ h4
    have := hpn _ h3
    omega
  · intro x hx
    by_cases hn : x < h.np
    · rw [B.old x hn] at hx
      exact .inr (F.cover x hx)
    · exact .inl ⟨σ, _, ⟨rfl, rfl⟩, l, t, B.only x (by omega) hx⟩

theorem Own.root {h : Heap} {p s : Nat} {os l : List Nat} (t : Own h p s os l) :
    ∃ v, h.prob p = some v ∧ v.suite = some s := by
  cases t with
  | plain e _ => exact ⟨_, e, rfl⟩
  | logger e => exact ⟨_, e, rfl⟩

/-- Adding an observer to one of the problems. -/
theorem Forest.addObserver {h : Heap} {R : Slot → Handle → Prop} (F : Forest h R) {σ : Slot} {d : Handle} (hd : R σ d) {o : Nat}
    {ob : ObsObj} (ho : h.obs o = some ob) (hlt : o < h.no) (hs : h.suite d.suite ≠ none) :
    (ob.kind.linked = true ∧ ob.observed ≠ none ∧ Lifecycle.addObserver h d.id o = .error) ∨
    ((ob.kind.linked = true → ob.observed = none) ∧ ∃ h', Lifecycle.addObserver h d.id o = .ok (h', h.np) ∧
      Forest h' (fun σ' d' => (R σ' d' ∧ ¬ (σ' = σ ∧ d' = d)) ∨ (σ' = σ ∧ d' = ⟨h.np, d.suite, o :: d.observers⟩)) ∧
      h'.suite = h.suite ∧ h'.no = h.no ∧ h'.ns = h.ns ∧ (∀ o, h'.obs o = none ↔ h.obs o = none)) := by
  obtain ⟨l, t⟩ := F.own σ d hd
  obtain ⟨v, hv, hvs⟩ := t.root
  obtain ⟨so, hso⟩ := Option.ne_none_iff_exists'.1 hs
  by_cases hbusy : (ob.kind.linked && ob.observed.isSome) = true
  · left
    have hb := hbusy
    simp only [Bool.and_eq_true, Option.isSome_iff_ne_none] at hb
    refine ⟨hb.1, hb.2, ?_⟩
    simp only [Lifecycle.addObserver, ho, hv, hvs, readSuite, hso, deref, Res.ok_bind, hbusy, if_true]
  · right
    have hfree : ob.kind.linked = true → ob.observed = none := by
      intro hk
      rw [hk] at hbusy
      cases e : ob.observed with
      | none => rfl
      | some q => simp [e] at hbusy
    refine ⟨hfree, ?_⟩
    set ptr : Option Nat := if ob.kind = .rw then none else some o with hptr
    set nd : ProbObj := ⟨.logger ob.kind ob.name ptr false d.id, v.suite⟩ with hnd
    set h' : Heap := if ob.kind.linked then (h.newProb nd).1.setObs o (some { ob with observed := some h.np }) else (h.newProb nd).1
      with hh'
    have hprob : ∀ x, h'.prob x = if x = h.np then some nd else h.prob x := by
      intro x
      rw [hh']
      split <;> simp [Heap.newProb, Heap.setProb, Heap.setObs, Function.update_apply]
    have hobs : ∀ o', h'.obs o' = if ob.kind.linked = true ∧ o' = o then some { ob with observed := some h.np } else h.obs o' := by
      intro o'
      rw [hh']
      split
      · rename_i hk
        simp [Heap.newProb, Heap.setProb, Heap.setObs, Function.update_apply, hk]
      · rename_i hk
        simp [Heap.newProb, Heap.setProb, hk]
    have hnp : h'.np = h.np + 1 := by rw [hh']; split <;> rfl
    have hno : h'.no = h.no := by rw [hh']; split <;> rfl
    have hns : h'.ns = h.ns := by rw [hh']; split <;> rfl
    have hsu : h'.suite = h.suite := by rw [hh']; split <;> rfl
    have hnone : ∀ o', h'.obs o' = none ↔ h.obs o' = none := by
      intro o'
      rw [hobs]
      split
      · rename_i e
        simp [e.2, ho]
      · rfl
    have hkinds : Kinds h h' := by
      intro o' _ ob' h1
      rw [hobs] at h1
      split at h1
      · rename_i e
        cases h1
        exact ⟨ob, by rw [e.2, ho], rfl, rfl⟩
      · exact ⟨ob', h1, rfl, rfl⟩
    have hfresh : h.prob h.np = none := by
      by_contra e
      exact absurd (F.lt _ e) (by omega)
    have hpl : ∀ d x, Part h d x → x < h.np := fun d x ⟨l', t', hx⟩ => F.lt x (t'.alive x hx)
    have hkeep : ∀ d x, Part h d x → h'.prob x = h.prob x := by
      intro d x hx
      have := hpl d x hx
      rw [hprob, if_neg (by omega)]
    have t' : Own h' h.np d.suite (o :: d.observers) (h.np :: l) := by
      refine .logger (k := ob.kind) (name := ob.name) (ptr := ptr) (init := false) (q := d.id) ?_
        (t.congr (fun x hx => hkeep d x ⟨l, t, hx⟩) (by omega) hkinds) ?_ (by omega) ?_ ?_ ?_
      · rw [hprob, if_pos rfl, hnd, hvs]
      · intro hm
        exact absurd (hpl d _ ⟨l, t, hm⟩) (by omega)
      · intro hk
        rw [hptr, hk]
        rfl
      · intro hk
        left
        rw [hptr, if_neg]
        intro e
        rw [e] at hk
        simp [Kind.linked] at hk
      · intro ob' h1
        rw [hobs] at h1
        split at h1
        · cases h1
          exact ⟨rfl, rfl⟩
        · rw [ho] at h1
          cases h1
          exact ⟨rfl, rfl⟩
    refine ⟨h', ?_, ?_, hsu, hno, hns, hnone⟩
    · simp only [Lifecycle.addObserver, ho, hv, readSuite, hso, deref, Res.ok_bind]
      rw [hvs]
      simp only [hso, Res.ok_bind]
      rw [if_neg hbusy, hh']
      simp only [hnd, hvs, hptr, Heap.newProb]
    · refine F.transfer (fun x hx => ?_) ⟨?_, ?_⟩ (by omega) hkinds
        (fun σ' d' => R σ' d' ∧ ¬ (σ' = σ ∧ d' = d)) (fun σ' d' => σ' = σ ∧ d' = ⟨h.np, d.suite, o :: d.observers⟩)
        (fun _ _ => Iff.rfl) (fun σ' d' h1 => ⟨h1.1, hkeep d'⟩) ?_ ?_ ?_ ?_
      · rw [hprob] at hx
        split at hx
        · omega
        · have := F.lt x hx
          omega
      · intro x k name o' init q su hk hx
        rw [hprob] at hx
        split at hx
        · rename_i e
          subst e
          simp only [hnd, Option.some.injEq, ProbObj.mk.injEq, Node.logger.injEq] at hx
          obtain ⟨⟨rfl, -, e2, -⟩, -⟩ := hx
          rw [hptr, if_neg (by intro e; rw [e] at hk; simp [Kind.linked] at hk)] at e2
          cases e2
          exact ⟨_, by rw [hobs, if_pos ⟨hk, rfl⟩], rfl⟩
        · obtain ⟨ob', h1, h2⟩ := F.link.fwd _ _ _ _ _ _ _ hk hx
          refine ⟨ob', ?_, h2⟩
          rw [hobs, if_neg, h1]
          rintro ⟨hl, rfl⟩
          rw [ho] at h1
          cases h1
          rw [hfree hl] at h2
          simp at h2
      · intro o' ob' x h1 h2
        rw [hobs] at h1
        split at h1
        · rename_i e
          obtain ⟨hk, rfl⟩ := e
          cases Option.some.inj h1
          cases Option.some.inj h2
          refine ⟨ob.kind, ob.name, false, d.id, v.suite, hk, ?_⟩
          rw [hprob, if_pos rfl, hnd, hptr, if_neg]
          intro e
          rw [e] at hk
          simp [Kind.linked] at hk
        · obtain ⟨k, name, init, q, su, hk, hx⟩ := F.link.bwd o' ob' x h1 h2
          refine ⟨k, name, init, q, su, hk, ?_⟩
          rw [hprob, if_neg, hx]
          rintro rfl
          rw [hfresh] at hx
          simp at hx
      · rintro σ' d' ⟨rfl, rfl⟩
        exact ⟨_, t'⟩
      · rintro σ1 d1 σ2 d2 x ⟨rfl, rfl⟩ ⟨rfl, rfl⟩ _ _
        exact ⟨rfl, rfl⟩
      · rintro σ1 d1 σ2 d2 x ⟨rfl, rfl⟩ ⟨h2, h3⟩ ⟨l', t'', hx⟩ h5
        rw [t''.unique t'] at hx
        rcases List.mem_cons.1 hx with rfl | hx
        · exact absurd (hpl _ _ h5) (by omega)
        · exact h3 (F.disj σ2 d2 _ d x h2 hd h5 ⟨l, t, hx⟩)
      · intro x hx
        rw [hprob] at hx
        split at hx
        · rename_i e
          subst e
          exact .inl ⟨σ, _, ⟨rfl, rfl⟩, _, t', by simp⟩
        · obtain ⟨σ', d', h1, h2⟩ := F.cover x hx
          by_cases e : σ' = σ ∧ d' = d
          · obtain ⟨rfl, rfl⟩ := e
            obtain ⟨l', t'', hx'⟩ := h2
            rw [t''.unique t] at hx'
            exact .inl ⟨σ', _, ⟨rfl, rfl⟩, _, t', by simp [hx']⟩
          · exact .inr ⟨σ', d', ⟨h1, e⟩, h2⟩

theorem Own.inner {h : Heap} {p s : Nat} {os l : List Nat} (t : Own h p s os l) {k name ptr init q su}
    (hp : h.prob p = some ⟨.logger k name ptr init q, su⟩) :
    ∃ o os' l', os = o :: os' ∧ l = p :: l' ∧ Own h q s os' l' ∧ p ∉ l' := by
  cases t with
  | plain _ t => exact absurd hp (t.not_logger p t.mem _ _ _ _ _ _)
  | logger e t hn =>
    rw [e] at hp
    cases hp
    exact ⟨_, _, _, rfl, rfl, t, hn⟩

/-- Freeing the last logger of one of the problems. -/
theorem Forest.unwrap {h : Heap} {R : Slot → Handle → Prop} (F : Forest h R) {σ : Slot} {d : Handle} (hd : R σ d)
    {k name ptr init q su} (hp : h.prob d.id = some ⟨.logger k name ptr init q, su⟩) :
    ∃ h', freeLogger h d.id = .ok (h', some q) ∧
      Forest h' (fun σ' d' => (R σ' d' ∧ ¬ (σ' = σ ∧ d' = d)) ∨ (σ' = σ ∧ d' = ⟨q, d.suite, d.observers.tail⟩)) ∧ h'.suite = h.suite ∧
      h'.np = h.np ∧ h'.no = h.no ∧ h'.ns = h.ns ∧ (∀ o, h'.obs o = none ↔ h.obs o = none) := by
  obtain ⟨l, t⟩ := F.own σ d hd
  obtain ⟨o, os', l', hos, rfl, ti, hn⟩ := t.inner hp
  have hkeep : ∀ x, x ≠ d.id → (erase h [d.id]).prob x = h.prob x := by
    intro x hx
    simp [erase, hx]
  have t' : Own (erase h [d.id]) q d.suite d.observers.tail l' := by
    rw [hos]
    exact ti.congr (fun x hx => hkeep x (fun e => hn (e ▸ hx))) (Nat.le_refl _) (Kinds.erase h _)
  refine ⟨erase h [d.id], freeLogger_ok F.link hp, ?_, rfl, rfl, rfl, rfl, fun o => by simp [erase]⟩
  refine F.transfer (fun p hp => ?_) (F.link.erase _) (Nat.le_refl _) (Kinds.erase h _)
    (fun σ' d' => R σ' d' ∧ ¬ (σ' = σ ∧ d' = d)) (fun σ' d' => σ' = σ ∧ d' = ⟨q, d.suite, d.observers.tail⟩)
    (fun _ _ => Iff.rfl) (fun σ' d' ⟨h1, h2⟩ => ⟨h1, fun x hx => hkeep x ?_⟩) ?_ ?_ ?_ ?_
  · refine F.lt p (fun e => hp ?_)
    simp [erase, e]
  · rintro rfl
    exact h2 (F.disj σ' d' σ d _ h1 hd hx ⟨_, t, t.mem⟩)
  · rintro σ' d' ⟨rfl, rfl⟩
    exact ⟨_, t'⟩
  · rintro σ1 d1 σ2 d2 x ⟨rfl, rfl⟩ ⟨rfl, rfl⟩ _ _
    exact ⟨rfl, rfl⟩
  · rintro σ1 d1 σ2 d2 x ⟨rfl, rfl⟩ ⟨h2, h3⟩ ⟨l'', t'', hx⟩ h5
    rw [t''.unique t'] at hx
    exact h3 (F.disj σ2 d2 _ d x h2 hd h5 ⟨_, t, List.mem_cons_of_mem _ hx⟩)
  · intro x hx
    by_cases e : x = d.id
    · simp [erase, e] at hx
    · rw [hkeep x e] at hx
      obtain ⟨σ', d', h1, h2⟩ := F.cover x hx
      by_cases e' : σ' = σ ∧ d' = d
      · obtain ⟨rfl, rfl⟩ := e'
        obtain ⟨l'', t'', hx'⟩ := h2
        rw [t''.unique t] at hx'
        rcases List.mem_cons.1 hx' with hx' | hx'
        · exact absurd hx' e
        · exact .inl ⟨σ', _, ⟨rfl, rfl⟩, _, t', hx'⟩
      · exact .inr ⟨σ', d', ⟨h1, e'⟩, h2⟩

/-- Freeing an observer. -/
theorem Forest.freeObserver {h : Heap} {R : Slot → Handle → Prop} (F : Forest h R) {o : Nat} {ob : ObsObj} (ho : h.obs o = some ob) :
    ∃ h', Lifecycle.freeObserver h o = .ok h' ∧ Forest h' R ∧ h'.suite = h.suite ∧ h'.np = h.np ∧ h'.no = h.no ∧ h'.ns = h.ns ∧
      (∀ o', h'.obs o' = if o' = o then none else h.obs o') := by
  cases hob : ob.observed with
  | none =>
    refine ⟨h.setObs o none, ?_, ?_, rfl, rfl, rfl, rfl, fun o' => by simp [Heap.setObs, Function.update_apply]⟩
    · simp only [Lifecycle.freeObserver, ho, deref, Res.ok_bind, hob]
    · refine F.same rfl rfl ⟨?_, ?_⟩ (Nat.le_refl _) ?_
      · intro x k name o' init q su hk hx
        obtain ⟨ob', h1, h2⟩ := F.link.fwd _ _ _ _ _ _ _ hk hx
        refine ⟨ob', ?_, h2⟩
        simp only [Heap.setObs, Function.update_apply]
        rw [if_neg, h1]
        rintro rfl
        rw [ho] at h1
        cases h1
        rw [hob] at h2
        simp at h2
      · intro o' ob' x h1 h2
        simp only [Heap.setObs, Function.update_apply] at h1
        split at h1
        · simp at h1
        · exact F.link.bwd o' ob' x h1 h2
      · intro o' _ ob' h1
        simp only [Heap.setObs, Function.update_apply] at h1
        split at h1
        · cases h1
        · exact ⟨ob', h1, rfl, rfl⟩
  | some p0 =>
    obtain ⟨k0, name0, init0, q0, su0, hk0, hp0⟩ := F.link.bwd o ob p0 ho hob
    set h' := (h.setProb p0 (some ⟨.logger k0 name0 none init0 q0, su0⟩)).setObs o none with hh'
    have hprob : ∀ x, h'.prob x = if x = p0 then some ⟨.logger k0 name0 none init0 q0, su0⟩ else h.prob x := by
      intro x
      simp [hh', Heap.setObs, Heap.setProb, Function.update_apply]
    have hobs : ∀ o', h'.obs o' = if o' = o then none else h.obs o' := by
      intro x
      simp [hh', Heap.setObs, Heap.setProb, Function.update_apply]
    have hown : ∀ {p s os l}, Own h p s os l → Own h' p s os l := by
      intro p s os l t
      induction t with
      | @plain p s l n e t =>
        have hne : ∀ x ∈ l, x ≠ p0 := fun x hx e' => t.not_logger x hx _ _ _ _ _ _ (e' ▸ hp0)
        refine .plain (n := n) ?_ (t.congr fun x hx => ?_)
        · rw [hprob, if_neg (hne _ t.mem)]
          exact e
        · rw [hprob, if_neg (hne x hx)]
      | @logger p s os l k name ptr init q o1 e t hn hlt htoy hlink hkind ih =>
        have hkind' : ∀ ob, h'.obs o1 = some ob → ob.kind = k ∧ ob.name = name := by
          intro ob' h1
          rw [hobs] at h1
          split at h1
          · cases h1
          · exact hkind ob' h1
        by_cases e' : p = p0
        · subst e'
          rw [hp0] at e
          cases e
          refine .logger (k := k0) (name := name0) (ptr := none) (init := init0) (q := q0) (by rw [hprob, if_pos rfl]) ih hn hlt ?_ ?_ hkind'
          · rintro rfl
            simp [Kind.linked] at hk0
          · intro hk
            right
            refine ⟨rfl, ?_⟩
            rcases hlink hk with h1 | ⟨h1, -⟩
            · cases h1
              rw [hobs, if_pos rfl]
            · simp at h1
        · refine .logger (by rw [hprob, if_neg e', e]) ih hn hlt htoy (fun hk => ?_) hkind'
          rcases hlink hk with h1 | ⟨h1, h2⟩
          · exact .inl h1
          · refine .inr ⟨h1, ?_⟩
            rw [hobs, h2]
            split <;> rfl
    have hpart : ∀ σ d, R σ d → ∀ x, Part h' d x ↔ Part h d x := by
      intro σ d hd x
      obtain ⟨l, t⟩ := F.own σ d hd
      constructor
      · rintro ⟨l', t'', hx'⟩
        rw [t''.unique (hown t)] at hx'
        exact ⟨l, t, hx'⟩
      · rintro ⟨l', t'', hx'⟩
        exact ⟨l', hown t'', hx'⟩
    have halive : ∀ x, h'.prob x ≠ none → h.prob x ≠ none := by
      intro x hx
      rw [hprob] at hx
      split at hx
      · simp [*]
      · exact hx
    refine ⟨h', ?_, ⟨fun p hp => F.lt p (halive p hp), ⟨?_, ?_⟩, fun σ d hd => ?_, fun σ d σ' d' x h1 h2 h3 h4 => ?_, fun x hx => ?_⟩,
      rfl, rfl, rfl, rfl, hobs⟩
    · simp only [Lifecycle.freeObserver, ho, deref, Res.ok_bind, hob, hp0]
      rfl
    · intro x k name o' init q su hk hx
      rw [hprob] at hx
      split at hx
      · cases hx
      · rename_i hne
        obtain ⟨ob', h1, h2⟩ := F.link.fwd _ _ _ _ _ _ _ hk hx
        refine ⟨ob', ?_, h2⟩
        rw [hobs, if_neg, h1]
        rintro rfl
        rw [ho] at h1
        cases h1
        rw [hob] at h2
        cases h2
        exact hne rfl
    · intro o' ob' x h1 h2
      rw [hobs] at h1
      split at h1
      · cases h1
      · rename_i hne
        obtain ⟨k, name, init, q, su, hk, hx⟩ := F.link.bwd o' ob' x h1 h2
        refine ⟨k, name, init, q, su, hk, ?_⟩
        rw [hprob, if_neg, hx]
        rintro rfl
        rw [hp0] at hx
        cases hx
        exact hne rfl
    · obtain ⟨l, t⟩ := F.own σ d hd
      exact ⟨l, hown t⟩
    · exact F.disj σ d σ' d' x h1 h2 ((hpart _ _ h1 _).1 h3) ((hpart _ _ h2 _).1 h4)
    · obtain ⟨σ, d, h1, h2⟩ := F.cover x (halive x hx)
      exact ⟨σ, d, h1, (hpart _ _ h1 _).2 h2⟩

/-! ### The invariant -/

/-- What holds between calls. -/
structure Inv (h : Heap) (v : View) : Prop where
  forest : Forest h (At v)
  obs : ∀ o, h.obs o ≠ none ↔ o ∈ v.observers
  obsLt : ∀ o, h.obs o ≠ none → o < h.no
  suites : ∀ s, h.suite s ≠ none ↔ s ∈ v.suites
  suitesLt : ∀ s, h.suite s ≠ none → s < h.ns
  cur : ∀ s so, h.suite s = some so → so.current = (v.lent s).map Handle.id
  lent : ∀ s d, v.lent s = some d → h.suite s ≠ none ∧ d.suite = s

theorem Inv.sim {h h' : Heap} {v : View} (I : Inv h v) (a : Sim h h') : Inv h' v := by
  refine ⟨I.forest.sim a, ?_, ?_, ?_, ?_, ?_, ?_⟩
  · rw [a.obs]
    exact I.obs
  · rw [a.obs, a.no]
    exact I.obsLt
  · rw [a.suite]
    exact I.suites
  · rw [a.suite, a.ns]
    exact I.suitesLt
  · rw [a.suite]
    exact I.cur
  · rw [a.suite]
    exact I.lent

theorem Inv.held_unique {h : Heap} {v : View} (I : Inv h v) {d d' : Handle} (h1 : d ∈ v.held) (h2 : d' ∈ v.held) (e : d.id = d'.id) :
    d = d' := by
  obtain ⟨l, t⟩ := I.forest.own .user d h1
  obtain ⟨l', t'⟩ := I.forest.own .user d' h2
  exact (I.forest.disj .user d .user d' d.id h1 h2 ⟨l, t, t.mem⟩ ⟨l', t', e ▸ t'.mem⟩).2

/-- The problems of the program after one of them has been replaced. -/
theorem Inv.at_replace {h : Heap} {v : View} (I : Inv h v) {d d1 : Handle} (hd : d ∈ v.held) (f : Handle → Handle) (hf : f d = d1)
    (σ : Slot) (d' : Handle) :
    At { v with held := v.held.map fun e => if e.id = d.id then f e else e } σ d' ↔
      (At v σ d' ∧ ¬ (σ = .user ∧ d' = d)) ∨ (σ = .user ∧ d' = d1) := by
  cases σ with
  | suite s => simp [At]
  | user =>
    simp only [At, List.mem_map]
    constructor
    · rintro ⟨e, he, rfl⟩
      split
      · rename_i hid
        rw [I.held_unique he hd hid, hf]
        exact .inr ⟨trivial, rfl⟩
      · rename_i hid
        refine .inl ⟨he, ?_⟩
        rintro ⟨-, rfl⟩
        exact hid rfl
    · rintro (⟨h1, h2⟩ | ⟨-, rfl⟩)
      · refine ⟨d', h1, if_neg ?_⟩
        intro e
        exact h2 ⟨trivial, I.held_unique h1 hd e⟩
      · exact ⟨d, hd, by rw [if_pos rfl, hf]⟩

theorem Link.of_eq {h : Heap} (L : Link h) {h' : Heap} (h1 : h'.prob = h.prob) (h2 : h'.obs = h.obs) : Link h' := by
  constructor
  · rw [h1, h2]
    exact L.fwd
  · rw [h1, h2]
    exact L.bwd

/-- Freeing the problem that a suite has given out. -/
theorem Inv.freeCurrent {h : Heap} {v : View} (I : Inv h v) {s : Nat} {so : SuiteObj} (hso : h.suite s = some so) :
    ∃ h1, Lifecycle.freeCurrent h so = .ok h1 ∧ Forest h1 (fun σ d => At v σ d ∧ σ ≠ .suite s) ∧ h1.suite = h.suite ∧ h1.no = h.no ∧
      h1.ns = h.ns ∧ (∀ o, h1.obs o = none ↔ h.obs o = none) := by
  unfold Lifecycle.freeCurrent
  rw [I.cur s so hso]
  cases hl : v.lent s with
  | none =>
    refine ⟨h, rfl, I.forest.congr fun σ d => ?_, rfl, rfl, rfl, fun _ => Iff.rfl⟩
    constructor
    · exact And.left
    · intro hd
      refine ⟨hd, ?_⟩
      rintro rfl
      simp [At, hl] at hd
  | some d =>
    obtain ⟨h1, e1, F1, a1, a2, a3, a4, a5⟩ := I.forest.remove (σ := .suite s) (d := d) hl
    refine ⟨h1, e1, F1.congr fun σ d' => ?_, a1, a3, a4, a5⟩
    constructor
    · rintro ⟨h2, h3⟩
      exact ⟨h2, fun e => h3 e.1⟩
    · rintro ⟨h2, h3⟩
      refine ⟨h2, ?_⟩
      rintro rfl
      refine h3 ⟨rfl, ?_⟩
      simp only [At, hl, Option.some.injEq] at h2
      exact h2.symm

/-- The outcome of an allowed call: it succeeds and the invariant holds again, or it is the addition of an observer that is busy,
the removal of an observer that is not the last one, or the iteration with a busy observer, which `coco_error` refuses. -/
theorem Inv.step {h : Heap} {v : View} (I : Inv h v) (op : Op) (ha : v.Allowed op) :
    (∃ h' out, Lifecycle.step h op = .ok (h', out) ∧ Inv h' (v.after op out)) ∨
    (Lifecycle.step h op = .error ∧ ((∃ p o, op = .addObserver p o) ∨ (∃ p o, op = .removeObserver p o) ∨
      ∃ s t o, op = .nextProblem s (some t) (some o))) := by
  cases op with
  | newObserver k name =>
    left
    refine ⟨_, _, rfl, ?_⟩
    have hfresh : h.obs h.no = none := by
      by_contra e
      exact absurd (I.obsLt _ e) (by omega)
    set h' : Heap := { h.setObs h.no (some ⟨k, name, none⟩) with no := h.no + 1 } with hh'
    have hobs : ∀ o, h'.obs o = if o = h.no then some ⟨k, name, none⟩ else h.obs o := by
      intro o
      simp [hh', Heap.setObs, Function.update_apply]
    refine ⟨I.forest.same rfl rfl ⟨?_, ?_⟩ (Nat.le_succ _) ?_, ?_, ?_, I.suites, I.suitesLt, I.cur, I.lent⟩
    · intro x k' name' o init q su hk hx
      obtain ⟨ob, h1, h2⟩ := I.forest.link.fwd x k' name' o init q su hk hx
      refine ⟨ob, ?_, h2⟩
      rw [hobs, if_neg, h1]
      rintro rfl
      rw [hfresh] at h1
      cases h1
    · intro o ob x h1 h2
      rw [hobs] at h1
      split at h1
      · cases h1
        cases h2
      · exact I.forest.link.bwd o ob x h1 h2
    · intro o ho ob' h1
      rw [hobs, if_neg (by omega)] at h1
      exact ⟨ob', h1, rfl, rfl⟩
    · intro o
      rw [hobs]
      simp only [View.after, List.mem_cons]
      split
      · simp [*]
      · rename_i hne
        rw [I.obs]
        simp [hne]
    · intro o ho
      rw [hobs] at ho
      show o < h.no + 1
      split at ho
      · omega
      · have := I.obsLt o ho
        omega
  | newSuite =>
    left
    refine ⟨_, _, rfl, ?_⟩
    have hfresh : h.suite h.ns = none := by
      by_contra e
      exact absurd (I.suitesLt _ e) (by omega)
    set h' : Heap := { h.setSuite h.ns (some ⟨none⟩) with ns := h.ns + 1 } with hh'
    have hsu : ∀ s, h'.suite s = if s = h.ns then some ⟨none⟩ else h.suite s := by
      intro s
      simp [hh', Heap.setSuite, Function.update_apply]
    refine ⟨I.forest.same rfl rfl (Link.of_eq I.forest.link rfl rfl) (Nat.le_refl _) (Kinds.of_eq rfl), I.obs, I.obsLt, ?_, ?_, ?_, ?_⟩
    · intro s
      rw [hsu]
      simp only [View.after, List.mem_cons]
      split
      · simp [*]
      · rename_i hne
        rw [I.suites]
        simp [hne]
    · intro s hs
      rw [hsu] at hs
      show s < h.ns + 1
      split at hs
      · omega
      · have := I.suitesLt s hs
        omega
    · intro s so hs
      rw [hsu] at hs
      split at hs
      · rename_i e
        cases hs
        subst e
        show none = (v.lent h.ns).map Handle.id
        cases hl : v.lent h.ns with
        | none => rfl
        | some d => exact absurd hfresh (I.lent _ d hl).1
      · exact I.cur s so hs
    · intro s d hl
      obtain ⟨h1, h2⟩ := I.lent s d hl
      refine ⟨?_, h2⟩
      rw [hsu]
      split
      · simp
      · exact h1
  | getProblem s t =>
    left
    obtain ⟨so, hso⟩ := Option.ne_none_iff_exists'.1 ((I.suites s).2 ha)
    obtain ⟨l, B⟩ := build_ok t h (some s) I.forest.lt
    refine ⟨(build h (some s) t).1, some (build h (some s) t).2, ?_, ?_⟩
    · simp [Lifecycle.step, Lifecycle.getProblem, hso, deref]
    · set h' := (build h (some s) t).1 with hh'
      set p := (build h (some s) t).2 with hp
      refine ⟨(I.forest.insert B .user).congr ?_, ?_, ?_, ?_, ?_, ?_, ?_⟩
      · intro σ d
        cases σ with
        | user => simp [At, View.after, or_comm]
        | suite s' => simp [At, View.after]
      · rw [B.obs]
        exact I.obs
      · rw [B.obs, B.no]
        exact I.obsLt
      · rw [B.suite]
        exact I.suites
      · rw [B.suite, B.ns]
        exact I.suitesLt
      · rw [B.suite]
        exact I.cur
      · rw [B.suite]
        exact I.lent
  | nextProblem s next observer =>
    obtain ⟨hs, hobs⟩ := ha
    obtain ⟨so, hso⟩ := Option.ne_none_iff_exists'.1 ((I.suites s).2 hs)
    cases next with
    | none =>
      left
      exact ⟨h, none, by simp [Lifecycle.step, Lifecycle.nextProblem, hso, deref], I⟩
    | some t =>
      obtain ⟨h1, e1, F1, a1, a2, a3, a4⟩ := I.freeCurrent hso
      obtain ⟨l, B⟩ := build_ok t h1 (some s) F1.lt
      have F2 := F1.insert B (.suite s)
      set h2 := (build h1 (some s) t).1 with hh2
      set p := (build h1 (some s) t).2 with hp
      have hcall : Lifecycle.step h (.nextProblem s (some t) observer) =
          (match observer with
            | none => Res.ok (h2, p)
            | some o => addObserver h2 p o).bind fun (h, q) => .ok (h.setSuite s (some ⟨some q⟩), some q) := by
        simp only [Lifecycle.step, Lifecycle.nextProblem, hso, deref, Res.ok_bind]
        rw [e1, Res.ok_bind]
        cases observer <;> rfl
      -- the last assignment
      have hlast : ∀ (h3 : Heap) (q : Nat) (os : List Nat), os = observer.toList →
          Forest h3 (fun σ' d' => (At v σ' d' ∧ σ' ≠ .suite s) ∨ (σ' = .suite s ∧ d' = ⟨q, s, os⟩)) →
          h3.suite = h2.suite → h3.no = h2.no → h3.ns = h2.ns → (∀ o, h3.obs o = none ↔ h2.obs o = none) →
          Inv (h3.setSuite s (some ⟨some q⟩)) (v.after (.nextProblem s (some t) observer) (some q)) := by
        intro h3 q os hos F3 b1 b2 b3 b4
        have hsu : ∀ s', (h3.setSuite s (some ⟨some q⟩)).suite s' = if s' = s then some ⟨some q⟩ else h.suite s' := by
          intro s'
          simp only [Heap.setSuite, Function.update_apply, b1, B.suite, a1]
        have hne : ∀ s', (h3.setSuite s (some ⟨some q⟩)).suite s' ≠ none ↔ h.suite s' ≠ none := by
          intro s'
          rw [hsu]
          split
          · simp [*]
          · rfl
        have ho : ∀ o, h3.obs o ≠ none ↔ h.obs o ≠ none := by
          intro o
          rw [Ne, b4, B.obs, a4]
        refine ⟨(F3.same (h' := h3.setSuite s (some ⟨some q⟩)) rfl rfl (Link.of_eq F3.link rfl rfl) (Nat.le_refl _)
          (Kinds.of_eq rfl)).congr ?_, ?_, ?_, ?_, ?_, ?_, ?_⟩
        · intro σ d
          cases σ with
          | user => simp [At, View.after]
          | suite s' =>
            simp only [At, View.after, Function.update_apply, ← hos]
            by_cases e : s' = s
            · simp [e, eq_comm]
            · simp [e]
        · intro o
          exact (ho o).trans (I.obs o)
        · intro o h5
          show o < h3.no
          rw [b2, B.no, a2]
          exact I.obsLt o ((ho o).1 h5)
        · intro s'
          exact (hne s').trans (I.suites s')
        · intro s' h5
          show s' < h3.ns
          rw [b3, B.ns, a3]
          exact I.suitesLt s' ((hne s').1 h5)
        · intro s' so' h5
          rw [hsu] at h5
          simp only [View.after, Function.update_apply]
          split at h5
          · cases h5
            simp [*]
          · rename_i e
            rw [if_neg e]
            exact I.cur s' so' h5
        · intro s' d h5
          rw [hne]
          simp only [View.after, Function.update_apply] at h5
          split at h5
          · rename_i e
            cases h5
            subst e
            exact ⟨by simp [hso], rfl⟩
          · exact I.lent s' d h5
      rw [hcall]
      cases observer with
      | none =>
        left
        exact ⟨_, _, rfl, hlast h2 p [] rfl F2 rfl rfl rfl (fun _ => Iff.rfl)⟩
      | some o =>
        have hoa := (I.obs o).2 (hobs o rfl)
        have ho2 : h2.obs o ≠ none := by
          rw [B.obs, Ne, a4]
          exact hoa
        obtain ⟨ob, hob⟩ := Option.ne_none_iff_exists'.1 ho2
        rcases F2.addObserver (σ := .suite s) (d := ⟨p, s, []⟩) (.inr ⟨rfl, rfl⟩) hob
          (by rw [B.no, a2]; exact I.obsLt o hoa) (by rw [B.suite, a1, hso]; simp) with ⟨-, -, e⟩ | ⟨-, h3, e, F3, b1, b2, b3, b4⟩
        · right
          refine ⟨?_, .inr (.inr ⟨s, t, o, rfl⟩)⟩
          dsimp only
          rw [e]
          rfl
        · left
          refine ⟨_, _, by dsimp only; rw [e]; rfl, hlast h3 h2.np [o] rfl (F3.congr ?_) b1 b2 b3 b4⟩
          intro σ d
          constructor
          · rintro (h5 | h5)
            · exact .inl ⟨.inl h5, fun e => h5.2 e.1⟩
            · exact .inr h5
          · rintro (⟨h5 | h5, h6⟩ | h5)
            · exact .inl h5
            · exact absurd h5 h6
            · exact .inr h5
  | addObserver p o =>
    obtain ⟨⟨d, hd, rfl, hds⟩, ho⟩ := ha
    have hoa := (I.obs o).2 ho
    obtain ⟨ob, hob⟩ := Option.ne_none_iff_exists'.1 hoa
    rcases I.forest.addObserver (σ := .user) (d := d) hd hob (I.obsLt o hoa) ((I.suites _).2 hds) with
      ⟨-, -, e⟩ | ⟨-, h3, e, F3, b1, b2, b3, b4⟩
    · right
      refine ⟨?_, .inl ⟨d.id, o, rfl⟩⟩
      simp only [Lifecycle.step]
      rw [e]
      rfl
    · left
      refine ⟨h3, some h.np, by simp only [Lifecycle.step]; rw [e]; rfl, F3.congr ?_, ?_, ?_, ?_, ?_, ?_, ?_⟩
      · exact I.at_replace hd (fun e => ⟨h.np, e.suite, o :: e.observers⟩) rfl
      · intro o'
        rw [Ne, b4]
        exact I.obs o'
      · intro o' h5
        rw [b2]
        exact I.obsLt o' (fun e => h5 ((b4 o').2 e))
      · rw [b1]
        exact I.suites
      · rw [b1, b3]
        exact I.suitesLt
      · rw [b1]
        exact I.cur
      · rw [b1]
        exact I.lent
  | removeObserver p o =>
    obtain ⟨⟨d, hd, rfl⟩, ho⟩ := ha
    obtain ⟨ob, hob⟩ := Option.ne_none_iff_exists'.1 ((I.obs o).2 ho)
    obtain ⟨l, t⟩ := I.forest.own .user d hd
    obtain ⟨⟨n, su⟩, hv, -⟩ := t.root
    by_cases hn : ∃ k ptr init q, n = .logger k ob.name ptr init q
    · left
      obtain ⟨k, ptr, init, q, rfl⟩ := hn
      obtain ⟨h3, e, F3, b1, b0, b2, b3, b4⟩ := I.forest.unwrap (σ := .user) (d := d) hd hv
      refine ⟨h3, some q, ?_, F3.congr ?_, ?_, ?_, ?_, ?_, ?_, ?_⟩
      · simp only [Lifecycle.step, removeObserver, hob, hv, deref, Res.ok_bind, if_true]
        exact e
      · exact I.at_replace hd (fun e => ⟨q, e.suite, e.observers.tail⟩) rfl
      · intro o'
        rw [Ne, b4]
        exact I.obs o'
      · intro o' h5
        rw [b2]
        exact I.obsLt o' (fun e => h5 ((b4 o').2 e))
      · rw [b1]
        exact I.suites
      · rw [b1, b3]
        exact I.suitesLt
      · rw [b1]
        exact I.cur
      · rw [b1]
        exact I.lent
    · right
      refine ⟨?_, .inr (.inl ⟨d.id, o, rfl⟩)⟩
      simp only [Lifecycle.step, removeObserver, hob, hv, deref, Res.ok_bind]
      cases n with
      | logger k name ptr init q =>
        dsimp only
        rw [if_neg]
        rintro rfl
        exact hn ⟨k, ptr, init, q, rfl⟩
      | base => rfl
      | wrap q => rfl
      | stacked q1 q2 => rfl
  | evaluate p =>
    left
    obtain ⟨d, hd, rfl, hs, hos⟩ := ha
    obtain ⟨σ, hσ⟩ : ∃ σ, At v σ d := by
      rcases hd with hd | ⟨s, hd⟩
      · exact ⟨.user, hd⟩
      · exact ⟨.suite s, hd⟩
    obtain ⟨l, t⟩ := I.forest.own σ d hσ
    obtain ⟨h', e, a⟩ := evaluate_own t ((I.suites _).2 hs) (fun o ho => (I.obs o).2 (hos o ho)) h (h.np + 1) (Sim.refl h)
      (by have := length_le t.nodup t.alive I.forest.lt; omega)
    exact ⟨h', none, by simp only [Lifecycle.step]; rw [e]; rfl, I.sim a⟩
  | recommend p =>
    left
    obtain ⟨d, hd, rfl, hs, hos⟩ := ha
    obtain ⟨σ, hσ⟩ : ∃ σ, At v σ d := by
      rcases hd with hd | ⟨s, hd⟩
      · exact ⟨.user, hd⟩
      · exact ⟨.suite s, hd⟩
    obtain ⟨l, t⟩ := I.forest.own σ d hσ
    obtain ⟨h', e, a⟩ := recommend_own t ((I.suites _).2 hs) (fun o ho => (I.obs o).2 (hos o ho)) (h.np + 1)
      (by have := length_le t.nodup t.alive I.forest.lt; omega)
    exact ⟨h', none, by simp only [Lifecycle.step]; rw [e]; rfl, I.sim a⟩
  | freeProblem p =>
    left
    obtain ⟨d, hd, rfl⟩ := ha
    obtain ⟨h1, e, F1, b1, b0, b2, b3, b4⟩ := I.forest.remove (σ := .user) (d := d) hd
    refine ⟨h1, none, by simp only [Lifecycle.step]; rw [e]; rfl, F1.congr ?_, ?_, ?_, ?_, ?_, ?_, ?_⟩
    · intro σ d'
      cases σ with
      | suite s => simp [At, View.after]
      | user =>
        simp only [At, View.after, List.mem_filter, true_and]
        constructor
        · rintro ⟨h1, h2⟩
          refine ⟨h1, ?_⟩
          rintro rfl
          simp at h2
        · rintro ⟨h1, h2⟩
          exact ⟨h1, by simpa using fun e => h2 (I.held_unique h1 hd e)⟩
    · intro o'
      rw [Ne, b4]
      exact I.obs o'
    · intro o' h5
      rw [b2]
      exact I.obsLt o' (fun e => h5 ((b4 o').2 e))
    · rw [b1]
      exact I.suites
    · rw [b1, b3]
      exact I.suitesLt
    · rw [b1]
      exact I.cur
    · rw [b1]
      exact I.lent
  | freeObserver o =>
    left
    obtain ⟨ob, hob⟩ := Option.ne_none_iff_exists'.1 ((I.obs o).2 ha)
    obtain ⟨h1, e, F1, b1, b0, b2, b3, b4⟩ := I.forest.freeObserver hob
    refine ⟨h1, none, by simp only [Lifecycle.step]; rw [e]; rfl, F1, ?_, ?_, ?_, ?_, ?_, ?_⟩
    · intro o'
      rw [b4]
      simp only [View.after, List.mem_filter]
      split
      · simp [*]
      · rename_i hne
        rw [I.obs]
        simp [hne]
    · intro o' h5
      rw [b4] at h5
      rw [b2]
      split at h5
      · simp at h5
      · exact I.obsLt o' h5
    · rw [b1]
      exact I.suites
    · rw [b1, b3]
      exact I.suitesLt
    · rw [b1]
      exact I.cur
    · rw [b1]
      exact I.lent
  | freeSuite s =>
    left
    obtain ⟨so, hso⟩ := Option.ne_none_iff_exists'.1 ((I.suites s).2 ha)
    obtain ⟨h1, e1, F1, a1, a2, a3, a4⟩ := I.freeCurrent hso
    have hsu : ∀ s', (h1.setSuite s none).suite s' = if s' = s then none else h.suite s' := by
      intro s'
      simp only [Heap.setSuite, Function.update_apply, a1]
    refine ⟨h1.setSuite s none, none, ?_, (F1.same (h' := h1.setSuite s none) rfl rfl (Link.of_eq F1.link rfl rfl) (Nat.le_refl _)
      (Kinds.of_eq rfl)).congr ?_, ?_, ?_, ?_, ?_, ?_, ?_⟩
    · simp only [Lifecycle.step, Lifecycle.freeSuite, hso, deref, Res.ok_bind]
      rw [e1]
      rfl
    · intro σ d
      cases σ with
      | user => simp [At, View.after]
      | suite s' =>
        simp only [At, View.after, Function.update_apply]
        by_cases e : s' = s
        · simp [e]
        · simp [e]
    · intro o'
      show h1.obs o' ≠ none ↔ _
      rw [Ne, a4]
      exact I.obs o'
    · intro o' h5
      show o' < h1.no
      rw [a2]
      exact I.obsLt o' (fun e => h5 ((a4 o').2 e))
    · intro s'
      rw [hsu]
      simp only [View.after, List.mem_filter]
      split
      · simp [*]
      · rename_i hne
        rw [I.suites]
        simp [hne]
    · intro s' h5
      rw [hsu] at h5
      show s' < h1.ns
      rw [a3]
      split at h5
      · simp at h5
      · exact I.suitesLt s' h5
    · intro s' so' h5
      rw [hsu] at h5
      split at h5
      · cases h5
      · rename_i hne
        simp only [View.after, Function.update_apply, if_neg hne]
        exact I.cur s' so' h5
    · intro s' d h5
      rw [hsu]
      simp only [View.after, Function.update_apply] at h5
      split at h5
      · cases h5
      · rename_i hne
        rw [if_neg hne]
        exact I.lent s' d h5

theorem Reach.inv {h : Heap} {v : View} (r : Reach h v) : Inv h v := by
  induction r with
  | init =>
    refine ⟨⟨?_, ⟨?_, ?_⟩, ?_, ?_, ?_⟩, ?_, ?_, ?_, ?_, ?_, ?_⟩ <;> simp [Heap.init, View.init]
    · intro σ d hd
      cases σ <;> simp [At] at hd
    · intro σ d σ' d' x hd
      cases σ <;> simp [At] at hd
  | step r ha e ih =>
    rcases ih.step _ ha with ⟨h1, out1, e1, I1⟩ | ⟨e1, -⟩
    · rw [e] at e1
      cases e1
      exact I1
    · rw [e] at e1
      cases e1

/-! ### C96 -/

/-- Programs that follow the rules of `View.Allowed` never make the library use freed objects, free an object twice or fail an
assertion, whatever the order of the calls. -/
theorem C96_safe {h : Heap} {v : View} (r : Reach h v) {op : Op} (ha : v.Allowed op) :
    Lifecycle.step h op ≠ .ub ∧ Lifecycle.step h op ≠ .assertFail := by
  rcases (Reach.inv r).step op ha with ⟨h', out, e, -⟩ | ⟨e, -⟩ <;> rw [e] <;> simp

/-- All calls except those that put on or take off an observer succeed: in particular problems, observers and suites can be freed in
any order. -/
theorem C96_any_order {h : Heap} {v : View} (r : Reach h v) {op : Op} (ha : v.Allowed op) (h1 : ∀ p o, op ≠ .addObserver p o)
    (h2 : ∀ p o, op ≠ .removeObserver p o) (h3 : ∀ s t o, op ≠ .nextProblem s (some t) (some o)) :
    ∃ h' out, Lifecycle.step h op = .ok (h', out) := by
  rcases (Reach.inv r).step op ha with ⟨h', out, e, -⟩ | ⟨-, ⟨p, o, rfl⟩ | ⟨p, o, rfl⟩ | ⟨s, t, o, rfl⟩⟩
  · exact ⟨h', out, e⟩
  · exact (h1 p o rfl).elim
  · exact (h2 p o rfl).elim
  · exact (h3 s t o rfl).elim

theorem Own.busy {h : Heap} {p s : Nat} {os l : List Nat} (t : Own h p s os l) (L : Link h) {o : Nat} {ob : ObsObj}
    (ho : h.obs o = some ob) (hk : ob.kind.linked = true) : o ∈ os → ob.observed ≠ none := by
  induction t with
  | plain => simp
  | @logger p s os l k name ptr init q o1 e t hn hlt htoy hlink hkind ih =>
    intro hm
    rcases List.mem_cons.1 hm with rfl | hm
    · rw [(hkind ob ho).1] at hk
      rcases hlink hk with rfl | ⟨-, h2⟩
      · obtain ⟨ob', h1, h2⟩ := L.fwd _ _ _ _ _ _ _ hk e
        rw [ho] at h1
        cases h1
        simp [h2]
      · rw [ho] at h2
        cases h2
    · exact ih hm

theorem Own.on {h : Heap} {p s : Nat} {os l : List Nat} (t : Own h p s os l) {x k name o init q su}
    (hx : h.prob x = some ⟨.logger k name (some o) init q, su⟩) (hk : k.linked = true) : x ∈ l → o ∈ os := by
  induction t with
  | plain _ t => exact fun hm => absurd hx (t.not_logger x hm _ _ _ _ _ _)
  | logger e t hn hlt htoy hlink hkind ih =>
    intro hm
    rcases List.mem_cons.1 hm with rfl | hm
    · rw [e] at hx
      cases hx
      rcases hlink hk with h1 | ⟨h1, -⟩
      · cases h1
        simp
      · cases h1
    · exact List.mem_cons_of_mem _ (ih hm)

theorem Inv.observed_iff {h : Heap} {v : View} (I : Inv h v) {o : Nat} {ob : ObsObj} (ho : h.obs o = some ob)
    (hk : ob.kind.linked = true) : ob.observed ≠ none ↔ v.Busy o := by
  constructor
  · intro hne
    obtain ⟨x, hx⟩ := Option.ne_none_iff_exists'.1 hne
    obtain ⟨k, name, init, q, su, hk', hp⟩ := I.forest.link.bwd o ob x ho hx
    obtain ⟨σ, d, hd, l, t, hm⟩ := I.forest.cover x (by simp [hp])
    refine ⟨d, ?_, t.on hp hk' hm⟩
    cases σ with
    | user => exact .inl hd
    | suite s => exact .inr ⟨s, hd⟩
  · rintro ⟨d, hd, hm⟩
    obtain ⟨σ, hσ⟩ : ∃ σ, At v σ d := by
      rcases hd with hd | ⟨s, hd⟩
      · exact ⟨.user, hd⟩
      · exact ⟨.suite s, hd⟩
    obtain ⟨l, t⟩ := I.forest.own σ d hσ
    exact t.busy I.forest.link ho hk hm

/-- A bbob or bbob-biobj observer can be put on a problem if and only if it is not on another one that has not been freed; otherwise
the process stops with an error message. The other observers can be put on any number of problems. -/
theorem C96_one_at_a_time {h : Heap} {v : View} (r : Reach h v) {p o : Nat} (ha : v.Allowed (.addObserver p o)) {ob : ObsObj}
    (ho : h.obs o = some ob) :
    ((∃ h' q, Lifecycle.step h (.addObserver p o) = .ok (h', some q)) ↔ ¬ (ob.kind.linked = true ∧ v.Busy o)) ∧
    (Lifecycle.step h (.addObserver p o) = .error ↔ ob.kind.linked = true ∧ v.Busy o) := by
  have I := Reach.inv r
  obtain ⟨⟨d, hd, rfl, hds⟩, hov⟩ := ha
  rcases I.forest.addObserver (σ := .user) (d := d) hd ho (I.obsLt o (by simp [ho])) ((I.suites _).2 hds) with
    ⟨h1, h2, e⟩ | ⟨h1, h3, e, -⟩
  · have hb : ob.kind.linked = true ∧ v.Busy o := ⟨h1, (I.observed_iff ho h1).1 h2⟩
    simp only [Lifecycle.step]
    rw [e]
    simp [Res.bind, hb]
  · have hb : ¬ (ob.kind.linked = true ∧ v.Busy o) := fun hb => (I.observed_iff ho hb.1).2 hb.2 (h1 hb.1)
    simp only [Lifecycle.step]
    rw [e]
    simp [Res.bind, hb]

/-- The iteration with a bbob or bbob-biobj observer works although the observer is on the previous problem: that one is freed before. -/
theorem C96_iteration {h : Heap} {v : View} (r : Reach h v) {s o : Nat} {t : Shape}
    (ha : v.Allowed (.nextProblem s (some t) (some o)))
    (hfree : ∀ d, (d ∈ v.held ∨ ∃ s', s' ≠ s ∧ v.lent s' = some d) → o ∉ d.observers) :
    ∃ h' p, Lifecycle.step h (.nextProblem s (some t) (some o)) = .ok (h', some p) := by
  have I := Reach.inv r
  obtain ⟨hs, hobs⟩ := ha
  obtain ⟨so, hso⟩ := Option.ne_none_iff_exists'.1 ((I.suites s).2 hs)
  obtain ⟨h1, e1, F1, a1, a2, a3, a4⟩ := I.freeCurrent hso
  obtain ⟨l, B⟩ := build_ok t h1 (some s) F1.lt
  have F2 := F1.insert B (.suite s)
  set h2 := (build h1 (some s) t).1 with hh2
  set p := (build h1 (some s) t).2 with hp
  have hoa := (I.obs o).2 (hobs o rfl)
  obtain ⟨ob, hob⟩ := Option.ne_none_iff_exists'.1 (show h2.obs o ≠ none by rw [B.obs, Ne, a4]; exact hoa)
  have hcall : Lifecycle.step h (.nextProblem s (some t) (some o)) =
      (addObserver h2 p o).bind fun (h, q) => .ok (h.setSuite s (some ⟨some q⟩), some q) := by
    simp only [Lifecycle.step, Lifecycle.nextProblem, hso, deref, Res.ok_bind]
    rw [e1, Res.ok_bind]
  rw [hcall]
  rcases F2.addObserver (σ := .suite s) (d := ⟨p, s, []⟩) (.inr ⟨rfl, rfl⟩) hob
    (by rw [B.no, a2]; exact I.obsLt o hoa) (by rw [B.suite, a1, hso]; simp) with ⟨hk, hne, -⟩ | ⟨-, h3, e, -⟩
  · exfalso
    obtain ⟨x, hx⟩ := Option.ne_none_iff_exists'.1 hne
    rw [B.obs] at hob
    obtain ⟨k, name, init, q, su, hk', hp⟩ := F1.link.bwd o ob x hob hx
    obtain ⟨σ, d, ⟨hd, hσ⟩, l, t, hm⟩ := F1.cover x (by simp [hp])
    have hon := t.on hp hk' hm
    cases σ with
    | user => exact hfree d (.inl hd) hon
    | suite s' => exact hfree d (.inr ⟨s', fun e => hσ (by rw [e]), hd⟩) hon
  · rw [e]
    exact ⟨_, _, rfl⟩

/-- The last observer that has been put on a problem can be taken off. -/
theorem C96_remove {h : Heap} {v : View} (r : Reach h v) {d : Handle} {o : Nat} {os : List Nat} (hd : d ∈ v.held)
    (hos : d.observers = o :: os) (ho : o ∈ v.observers) :
    ∃ h' q, Lifecycle.step h (.removeObserver d.id o) = .ok (h', some q) := by
  have I := Reach.inv r
  obtain ⟨ob, hob⟩ := Option.ne_none_iff_exists'.1 ((I.obs o).2 ho)
  obtain ⟨l, t⟩ := I.forest.own .user d hd
  generalize hid : d.id = p at t
  rw [hos] at t
  cases t with
  | logger e t hn hlt htoy hlink hkind =>
    obtain ⟨h3, e3, -⟩ := I.forest.unwrap (σ := .user) (d := d) hd (hid ▸ e)
    rw [hid] at e3
    refine ⟨h3, _, Eq.trans ?_ e3⟩
    simp only [Lifecycle.step, removeObserver, hob, e, deref, Res.ok_bind, (hkind ob hob).2, if_true]

/-- When all suites and the problems obtained one by one have been freed, no problem object is left, and when the observers have been
freed, too, nothing is left. -/
theorem C96_no_leak {h : Heap} {v : View} (r : Reach h v) (hp : v.held = []) (hs : v.suites = []) :
    (∀ p, h.prob p = none) ∧ (∀ s, h.suite s = none) ∧ (v.observers = [] → ∀ o, h.obs o = none) := by
  have I := Reach.inv r
  have hsu : ∀ s, h.suite s = none := by
    intro s
    by_contra e
    have := (I.suites s).1 e
    simp [hs] at this
  refine ⟨fun p => ?_, hsu, fun ho o => ?_⟩
  · by_contra e
    obtain ⟨σ, d, hd, -⟩ := I.forest.cover p e
    cases σ with
    | user => simp [At, hp] at hd
    | suite s => exact (I.lent s d hd).1 (hsu s)
  · by_contra e
    have := (I.obs o).1 e
    simp [ho] at this

/-- Several calls. -/
def Spec.run (h : Heap) : List Op → Res Heap
  | [] => .ok h
  | op :: ops => (Lifecycle.step h op).bind fun (h, _) => Spec.run h ops

/-- What happens to programs that do not follow the rules: use of the closed log file of a toy observer, of the null pointer to a
biobj observer, of the name of a freed suite, the failed assertion of a bbob logger without observer, the second freeing of a logger
that was taken off a suite's current problem, a problem object that nobody frees, and the evaluation of a problem that the suite has
replaced. -/
theorem C96_rules_needed :
    Spec.run Heap.init [.newSuite, .newObserver .toy "toy", .getProblem 0 .base, .addObserver 0 0, .freeObserver 0, .evaluate 1]
      = .ub ∧
    Spec.run Heap.init [.newSuite, .newObserver .biobj "b", .getProblem 0 (.stacked .base .base), .addObserver 2 0, .evaluate 3,
      .freeObserver 0, .recommend 3] = .ub ∧
    Spec.run Heap.init [.newSuite, .newObserver .bbob "b", .getProblem 0 .base, .addObserver 0 0, .freeSuite 0, .evaluate 1]
      = .ub ∧
    Spec.run Heap.init [.newSuite, .newObserver .bbob "b", .getProblem 0 .base, .addObserver 0 0, .freeObserver 0, .evaluate 1]
      = .assertFail ∧
    Spec.run Heap.init [.newSuite, .newObserver .bbob "b", .nextProblem 0 (some .base) (some 0), .removeObserver 1 0, .freeSuite 0]
      = .ub ∧
    (∃ h, Spec.run Heap.init [.newSuite, .newObserver .bbob "b", .nextProblem 0 (some .base) none, .addObserver 0 0, .freeSuite 0,
      .freeObserver 0] = .ok h ∧ h.prob 1 ≠ none) ∧
    Spec.run Heap.init [.newSuite, .nextProblem 0 (some .base) none, .nextProblem 0 (some .base) none, .evaluate 0] = .ub := by
  refine ⟨rfl, rfl, rfl, rfl, rfl, ⟨_, rfl, ?_⟩, rfl⟩
  decide

/-- Calls whose successive states satisfy the rules reach a state. -/
theorem Spec.Reach.call {h : Heap} {v : View} (r : Reach h v) (op : Op) (ha : v.Allowed op) {h' : Heap} {out : Option Nat}
    (e : Lifecycle.step h op = .ok (h', out)) : Reach h' (v.after op out) := Reach.step r ha e

/-- The theorems are not about nothing: a state with a problem under two observers, and a suite whose current problem is observed by a
third one; from there the first observer is freed before its problem. -/
example : ∃ h v, Reach h v ∧ v.held = [⟨4, 0, [1, 0]⟩] ∧ v.lent 0 = some ⟨7, 0, [2]⟩ ∧ v.observers = [2, 1, 0] ∧ v.suites = [0] ∧
    v.Busy 1 ∧ v.Allowed (.evaluate 4) ∧ v.Allowed (.freeObserver 1) ∧ v.Allowed (.freeSuite 0) := by
  have r := Reach.init
  have r := r.call .newSuite trivial rfl
  have r := r.call (.newObserver .rw "rw") trivial rfl
  have r := r.call (.newObserver .bbob "bbob") trivial rfl
  have r := r.call (.newObserver .bbob "second") trivial rfl
  have r := r.call (.getProblem 0 (.stacked .base .base)) (List.Mem.head _) rfl
  have r := r.call (.addObserver 2 0) ⟨⟨⟨2, 0, []⟩, .head _, rfl, .head _⟩, .tail _ (.tail _ (.head _))⟩ rfl
  have r := r.call (.addObserver 3 1) ⟨⟨⟨3, 0, [0]⟩, .head _, rfl, .head _⟩, .tail _ (.head _)⟩ rfl
  have r := r.call (.nextProblem 0 (some (.wrap .base)) (some 2)) ⟨.head _, fun o' e => by cases e; exact .head _⟩ rfl
  refine ⟨_, _, r, rfl, rfl, rfl, rfl, ?_, ?_, ?_, ?_⟩
  · exact ⟨⟨4, 0, [1, 0]⟩, .inl (.head _), by simp⟩
  · refine ⟨⟨4, 0, [1, 0]⟩, .inl (.head _), rfl, .head _, fun o ho => ?_⟩
    rcases List.mem_cons.1 ho with rfl | ho
    · exact .tail _ (.head _)
    · rw [List.mem_singleton.1 ho]
      exact .tail _ (.tail _ (.head _))
  · exact .tail _ (.head _)
  · exact .head _

end Lifecycle
