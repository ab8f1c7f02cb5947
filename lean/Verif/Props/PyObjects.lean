import Verif.Model.PyObjects
import Verif.Props.Lifecycle

/-!
# Objects of the Python interface: C125
-/

namespace PyObjects

open Lifecycle Lifecycle.Spec

/-! ### Specification -/

/-- The suite that each problem object came from. -/
def Spec.home (a : Nat → Nat) (v : Objects) : Call → Nat → Nat
  | .getProblem s _ _ => Function.update a v.np s
  | .nextProblem s _ _ => Function.update a v.np s
  | _ => a

/-- The suite object has neither been collected nor freed. -/
def Spec.SuiteOpen (v : Objects) (s : Nat) : Prop := ∃ x c, v.suites s = some x ∧ x.ptr = some c

/-- The observer object has neither been collected nor freed. -/
def Spec.ObserverOpen (v : Objects) (o : Nat) : Prop := ∃ c, v.observers o = some (some c)

/-- The rules that a program has to follow although the interface does not say so: problems that have not been freed are observed and
evaluated only while their suite is there and the observers on them have not been freed; counters of freed problems are not asked
for. -/
def Spec.Rule (v : Objects) (a : Nat → Nat) : Call → Prop
  | .observeWith p _ => ∀ x, v.problems p = some x → x.ptr ≠ none → Spec.SuiteOpen v (a p)
  | .call p => ∀ x, v.problems p = some x → x.ptr ≠ none → Spec.SuiteOpen v (a p) ∧ ∀ o ∈ x.observers, Spec.ObserverOpen v o
  | .recommend p => ∀ x, v.problems p = some x → x.ptr ≠ none → Spec.SuiteOpen v (a p) ∧ ∀ o ∈ x.observers, Spec.ObserverOpen v o
  | .evaluations p => ∀ x, v.problems p = some x → x.ptr ≠ none
  | _ => True

/-- The states of programs that follow the rules, with any work of the collector in between. -/
inductive Spec.Reach : Heap → Objects → (Nat → Nat) → Prop
  | init : Spec.Reach Heap.init Objects.init fun _ => 0
  | step {h h' : Heap} {v v' : Objects} {a : Nat → Nat} {c : Call} {e : Bool} : Spec.Reach h v a → Possible v c → Spec.Rule v a c →
      PyObjects.step h v c = .ok (h', v', e) → Spec.Reach h' v' (Spec.home a v c)

/-! ### Calls of the library -/

theorem build_ge (t : Shape) : ∀ (h : Heap) (su : Option Nat),
    h.np ≤ (build h su t).2 ∧ (build h su t).1.np = (build h su t).2 + 1 := by
  induction t with
  | base => intro h su; simp [build, Heap.newProb]
  | wrap t ih =>
    intro h su
    have := ih h none
    exact ⟨show h.np ≤ (build h none t).1.np by omega, rfl⟩
  | stacked t1 t2 ih1 ih2 =>
    intro h su
    have h1 := ih1 h none
    have h2 := ih2 (build h none t1).1 none
    exact ⟨show h.np ≤ (build (build h none t1).1 none t2).1.np by omega, rfl⟩

theorem Inv.held_lt {h : Heap} {w : View} (I : Inv h w) {d : Handle} (hd : d ∈ w.held) : d.id < h.np := by
  obtain ⟨l, t⟩ := I.forest.own .user d hd
  exact I.forest.lt _ (t.alive _ t.mem)

theorem Inv.held_alive {h : Heap} {w : View} (I : Inv h w) {d : Handle} (hd : d ∈ w.held) : ∃ x, h.prob d.id = some x := by
  obtain ⟨l, t⟩ := I.forest.own .user d hd
  exact Option.ne_none_iff_exists'.1 (t.alive _ t.mem)

theorem lib_free {h : Heap} {w : View} (I : Inv h w) {d : Handle} (hd : d ∈ w.held) :
    ∃ h', Lifecycle.freeProblem h d.id = .ok h' ∧ Inv h' { w with held := w.held.filter fun e => e.id ≠ d.id } := by
  rcases I.step (.freeProblem d.id) ⟨d, hd, rfl⟩ with ⟨h', out, e, I'⟩ | ⟨e, h1⟩
  · simp only [Lifecycle.step] at e
    rcases hev : Lifecycle.freeProblem h d.id with h3 | _ | _ | _ <;> rw [hev] at e
    · simp only [Res.ok_bind, Res.ok.injEq, Prod.mk.injEq] at e
      obtain ⟨rfl, rfl⟩ := e
      exact ⟨h3, rfl, I'⟩
    all_goals cases e
  · simp at h1

theorem lib_get {h : Heap} {w : View} (I : Inv h w) {c : Nat} (hc : c ∈ w.suites) (t : Shape) :
    ∃ h' q, Lifecycle.getProblem h c t = .ok (h', q) ∧ Inv h' { w with held := ⟨q, c, []⟩ :: w.held } ∧ ∀ d ∈ w.held, d.id ≠ q := by
  obtain ⟨so, hso⟩ := Option.ne_none_iff_exists'.1 ((I.suites c).2 hc)
  rcases I.step (.getProblem c t) hc with ⟨h', out, e, I'⟩ | ⟨e, h1⟩
  · simp only [Lifecycle.step, getProblem, hso, deref, Res.ok_bind, Res.ok.injEq, Prod.mk.injEq] at e
    obtain ⟨rfl, rfl⟩ := e
    refine ⟨_, _, by simp only [getProblem, hso, deref, Res.ok_bind], I', fun d hd e => ?_⟩
    have h1 := Inv.held_lt I hd
    have h2 := (build_ge t h (some c)).1
    omega
  · simp at h1

theorem lib_add {h : Heap} {w : View} (I : Inv h w) {d : Handle} (hd : d ∈ w.held) (hs : d.suite ∈ w.suites) {o : Nat}
    (ho : o ∈ w.observers) :
    (∃ h' q, Lifecycle.addObserver h d.id o = .ok (h', q) ∧
      Inv h' { w with held := w.held.map fun e => if e.id = d.id then ⟨q, e.suite, o :: e.observers⟩ else e } ∧
      ∀ e ∈ w.held, e.id ≠ q) ∨ Lifecycle.addObserver h d.id o = .error := by
  rcases I.step (.addObserver d.id o) ⟨⟨d, hd, rfl, hs⟩, ho⟩ with ⟨h', out, e, I'⟩ | ⟨e, -⟩
  · left
    simp only [Lifecycle.step] at e
    rcases hev : Lifecycle.addObserver h d.id o with ⟨h3, q⟩ | _ | _ | _ <;> rw [hev] at e
    · simp only [Res.ok_bind, Res.ok.injEq, Prod.mk.injEq] at e
      obtain ⟨rfl, rfl⟩ := e
      refine ⟨h3, q, rfl, I', fun e he heq => ?_⟩
      have h1 := Inv.held_lt I he
      have h2 : q = h.np := by
        unfold Lifecycle.addObserver at hev
        cases ho' : h.obs o with
        | none => rw [ho'] at hev; cases hev
        | some ob =>
          rw [ho'] at hev
          simp only [deref, Res.ok_bind] at hev
          cases hp : h.prob d.id with
          | none => rw [hp] at hev; cases hev
          | some x =>
            rw [hp] at hev
            simp only [Res.ok_bind] at hev
            cases hr : readSuite h x.suite <;> rw [hr] at hev
            · simp only [Res.ok_bind] at hev
              split_ifs at hev <;> (simp only [Heap.newProb, Res.ok.injEq, Prod.mk.injEq] at hev; exact hev.2.symm)
            all_goals cases hev
      omega
    all_goals cases e
  · right
    simp only [Lifecycle.step] at e
    rcases hev : Lifecycle.addObserver h d.id o with ⟨h3, q⟩ | _ | _ | _ <;> rw [hev] at e
    · simp at e
    all_goals first | rfl | cases e

theorem lib_eval {h : Heap} {w : View} (I : Inv h w) {d : Handle} (hd : d ∈ w.held) (hs : d.suite ∈ w.suites)
    (ho : ∀ o ∈ d.observers, o ∈ w.observers) :
    (∃ h', Lifecycle.evaluate (h.np + 1) h d.id = .ok h' ∧ Inv h' w) ∧
    ∃ h', Lifecycle.recommend (h.np + 1) h d.id = .ok h' ∧ Inv h' w := by
  have hu : w.Usable d.id := ⟨d, .inl hd, rfl, hs, ho⟩
  constructor
  · rcases I.step (.evaluate d.id) hu with ⟨h', out, e, I'⟩ | ⟨e, h1⟩
    · simp only [Lifecycle.step] at e
      rcases hev : Lifecycle.evaluate (h.np + 1) h d.id with h3 | _ | _ | _ <;> rw [hev] at e
      · simp only [Res.ok_bind, Res.ok.injEq, Prod.mk.injEq] at e
        obtain ⟨rfl, rfl⟩ := e
        exact ⟨h3, rfl, I'⟩
      all_goals cases e
    · simp at h1
  · rcases I.step (.recommend d.id) hu with ⟨h', out, e, I'⟩ | ⟨e, h1⟩
    · simp only [Lifecycle.step] at e
      rcases hev : Lifecycle.recommend (h.np + 1) h d.id with h3 | _ | _ | _ <;> rw [hev] at e
      · simp only [Res.ok_bind, Res.ok.injEq, Prod.mk.injEq] at e
        obtain ⟨rfl, rfl⟩ := e
        exact ⟨h3, rfl, I'⟩
      all_goals cases e
    · simp at h1

theorem lib_freeObserver {h : Heap} {w : View} (I : Inv h w) {o : Nat} (ho : o ∈ w.observers) :
    ∃ h', Lifecycle.freeObserver h o = .ok h' ∧ Inv h' { w with observers := w.observers.filter fun o' => o' ≠ o } := by
  rcases I.step (.freeObserver o) ho with ⟨h', out, e, I'⟩ | ⟨e, h1⟩
  · simp only [Lifecycle.step] at e
    rcases hev : Lifecycle.freeObserver h o with h3 | _ | _ | _ <;> rw [hev] at e
    · simp only [Res.ok_bind, Res.ok.injEq, Prod.mk.injEq] at e
      obtain ⟨rfl, rfl⟩ := e
      exact ⟨h3, rfl, I'⟩
    all_goals cases e
  · simp at h1

theorem lib_freeSuite {h : Heap} {w : View} (I : Inv h w) (hl : w.lent = fun _ => none) {s : Nat} (hs : s ∈ w.suites) :
    ∃ h', Lifecycle.freeSuite h s = .ok h' ∧ Inv h' { w with suites := w.suites.filter fun s' => s' ≠ s } := by
  rcases I.step (.freeSuite s) hs with ⟨h', out, e, I'⟩ | ⟨e, h1⟩
  · simp only [Lifecycle.step] at e
    rcases hev : Lifecycle.freeSuite h s with h3 | _ | _ | _ <;> rw [hev] at e
    · simp only [Res.ok_bind, Res.ok.injEq, Prod.mk.injEq] at e
      obtain ⟨rfl, rfl⟩ := e
      refine ⟨h3, rfl, ?_⟩
      have : Function.update w.lent s none = w.lent := by rw [hl]; funext x; simp [Function.update_apply]
      simp only [View.after, this] at I'
      exact I'
    all_goals cases e
  · simp at h1

/-! ### The objects and what the library knows of its user -/

/-- Objects refer to objects that are there. -/
structure Wf (v : Objects) (a : Nat → Nat) : Prop where
  suiteLt : ∀ s, v.suites s ≠ none → s < v.ns
  problemLt : ∀ p, v.problems p ≠ none → p < v.np ∧ a p < v.ns
  observerLt : ∀ o, v.observers o ≠ none → o < v.no
  listed : ∀ p x, v.problems p = some x → ∀ o ∈ x.observers, v.observers o ≠ none
  current : ∀ s x p, v.suites s = some x → x.current = some p → v.problems p ≠ none
  suiteRef : ∀ s, v.suiteRef s = true → v.suites s ≠ none
  problemRef : ∀ p, v.problemRef p = true → v.problems p ≠ none
  observerRef : ∀ o, v.observerRef o = true → v.observers o ≠ none

/-- The problem object and what it stands for. -/
def Stands (v : Objects) (s : Nat) (x : Problem) (d : Handle) : Prop :=
  (∀ y c, v.suites s = some y → y.ptr = some c → c = d.suite) ∧
  ∀ c ∈ d.observers, ∃ o ∈ x.observers, ∀ c', v.observers o = some (some c') → c' = c

structure Rel (v : Objects) (a : Nat → Nat) (w : View) : Prop where
  lent : w.lent = fun _ => none
  suites : ∀ c, c ∈ w.suites ↔ ∃ i y, v.suites i = some y ∧ y.ptr = some c
  suitesInj : ∀ i j y z c, v.suites i = some y → v.suites j = some z → y.ptr = some c → z.ptr = some c → i = j
  observers : ∀ c, c ∈ w.observers ↔ ∃ i, v.observers i = some (some c)
  observersInj : ∀ i j c, v.observers i = some (some c) → v.observers j = some (some c) → i = j
  problems : ∀ p x q, v.problems p = some x → x.ptr = some q → ∃ d ∈ w.held, d.id = q ∧ Stands v (a p) x d
  problemsInj : ∀ i j y z q, v.problems i = some y → v.problems j = some z → y.ptr = some q → z.ptr = some q → i = j
  held : ∀ d ∈ w.held, ∃ p x, v.problems p = some x ∧ x.ptr = some d.id

/-- A new problem object. -/
theorem Rel.add {v : Objects} {a : Nat → Nat} {w : View} (R : Rel v a w) {p : Nat} (hp : v.problems p = none) {s : Nat} {x : Problem}
    {d : Handle} (hx : x.ptr = some d.id) (hd : ∀ e ∈ w.held, e.id ≠ d.id) (hst : Stands v s x d) :
    Rel { v with problems := Function.update v.problems p (some x) } (Function.update a p s) { w with held := d :: w.held } := by
  have hne : ∀ i y, v.problems i = some y → i ≠ p := by rintro i y h rfl; rw [hp] at h; cases h
  refine ⟨R.lent, R.suites, R.suitesInj, R.observers, R.observersInj, fun i y q hi hq => ?_, fun i j y z q hi hj hy hz => ?_,
    fun e he => ?_⟩
  · simp only [Function.update_apply] at hi ⊢
    split_ifs at hi with e
    · cases hi
      rw [if_pos e]
      rw [hx] at hq
      exact ⟨d, by simp, Option.some.inj hq, hst⟩
    · rw [if_neg e]
      obtain ⟨d', h1, h2⟩ := R.problems i y q hi hq
      exact ⟨d', by simp [h1], h2⟩
  · simp only [Function.update_apply] at hi hj
    have hold : ∀ k u, v.problems k = some u → u.ptr = some d.id → False := fun k u hk hu => by
      obtain ⟨d', h1, h2, -⟩ := R.problems k u _ hk hu
      exact hd d' h1 h2
    split_ifs at hi with e1 <;> split_ifs at hj with e2
    · rw [e1, e2]
    · cases hi
      rw [hx] at hy
      cases hy
      exact (hold j z hj hz).elim
    · cases hj
      rw [hx] at hz
      cases hz
      exact (hold i y hi hy).elim
    · exact R.problemsInj i j y z q hi hj hy hz
  · rcases List.mem_cons.1 he with rfl | he
    · exact ⟨p, x, by simp, hx⟩
    · obtain ⟨i, y, h1, h2⟩ := R.held e he
      exact ⟨i, y, by simp [Function.update_of_ne (hne i y h1), h1], h2⟩

/-- A problem object with a new pointer. -/
theorem Rel.update {h : Heap} {v : Objects} {a : Nat → Nat} {w : View} (I : Inv h w) (R : Rel v a w) {p : Nat} {x x' : Problem}
    {d d' : Handle} (hp : v.problems p = some x) (hx : x.ptr = some d.id) (hd : d ∈ w.held) (hx' : x'.ptr = some d'.id)
    (f : Handle → Handle) (hf : f d = d') (hfresh : d'.id = d.id ∨ ∀ e ∈ w.held, e.id ≠ d'.id) (hst : Stands v (a p) x' d') :
    Rel { v with problems := Function.update v.problems p (some x') } a
      { w with held := w.held.map fun e => if e.id = d.id then f e else e } := by
  have hother : ∀ i y q, i ≠ p → v.problems i = some y → y.ptr = some q → ∃ e ∈ w.held, e.id = q ∧ e.id ≠ d.id ∧ Stands v (a i) y e := by
    intro i y q hi h1 h2
    obtain ⟨e, h3, h4, h5⟩ := R.problems i y q h1 h2
    refine ⟨e, h3, h4, fun he => hi ?_, h5⟩
    exact R.problemsInj i p y x q h1 hp h2 (by rw [hx, ← he, h4])
  have hne : ∀ i y, i ≠ p → v.problems i = some y → y.ptr ≠ some d'.id := by
    intro i y hi h1 h2
    obtain ⟨e, h3, h4, h5, -⟩ := hother i y _ hi h1 h2
    rcases hfresh with h | h
    · exact h5 (h4.trans h)
    · exact h e h3 h4
  refine ⟨R.lent, R.suites, R.suitesInj, R.observers, R.observersInj, fun i y q hi hq => ?_, fun i j y z q hi hj hy hz => ?_,
    fun e he => ?_⟩
  · simp only [Function.update_apply] at hi
    split_ifs at hi with e
    · cases hi
      rw [hx'] at hq
      refine ⟨d', List.mem_map.2 ⟨d, hd, by simp [hf]⟩, Option.some.inj hq, ?_⟩
      rw [e]
      exact hst
    · obtain ⟨e', h1, h2, h3, h4⟩ := hother i y q e hi hq
      exact ⟨e', List.mem_map.2 ⟨e', h1, by simp [h3]⟩, h2, h4⟩
  · simp only [Function.update_apply] at hi hj
    split_ifs at hi with e1 <;> split_ifs at hj with e2
    · rw [e1, e2]
    · cases hi
      rw [hx'] at hy
      cases hy
      exact (hne j z e2 hj hz).elim
    · cases hj
      rw [hx'] at hz
      cases hz
      exact (hne i y e1 hi hy).elim
    · exact R.problemsInj i j y z q hi hj hy hz
  · obtain ⟨e0, h0, rfl⟩ := List.mem_map.1 he
    by_cases e1 : e0.id = d.id
    · rw [if_pos e1, I.held_unique h0 hd e1, hf]
      exact ⟨p, x', by simp, hx'⟩
    · rw [if_neg e1]
      obtain ⟨i, y, h1, h2⟩ := R.held e0 h0
      have : i ≠ p := by
        rintro rfl
        rw [hp] at h1
        cases h1
        rw [hx] at h2
        exact e1 (Option.some.inj h2).symm
      exact ⟨i, y, by simp [Function.update_of_ne this, h1], h2⟩

/-- A problem object that has lost its pointer. -/
theorem Rel.remove {v : Objects} {a : Nat → Nat} {w : View} (R : Rel v a w) {p : Nat} {x : Problem} {d : Handle}
    (hp : v.problems p = some x) (hx : x.ptr = some d.id) {n : Option Problem} (hn : ∀ y, n = some y → y.ptr = none) :
    Rel { v with problems := Function.update v.problems p n } a { w with held := w.held.filter fun e => e.id ≠ d.id } := by
  refine ⟨R.lent, R.suites, R.suitesInj, R.observers, R.observersInj, fun i y q hi hq => ?_, fun i j y z q hi hj hy hz => ?_,
    fun e he => ?_⟩
  · simp only [Function.update_apply] at hi
    split_ifs at hi with e
    · rw [hn y hi] at hq
      cases hq
    · obtain ⟨e', h1, h2, h3⟩ := R.problems i y q hi hq
      refine ⟨e', List.mem_filter.2 ⟨h1, ?_⟩, h2, h3⟩
      have : e'.id ≠ d.id := fun he => e (R.problemsInj i p y x q hi hp hq (by rw [hx, ← he, h2]))
      simpa using this
  · simp only [Function.update_apply] at hi hj
    split_ifs at hi with e1
    · rw [hn y hi] at hy
      cases hy
    · split_ifs at hj with e2
      · rw [hn z hj] at hz
        cases hz
      · exact R.problemsInj i j y z q hi hj hy hz
  · obtain ⟨h0, h1⟩ := List.mem_filter.1 he
    obtain ⟨i, y, h2, h3⟩ := R.held e h0
    have : i ≠ p := by
      rintro rfl
      rw [hp] at h2
      cases h2
      rw [hx] at h3
      simp at h1
      exact h1 (Option.some.inj h3).symm
    exact ⟨i, y, by simp [Function.update_of_ne this, h2], h3⟩

/-- A problem object that had no pointer. -/
theorem Rel.same {v : Objects} {a : Nat → Nat} {w : View} (R : Rel v a w) {p : Nat} {x : Problem}
    (hp : v.problems p = some x) (hx : x.ptr = none) {n : Option Problem} (hn : ∀ y, n = some y → y.ptr = none) :
    Rel { v with problems := Function.update v.problems p n } a w := by
  refine ⟨R.lent, R.suites, R.suitesInj, R.observers, R.observersInj, fun i y q hi hq => ?_, fun i j y z q hi hj hy hz => ?_,
    fun e he => ?_⟩
  · simp only [Function.update_apply] at hi
    split_ifs at hi with e
    · rw [hn y hi] at hq
      cases hq
    · exact R.problems i y q hi hq
  · simp only [Function.update_apply] at hi hj
    split_ifs at hi with e1
    · rw [hn y hi] at hy
      cases hy
    · split_ifs at hj with e2
      · rw [hn z hj] at hz
        cases hz
      · exact R.problemsInj i j y z q hi hj hy hz
  · obtain ⟨i, y, h2, h3⟩ := R.held e he
    have : i ≠ p := by
      rintro rfl
      rw [hp] at h2
      cases h2
      rw [hx] at h3
      cases h3
    exact ⟨i, y, by simp [Function.update_of_ne this, h2], h3⟩

/-- A suite object with another current problem. -/
theorem Rel.setCurrent {v : Objects} {a : Nat → Nat} {w : View} (R : Rel v a w) {s : Nat} {x x' : Suite} (hs : v.suites s = some x)
    (hx : x'.ptr = x.ptr) : Rel { v with suites := Function.update v.suites s (some x') } a w := by
  have hback : ∀ i y, Function.update v.suites s (some x') i = some y → ∃ y', v.suites i = some y' ∧ y'.ptr = y.ptr := by
    intro i y hi
    simp only [Function.update_apply] at hi
    split_ifs at hi with e
    · cases hi
      exact ⟨x, by rw [e]; exact hs, hx.symm⟩
    · exact ⟨y, hi, rfl⟩
  refine ⟨R.lent, fun c => ?_, fun i j y z c hi hj hy hz => ?_, R.observers, R.observersInj, fun i y q hi hq => ?_, R.problemsInj, R.held⟩
  · rw [R.suites]
    constructor
    · rintro ⟨i, y, h1, h2⟩
      by_cases e : i = s
      · subst e
        rw [hs] at h1
        cases h1
        exact ⟨i, x', by simp, by rw [hx, h2]⟩
      · exact ⟨i, y, by simp [Function.update_of_ne e, h1], h2⟩
    · rintro ⟨i, y, h1, h2⟩
      obtain ⟨y', h3, h4⟩ := hback i y h1
      exact ⟨i, y', h3, by rw [h4, h2]⟩
  · obtain ⟨y', h3, h4⟩ := hback i y hi
    obtain ⟨z', h5, h6⟩ := hback j z hj
    exact R.suitesInj i j y' z' c h3 h5 (by rw [h4, hy]) (by rw [h6, hz])
  · obtain ⟨d, h1, h2, h3, h4⟩ := R.problems i y q hi hq
    refine ⟨d, h1, h2, fun u c hu hc => ?_, h4⟩
    obtain ⟨u', h5, h6⟩ := hback _ u hu
    exact h3 u' c h5 (by rw [h6, hc])

/-- A suite object that has lost its pointer. -/
theorem Rel.closeSuite {v : Objects} {a : Nat → Nat} {w : View} (R : Rel v a w) {s : Nat} {x : Suite} {c : Nat}
    (hs : v.suites s = some x) (hx : x.ptr = some c) {n : Option Suite} (hn : ∀ y, n = some y → y.ptr = none) :
    Rel { v with suites := Function.update v.suites s n } a { w with suites := w.suites.filter fun s' => s' ≠ c } := by
  have hback : ∀ i y q, Function.update v.suites s n i = some y → y.ptr = some q → i ≠ s ∧ v.suites i = some y := by
    intro i y q hi hq
    simp only [Function.update_apply] at hi
    split_ifs at hi with e
    · rw [hn y hi] at hq
      cases hq
    · exact ⟨e, hi⟩
  refine ⟨R.lent, fun c' => ?_, fun i j y z q hi hj hy hz => ?_, R.observers, R.observersInj, fun i y q hi hq => ?_, R.problemsInj, R.held⟩
  · rw [List.mem_filter, R.suites]
    constructor
    · rintro ⟨⟨i, y, h1, h2⟩, h3⟩
      have : i ≠ s := by
        rintro rfl
        rw [hs] at h1
        cases h1
        rw [hx] at h2
        simp at h3
        exact h3 (Option.some.inj h2).symm
      exact ⟨i, y, by simp [Function.update_of_ne this, h1], h2⟩
    · rintro ⟨i, y, h1, h2⟩
      obtain ⟨h3, h4⟩ := hback i y c' h1 h2
      refine ⟨⟨i, y, h4, h2⟩, ?_⟩
      have : c' ≠ c := by
        rintro rfl
        exact h3 (R.suitesInj i s y x c' h4 hs h2 hx)
      simpa using this
  · exact R.suitesInj i j y z q (hback i y q hi hy).2 (hback j z q hj hz).2 hy hz
  · obtain ⟨d, h1, h2, h3, h4⟩ := R.problems i y q hi hq
    exact ⟨d, h1, h2, fun u c' hu hc => h3 u c' (hback _ u c' hu hc).2 hc, h4⟩

/-- A suite object without pointer that is collected. -/
theorem Rel.dropSuite {v : Objects} {a : Nat → Nat} {w : View} (R : Rel v a w) {s : Nat} {x : Suite}
    (hs : v.suites s = some x) (hx : x.ptr = none) : Rel { v with suites := Function.update v.suites s none } a w := by
  have hback : ∀ i y, Function.update v.suites s none i = some y → v.suites i = some y := by
    intro i y hi
    simp only [Function.update_apply] at hi
    split_ifs at hi with e
    exact hi
  refine ⟨R.lent, fun c' => ?_, fun i j y z q hi hj hy hz => ?_, R.observers, R.observersInj, fun i y q hi hq => ?_, R.problemsInj, R.held⟩
  · rw [R.suites]
    constructor
    · rintro ⟨i, y, h1, h2⟩
      have : i ≠ s := by
        rintro rfl
        rw [hs] at h1
        cases h1
        rw [hx] at h2
        cases h2
      exact ⟨i, y, by simp [Function.update_of_ne this, h1], h2⟩
    · rintro ⟨i, y, h1, h2⟩
      exact ⟨i, y, hback i y h1, h2⟩
  · exact R.suitesInj i j y z q (hback i y hi) (hback j z hj) hy hz
  · obtain ⟨d, h1, h2, h3, h4⟩ := R.problems i y q hi hq
    exact ⟨d, h1, h2, fun u c' hu hc => h3 u c' (hback _ u hu) hc, h4⟩

/-- An observer object that has lost its pointer. -/
theorem Rel.closeObserver {v : Objects} {a : Nat → Nat} {w : View} (R : Rel v a w) {o : Nat} {c : Nat}
    (ho : v.observers o = some (some c)) {n : Option (Option Nat)} (hn : ∀ y, n ≠ some (some y)) :
    Rel { v with observers := Function.update v.observers o n } a { w with observers := w.observers.filter fun o' => o' ≠ c } := by
  have hback : ∀ i y, Function.update v.observers o n i = some (some y) → i ≠ o ∧ v.observers i = some (some y) := by
    intro i y hi
    simp only [Function.update_apply] at hi
    split_ifs at hi with e
    · exact (hn y hi).elim
    · exact ⟨e, hi⟩
  refine ⟨R.lent, R.suites, R.suitesInj, fun c' => ?_, fun i j q hi hj => ?_, fun i y q hi hq => ?_, R.problemsInj, R.held⟩
  · rw [List.mem_filter, R.observers]
    constructor
    · rintro ⟨⟨i, h1⟩, h3⟩
      have : i ≠ o := by
        rintro rfl
        rw [ho] at h1
        cases h1
        simp at h3
      exact ⟨i, by simp [Function.update_of_ne this, h1]⟩
    · rintro ⟨i, h1⟩
      obtain ⟨h3, h4⟩ := hback i c' h1
      refine ⟨⟨i, h4⟩, ?_⟩
      have : c' ≠ c := by
        rintro rfl
        exact h3 (R.observersInj i o c' h4 ho)
      simpa using this
  · exact R.observersInj i j q (hback i q hi).2 (hback j q hj).2
  · obtain ⟨d, h1, h2, h3, h4⟩ := R.problems i y q hi hq
    refine ⟨d, h1, h2, h3, fun c' hc => ?_⟩
    obtain ⟨o', h5, h6⟩ := h4 c' hc
    exact ⟨o', h5, fun c'' hu => h6 c'' (hback o' c'' hu).2⟩

/-- An observer object without pointer that is collected. -/
theorem Rel.dropObserver {v : Objects} {a : Nat → Nat} {w : View} (R : Rel v a w) {o : Nat}
    (ho : v.observers o = some none) : Rel { v with observers := Function.update v.observers o none } a w := by
  have hback : ∀ i y, Function.update v.observers o none i = some y → v.observers i = some y := by
    intro i y hi
    simp only [Function.update_apply] at hi
    split_ifs at hi with e
    exact hi
  refine ⟨R.lent, R.suites, R.suitesInj, fun c' => ?_, fun i j q hi hj => ?_, fun i y q hi hq => ?_, R.problemsInj, R.held⟩
  · rw [R.observers]
    constructor
    · rintro ⟨i, h1⟩
      have : i ≠ o := by
        rintro rfl
        rw [ho] at h1
        cases h1
      exact ⟨i, by simp [Function.update_of_ne this, h1]⟩
    · rintro ⟨i, h1⟩
      exact ⟨i, hback i _ h1⟩
  · exact R.observersInj i j q (hback i _ hi) (hback j _ hj)
  · obtain ⟨d, h1, h2, h3, h4⟩ := R.problems i y q hi hq
    refine ⟨d, h1, h2, h3, fun c' hc => ?_⟩
    obtain ⟨o', h5, h6⟩ := h4 c' hc
    exact ⟨o', h5, fun c'' hu => h6 c'' (hback o' _ hu)⟩

theorem Rel.congr {v v' : Objects} {a : Nat → Nat} {w : View} (R : Rel v a w) (h1 : v'.suites = v.suites)
    (h2 : v'.problems = v.problems) (h3 : v'.observers = v.observers) : Rel v' a w := by
  obtain ⟨s1, p1, o1, _, _, _, _, _, _⟩ := v'
  simp only at h1 h2 h3
  subst h1 h2 h3
  exact ⟨R.lent, R.suites, R.suitesInj, R.observers, R.observersInj, R.problems, R.problemsInj, R.held⟩

theorem Rel.home {v : Objects} {a : Nat → Nat} {w : View} (R : Rel v a w) {p : Nat} (hp : v.problems p = none) (s : Nat) :
    Rel v (Function.update a p s) w := by
  refine ⟨R.lent, R.suites, R.suitesInj, R.observers, R.observersInj, fun i y q hi hq => ?_, R.problemsInj, R.held⟩
  have : i ≠ p := by rintro rfl; rw [hp] at hi; cases hi
  rw [Function.update_of_ne this]
  exact R.problems i y q hi hq

/-- A new suite object. -/
theorem Rel.newSuite {v : Objects} {a : Nat → Nat} {w : View} (R : Rel v a w) (W : Wf v a) {c : Nat} (hc : c ∉ w.suites) :
    Rel { v with suites := Function.update v.suites v.ns (some ⟨some c, none⟩) } a { w with suites := c :: w.suites } := by
  have hn : v.suites v.ns = none := by
    by_contra e
    exact absurd (W.suiteLt _ e) (Nat.lt_irrefl _)
  have hne : ∀ i y, v.suites i = some y → i ≠ v.ns := by rintro i y h rfl; rw [hn] at h; cases h
  have hno : ∀ i y, v.suites i = some y → y.ptr ≠ some c := fun i y h1 h2 => hc ((R.suites c).2 ⟨i, y, h1, h2⟩)
  refine ⟨R.lent, fun c' => ?_, fun i j y z q hi hj hy hz => ?_, R.observers, R.observersInj, fun i y q hi hq => ?_, R.problemsInj, R.held⟩
  · rw [List.mem_cons, R.suites]
    constructor
    · rintro (rfl | ⟨i, y, h1, h2⟩)
      · exact ⟨v.ns, ⟨some c', none⟩, by simp only [Function.update_self], rfl⟩
      · exact ⟨i, y, by simp only [Function.update_of_ne (hne i y h1), h1], h2⟩
    · rintro ⟨i, y, h1, h2⟩
      simp only [Function.update_apply] at h1
      split_ifs at h1 with e
      · cases h1
        exact .inl (Option.some.inj h2).symm
      · exact .inr ⟨i, y, h1, h2⟩
  · simp only [Function.update_apply] at hi hj
    split_ifs at hi with e1 <;> split_ifs at hj with e2
    · rw [e1, e2]
    · cases hi
      cases hy
      exact (hno j z hj hz).elim
    · cases hj
      cases hz
      exact (hno i y hi hy).elim
    · exact R.suitesInj i j y z q hi hj hy hz
  · obtain ⟨d, h1, h2, h3, h4⟩ := R.problems i y q hi hq
    refine ⟨d, h1, h2, fun u c' hu hc' => ?_, h4⟩
    have : a i ≠ v.ns := Nat.ne_of_lt (W.problemLt i (by rw [hi]; simp)).2
    simp only [Function.update_of_ne this] at hu
    exact h3 u c' hu hc'

/-- A new observer object. -/
theorem Rel.newObserver {v : Objects} {a : Nat → Nat} {w : View} (R : Rel v a w) (W : Wf v a) {c : Nat} (hc : c ∉ w.observers) :
    Rel { v with observers := Function.update v.observers v.no (some (some c)) } a { w with observers := c :: w.observers } := by
  have hn : v.observers v.no = none := by
    by_contra e
    exact absurd (W.observerLt _ e) (Nat.lt_irrefl _)
  have hne : ∀ i y, v.observers i = some y → i ≠ v.no := by rintro i y h rfl; rw [hn] at h; cases h
  have hno : ∀ i, v.observers i ≠ some (some c) := fun i h1 => hc ((R.observers c).2 ⟨i, h1⟩)
  refine ⟨R.lent, R.suites, R.suitesInj, fun c' => ?_, fun i j q hi hj => ?_, fun i y q hi hq => ?_, R.problemsInj, R.held⟩
  · rw [List.mem_cons, R.observers]
    constructor
    · rintro (rfl | ⟨i, h1⟩)
      · exact ⟨v.no, by simp only [Function.update_self]⟩
      · exact ⟨i, by simp only [Function.update_of_ne (hne i _ h1), h1]⟩
    · rintro ⟨i, h1⟩
      simp only [Function.update_apply] at h1
      split_ifs at h1 with e
      · cases h1
        exact .inl rfl
      · exact .inr ⟨i, h1⟩
  · simp only [Function.update_apply] at hi hj
    split_ifs at hi with e1 <;> split_ifs at hj with e2
    · rw [e1, e2]
    · cases hi
      exact (hno j hj).elim
    · cases hj
      exact (hno i hi).elim
    · exact R.observersInj i j q hi hj
  · obtain ⟨d, h1, h2, h3, h4⟩ := R.problems i y q hi hq
    refine ⟨d, h1, h2, h3, fun c' hc' => ?_⟩
    obtain ⟨o, h5, h6⟩ := h4 c' hc'
    refine ⟨o, h5, fun c'' hu => h6 c'' ?_⟩
    have : o ≠ v.no := Nat.ne_of_lt (W.observerLt o (W.listed i y hi o h5))
    simpa only [Function.update_of_ne this] using hu

/-! ### References -/

theorem update_some_ne {α : Type} {f : Nat → Option α} {i j : Nat} {x : α} (h : f j ≠ none) :
    Function.update f i (some x) j ≠ none := by
  rw [Function.update_apply]
  split_ifs
  · simp
  · exact h

theorem of_update_ne {α : Type} {f : Nat → Option α} {i j : Nat} {x : Option α} (hi : f i ≠ none)
    (h : Function.update f i x j ≠ none) : f j ≠ none := by
  rw [Function.update_apply] at h
  split_ifs at h with e
  · rwa [e]
  · exact h

theorem Wf.home {v : Objects} {a : Nat → Nat} (W : Wf v a) {p : Nat} (hp : v.problems p = none) (s : Nat) :
    Wf v (Function.update a p s) := by
  refine ⟨W.suiteLt, fun i hi => ?_, W.observerLt, W.listed, W.current, W.suiteRef, W.problemRef, W.observerRef⟩
  have : i ≠ p := by rintro rfl; exact hi hp
  rw [Function.update_of_ne this]
  exact W.problemLt i hi

theorem Wf.setProblem {v : Objects} {a : Nat → Nat} (W : Wf v a) {p : Nat} (hp : v.problems p ≠ none) {x : Problem}
    (hx : ∀ o ∈ x.observers, v.observers o ≠ none) : Wf { v with problems := Function.update v.problems p (some x) } a := by
  refine ⟨W.suiteLt, fun i hi => W.problemLt i (of_update_ne hp hi), W.observerLt, fun i y hi => ?_,
    fun s y i h1 h2 => update_some_ne (W.current s y i h1 h2), W.suiteRef, fun i hi => update_some_ne (W.problemRef i hi), W.observerRef⟩
  simp only [Function.update_apply] at hi
  split_ifs at hi
  · cases hi
    exact hx
  · exact W.listed i y hi

theorem Wf.dropProblem {v : Objects} {a : Nat → Nat} (W : Wf v a) {p : Nat} (hp : v.problems p ≠ none) (h1 : v.problemRef p = false)
    (h2 : ∀ s x, v.suites s = some x → x.current ≠ some p) : Wf { v with problems := Function.update v.problems p none } a := by
  refine ⟨W.suiteLt, fun i hi => W.problemLt i (of_update_ne hp hi), W.observerLt, fun i y hi => ?_,
    fun s y i h3 h4 => ?_, W.suiteRef, fun i hi => ?_, W.observerRef⟩
  · simp only [Function.update_apply] at hi
    split_ifs at hi
    exact W.listed i y hi
  · have : i ≠ p := by rintro rfl; exact h2 s y h3 h4
    simp only [Function.update_of_ne this]
    exact W.current s y i h3 h4
  · have : i ≠ p := by rintro rfl; simp only at hi; rw [h1] at hi; cases hi
    simp only [Function.update_of_ne this]
    exact W.problemRef i hi

theorem Wf.newProblem {v : Objects} {a : Nat → Nat} (W : Wf v a) {s : Nat} (hs : v.suites s ≠ none) {x : Problem}
    (hx : ∀ o ∈ x.observers, v.observers o ≠ none) : Wf (v.newProblem x) (Function.update a v.np s) := by
  refine ⟨W.suiteLt, fun i hi => ?_, W.observerLt, fun i y hi => ?_, fun s y i h1 h2 => update_some_ne (W.current s y i h1 h2),
    W.suiteRef, fun i hi => ?_, W.observerRef⟩
  · simp only [Objects.newProblem, Function.update_apply] at hi ⊢
    split_ifs at hi ⊢ with e
    · exact ⟨by omega, W.suiteLt s hs⟩
    · have := W.problemLt i hi
      exact ⟨by omega, this.2⟩
  · simp only [Objects.newProblem, Function.update_apply] at hi
    split_ifs at hi
    · cases hi
      exact hx
    · exact W.listed i y hi
  · simp only [Objects.newProblem, Function.update_apply] at hi ⊢
    split_ifs at hi ⊢ with e
    · simp
    · exact W.problemRef i hi

theorem Wf.setSuite {v : Objects} {a : Nat → Nat} (W : Wf v a) {s : Nat} (hs : v.suites s ≠ none) {x : Suite}
    (hx : ∀ p, x.current = some p → v.problems p ≠ none) : Wf { v with suites := Function.update v.suites s (some x) } a := by
  refine ⟨fun i hi => W.suiteLt i (of_update_ne hs hi), W.problemLt, W.observerLt, W.listed, fun i y p h1 h2 => ?_,
    fun i hi => update_some_ne (W.suiteRef i hi), W.problemRef, W.observerRef⟩
  simp only [Function.update_apply] at h1
  split_ifs at h1
  · cases h1
    exact hx p h2
  · exact W.current i y p h1 h2

theorem Wf.dropSuite {v : Objects} {a : Nat → Nat} (W : Wf v a) {s : Nat} (hs : v.suites s ≠ none) (h0 : v.suiteRef s = false) :
    Wf { v with suites := Function.update v.suites s none } a := by
  refine ⟨fun i hi => W.suiteLt i (of_update_ne hs hi), W.problemLt, W.observerLt, W.listed, fun i y p h1 h2 => ?_,
    fun i hi => ?_, W.problemRef, W.observerRef⟩
  · simp only [Function.update_apply] at h1
    split_ifs at h1
    exact W.current i y p h1 h2
  · have : i ≠ s := by rintro rfl; simp only at hi; rw [h0] at hi; cases hi
    simp only [Function.update_of_ne this]
    exact W.suiteRef i hi

theorem Wf.setObserver {v : Objects} {a : Nat → Nat} (W : Wf v a) {o : Nat} (ho : v.observers o ≠ none) (x : Option Nat) :
    Wf { v with observers := Function.update v.observers o (some x) } a :=
  ⟨W.suiteLt, W.problemLt, fun i hi => W.observerLt i (of_update_ne ho hi), fun i y hi o' h => update_some_ne (W.listed i y hi o' h),
    W.current, W.suiteRef, W.problemRef, fun i hi => update_some_ne (W.observerRef i hi)⟩

theorem Wf.dropObserver {v : Objects} {a : Nat → Nat} (W : Wf v a) {o : Nat} (ho : v.observers o ≠ none) (h0 : v.observerRef o = false)
    (h1 : ∀ p x, v.problems p = some x → o ∉ x.observers) : Wf { v with observers := Function.update v.observers o none } a := by
  refine ⟨W.suiteLt, W.problemLt, fun i hi => W.observerLt i (of_update_ne ho hi), fun i y hi o' h => ?_,
    W.current, W.suiteRef, W.problemRef, fun i hi => ?_⟩
  · have : o' ≠ o := by rintro rfl; exact h1 i y hi h
    simp only [Function.update_of_ne this]
    exact W.listed i y hi o' h
  · have : i ≠ o := by rintro rfl; simp only at hi; rw [h0] at hi; cases hi
    simp only [Function.update_of_ne this]
    exact W.observerRef i hi

/-! ### Parts of calls -/

/-- Observing a problem that the program owns. -/
theorem observe_ok {h : Heap} {v : Objects} {w : View} (I : Inv h w) {d : Handle} (hd : d ∈ w.held) (hs : d.suite ∈ w.suites)
    (l : List Nat) (o : Option Nat) (ho : ∀ o', o = some o' → v.observers o' ≠ none)
    (hw : ∀ i c, v.observers i = some (some c) → c ∈ w.observers) :
    (∃ (h' : Heap) (y : Problem) (d' : Handle) (f : Handle → Handle), observe h v d.id l o = .ok (h', y) ∧
      Inv h' { w with held := w.held.map fun e => if e.id = d.id then f e else e } ∧ f d = d' ∧ y.ptr = some d'.id ∧
      (d'.id = d.id ∨ ∀ e ∈ w.held, e.id ≠ d'.id) ∧ d'.suite = d.suite ∧
      (∀ c ∈ d'.observers, c ∈ d.observers ∨ ∃ i ∈ y.observers, v.observers i = some (some c)) ∧ y.observers = l ++ o.toList) ∨
    (observe h v d.id l o = .error ∧ o ≠ none) := by
  have hid : (w.held.map fun e => if e.id = d.id then id e else e) = w.held := by
    conv_rhs => rw [← List.map_id w.held]
    apply List.map_congr_left
    intro e _
    simp
  cases o with
  | none =>
    left
    refine ⟨h, ⟨some d.id, l⟩, d, id, rfl, ?_, rfl, rfl, .inl rfl, rfl, fun c hc => .inl hc, by simp⟩
    rw [hid]
    exact I
  | some o =>
    cases hob : v.observers o with
    | none => exact (ho o rfl hob).elim
    | some x =>
      cases x with
      | none =>
        left
        refine ⟨h, ⟨some d.id, l ++ [o]⟩, d, id, by simp [observe, hob], ?_, rfl, rfl, .inl rfl, rfl, fun c hc => .inl hc, by simp⟩
        rw [hid]
        exact I
      | some c =>
        rcases lib_add I hd hs (hw o c hob) with ⟨h', q, e, I', hf⟩ | e
        · left
          refine ⟨h', ⟨some q, l ++ [o]⟩, ⟨q, d.suite, c :: d.observers⟩, fun e => ⟨q, e.suite, c :: e.observers⟩,
            by simp [observe, hob, e], I', rfl, rfl, .inr hf, rfl, fun c' hc => ?_, by simp⟩
          rcases List.mem_cons.1 hc with rfl | hc
          · exact .inr ⟨o, by simp, hob⟩
          · exact .inl hc
        · right
          simp [observe, hob, e, Res.bind]

/-- Freeing of a problem object. -/
theorem free_ok {h : Heap} {v : Objects} {a : Nat → Nat} {w : View} (I : Inv h w) (R : Rel v a w) (W : Wf v a) {p : Nat}
    (hp : v.problems p ≠ none) :
    ∃ h' g w', free h v p = .ok (h', { v with problems := g }) ∧ Inv h' w' ∧ Rel { v with problems := g } a w' ∧
      Wf { v with problems := g } a ∧ w'.suites = w.suites ∧ w'.observers = w.observers := by
  obtain ⟨x, hx⟩ := Option.ne_none_iff_exists'.1 hp
  cases hq : x.ptr with
  | none => exact ⟨h, v.problems, w, by simp [free, hx, hq], I, R, W, rfl, rfl⟩
  | some q =>
    obtain ⟨d, hd, rfl, -⟩ := R.problems p x q hx hq
    obtain ⟨h', e, I'⟩ := lib_free I hd
    refine ⟨h', Function.update v.problems p (some { x with ptr := none }), _, by simp only [free, hx, hq, e, Res.ok_bind], I',
      R.remove hx hq (by simp), W.setProblem hp (W.listed p x hx), rfl, rfl⟩

/-- Freeing of the current problem of a suite object. -/
theorem freeCurrent_ok {h : Heap} {v : Objects} {a : Nat → Nat} {w : View} (I : Inv h w) (R : Rel v a w) (W : Wf v a) {s : Nat}
    {x : Suite} (hs : v.suites s = some x) :
    ∃ h' g w', freeCurrent h v s x =
        .ok (h', { v with problems := g, suites := Function.update v.suites s (some { x with current := none }) }) ∧ Inv h' w' ∧
      Rel { v with problems := g, suites := Function.update v.suites s (some { x with current := none }) } a w' ∧
      Wf { v with problems := g, suites := Function.update v.suites s (some { x with current := none }) } a ∧ w'.suites = w.suites := by
  cases hc : x.current with
  | none =>
    exact ⟨h, v.problems, w, by simp only [freeCurrent, hc], I, R.setCurrent hs rfl, W.setSuite (by rw [hs]; simp) (by simp), rfl⟩
  | some p =>
    obtain ⟨h', g, w', e, I', R', W', h1, -⟩ := free_ok I R W (W.current s x p hs hc)
    refine ⟨h', g, w', by simp only [freeCurrent, hc, e, Res.ok_bind], I', R'.setCurrent (s := s) (x := x) hs rfl, ?_, h1⟩
    exact W'.setSuite (s := s) (show v.suites s ≠ none by rw [hs]; simp) (by simp)

/-- A new problem of a suite, with or without an observer. -/
theorem make_ok {h : Heap} {v : Objects} {a : Nat → Nat} {w : View} (I : Inv h w) (R : Rel v a w) (W : Wf v a) {s : Nat} {x : Suite}
    {c : Nat} (hs : v.suites s = some x) (hc : x.ptr = some c) (t : Shape) (o : Option Nat)
    (ho : ∀ o', o = some o' → v.observers o' ≠ none) :
    ∃ h1 q, Lifecycle.getProblem h c t = .ok (h1, q) ∧
    ((∃ h' y w', observe h1 v q [] o = .ok (h', y) ∧ Inv h' w' ∧ Rel (v.newProblem y) (Function.update a v.np s) w' ∧
      Wf (v.newProblem y) (Function.update a v.np s)) ∨ (observe h1 v q [] o = .error ∧ o ≠ none)) := by
  have hcs : c ∈ w.suites := (R.suites c).2 ⟨s, x, hs, hc⟩
  have hn : v.problems v.np = none := by
    by_contra e
    exact absurd (W.problemLt _ e).1 (Nat.lt_irrefl _)
  obtain ⟨h1, q, e1, I1, hf⟩ := lib_get I hcs t
  refine ⟨h1, q, e1, ?_⟩
  rcases observe_ok (v := v) (d := ⟨q, c, []⟩) I1 (by simp) hcs [] o ho (fun i c' h => (R.observers c').2 ⟨i, h⟩) with
    ⟨h', y, d', f, e2, I2, hfd, hy, hfr, hsu, hobs, hl⟩ | e2
  · left
    have hmap : ((⟨q, c, []⟩ :: w.held : List Handle).map fun e => if e.id = q then f e else e) = d' :: w.held := by
      rw [List.map_cons, if_pos rfl, hfd]
      congr 1
      conv_rhs => rw [← List.map_id w.held]
      apply List.map_congr_left
      intro e he
      simp [hf e he]
    simp only [hmap] at I2
    refine ⟨h', y, _, e2, I2, ?_, ?_⟩
    · refine (R.add (p := v.np) (s := s) (x := y) hn hy (fun e he => ?_) ⟨fun z c' hz hc' => ?_, fun c' hc' => ?_⟩).congr rfl rfl rfl
      · rcases hfr with h | h
        · rw [h]
          exact hf e he
        · exact h e (by simp [he])
      · rw [hs] at hz
        cases hz
        rw [hc] at hc'
        rw [hsu]
        exact (Option.some.inj hc').symm
      · rcases hobs c' hc' with h | ⟨i, h2, h3⟩
        · simp at h
        · refine ⟨i, h2, fun c'' h4 => ?_⟩
          rw [h3] at h4
          exact (Option.some.inj (Option.some.inj h4)).symm
    · refine W.newProblem (by rw [hs]; simp) fun i hi => ?_
      rw [hl] at hi
      simp only [List.nil_append, Option.mem_toList] at hi
      exact ho i hi
  · exact .inr e2

/-- Calls that can end the program with an error message of the library. -/
def Spec.Refusable : Call → Prop
  | .getProblem _ _ o => o ≠ none
  | .nextProblem _ _ o => o ≠ none
  | .observeWith _ _ => True
  | _ => False

theorem step_ok {h : Heap} {v : Objects} {a : Nat → Nat} {w : View} (I : Inv h w) (R : Rel v a w) (W : Wf v a) (c : Call)
    (hc : Possible v c) (hr : Spec.Rule v a c) :
    (∃ h' v' e w', step h v c = .ok (h', v', e) ∧ Inv h' w' ∧ Rel v' (Spec.home a v c) w' ∧ Wf v' (Spec.home a v c)) ∨
    (step h v c = .error ∧ Spec.Refusable c) := by
  have hn : v.problems v.np = none := by
    by_contra e
    exact absurd (W.problemLt _ e).1 (Nat.lt_irrefl _)
  cases c with
  | newSuite =>
    left
    rcases I.step .newSuite trivial with ⟨h', out, e, I'⟩ | ⟨e, h1⟩
    · have hf : h.ns ∉ w.suites := fun h0 => absurd (I.suitesLt _ ((I.suites _).2 h0)) (Nat.lt_irrefl _)
      simp only [Lifecycle.step, Res.ok.injEq, Prod.mk.injEq] at e
      obtain ⟨rfl, rfl⟩ := e
      refine ⟨_, _, _, _, rfl, I', (R.newSuite W hf).congr rfl rfl rfl, ?_⟩
      refine ⟨fun i hi => ?_, fun i hi => ?_, W.observerLt, W.listed, fun i y p h1 h2 => ?_, fun i hi => ?_, W.problemRef, W.observerRef⟩
      · simp only [Function.update_apply] at hi
        split_ifs at hi with e
        · simp [e]
        · exact Nat.lt_succ_of_lt (W.suiteLt i hi)
      · have := W.problemLt i hi
        exact ⟨this.1, Nat.lt_succ_of_lt this.2⟩
      · simp only [Function.update_apply] at h1
        split_ifs at h1
        · cases h1
          cases h2
        · exact W.current i y p h1 h2
      · simp only [Function.update_apply] at hi ⊢
        split_ifs at hi ⊢
        · simp
        · exact W.suiteRef i hi
    · simp [Lifecycle.step] at e
  | newObserver k name =>
    left
    rcases I.step (.newObserver k name) trivial with ⟨h', out, e, I'⟩ | ⟨e, h1⟩
    · have hf : h.no ∉ w.observers := fun h0 => absurd (I.obsLt _ ((I.obs _).2 h0)) (Nat.lt_irrefl _)
      simp only [Lifecycle.step, Res.ok.injEq, Prod.mk.injEq] at e
      obtain ⟨rfl, rfl⟩ := e
      refine ⟨_, _, _, _, rfl, I', (R.newObserver W hf).congr rfl rfl rfl, ?_⟩
      refine ⟨W.suiteLt, W.problemLt, fun i hi => ?_, fun i y hi o ho => update_some_ne (W.listed i y hi o ho), W.current, W.suiteRef,
        W.problemRef, fun i hi => ?_⟩
      · simp only [Function.update_apply] at hi
        split_ifs at hi with e
        · simp [e]
        · exact Nat.lt_succ_of_lt (W.observerLt i hi)
      · simp only [Function.update_apply] at hi ⊢
        split_ifs at hi ⊢
        · simp
        · exact W.observerRef i hi
    · simp [Lifecycle.step] at e
  | getProblem s t o =>
    obtain ⟨hs, ho⟩ := hc
    obtain ⟨x, hx⟩ := Option.ne_none_iff_exists'.1 (W.suiteRef s hs)
    cases hp : x.ptr with
    | none => exact .inl ⟨h, v, true, w, by simp only [step, hx, hp], I, R.home hn s, W.home hn s⟩
    | some c =>
      cases t with
      | none => exact .inl ⟨h, v, true, w, by simp only [step, hx, hp], I, R.home hn s, W.home hn s⟩
      | some t =>
        obtain ⟨h1, q, e1, ⟨h', y, w', e2, I', R', W'⟩ | ⟨e2, h2⟩⟩ :=
          make_ok I R W hx hp t o (fun o' e => W.observerRef o' (ho o' e))
        · exact .inl ⟨h', v.newProblem y, false, w', by simp only [step, hx, hp, e1, e2, Res.ok_bind], I', R', W'⟩
        · exact .inr ⟨by simp only [step, hx, hp, e1, e2, Res.ok_bind]; rfl, h2⟩
  | nextProblem s t o =>
    obtain ⟨hs, ho⟩ := hc
    obtain ⟨⟨xp, xc⟩, hx⟩ := Option.ne_none_iff_exists'.1 (W.suiteRef s hs)
    cases xp with
    | none => exact .inl ⟨h, v, true, w, by simp only [step, hx], I, R.home hn s, W.home hn s⟩
    | some c =>
      obtain ⟨h1, g, w1, e1, I1, R1, W1, -⟩ := freeCurrent_ok I R W hx
      have hn1 : g v.np = none := by
        by_contra e
        exact absurd (W1.problemLt _ e).1 (Nat.lt_irrefl _)
      cases t with
      | none =>
        exact .inl ⟨h1, _, false, w1, by simp only [step, hx, e1, Res.ok_bind], I1, R1.home hn1 s, W1.home hn1 s⟩
      | some t =>
        have hs1 : Function.update v.suites s (some ⟨some c, none⟩) s = some ⟨some c, none⟩ := by simp
        obtain ⟨h2, q, e2, ⟨h', y, w', e3, I', R', W'⟩ | ⟨e3, h3⟩⟩ :=
          make_ok I1 R1 W1 hs1 rfl t o (fun o' e => W1.observerRef o' (ho o' e))
        · left
          refine ⟨h', { Objects.newProblem { v with problems := g, suites := Function.update v.suites s (some ⟨some c, none⟩) } y with
            suites := Function.update (Function.update v.suites s (some ⟨some c, none⟩)) s (some ⟨some c, some v.np⟩) }, false, w', by simp only [step, hx, e1, e2, e3, Res.ok_bind], I', ?_, ?_⟩
          · exact R'.setCurrent (s := s) (x := ⟨some c, none⟩) (x' := ⟨some c, some v.np⟩) hs1 rfl
          · refine W'.setSuite (s := s) (x := ⟨some c, some v.np⟩) ?_ fun p e => ?_
            · simp [Objects.newProblem]
            · cases e
              simp [Objects.newProblem]
        · exact .inr ⟨by simp only [step, hx, e1, e2, e3, Res.ok_bind]; rfl, h3⟩
  | reset s =>
    obtain ⟨x, hx⟩ := Option.ne_none_iff_exists'.1 (W.suiteRef s hc)
    obtain ⟨h1, g, w1, e1, I1, R1, W1, -⟩ := freeCurrent_ok I R W hx
    exact .inl ⟨h1, _, false, w1, by simp only [step, hx, e1, Res.ok_bind], I1, R1, W1⟩
  | observeWith p o =>
    obtain ⟨hp, ho⟩ := hc
    obtain ⟨x, hx⟩ := Option.ne_none_iff_exists'.1 (W.problemRef p hp)
    cases hq : x.ptr with
    | none => exact .inl ⟨h, v, true, w, by simp only [step, hx, hq], I, R, W⟩
    | some q =>
      obtain ⟨y, c, hy, hyc⟩ := hr x hx (by rw [hq]; simp)
      obtain ⟨d, hd, rfl, hst1, hst2⟩ := R.problems p x q hx hq
      have hds : d.suite ∈ w.suites := by
        rw [← hst1 y c hy hyc]
        exact (R.suites c).2 ⟨_, y, hy, hyc⟩
      rcases observe_ok (v := v) I hd hds x.observers (some o) (by rintro o' ⟨⟩; exact W.observerRef o ho)
          (fun i c' h => (R.observers c').2 ⟨i, h⟩) with ⟨h', y', d', f, e2, I2, hfd, hy', hfr, hsu, hobs, hl⟩ | ⟨e2, -⟩
      · left
        refine ⟨h', { v with problems := Function.update v.problems p (some y') }, false, _,
          by simp only [step, hx, hq, e2, Res.ok_bind], I2, ?_, ?_⟩
        · refine Rel.update I R hx hq hd hy' f hfd hfr ⟨fun z c' h1 h2 => ?_, fun c' hc' => ?_⟩
          · rw [hsu]
            exact hst1 z c' h1 h2
          · rcases hobs c' hc' with h1 | ⟨i, h2, h3⟩
            · obtain ⟨i, h2, h3⟩ := hst2 c' h1
              exact ⟨i, by rw [hl]; simp [h2], h3⟩
            · refine ⟨i, h2, fun c'' h4 => ?_⟩
              rw [h3] at h4
              exact (Option.some.inj (Option.some.inj h4)).symm
        · refine W.setProblem (by rw [hx]; simp) fun i hi => ?_
          rw [hl] at hi
          rcases List.mem_append.1 hi with h1 | h1
          · exact W.listed p x hx i h1
          · simp only [Option.mem_toList, Option.some.injEq] at h1
            rw [← h1]
            exact W.observerRef o ho
      · exact .inr ⟨by simp only [step, hx, hq, e2]; rfl, trivial⟩
  | call p =>
    left
    obtain ⟨x, hx⟩ := Option.ne_none_iff_exists'.1 (W.problemRef p hc)
    cases hq : x.ptr with
    | none => exact ⟨h, v, true, w, by simp only [step, hx, hq], I, R, W⟩
    | some q =>
      obtain ⟨⟨y, c, hy, hyc⟩, hop⟩ := hr x hx (by rw [hq]; simp)
      obtain ⟨d, hd, rfl, hst1, hst2⟩ := R.problems p x q hx hq
      obtain ⟨h', e, I'⟩ := (lib_eval I hd (by rw [← hst1 y c hy hyc]; exact (R.suites c).2 ⟨_, y, hy, hyc⟩) fun c' hc' => by
        obtain ⟨i, h2, h3⟩ := hst2 c' hc'
        obtain ⟨c'', h4⟩ := hop i h2
        rw [← h3 c'' h4]
        exact (R.observers c'').2 ⟨i, h4⟩).1
      exact ⟨h', v, false, w, by simp only [step, hx, hq, e, Res.ok_bind], I', R, W⟩
  | recommend p =>
    left
    obtain ⟨x, hx⟩ := Option.ne_none_iff_exists'.1 (W.problemRef p hc)
    cases hq : x.ptr with
    | none => exact ⟨h, v, true, w, by simp only [step, hx, hq], I, R, W⟩
    | some q =>
      obtain ⟨⟨y, c, hy, hyc⟩, hop⟩ := hr x hx (by rw [hq]; simp)
      obtain ⟨d, hd, rfl, hst1, hst2⟩ := R.problems p x q hx hq
      obtain ⟨h', e, I'⟩ := (lib_eval I hd (by rw [← hst1 y c hy hyc]; exact (R.suites c).2 ⟨_, y, hy, hyc⟩) fun c' hc' => by
        obtain ⟨i, h2, h3⟩ := hst2 c' hc'
        obtain ⟨c'', h4⟩ := hop i h2
        rw [← h3 c'' h4]
        exact (R.observers c'').2 ⟨i, h4⟩).2
      exact ⟨h', v, false, w, by simp only [step, hx, hq, e, Res.ok_bind], I', R, W⟩
  | evaluations p =>
    left
    obtain ⟨x, hx⟩ := Option.ne_none_iff_exists'.1 (W.problemRef p hc)
    obtain ⟨q, hq⟩ := Option.ne_none_iff_exists'.1 (hr x hx)
    obtain ⟨d, hd, rfl, -⟩ := R.problems p x q hx hq
    obtain ⟨y, hy⟩ := Inv.held_alive I hd
    exact ⟨h, v, false, w, by simp only [step, hx, hq, hy, deref, Res.ok_bind], I, R, W⟩
  | freeProblem p =>
    left
    obtain ⟨h', g, w', e, I', R', W', -⟩ := free_ok I R W (W.problemRef p hc)
    exact ⟨h', _, false, w', by simp only [step, e, Res.ok_bind], I', R', W'⟩
  | freeObserver o =>
    left
    obtain ⟨x, hx⟩ := Option.ne_none_iff_exists'.1 (W.observerRef o hc)
    cases x with
    | none => exact ⟨h, v, false, w, by simp only [step, hx], I, R, W⟩
    | some c =>
      obtain ⟨h', e, I'⟩ := lib_freeObserver I ((R.observers c).2 ⟨o, hx⟩)
      exact ⟨h', { v with observers := Function.update v.observers o (some none) }, false, _,
        by simp only [step, hx, e, Res.ok_bind], I', R.closeObserver hx (by simp), W.setObserver (by rw [hx]; simp) _⟩
  | freeSuite s =>
    left
    obtain ⟨x, hx⟩ := Option.ne_none_iff_exists'.1 (W.suiteRef s hc)
    cases hq : x.ptr with
    | none => exact ⟨h, v, false, w, by simp only [step, hx, hq], I, R, W⟩
    | some c =>
      obtain ⟨h', e, I'⟩ := lib_freeSuite I R.lent ((R.suites c).2 ⟨s, x, hx, hq⟩)
      exact ⟨h', { v with suites := Function.update v.suites s (some { x with ptr := none }) }, false, _,
        by simp only [step, hx, hq, e, Res.ok_bind], I', R.closeSuite hx hq (by simp),
        W.setSuite (by rw [hx]; simp) (W.current s x · hx)⟩
  | currentProblem s =>
    left
    obtain ⟨x, hx⟩ := Option.ne_none_iff_exists'.1 (W.suiteRef s hc)
    cases hq : x.current with
    | none => exact ⟨h, v, false, w, by simp only [step, hx, hq], I, R, W⟩
    | some p =>
      refine ⟨h, { v with problemRef := Function.update v.problemRef p true }, false, w, by simp only [step, hx, hq], I,
        R.congr rfl rfl rfl, W.suiteLt, W.problemLt, W.observerLt, W.listed, W.current, W.suiteRef, fun i hi => ?_, W.observerRef⟩
      simp only [Function.update_apply] at hi
      split_ifs at hi with e
      · rw [e]
        exact W.current s x p hx hq
      · exact W.problemRef i hi
  | observerOf p o =>
    left
    obtain ⟨x, hx⟩ := Option.ne_none_iff_exists'.1 (W.problemRef p hc.1)
    refine ⟨h, _, false, w, rfl, I, R.congr rfl rfl rfl, W.suiteLt, W.problemLt, W.observerLt, W.listed, W.current,
      W.suiteRef, W.problemRef, fun i hi => ?_⟩
    simp only [Function.update_apply] at hi
    split_ifs at hi with e
    · rw [e]
      exact W.listed p x hx o (hc.2 x hx)
    · exact W.observerRef i hi
  | delSuite s =>
    left
    refine ⟨h, _, false, w, rfl, I, R.congr rfl rfl rfl, W.suiteLt, W.problemLt, W.observerLt, W.listed, W.current,
      fun i hi => ?_, W.problemRef, W.observerRef⟩
    simp only [Function.update_apply] at hi
    split_ifs at hi
    exact W.suiteRef i hi
  | delProblem s =>
    left
    refine ⟨h, _, false, w, rfl, I, R.congr rfl rfl rfl, W.suiteLt, W.problemLt, W.observerLt, W.listed, W.current,
      W.suiteRef, fun i hi => ?_, W.observerRef⟩
    simp only [Function.update_apply] at hi
    split_ifs at hi
    exact W.problemRef i hi
  | delObserver s =>
    left
    refine ⟨h, _, false, w, rfl, I, R.congr rfl rfl rfl, W.suiteLt, W.problemLt, W.observerLt, W.listed, W.current,
      W.suiteRef, W.problemRef, fun i hi => ?_⟩
    simp only [Function.update_apply] at hi
    split_ifs at hi
    exact W.observerRef i hi
  | collectSuite s =>
    left
    obtain ⟨h1, h2⟩ := hc
    obtain ⟨x, hx⟩ := Option.ne_none_iff_exists'.1 h1
    cases hq : x.ptr with
    | none => exact ⟨h, _, false, w, by simp only [step, hx, hq], I, R.dropSuite hx hq, W.dropSuite h1 h2⟩
    | some c =>
      obtain ⟨h', e, I'⟩ := lib_freeSuite I R.lent ((R.suites c).2 ⟨s, x, hx, hq⟩)
      exact ⟨h', _, false, _, by simp only [step, hx, hq, e, Res.ok_bind], I', R.closeSuite hx hq (by simp), W.dropSuite h1 h2⟩
  | collectProblem p =>
    left
    obtain ⟨h1, h2, h3⟩ := hc
    obtain ⟨x, hx⟩ := Option.ne_none_iff_exists'.1 h1
    cases hq : x.ptr with
    | none => exact ⟨h, _, false, w, by simp only [step, hx, hq], I, R.same hx hq (by simp), W.dropProblem h1 h2 h3⟩
    | some q =>
      obtain ⟨d, hd, rfl, -⟩ := R.problems p x q hx hq
      obtain ⟨h', e, I'⟩ := lib_free I hd
      exact ⟨h', _, false, _, by simp only [step, hx, hq, e, Res.ok_bind], I', R.remove hx hq (by simp), W.dropProblem h1 h2 h3⟩
  | collectObserver o =>
    left
    obtain ⟨h1, h2, h3⟩ := hc
    obtain ⟨x, hx⟩ := Option.ne_none_iff_exists'.1 h1
    cases x with
    | none => exact ⟨h, _, false, w, by simp only [step, hx], I, R.dropObserver hx, W.dropObserver h1 h2 h3⟩
    | some c =>
      obtain ⟨h', e, I'⟩ := lib_freeObserver I ((R.observers c).2 ⟨o, hx⟩)
      exact ⟨h', _, false, _, by simp only [step, hx, e, Res.ok_bind], I', R.closeObserver hx (by simp), W.dropObserver h1 h2 h3⟩

theorem reach_rel {h : Heap} {v : Objects} {a : Nat → Nat} (r : Spec.Reach h v a) : ∃ w, Inv h w ∧ Rel v a w ∧ Wf v a := by
  induction r with
  | init =>
    refine ⟨View.init, Lifecycle.Reach.inv .init, ?_, ?_⟩
    · constructor <;> simp [View.init, Objects.init]
    · constructor <;> simp [Objects.init]
  | step r hc hr e ih =>
    obtain ⟨w, I, R, W⟩ := ih
    rcases step_ok I R W _ hc hr with ⟨h', v', b, w', e', I', R', W'⟩ | ⟨e', -⟩
    · rw [e] at e'
      cases e'
      exact ⟨w', I', R', W'⟩
    · rw [e] at e'
      cases e'

/-! ### C125 -/

/-- **C125** (partial: under the rules). Whatever a program does, and whenever and in whichever order the collector removes what nothing
refers to: the library uses no freed object, frees nothing twice and fails no assertion, and only calls with an observer can end
the program. -/
theorem C125_safe_partial {h : Heap} {v : Objects} {a : Nat → Nat} (r : Spec.Reach h v a) (c : Call) (hc : Possible v c)
    (hr : Spec.Rule v a c) :
    (∃ h' v' e, step h v c = .ok (h', v', e)) ∨ (step h v c = .error ∧ Spec.Refusable c) := by
  obtain ⟨w, I, R, W⟩ := reach_rel r
  rcases step_ok I R W c hc hr with ⟨h', v', e, w', e', -⟩ | e'
  · exact .inl ⟨h', v', e, e'⟩
  · exact .inr e'

/-- **C125** (exceptions). Evaluating, observing and recommending raise an exception, without any effect, exactly if the problem has been
freed; getting problems does if the suite has been freed. -/
theorem C125_exceptions {h h' : Heap} {v v' : Objects} {e : Bool} (c : Call) (hs : step h v c = .ok (h', v', e)) :
    (∀ p, (c = .call p ∨ c = .recommend p ∨ ∃ o, c = .observeWith p o) →
      (e = true ↔ ∃ x, v.problems p = some x ∧ x.ptr = none)) ∧
    (∀ s t o, c = .getProblem s t o → (e = true ↔ t = none ∨ ∃ x, v.suites s = some x ∧ x.ptr = none)) ∧
    (∀ s t o, c = .nextProblem s t o → (e = true ↔ ∃ x, v.suites s = some x ∧ x.ptr = none)) ∧
    (e = true → h' = h ∧ v' = v) := by
  have key : ∀ {α β : Type} {m : Res α} {f : α → Res β} {y : β}, m.bind f = .ok y → ∃ x, m = .ok x ∧ f x = .ok y := by
    intro α β m f y hm
    cases m with
    | ok x => exact ⟨x, rfl, hm⟩
    | _ => cases hm
  cases c with
  | getProblem s t o =>
    simp only [step] at hs
    cases hx : v.suites s with
    | none => rw [hx] at hs; cases hs
    | some x =>
      rw [hx] at hs
      rcases x with ⟨_ | c, cur⟩
      · cases hs
        simp [hx]
      · cases t with
        | none =>
          cases hs
          simp
        | some t =>
          obtain ⟨⟨h1, q⟩, -, hs⟩ := key hs
          obtain ⟨⟨h2, y⟩, -, hs⟩ := key hs
          cases hs
          simp [hx]
  | nextProblem s t o =>
    simp only [step] at hs
    cases hx : v.suites s with
    | none => rw [hx] at hs; cases hs
    | some x =>
      rw [hx] at hs
      rcases x with ⟨_ | c, cur⟩
      · cases hs
        simp [hx]
      · obtain ⟨⟨h1, v1⟩, -, hs⟩ := key hs
        cases t with
        | none =>
          cases hs
          simp [hx]
        | some t =>
          obtain ⟨⟨h1, q⟩, -, hs⟩ := key hs
          obtain ⟨⟨h2, y⟩, -, hs⟩ := key hs
          cases hs
          simp [hx]
  | observeWith p o =>
    simp only [step] at hs
    cases hx : v.problems p with
    | none => rw [hx] at hs; cases hs
    | some x =>
      rw [hx] at hs
      rcases x with ⟨_ | q, l⟩
      · cases hs
        simp [hx]
      · obtain ⟨⟨h1, y⟩, -, hs⟩ := key hs
        cases hs
        simp [hx]
  | call p =>
    simp only [step] at hs
    cases hx : v.problems p with
    | none => rw [hx] at hs; cases hs
    | some x =>
      rw [hx] at hs
      rcases x with ⟨_ | q, l⟩
      · cases hs
        simp [hx]
      · obtain ⟨h1, -, hs⟩ := key hs
        cases hs
        simp [hx]
  | recommend p =>
    simp only [step] at hs
    cases hx : v.problems p with
    | none => rw [hx] at hs; cases hs
    | some x =>
      rw [hx] at hs
      rcases x with ⟨_ | q, l⟩
      · cases hs
        simp [hx]
      · obtain ⟨h1, -, hs⟩ := key hs
        cases hs
        simp [hx]
  | _ =>
    refine ⟨by simp, by simp, by simp, ?_⟩
    rintro rfl
    simp only [step] at hs
    repeat' split at hs
    all_goals first
      | cases hs
      | (obtain ⟨_, _, hs⟩ := key hs; cases hs)

/-- **C125** (memory). When all objects have been collected, nothing of the library is left. -/
theorem C125_no_leak {h : Heap} {v : Objects} {a : Nat → Nat} (r : Spec.Reach h v a) (hs : ∀ s, v.suites s = none)
    (hp : ∀ p, v.problems p = none) (ho : ∀ o, v.observers o = none) :
    (∀ p, h.prob p = none) ∧ (∀ s, h.suite s = none) ∧ ∀ o, h.obs o = none := by
  obtain ⟨w, I, R, -⟩ := reach_rel r
  refine ⟨fun p => ?_, fun s => ?_, fun o => ?_⟩
  · by_contra e
    obtain ⟨σ, d, hd, -⟩ := I.forest.cover p e
    cases σ with
    | user =>
      obtain ⟨p, x, h1, -⟩ := R.held d hd
      rw [hp] at h1
      cases h1
    | suite s => simp [At, R.lent] at hd
  · by_contra e
    obtain ⟨i, y, h1, -⟩ := (R.suites s).1 ((I.suites s).1 e)
    rw [hs] at h1
    cases h1
  · by_contra e
    obtain ⟨i, h1⟩ := (R.observers o).1 ((I.obs o).1 e)
    rw [ho] at h1
    cases h1

/-- Every call of a program is possible. -/
def Spec.Program : Heap → Objects → List Call → Prop
  | _, _, [] => True
  | h, v, c :: cs => Possible v c ∧ match step h v c with | .ok (h, v, _) => Spec.Program h v cs | _ => True

/-- **C125** (the full statement is false). `problem = Suite(...).get_problem(0, observer)` lets the suite be collected at once; with a
bbob observer the first evaluation, and with any observer observing the problem later, read the freed suite. -/
theorem C125_collected_suite :
    (Spec.Program Heap.init Objects.init [.newObserver .bbob "b", .newSuite, .getProblem 0 (some .base) (some 0), .delSuite 0,
      .collectSuite 0, .call 0] ∧
     run Heap.init Objects.init [.newObserver .bbob "b", .newSuite, .getProblem 0 (some .base) (some 0), .delSuite 0, .collectSuite 0,
      .call 0] = .ub) ∧
    Spec.Program Heap.init Objects.init [.newObserver .toy "t", .newSuite, .getProblem 0 (some .base) none, .delSuite 0, .collectSuite 0,
      .observeWith 0 0] ∧
    run Heap.init Objects.init [.newObserver .toy "t", .newSuite, .getProblem 0 (some .base) none, .delSuite 0, .collectSuite 0,
      .observeWith 0 0] = .ub := by
  refine ⟨⟨?_, rfl⟩, ?_, rfl⟩
  · exact ⟨trivial, trivial, ⟨rfl, by rintro o ⟨⟩; rfl⟩, rfl, ⟨by decide, rfl⟩, rfl, trivial⟩
  · exact ⟨trivial, trivial, ⟨rfl, by rintro o ⟨⟩⟩, rfl, ⟨by decide, rfl⟩, ⟨rfl, rfl⟩, trivial⟩

/-- **C125** (the full statement is false). Asking a freed problem for its number of evaluations ends the interpreter; evaluating a problem
whose observer has been freed writes to a closed file or ends the interpreter. -/
theorem C125_freed :
    (Spec.Program Heap.init Objects.init [.newSuite, .getProblem 0 (some .base) none, .freeProblem 0, .evaluations 0] ∧
     run Heap.init Objects.init [.newSuite, .getProblem 0 (some .base) none, .freeProblem 0, .evaluations 0] = .assertFail) ∧
    (Spec.Program Heap.init Objects.init [.newObserver .toy "t", .newSuite, .getProblem 0 (some .base) (some 0), .freeObserver 0, .call 0] ∧
     run Heap.init Objects.init [.newObserver .toy "t", .newSuite, .getProblem 0 (some .base) (some 0), .freeObserver 0, .call 0] = .ub) ∧
    run Heap.init Objects.init [.newObserver .bbob "b", .newSuite, .getProblem 0 (some .base) (some 0), .freeObserver 0, .call 0]
      = .assertFail := by
  refine ⟨⟨?_, rfl⟩, ⟨?_, rfl⟩, rfl⟩
  · exact ⟨trivial, ⟨rfl, by rintro o ⟨⟩⟩, rfl, rfl, trivial⟩
  · exact ⟨trivial, trivial, ⟨rfl, by rintro o ⟨⟩; rfl⟩, rfl, rfl, trivial⟩

/-! ### A case that meets the hypotheses -/

/-- A test of `Possible` and `Spec.Rule` (`Spec.check_sound`). -/
def Spec.check (v : Objects) (a : Nat → Nat) : Call → Bool
  | .newSuite => true
  | .newObserver _ _ => true
  | .getProblem s _ o => v.suiteRef s && o.all v.observerRef
  | .nextProblem s _ o => v.suiteRef s && o.all v.observerRef
  | .observeWith p o => v.problemRef p && v.observerRef o && (v.suites (a p)).any (·.ptr.isSome)
  | .call p => v.problemRef p && (v.problems p).all fun x =>
      x.ptr.isNone || ((v.suites (a p)).any (·.ptr.isSome) && x.observers.all fun o => (v.observers o).any (·.isSome))
  | .evaluations p => v.problemRef p && (v.problems p).all (·.ptr.isSome)
  | .freeProblem p => v.problemRef p
  | .delSuite s => v.suiteRef s
  | .delProblem p => v.problemRef p
  | .delObserver o => v.observerRef o
  | .collectSuite s => (v.suites s).isSome && !v.suiteRef s
  | .collectProblem p => (v.problems p).isSome && !v.problemRef p && (List.range v.ns).all fun s =>
      (v.suites s).all fun x => x.current ≠ some p
  | .collectObserver o => (v.observers o).isSome && !v.observerRef o && (List.range v.np).all fun p =>
      (v.problems p).all fun x => o ∉ x.observers
  | _ => false

theorem Spec.check_sound {v : Objects} {a : Nat → Nat} (W : Wf v a) (c : Call) (h : Spec.check v a c = true) :
    Possible v c ∧ Spec.Rule v a c := by
  have hopen : ∀ s, (v.suites s).any (·.ptr.isSome) = true → Spec.SuiteOpen v s := by
    intro s hs
    rw [Option.any_eq_true] at hs
    obtain ⟨x, hx, hp⟩ := hs
    obtain ⟨c, hc⟩ := Option.isSome_iff_exists.1 hp
    exact ⟨x, c, hx, hc⟩
  have hobs : ∀ o, (v.observers o).any (·.isSome) = true → Spec.ObserverOpen v o := by
    intro s hs
    rw [Option.any_eq_true] at hs
    obtain ⟨x, hx, hp⟩ := hs
    obtain ⟨c, rfl⟩ := Option.isSome_iff_exists.1 hp
    exact ⟨c, hx⟩
  cases c with
  | newSuite => exact ⟨trivial, trivial⟩
  | newObserver k name => exact ⟨trivial, trivial⟩
  | getProblem s t o =>
    simp only [Spec.check, Bool.and_eq_true] at h
    refine ⟨⟨h.1, fun o' e => ?_⟩, trivial⟩
    have := h.2
    rw [e] at this
    exact this
  | nextProblem s t o =>
    simp only [Spec.check, Bool.and_eq_true] at h
    refine ⟨⟨h.1, fun o' e => ?_⟩, trivial⟩
    have := h.2
    rw [e] at this
    exact this
  | observeWith p o =>
    simp only [Spec.check, Bool.and_eq_true] at h
    exact ⟨h.1, fun x _ _ => hopen _ h.2⟩
  | call p =>
    simp only [Spec.check, Bool.and_eq_true] at h
    refine ⟨h.1, fun x hx hp => ?_⟩
    have := h.2
    rw [hx] at this
    simp only [Option.all_some, Bool.or_eq_true, Bool.and_eq_true, List.all_eq_true, Option.isNone_iff_eq_none] at this
    rcases this with e | ⟨h1, h2⟩
    · exact (hp e).elim
    · exact ⟨hopen _ h1, fun o ho => hobs o (h2 o ho)⟩
  | evaluations p =>
    simp only [Spec.check, Bool.and_eq_true] at h
    refine ⟨h.1, fun x hx e => ?_⟩
    have := h.2
    rw [hx] at this
    simp [e] at this
  | freeProblem p => exact ⟨h, trivial⟩
  | delSuite s => exact ⟨h, trivial⟩
  | delProblem p => exact ⟨h, trivial⟩
  | delObserver o => exact ⟨h, trivial⟩
  | collectSuite s =>
    simp only [Spec.check, Bool.and_eq_true, Bool.not_eq_true'] at h
    exact ⟨⟨Option.isSome_iff_ne_none.1 h.1, h.2⟩, trivial⟩
  | collectProblem p =>
    simp only [Spec.check, Bool.and_eq_true, Bool.not_eq_true', List.all_eq_true, List.mem_range] at h
    refine ⟨⟨Option.isSome_iff_ne_none.1 h.1.1, h.1.2, fun s x hx => ?_⟩, trivial⟩
    have := h.2 s (W.suiteLt s (by rw [hx]; simp))
    rw [hx] at this
    simpa using this
  | collectObserver o =>
    simp only [Spec.check, Bool.and_eq_true, Bool.not_eq_true', List.all_eq_true, List.mem_range] at h
    refine ⟨⟨Option.isSome_iff_ne_none.1 h.1.1, h.1.2, fun s x hx => ?_⟩, trivial⟩
    have := h.2 s (W.problemLt s (by rw [hx]; simp)).1
    rw [hx] at this
    simpa using this
  | _ => simp [Spec.check] at h

/-- The state after a program, if it follows the rules. -/
def Spec.checked : Heap → Objects → (Nat → Nat) → List Call → Option (Heap × Objects × (Nat → Nat))
  | h, v, a, [] => some (h, v, a)
  | h, v, a, c :: cs =>
    if Spec.check v a c then
      match step h v c with
      | .ok (h, v', _) => Spec.checked h v' (Spec.home a v c) cs
      | _ => none
    else none

theorem Spec.checked_reach {h h' : Heap} {v v' : Objects} {a a' : Nat → Nat} (r : Spec.Reach h v a) (cs : List Call)
    (e : Spec.checked h v a cs = some (h', v', a')) : Spec.Reach h' v' a' := by
  induction cs generalizing h v a with
  | nil =>
    cases e
    exact r
  | cons c cs ih =>
    simp only [Spec.checked] at e
    split_ifs at e with hc
    obtain ⟨w, I, R, W⟩ := reach_rel r
    obtain ⟨h1, h2⟩ := Spec.check_sound W c hc
    rcases hs : step h v c with ⟨h4, v4, b⟩ | _ | _ | _ <;> rw [hs] at e
    · exact ih (r.step h1 h2 hs) e
    all_goals cases e

/-- An experiment: two problems of a suite, the second observed twice; the program evaluates the first after the suite has freed it,
gives up the observers, and all objects are collected, the suite before the problems. -/
def Spec.case : List Call :=
  [.newSuite, .newObserver .bbob "b", .newObserver .rw "r", .nextProblem 0 (some .base) (some 0), .call 0, .evaluations 0,
   .nextProblem 0 (some (.wrap .base)) (some 0), .call 0, .observeWith 1 1, .delObserver 1, .call 1, .delSuite 0, .collectSuite 0,
   .delObserver 0, .delProblem 0, .collectProblem 0, .freeProblem 1, .call 1, .delProblem 1, .collectProblem 1, .collectObserver 1,
   .collectObserver 0]

/-- The case follows the rules and collects what it has made; nothing of the library is left. -/
example : ∃ h v a, Spec.checked Heap.init Objects.init (fun _ => 0) Spec.case = some (h, v, a) ∧
    (∀ s < v.ns, v.suites s = none) ∧ (∀ p < v.np, v.problems p = none) ∧ ∀ o < v.no, v.observers o = none := by
  have e : (match Spec.checked Heap.init Objects.init (fun _ => 0) Spec.case with
    | some (_, v, _) => (List.range v.ns).all (fun s => (v.suites s).isNone) && (List.range v.np).all (fun p => (v.problems p).isNone) &&
        (List.range v.no).all (fun o => (v.observers o).isNone)
    | none => false) = true := by decide +kernel
  rcases hc : Spec.checked Heap.init Objects.init (fun _ => 0) Spec.case with _ | ⟨h, v, a⟩ <;> rw [hc] at e
  · cases e
  · simp only [Bool.and_eq_true, List.all_eq_true, List.mem_range, Option.isNone_iff_eq_none] at e
    exact ⟨h, v, a, rfl, e.1.1, e.1.2, e.2⟩

end PyObjects
