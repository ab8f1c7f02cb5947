import Verif.Lemmas.BiobjItems

/-!
# C106: memory of the solutions kept by the bi-objective logger
-/

namespace BiobjItems
open LoggerBiobj (Item Arch State Params Op Mode cmpObj after createItem output treeOutput Trees ItemOk Inv Content Ordered itemOf)
open LoggerBiobj.Spec (Sol sols lastEv Survives Setup Legal)

variable {T : Type}

/-! ### Specification -/

/-- The evaluation numbers of the infeasible solutions. -/
def Spec.infeasible (l : List Sol) : List Nat := (l.filter fun s => !s.feasible).map Sol.ev

/-! ### Proof -/

theorem infeasible_append (l : List Sol) (n : Sol) :
    Spec.infeasible (l ++ [n]) = if n.feasible then Spec.infeasible l else Spec.infeasible l ++ [n.ev] := by
  unfold Spec.infeasible
  cases h : n.feasible <;> simp [h]

theorem mem_infeasible {l : List Sol} {e : Nat} : e ∈ Spec.infeasible l ↔ ∃ s ∈ l, s.ev = e ∧ s.feasible = false := by
  unfold Spec.infeasible
  simp only [List.mem_map, List.mem_filter, Bool.not_eq_true', and_assoc]
  constructor
  · rintro ⟨s, h1, h2, h3⟩; exact ⟨s, h1, h3, h2⟩
  · rintro ⟨s, h1, h2, h3⟩; exact ⟨s, h1, h3, h2⟩

theorem ordered_inj {l : List Sol} (ho : Ordered l) {a b : Sol} (ha : a ∈ l) (hb : b ∈ l) (e : a.ev = b.ev) : a = b := by
  have hn : (l.map Sol.ev).Nodup := by
    refine List.Pairwise.imp (fun h => ne_of_lt h) ?_
    exact List.pairwise_map.mpr ho.1
  exact List.inj_on_of_nodup_map hn ha hb e

theorem content_nodup {P : Params T} {l : List Sol} {a : Arch} (c : Content P l a) (ho : Ordered l) :
    (a.archive.items.map Item.ev ++ Spec.infeasible l).Nodup := by
  rw [List.nodup_append]
  refine ⟨c.trees.evs, ?_, ?_⟩
  · have : (l.map Sol.ev).Nodup := List.Pairwise.imp (fun h => ne_of_lt h) (List.pairwise_map.mpr ho.1)
    exact this.sublist (List.filter_sublist.map Sol.ev)
  · intro e he e' he' heq
    subst heq
    obtain ⟨it, hit, rfl⟩ := List.mem_map.mp he
    obtain ⟨s, hs, rfl⟩ := (c.mem it).1 hit
    obtain ⟨q, hq, h1, h2⟩ := mem_infeasible.mp he'
    have := ordered_inj ho hq hs.1 h1
    rw [this, hs.2.1] at h2
    cases h2

theorem content_lt {P : Params T} {l : List Sol} {a : Arch} (c : Content P l a) (ho : Ordered l) :
    ∀ e ∈ a.archive.items.map Item.ev ++ Spec.infeasible l, e ≤ lastEv l := by
  intro e he
  rcases List.mem_append.mp he with he | he
  · obtain ⟨it, hit, rfl⟩ := List.mem_map.mp he
    obtain ⟨s, hs, rfl⟩ := (c.mem it).1 hit
    exact ho.le_last s hs.1
  · obtain ⟨q, hq, rfl, -⟩ := mem_infeasible.mp he
    exact ho.le_last q hq

theorem output_arch {P : Params T} {s s' : State T} {b : Bool} {n : Option Item} (h : output P s b n = .ok s') : s'.arch = s.arch := by
  unfold output at h
  split at h
  · cases h1 : LoggerBiobj.updateValue P s.arch.cur s.evals b n s.ind with
    | ok i =>
      rw [h1, Res.ok_bind] at h
      generalize (if P.mode = .read then _ else _ : Res (LoggerBiobj.Ind T)) = r at h
      cases r with
      | ok i =>
        rw [Res.ok_bind] at h
        cases h2 : LoggerBiobj.logTdat s.evals i with
        | ok i =>
          rw [h2, Res.ok_bind] at h
          injection h with h
          rw [← h]
        | error => rw [h2] at h; cases h
        | assertFail => rw [h2] at h; cases h
        | ub => rw [h2] at h; cases h
      | error => cases h
      | assertFail => cases h
      | ub => cases h
    | error => rw [h1] at h; cases h
    | assertFail => rw [h1] at h; cases h
    | ub => rw [h1] at h; cases h
  · injection h with h; rw [← h]

/-- The item of a new solution. -/
theorem solution_sim {P : Params T} {l : List Sol} {a a' : Arch} {n : Sol} {m : Mem} {performed : Bool} {node : Option Item}
    (c : Content P l a) (ho : Ordered l) (hn : lastEv l < n.ev) (h : Held m a.archive.items (Spec.infeasible l))
    (e : LoggerBiobj.treeUpdate P.ci a (itemOf P n) = .ok (a', performed, node)) :
    ∃ m', treeUpdate P.ci (m ++ [(itemOf P n).ev]) a (itemOf P n) = .ok (m', a', performed) ∧ readable m' (itemOf P n) = node ∧
      Held m' a'.archive.items (Spec.infeasible (l ++ [n])) := by
  have hh : Held (m ++ [(itemOf P n).ev]) a.archive.items (Spec.infeasible l ++ [(itemOf P n).ev]) := by
    unfold Held
    rw [← List.append_assoc]
    exact List.Perm.append_right _ h
  have hnd : (m ++ [(itemOf P n).ev]).Nodup := by
    rw [List.nodup_append]
    refine ⟨h.nodup_iff.mpr (content_nodup c ho), by simp, ?_⟩
    intro x hx y hy
    rw [List.mem_singleton.mp hy]
    have := content_lt c ho x (h.mem_iff.mp hx)
    show x ≠ n.ev
    omega
  obtain ⟨m', h1, h2, h3⟩ := treeUpdate_sim c.trees (LoggerBiobj.itemOf_ok P n) hnd hh e
  refine ⟨m', h1, h2, ?_⟩
  rw [infeasible_append]
  exact h3

theorem bind_ok_inv {α β : Type} {r : Res α} {f : α → Res β} {b : β} (h : r.bind f = .ok b) : ∃ a, r = .ok a ∧ f a = .ok b := by
  cases r with
  | ok a => exact ⟨a, rfl, h⟩
  | error => cases h
  | assertFail => cases h
  | ub => cases h

theorem step_sim {P : Params T} {base : List Nat} {dim : Nat} (hP : Setup P base dim) (t0 : T) (h : List Op) (op : Op)
    (hl : Legal P.mode dim (h ++ [op])) (s s' : State T) (m : Mem) (iv : Inv P base dim t0 h s)
    (hm : Held m s.arch.archive.items (Spec.infeasible (sols dim h))) (e : LoggerBiobj.step P dim s op = .ok s') :
    ∃ m', step P dim m s op = .ok (m', s') ∧ Held m' s'.arch.archive.items (Spec.infeasible (sols dim (h ++ [op]))) := by
  cases op with
  | evaluate x y1 y2 cons =>
    have hs : sols dim (h ++ [.evaluate x y1 y2 cons]) =
        sols dim h ++ [⟨lastEv (sols dim h) + 1, x, y1, y2, decide (∀ c ∈ cons, c ≤ 0)⟩] := by
      rw [LoggerBiobj.sols_append]; rfl
    rw [hs]
    change LoggerBiobj.evaluate P s x y1 y2 cons = .ok s' at e
    unfold LoggerBiobj.evaluate at e
    show ∃ m', evaluate P m s x y1 y2 cons = _ ∧ _
    unfold evaluate
    simp only at e ⊢
    rw [iv.evals, LoggerBiobj.createItem_eq hP, Res.ok_bind] at e ⊢
    obtain ⟨⟨a', performed, node⟩, e1, e⟩ := bind_ok_inv e
    obtain ⟨s1, e2, e⟩ := bind_ok_inv e
    have hc := LoggerBiobj.update_content P P.ci _ s.arch iv.content iv.hyp iv.ordered
      ⟨lastEv (sols dim h) + 1, x, y1, y2, decide (∀ c ∈ cons, c ≤ 0)⟩ (by simp)
    obtain ⟨a2, p2, n2, k1, k2, -⟩ := hc
    rw [e1] at k1
    injection k1 with k1
    injection k1 with k1 k3
    subst k1
    obtain ⟨m', g1, g2, g3⟩ := solution_sim iv.content iv.ordered (n := ⟨lastEv (sols dim h) + 1, x, y1, y2, decide (∀ c ∈ cons, c ≤ 0)⟩)
      (by simp) hm e1
    refine ⟨m', ?_, ?_⟩
    · rw [g1, Res.ok_bind]
      simp only
      rw [reads_ok (fun q hq => g3.mem (k2.trees.bsub q hq)), Res.ok_bind, e2, Res.ok_bind, g2, e, Res.ok_bind]
    · rw [output_arch e]
      have : s1.arch.archive = a'.archive := by
        split at e2
        · obtain ⟨ls, -, e2⟩ := bind_ok_inv e2
          injection e2 with e2
          rw [← e2]
        · injection e2 with e2
          rw [← e2]
      rw [this]
      exact g3
  | feed ev y1 y2 =>
    obtain ⟨hmode, hev⟩ := hl h ev y1 y2 [] rfl
    have hs : sols dim (h ++ [.feed ev y1 y2]) = sols dim h ++ [⟨ev, List.replicate dim 0, y1, y2, true⟩] := by
      rw [LoggerBiobj.sols_append]; rfl
    rw [hs]
    change (LoggerBiobj.feed P dim s ev y1 y2).bind _ = .ok s' at e
    obtain ⟨⟨s0, b⟩, e0, e⟩ := bind_ok_inv e
    injection e with e
    change s0 = s' at e
    subst e
    unfold LoggerBiobj.feed at e0
    show ∃ m', feed P dim m s ev y1 y2 = _ ∧ _
    unfold feed
    have hd : decide (∀ c ∈ ([] : List ℚ), c ≤ 0) = true := by simp
    rw [decide_eq_true hmode] at e0 ⊢
    simp only [Res.assert, if_true, Res.ok_bind] at e0 ⊢
    rw [if_neg (by rw [iv.evals]; omega), LoggerBiobj.createItem_eq hP, Res.ok_bind, hd] at e0 ⊢
    obtain ⟨⟨a', performed, node⟩, e1, e0⟩ := bind_ok_inv e0
    obtain ⟨s1, e2, e0⟩ := bind_ok_inv e0
    injection e0 with e0
    injection e0 with e0 _
    subst e0
    obtain ⟨m', g1, g2, g3⟩ := solution_sim iv.content iv.ordered (n := ⟨ev, List.replicate dim 0, y1, y2, true⟩) hev hm e1
    refine ⟨m', ?_, ?_⟩
    · rw [g1, Res.ok_bind]
      simp only
      rw [g2, e2, Res.ok_bind]
    · rw [output_arch e2]
      exact g3
  | restart =>
    have hs : sols dim (h ++ [.restart]) = sols dim h := by rw [LoggerBiobj.sols_append]; rfl
    injection e with e
    refine ⟨m, by rw [← e]; rfl, ?_⟩
    rw [hs, ← e]
    unfold LoggerBiobj.restart
    split <;> exact hm
  | recommend x y1 y2 cons =>
    have hs : sols dim (h ++ [.recommend x y1 y2 cons]) = sols dim h := by rw [LoggerBiobj.sols_append]; rfl
    injection e with e
    refine ⟨m, by rw [← e]; rfl, ?_⟩
    rw [hs, ← e]
    exact hm

theorem run_append (P : Params T) (dim : Nat) (m : Mem) (s : State T) (h h' : List Op) :
    run P dim m s (h ++ h') = (run P dim m s h).bind fun (m, s) => run P dim m s h' := by
  induction h generalizing m s with
  | nil => rfl
  | cons op h ih =>
    simp only [List.cons_append, run, ih]
    cases step P dim m s op <;> rfl

theorem run_sim {P : Params T} {base : List Nat} {dim : Nat} (hP : Setup P base dim) (t0 : T) (h : List Op)
    (hl : Legal P.mode dim h) :
    ∃ m s, run P dim [] (LoggerBiobj.init t0 base dim) h = .ok (m, s) ∧ LoggerBiobj.run P dim (LoggerBiobj.init t0 base dim) h = .ok s ∧
      Inv P base dim t0 h s ∧ Held m s.arch.archive.items (Spec.infeasible (sols dim h)) := by
  induction h using List.reverseRecOn with
  | nil => exact ⟨[], _, rfl, rfl, LoggerBiobj.init_inv hP t0, List.Perm.refl _⟩
  | append_singleton h op ih =>
    obtain ⟨m, s, e1, e2, iv, hm⟩ := ih (LoggerBiobj.legal_prefix hl)
    obtain ⟨s', e3, iv'⟩ := LoggerBiobj.step_inv hP t0 h op hl s iv
    obtain ⟨m', e4, hm'⟩ := step_sim hP t0 h op hl s s' m iv hm e3
    refine ⟨m', s', ?_, ?_, iv', hm'⟩
    · rw [run_append, e1, Res.ok_bind]
      simp only [run]
      rw [e4]; rfl
    · rw [LoggerBiobj.run_append, e2, Res.ok_bind]
      simp only [LoggerBiobj.run]
      rw [e3]; rfl

theorem finish_ok {P : Params T} {base : List Nat} {dim : Nat} {t0 : T} {h : List Op} {s : State T} (iv : Inv P base dim t0 h s) :
    ∃ s', LoggerBiobj.finish P s = .ok s' := by
  unfold LoggerBiobj.finish
  by_cases hm : P.mode = .final
  · obtain ⟨t, e1, inv1, m1⟩ := LoggerBiobj.resort_spec s.arch.archive.items Avl.empty ⟨trivial, rfl, List.Pairwise.nil⟩
      iv.content.trees.evs (by intro it _ q hq; simp [Avl.empty] at hq)
    have hout := LoggerBiobj.treeOutput_eq s.arch t.items (fun it hit => by
      rcases (m1 it).1 hit with h | h
      · exact h
      · simp [Avl.empty] at h)
    rw [if_pos hm, e1, Res.ok_bind, hout, Res.ok_bind, Res.ok_bind]
    split <;> exact ⟨_, rfl⟩
  · rw [if_neg hm, Res.ok_bind]
    split <;> exact ⟨_, rfl⟩

/-! ### C106 -/

/-- **C106** (while the problem exists). In every sequence of calls no released solution is read and none is released twice; the calls
have the same effect as without memory. The solutions held in memory are those that survive in the archive and the infeasible
ones, each once. Partial: the infeasible ones serve no purpose. -/
theorem C106_held_partial (P : Params T) (base : List Nat) (dim : Nat) (hP : Setup P base dim) (t0 : T) (h : List Op)
    (hl : Legal P.mode dim h) :
    ∃ m s, run P dim [] (LoggerBiobj.init t0 base dim) h = .ok (m, s) ∧ LoggerBiobj.run P dim (LoggerBiobj.init t0 base dim) h = .ok s ∧
      m.Nodup ∧ ∀ e, e ∈ m ↔ ∃ sol ∈ sols dim h, sol.ev = e ∧ (Survives P (sols dim h) sol ∨ sol.feasible = false) := by
  obtain ⟨m, s, e1, e2, iv, hm⟩ := run_sim hP t0 h hl
  refine ⟨m, s, e1, e2, hm.nodup_iff.mpr (content_nodup iv.content iv.ordered), ?_⟩
  intro e
  rw [hm.mem_iff, List.mem_append, mem_infeasible, List.mem_map]
  constructor
  · rintro (⟨it, hit, rfl⟩ | ⟨q, hq, h1, h2⟩)
    · obtain ⟨q, hq, rfl⟩ := (iv.content.mem it).1 hit
      exact ⟨q, hq.1, rfl, .inl hq⟩
    · exact ⟨q, hq, h1, .inr h2⟩
  · rintro ⟨q, hq, h1, h2 | h2⟩
    · exact .inl ⟨itemOf P q, (iv.content.mem _).2 ⟨q, h2, rfl⟩, h1⟩
    · exact .inr ⟨q, hq, h1, h2⟩

/-- **C106** (release). When the problem is freed, every solution held in memory is released once, except that the infeasible
ones are never released; if all solutions were feasible, nothing remains. -/
theorem C106_released_partial (P : Params T) (base : List Nat) (dim : Nat) (hP : Setup P base dim) (t0 : T) (h : List Op)
    (hl : Legal P.mode dim h) :
    ∃ m s m' s', run P dim [] (LoggerBiobj.init t0 base dim) h = .ok (m, s) ∧ finish P m s = .ok (m', s') ∧
      LoggerBiobj.finish P s = .ok s' ∧ m'.Perm (Spec.infeasible (sols dim h)) ∧
      ((∀ sol ∈ sols dim h, sol.feasible = true) → m' = []) := by
  obtain ⟨m, s, e1, -, iv, hm⟩ := run_sim hP t0 h hl
  obtain ⟨s', e2⟩ := finish_ok iv
  obtain ⟨m', f1, f2⟩ := freeAll_ok _ m hm
  refine ⟨m, s, m', s', e1, ?_, e2, f2, ?_⟩
  · unfold finish
    have : (if P.mode = .final then reads m s.arch.archive.items else .ok ()) = .ok () := by
      split
      · exact reads_ok fun q hq => hm.mem hq
      · rfl
    rw [this, Res.ok_bind, e2, Res.ok_bind, f1, Res.ok_bind]
  · intro hall
    have : Spec.infeasible (sols dim h) = [] := by
      rw [List.eq_nil_iff_forall_not_mem]
      intro e he
      obtain ⟨q, hq, -, h2⟩ := mem_infeasible.mp he
      rw [hall q hq] at h2
      cases h2
    rw [this] at f2
    exact f2.eq_nil

/-- **C106** fails for infeasible solutions: with a constraint that is violated at one point, each evaluation of that point
leaves one solution in memory after the problem is freed. -/
theorem C106_infeasible_kept (n : Nat) :
    ∃ m s m' s', run (LoggerBiobj.exampleParams .all) 3 [] (LoggerBiobj.init () [1, 2, 5] 3)
        (List.replicate n (.evaluate [0] 1 1 [1])) = .ok (m, s) ∧
      finish (LoggerBiobj.exampleParams .all) m s = .ok (m', s') ∧ m'.length = n := by
  obtain ⟨m, s, m', s', h1, h2, -, h3, -⟩ := C106_released_partial (LoggerBiobj.exampleParams .all) [1, 2, 5] 3
    (LoggerBiobj.exampleSetup _) () (List.replicate n (.evaluate [0] 1 1 [1])) (by
      intro l1 ev y1 y2 l2 hh
      have : Op.feed ev y1 y2 ∈ List.replicate n (Op.evaluate [0] 1 1 [1]) := by rw [hh]; simp
      simp at this)
  refine ⟨m, s, m', s', h1, h2, ?_⟩
  rw [h3.length_eq]
  clear h1 h2 h3
  induction n with
  | zero => rfl
  | succ n ih =>
    rw [List.replicate_succ', LoggerBiobj.sols_append]
    unfold LoggerBiobj.Spec.addOp
    have hd : decide (∀ c ∈ [(1 : ℚ)], c ≤ 0) = false := by norm_num
    rw [infeasible_append, hd]
    simp [ih]

/-! ### A case that meets the hypotheses -/

/-- The first solution is infeasible, the third dominates the second and the fourth, the fifth survives too. -/
example : ∃ m s m' s', run (LoggerBiobj.exampleParams .all) 3 [] (LoggerBiobj.init () [1, 2, 5] 3) LoggerBiobj.exampleCalls = .ok (m, s) ∧
    finish (LoggerBiobj.exampleParams .all) m s = .ok (m', s') ∧ m' = [1] := by
  obtain ⟨m, s, m', s', h1, h2, -, h3, -⟩ := C106_released_partial (LoggerBiobj.exampleParams .all) [1, 2, 5] 3
    (LoggerBiobj.exampleSetup _) () LoggerBiobj.exampleCalls (LoggerBiobj.exampleLegal _ _)
  refine ⟨m, s, m', s', h1, h2, ?_⟩
  have : Spec.infeasible (sols 3 LoggerBiobj.exampleCalls) = [1] := by decide +kernel
  rw [this] at h3
  exact List.perm_singleton.1 h3

example : ∃ m s m' s', run (LoggerBiobj.exampleParams .read) 1 [] (LoggerBiobj.init () [1, 2, 5] 1) LoggerBiobj.exampleFeeds = .ok (m, s) ∧
    finish (LoggerBiobj.exampleParams .read) m s = .ok (m', s') ∧ m' = [] := by
  obtain ⟨m, s, m', s', h1, h2, -, -, h3⟩ := C106_released_partial (LoggerBiobj.exampleParams .read) [1, 2, 5] 1
    ⟨(LoggerBiobj.exampleSetup .read).roi1, (LoggerBiobj.exampleSetup .read).roi2, (LoggerBiobj.exampleSetup .read).base, le_rfl⟩
    () LoggerBiobj.exampleFeeds LoggerBiobj.exampleLegalFeeds
  exact ⟨m, s, m', s', h1, h2, h3 (by decide +kernel)⟩

end BiobjItems
