import Verif.Lemmas.ArchiveItems

/-!
# C110: memory of the archive
-/

namespace ArchiveItems
open Archive (Item State Op vec)
open Archive.Spec (points texts survives)

/-! ### Specification -/

/-- An archive created and used by a sequence of calls. -/
def session (i1 i2 n1 n2 : ℚ) (t1 t2 : String) (h : List Op) : Res (Mem × State × List Out) :=
  (create i1 i2 n1 n2 t1 t2).bind fun (m, s) => run m s h

/-- The blocks an archive with the given solutions consists of: four for the archive itself, three for every solution that is
neither dominated by another one nor a repetition of an earlier one. -/
def Spec.needed (pts : List (ℚ × ℚ)) : Block → Prop
  | .archive => True
  | .tree => True
  | .ideal => True
  | .nadir => True
  | .item i => survives pts i
  | .values i => survives pts i
  | .text i => survives pts i
  | _ => False

/-! ### Proof -/

theorem add_tr {pts : List (ℚ × ℚ)} {txt : List String} {s s' : State} (c : Archive.Content pts txt s)
    {i1 i2 n1 n2 : ℚ} (h1 : 5 / 10 ^ 13 < n1 - i1) (h2 : 5 / 10 ^ 13 < n2 - i2)
    (hi : s.ideal = [i1, i2]) (hn : s.nadir = [n1, n2]) {y1 y2 : ℚ} {text : String} {r : Int}
    (hs : Archive.add s y1 y2 text = .ok (s', r)) : Tr s' ∧ s'.ideal = [i1, i2] ∧ s'.nadir = [n1, n2] := by
  obtain ⟨t, c', ⟨-, e1, e2⟩ | ⟨-, e2, -⟩⟩ := Archive.add_content c i1 i2 n1 n2 h1 h2 hi hn y1 y2 text
  · rw [hs] at e2
    injection e2 with e2
    injection e2 with e2 e3
    subst e2
    exact ⟨⟨c.good.inv, c.good.normal⟩, hi, hn⟩
  · rw [hs] at e2
    injection e2 with e2
    injection e2 with e2 e3
    subst e2
    exact ⟨⟨c'.good.inv, c'.good.normal⟩, hi, hn⟩

theorem addExtreme_sim {m : Mem} {s s' : State} {extra : List Block} {i1 i2 n1 n2 : ℚ} (h1 : 5 / 10 ^ 13 < n1 - i1)
    (h2 : 5 / 10 ^ 13 < n2 - i2) (hi : s.ideal = [i1, i2]) (hn : s.nadir = [n1, n2]) {y1 y2 : ℚ} {text : String} {r : Int}
    (t : Tr s) (h : Held m s.tree.items extra) (hs : Archive.add s y1 y2 text = .ok (s', r)) (hr : r = 1) :
    ∃ m', addExtreme m s y1 y2 text = .ok (m', s') ∧ Held m' s'.tree.items extra := by
  have h0 : Held (alloc m .line) s.tree.items (.line :: extra) := by
    unfold Held alloc
    exact (List.Perm.cons _ h).trans List.perm_middle.symm
  obtain ⟨m1, k1, k2⟩ := add_sim h1 h2 hi hn t h0 hs
  obtain ⟨m2, f1, f2⟩ := free_ok (List.Perm.trans k2 List.perm_middle)
  refine ⟨m2, ?_, f2⟩
  unfold addExtreme
  rw [k1, Res.ok_bind]
  simp only
  rw [f1, Res.ok_bind, hr]
  rfl

/-- The blocks of the archive itself. -/
def base : List Block := [.tree, .ideal, .nadir, .archive]

theorem assert_inv {p : Prop} [Decidable p] {u : Unit} (h : Res.assert (decide p) = .ok u) : p := by
  by_contra hp
  rw [decide_eq_false hp] at h
  cases h

theorem create_sim (i1 i2 n1 n2 : ℚ) (t1 t2 : String) (h1 : 5 / 10 ^ 13 < n1 - i1) (h2 : 5 / 10 ^ 13 < n2 - i2) {s : State}
    (hs : Archive.create i1 i2 n1 n2 t1 t2 = .ok s) :
    ∃ m, create i1 i2 n1 n2 t1 t2 = .ok (m, s) ∧ Held m s.tree.items base := by
  unfold Archive.create at hs
  simp only at hs
  obtain ⟨⟨sa, ra⟩, ha, hs⟩ := bind_ok_inv hs
  obtain ⟨u, ua, hs⟩ := bind_ok_inv hs
  obtain ⟨⟨sb, rb⟩, hb, hs⟩ := bind_ok_inv hs
  obtain ⟨u', ub, hs⟩ := bind_ok_inv hs
  obtain ⟨u'', uc, hs⟩ := bind_ok_inv hs
  injection hs with hs
  have c0 : Archive.Content [] [] (⟨Avl.empty, [i1, i2], [n1, n2], false, 0, 0, none, none, none, false, 0⟩ : State) :=
    ⟨⟨⟨trivial, rfl, List.Pairwise.nil⟩, List.Pairwise.nil, by simp [Avl.empty], by simp, by simp⟩, rfl, rfl,
      by simp [Avl.empty], by simp, by simp [Avl.empty]⟩
  obtain ⟨ta, ia, na⟩ := add_tr c0 h1 h2 rfl rfl ha
  have hh : Held (alloc (alloc (alloc (alloc (alloc (alloc [] .archive) .tree) .suiteInstance) .suiteOptions) .ideal) .nadir)
      (Avl.empty : Avl.Avl Item).items (.suiteInstance :: .suiteOptions :: base) := by
    unfold Held alloc base Avl.empty
    decide
  obtain ⟨ma, ka, ha'⟩ := addExtreme_sim h1 h2 rfl rfl ⟨c0.good.inv, c0.good.normal⟩ hh ha (assert_inv ua)
  obtain ⟨mb, kb, hb'⟩ := addExtreme_sim h1 h2 ia na ta ha' hb (assert_inv ub)
  obtain ⟨mc, fc, pc⟩ := free_ok (List.Perm.trans hb' List.perm_middle)
  obtain ⟨md, fd, pd⟩ := free_ok (List.Perm.trans pc List.perm_middle)
  refine ⟨md, ?_, ?_⟩
  · unfold create
    simp only
    rw [ka, Res.ok_bind]
    simp only
    rw [kb, Res.ok_bind]
    simp only
    rw [uc, Res.ok_bind, fc, Res.ok_bind, fd, Res.ok_bind, hs]
  · rw [← hs]
    exact pd

theorem run_append (m : Mem) (s : State) (h h' : List Op) :
    run m s (h ++ h') = (run m s h).bind fun (m, s, os) => (run m s h').bind fun (m, s, os') => .ok (m, s, os ++ os') := by
  induction h generalizing m s with
  | nil =>
    simp only [List.nil_append, run, Res.ok_bind]
    cases run m s h' <;> rfl
  | cons op h ih =>
    simp only [List.cons_append, run, ih]
    cases step m s op with
    | ok p =>
      simp only [Res.ok_bind]
      cases run p.1 p.2.1 h with
      | ok q => simp only [Res.ok_bind]; cases run q.1 q.2.1 h' <;> rfl
      | _ => rfl
    | _ => rfl

theorem between_tr {i1 i2 n1 n2 : ℚ} {t1 t2 : String} {h : List Op} {s : State} (b : Archive.Between i1 i2 n1 n2 t1 t2 h s) :
    Tr s ∧ s.ideal = [i1, i2] ∧ s.nadir = [n1, n2] := ⟨⟨b.1.good.inv, b.1.good.normal⟩, b.2.1, b.2.2.1⟩

theorem session_spec (i1 i2 n1 n2 : ℚ) (t1 t2 : String) (h1 : 5 / 10 ^ 13 < n1 - i1) (h2 : 5 / 10 ^ 13 < n2 - i2) (h : List Op) :
    ∃ s0 m0 m s os os', Archive.create i1 i2 n1 n2 t1 t2 = .ok s0 ∧ Archive.run s0 h = .ok (s, os') ∧
      create i1 i2 n1 n2 t1 t2 = .ok (m0, s0) ∧ run m0 s0 h = .ok (m, s, os) ∧
      Archive.Between i1 i2 n1 n2 t1 t2 h s ∧ Held m s.tree.items base := by
  obtain ⟨s0, e0, b0⟩ := Archive.create_spec i1 i2 n1 n2 t1 t2 h1 h2
  obtain ⟨m0, k0, hh0⟩ := create_sim i1 i2 n1 n2 t1 t2 h1 h2 e0
  induction h using List.reverseRecOn with
  | nil => exact ⟨s0, m0, m0, s0, [], [], e0, rfl, k0, rfl, b0, hh0⟩
  | append_singleton h op ih =>
    obtain ⟨s0', m0', m, s, os, os', e0', e, k0', k, b, hh⟩ := ih
    obtain ⟨s', o, es, b', -⟩ := Archive.step_spec i1 i2 n1 n2 t1 t2 h1 h2 h s b op
    obtain ⟨tr, hi, hn⟩ := between_tr b
    obtain ⟨m', o', f1, f2, -⟩ := step_sim h1 h2 hi hn tr hh es
    refine ⟨s0', m0', m', s', os ++ [o'], os' ++ [o], e0', ?_, k0', ?_, b', f2⟩
    · rw [Archive.run_append, e]
      simp [Archive.run, es]
    · rw [run_append, k]
      simp [run, f1]

theorem ids_nodup {pts : List (ℚ × ℚ)} {txt : List String} {s : State} (c : Archive.Content pts txt s) :
    (s.tree.items.map Item.id).Nodup := by
  refine List.Nodup.map_on ?_ (Avl.increasing_nodup c.good.inv.increasing)
  intro a ha b hb e
  have k1 := (c.from_pts a ha).1
  have k2 := (c.from_pts b hb).1
  rw [e, k2] at k1
  injection k1 with k1
  exact Archive.stair_antichain c.good.stair ha hb ⟨by rw [k1], by rw [k1]⟩

theorem needed_iff {pts : List (ℚ × ℚ)} {txt : List String} {s : State} (c : Archive.Content pts txt s) {m : Mem}
    (h : Held m s.tree.items base) : m.Nodup ∧ ∀ b, b ∈ m ↔ Spec.needed pts b := by
  constructor
  · rw [h.nodup_iff, List.nodup_append]
    refine ⟨?_, by decide, ?_⟩
    · rw [List.nodup_flatMap]
      refine ⟨fun it _ => by simp [blocks], ?_⟩
      have := List.pairwise_map.mp (ids_nodup c)
      refine this.imp ?_
      intro a b hab
      simp only [Function.onFun, List.disjoint_left, blocks]
      intro x hx hy
      simp only [List.mem_cons, List.not_mem_nil, or_false] at hx hy
      rcases hx with rfl | rfl | rfl <;> simp at hy <;> exact hab hy
    · intro x hx y hy e
      subst e
      obtain ⟨it, -, hb⟩ := List.mem_flatMap.mp hx
      simp only [base, blocks, List.mem_cons, List.not_mem_nil, or_false] at hb hy
      rcases hb with rfl | rfl | rfl <;> simp at hy
  · intro b
    rw [h.mem_iff, List.mem_append, List.mem_flatMap]
    have hc := Archive.content_iff c
    cases b <;> simp only [Spec.needed, base, blocks, List.mem_cons, List.not_mem_nil, or_false, reduceCtorEq, false_or, or_true,
      and_false, exists_false, true_or, iff_true, iff_false, not_false_eq_true, Block.item.injEq, Block.values.injEq,
      Block.text.injEq, false_iff, or_self] <;> rw [← hc] <;>
      exact ⟨fun ⟨it, h1, h2⟩ => ⟨it, h1, h2.symm⟩, fun ⟨it, h1, h2⟩ => ⟨it, h1, h2.symm⟩⟩

/-! ### The properties -/

/-- **C110** (use). For every sequence of calls on an archive: no released memory is read or released again, and the allocated
memory is exactly that of the archive itself and of the solutions that are neither dominated nor repetitions, each block once. -/
theorem C110_memory (i1 i2 n1 n2 : ℚ) (t1 t2 : String) (h1 : 5 / 10 ^ 13 < n1 - i1) (h2 : 5 / 10 ^ 13 < n2 - i2) (h : List Op) :
    ∃ m s os, session i1 i2 n1 n2 t1 t2 h = .ok (m, s, os) ∧ m.Nodup ∧ ∀ b, b ∈ m ↔ Spec.needed (points i1 i2 n1 n2 h) b := by
  obtain ⟨s0, m0, m, s, os, os', -, -, k0, k, b, hh⟩ := session_spec i1 i2 n1 n2 t1 t2 h1 h2 h
  refine ⟨m, s, os, ?_, needed_iff b.1 hh⟩
  unfold session
  rw [k0, Res.ok_bind]
  exact k

/-- **C110** (release). Freeing the archive after any sequence of calls leaves nothing allocated. -/
theorem C110_free (i1 i2 n1 n2 : ℚ) (t1 t2 : String) (h1 : 5 / 10 ^ 13 < n1 - i1) (h2 : 5 / 10 ^ 13 < n2 - i2) (h : List Op) :
    ((session i1 i2 n1 n2 t1 t2 h).bind fun (m, s, _) => destroy m s) = .ok [] := by
  obtain ⟨s0, m0, m, s, os, os', -, -, k0, k, b, hh⟩ := session_spec i1 i2 n1 n2 t1 t2 h1 h2 h
  unfold session
  rw [k0, Res.ok_bind]
  simp only
  rw [k, Res.ok_bind]
  show destroy m s = _
  obtain ⟨m1, e1, p1⟩ := freeItems_ok s.tree.items m hh
  obtain ⟨m2, e2, p2⟩ := free_ok p1
  obtain ⟨m3, e3, p3⟩ := free_ok p2
  obtain ⟨m4, e4, p4⟩ := free_ok p3
  obtain ⟨m5, e5, p5⟩ := free_ok p4
  unfold destroy
  rw [e1, Res.ok_bind, e2, Res.ok_bind, e3, Res.ok_bind, e4, Res.ok_bind, e5, List.perm_nil.mp p5]

/-- **C110** (text). A request for the next text returns the constant `""` or a pointer to the text of a solution of the archive,
which is allocated and stays so during further calls exactly as long as no solution that dominates it is given. The text
is the one of property C37 (the result of the same call in the model without memory). -/
theorem C110_text (i1 i2 n1 n2 : ℚ) (t1 t2 : String) (h1 : 5 / 10 ^ 13 < n1 - i1) (h2 : 5 / 10 ^ 13 < n2 - i2) (h : List Op) :
    ∃ m s os p t s0 s' os', session i1 i2 n1 n2 t1 t2 (h ++ [.next]) = .ok (m, s, os ++ [.text (some p)]) ∧
      Archive.create i1 i2 n1 n2 t1 t2 = .ok s0 ∧ Archive.run s0 (h ++ [.next]) = .ok (s', os' ++ [.text (some t)]) ∧
      match p with
      | .empty => t = ""
      | .of i => survives (points i1 i2 n1 n2 h) i ∧ (texts t1 t2 h)[i]? = some t ∧
          ∀ h', ∃ m' s' os', session i1 i2 n1 n2 t1 t2 (h ++ [.next] ++ h') = .ok (m', s', os') ∧
            (Block.text i ∈ m' ↔ survives (points i1 i2 n1 n2 (h ++ h')) i) := by
  obtain ⟨s0, m0, m, s, os, os', e0, e, k0, k, b, hh⟩ := session_spec i1 i2 n1 n2 t1 t2 h1 h2 h
  obtain ⟨s', o, es, b', r⟩ := Archive.step_spec i1 i2 n1 n2 t1 t2 h1 h2 h s b .next
  obtain ⟨tr, hi, hn⟩ := between_tr b
  obtain ⟨m', o', f1, f2, f3⟩ := step_sim h1 h2 hi hn tr hh es
  obtain ⟨mid, -, -, ro⟩ := r
  generalize ((((0 :: 1 :: mid)[Archive.Spec.calls i1 i2 n1 n2 h.reverse]?).bind (fun i => (texts t1 t2 h)[i]?)).getD "") = t at ro
  subst ro
  have hp : ∃ p, o' = .text (some p) ∧ Leads s'.tree.items (some p) (some t) := by
    cases o' with
    | text p =>
      cases p with
      | none => exact absurd f3 (by simp [Same, Leads])
      | some p => exact ⟨p, rfl, f3⟩
    | added r => exact absurd f3 (by simp [Same])
    | count r => exact absurd f3 (by simp [Same])
    | value r => exact absurd f3 (by simp [Same])
  obtain ⟨p, rfl, hl⟩ := hp
  refine ⟨m', s', os, p, t, s0, s', os', ?_, e0, ?_, ?_⟩
  · unfold session
    rw [k0, Res.ok_bind]
    simp only
    rw [run_append, k]
    simp [run, f1]
  · rw [Archive.run_append, e]
    simp [Archive.run, es]
  · have hpt : points i1 i2 n1 n2 (h ++ [.next]) = points i1 i2 n1 n2 h := by
      rw [Archive.points_append]; simp
    have htx : texts t1 t2 (h ++ [.next]) = texts t1 t2 h := by
      rw [Archive.texts_append]; simp
    cases p with
    | empty => exact hl
    | of i =>
      obtain ⟨it, hit, hid, htext⟩ := hl
      refine ⟨?_, ?_, ?_⟩
      · rw [← hpt]
        exact (Archive.content_iff b'.1 i).mp ⟨it, hit, hid⟩
      · have := (b'.1.from_pts it hit).2
        rw [htx, hid, htext] at this
        exact this
      · intro h'
        obtain ⟨m2, s2, os2, g1, -, g2⟩ := C110_memory i1 i2 n1 n2 t1 t2 h1 h2 (h ++ [.next] ++ h')
        refine ⟨m2, s2, os2, g1, ?_⟩
        rw [g2]
        show survives _ i ↔ _
        have : points i1 i2 n1 n2 (h ++ [.next] ++ h') = points i1 i2 n1 n2 (h ++ h') := by
          unfold Archive.Spec.points
          simp
        rw [this]

/-- **C110** (dangling). The pointer returned for a solution is no longer valid once a better solution is added. -/
theorem C110_dangling : ((session 0 0 10 10 "A" "B" [.add 5 5 "a", .next, .next, .next, .add 2 5 "b"]).bind fun (m, _, os) =>
    .ok (decide (Block.text 2 ∈ m), os)) = .ok (false, [.added 1, .text (some (.of 0)), .text (some (.of 1)), .text (some (.of 2)), .added 1]) := by
  decide +kernel

/-- A history with accepted, dominated, dominating and repeated solutions and interleaved queries: at the end the solutions 0, 1
and 4 are stored, in nine blocks besides the four of the archive. -/
example : ((session 0 0 10 10 "A" "B" [.add 5 5 "a", .next, .add 6 6 "b", .next, .next, .next, .add 2 5 "c", .number, .hyp, .next, .next,
      .next, .next, .add 2 5 "d", .next]).bind fun (m, s, os) => .ok (m.length, s.tree.items.map Item.id, os.getLast?)) =
    .ok (13, [0, 4, 1], some (.text (some .empty))) := by
  decide +kernel

end ArchiveItems
