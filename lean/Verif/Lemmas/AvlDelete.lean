import Verif.Lemmas.AvlInsert

/-!
Deletion of a node at the level of pointers.
-/

namespace AvlPtr
open Avl (Tree inorder)

variable {α : Type}

/-! ### The threaded list -/

/-- The node between `B` and `A` has been taken out of the threaded list. -/
structure Unthreaded (s s1 : St α) (B A : List Nat) : Prop where
  shp : ∀ b, (s1.heap b).map shape = (s.heap b).map shape
  thr : ∀ b, thread s1.heap b = (thread s.heap b).map fun q =>
    (if A.head? = some b then B.getLast? else q.1, if B.getLast? = some b then A.head? else q.2)
  top : s1.top = s.top
  head : s1.head = (B ++ A).head?
  tail : s1.tail = (B ++ A).getLast?

theorem seg_remove {h h' : Heap α} {B A : List Nat} {a : Nat} (hs : Seg h none (B ++ a :: A) none) (hn : (B ++ a :: A).Nodup)
    (ht : ∀ b, thread h' b = (thread h b).map fun q =>
      (if A.head? = some b then B.getLast? else q.1, if B.getLast? = some b then A.head? else q.2)) :
    Seg h' none (B ++ A) none := by
  rw [seg_append] at hs
  obtain ⟨hs1, -, hs2⟩ := hs
  rw [List.nodup_append, List.nodup_cons] at hn
  obtain ⟨n1, ⟨-, n2⟩, n3⟩ := hn
  have id : ∀ o : Option (Option Nat × Option Nat), o.map (fun q => (q.1, q.2)) = o := by
    intro o; cases o <;> rfl
  rw [seg_append]
  refine ⟨seg_next hs1 n1 fun b hb => ?_, seg_prev hs2 n2 fun b hb => ?_⟩
  · have : A.head? ≠ some b := fun e => n3 b hb b (List.mem_cons_of_mem _ (List.mem_of_head? e)) rfl
    rw [ht b]
    simp only [this, if_false, Option.or_none]
    split
    · rfl
    · exact id _
  · have : B.getLast? ≠ some b := fun e => n3 b (List.mem_of_getLast? e) b (by simp [hb]) rfl
    rw [ht b]
    simp only [this, if_false, Option.or_none]
    split
    · rfl
    · exact id _

theorem unthread_ok {s : St α} {a : Nat} {B A : List Nat} (hs : Seg s.heap none (B ++ a :: A) none)
    (hn : (B ++ a :: A).Nodup) (hh : s.head = (B ++ a :: A).head?) (ht : s.tail = (B ++ a :: A).getLast?)
    (hl : ∀ b ∈ B ++ a :: A, Live s.heap b) :
    ∃ s1, unlinkList s a = .ok s1 ∧ Unthreaded s s1 B A := by
  have hta := seg_at hs
  have va := hl a (by simp)
  rw [List.nodup_append, List.nodup_cons] at hn
  obtain ⟨n1, ⟨n2, n3⟩, n4⟩ := hn
  obtain ⟨h, top, hd, tl⟩ := s
  dsimp only at *
  obtain ⟨n, e⟩ : ∃ n, h a = some n := Option.ne_none_iff_exists'.1 va
  have en := node_of_thread e hta
  obtain ⟨pv, nx, q, l, r, x, c, d⟩ := n
  simp only [Option.or_none] at en
  obtain ⟨e1, e2⟩ := en
  have la := load_of e
  have id : ∀ o : Option (Option Nat × Option Nat), o.map (fun q => (q.1, q.2)) = o := by
    intro o; cases o <;> rfl
  cases hB : B.getLast? with
  | none =>
    have eB : B = [] := by simpa using hB
    cases hA : A.head? with
    | none =>
      have eA : A = [] := by simpa using hA
      rw [hB] at e1; rw [hA] at e2
      subst e1 e2 eA eB
      simp only [unlinkList, la, Res.bind_ok]
      refine ⟨_, rfl, fun _ => rfl, fun b => ?_, rfl, rfl, rfl⟩
      simpa using (id _).symm
    | some z =>
      rw [hB] at e1; rw [hA] at e2
      subst e1 e2 eB
      have hz : z ∈ A := List.mem_of_head? hA
      have vz := hl z (by simp [hz])
      simp only [unlinkList, la, Res.bind_ok, store_ok, vz]
      refine ⟨_, rfl, fun b => ?_, fun b => ?_, rfl, by simp [hA], ?_⟩
      · exact shape_upd fun _ => rfl
      · simp only [thread, upd, hA]
        by_cases bz : b = z
        · subst bz; cases h b <;> simp
        · have : z ≠ b := Ne.symm bz
          simp only [bz, if_false]
          cases h b <;> simp [this]
      · cases A with
        | nil => simp at hA
        | cons _ _ => simp [ht, List.getLast?_cons_cons]
  | some w =>
    have hw : w ∈ B := List.mem_of_getLast? hB
    have vw := hl w (by simp [hw])
    have wa : w ≠ a := by rintro rfl; exact n4 w hw w (by simp) rfl
    have aw : a ≠ w := Ne.symm wa
    cases hA : A.head? with
    | none =>
      have eA : A = [] := by simpa using hA
      rw [hB] at e1; rw [hA] at e2
      subst e1 e2 eA
      simp only [unlinkList, la, Res.bind_ok, store_ok, vw, load_upd_ne, aw, ne_eq, not_false_eq_true]
      refine ⟨_, rfl, fun b => ?_, fun b => ?_, rfl, ?_, by simp [hB]⟩
      · exact shape_upd fun _ => rfl
      · simp only [thread, upd, hB]
        by_cases bw : b = w
        · subst bw; cases h b <;> simp
        · have : w ≠ b := Ne.symm bw
          simp only [bw, if_false]
          cases h b <;> simp [this]
      · cases B with
        | nil => simp at hB
        | cons _ _ => simp [hh]
    | some z =>
      rw [hB] at e1; rw [hA] at e2
      subst e1 e2
      have hz : z ∈ A := List.mem_of_head? hA
      have vz := hl z (by simp [hz])
      have zw : z ≠ w := by rintro rfl; exact n4 z hw z (by simp [hz]) rfl
      have wz : w ≠ z := Ne.symm zw
      simp only [unlinkList, la, Res.bind_ok, store_ok, vw, vz, live_upd, load_upd_ne, aw, ne_eq, not_false_eq_true]
      refine ⟨_, rfl, fun b => ?_, fun b => ?_, rfl, ?_, ?_⟩
      · refine Eq.trans (shape_upd ?_) (shape_upd ?_) <;> exact fun _ => rfl
      · simp only [thread, upd, hA, hB]
        by_cases bw : b = w
        · subst bw; cases h b <;> simp [wz, zw]
        · have : w ≠ b := Ne.symm bw
          by_cases bz : b = z
          · subst bz; cases h b <;> simp [wz, zw]
          · have : z ≠ b := Ne.symm bz
            simp only [bw, bz, if_false]
            cases h b <;> simp [*]
      · cases B with
        | nil => simp at hB
        | cons _ _ => simp [hh]
      · cases A with
        | nil => simp at hA
        | cons _ _ => simp [ht, List.getLast?_append, List.getLast?_cons_cons]

/-! ### The path to the predecessor -/

theorem up_append (c1 c2 : List (Frame α)) (t : Tree (Nat × α)) : up (c1 ++ c2) t = (up c1 t).bind (up c2) := by
  induction c1 generalizing t with
  | nil => rfl
  | cons f c1 ih =>
    cases f <;> (simp only [List.cons_append, up, bind_assoc]; congr 1; funext u; exact ih u)

theorem before_append (c1 c2 : List (Frame α)) : before (c1 ++ c2) = before c2 ++ before c1 := by
  induction c1 with
  | nil => simp [before]
  | cons f c1 ih => cases f <;> simp [before, ih]

theorem after_append (c1 c2 : List (Frame α)) : after (c1 ++ c2) = after c1 ++ after c2 := by
  induction c1 with
  | nil => simp [after]
  | cons f c1 ih => cases f <;> simp [after, ih]

theorem caddrs_append (c1 c2 : List (Frame α)) : caddrs (c1 ++ c2) = caddrs c1 ++ caddrs c2 := by simp [caddrs]

theorem deleteMax_path {h : Heap α} {top : Option Nat} (l : Tree (Nat × α)) :
    ∀ ctx : List (Frame α), l ≠ .nil → Rep h (par ctx) l → RepC h top (root l) ctx →
    ∃ sp lm m xm pv nx cm dm, h m = some ⟨pv, nx, par (sp ++ ctx), root lm, none, xm, cm, dm⟩ ∧ Rep h (some m) lm ∧
      RepC h top (some m) (sp ++ ctx) ∧ after sp = [] ∧ addrs l = before sp ++ addrs lm ++ [m] ∧
      sp.length < Avl.height l ∧ Avl.deleteMax l = ((up sp lm).bind fun l' => .ok ((m, xm), l')) ∧
      root l = (match sp.getLast? with | none => some m | some f => some f.addr) := by
  induction l with
  | nil => intro ctx hne; exact absurd rfl hne
  | node l1 n c d r1 ihl ihr =>
    intro ctx _ hr hc
    obtain ⟨a, y⟩ := n
    obtain ⟨⟨pv, nx, e⟩, hl, hr'⟩ := hr
    cases r1 with
    | nil =>
      exact ⟨[], l1, a, y, pv, nx, c, d, e, hl, hc, rfl, by simp [before], by simp [Avl.height], rfl, rfl⟩
    | node r2 n2 c2 d2 r3 =>
      obtain ⟨sp, lm, m, xm, pv', nx', cm, dm, g1, g2, g3, g4, g5, g6, g7, -⟩ :=
        ihr (.right l1 a y :: ctx) (by simp) hr' ⟨⟨pv, nx, c, d, e⟩, hl, hc⟩
      refine ⟨sp ++ [.right l1 a y], lm, m, xm, pv', nx', cm, dm, ?_, g2, ?_, ?_, ?_, ?_, ?_, ?_⟩
      · simpa using g1
      · simpa using g3
      · simp [after_append, g4, after]
      · rw [addrs_node, g5]; simp [before_append, before]
      · simp only [List.length_append, List.length_singleton, Avl.height] at g6 ⊢
        omega
      · rw [Avl.deleteMax, g7, up_append]
        simp only [bind_assoc, Res.ok_bind, up]
      · simp [Frame.addr]

theorem addr_mem (f : Frame α) : f.addr ∈ f.addrs := by cases f <;> simp [Frame.addr, Frame.addrs]

theorem repC_rename {h h' : Heap α} {top top' hole : Option Nat} {a m : Nat} {y xm : α} {r : Tree (Nat × α)}
    {sp ctx : List (Frame α)} {g : Frame α} (hg : sp.getLast? = some g) (hc : RepC h top hole (sp ++ .left a y r :: ctx))
    (hn : (caddrs sp).Nodup) (he : ∀ b ∈ caddrs sp, h' b = reparent h (some g.addr) (some m) b)
    (hc' : RepC h' top' (some g.addr) (.left m xm r :: ctx)) : RepC h' top' hole (sp ++ .left m xm r :: ctx) := by
  induction sp generalizing hole with
  | nil => simp at hg
  | cons f sp ih =>
    have hn0 : (f.addrs ++ caddrs sp).Nodup := by simpa [caddrs] using hn
    have hmem : ∀ b, b ∈ caddrs (f :: sp) ↔ b ∈ f.addrs ∨ b ∈ caddrs sp := fun b => by simp [caddrs]
    have key : ∀ hole, RepC h top hole (f :: sp ++ .left a y r :: ctx) → RepC h' top' (some f.addr) (sp ++ .left m xm r :: ctx) →
        RepC h' top' hole (f :: sp ++ .left m xm r :: ctx) := by
      intro hole k1 k2
      have hp : ∀ (n : Node α), h f.addr = some n → n.parent = par (sp ++ .left a y r :: ctx) →
          h' f.addr = some { n with parent := par (sp ++ .left m xm r :: ctx) } := by
        intro n en epar
        rw [he f.addr ((hmem _).2 (.inl (addr_mem f)))]
        cases sp with
        | nil =>
          simp only [List.getLast?_singleton, Option.some.injEq] at hg
          subst hg
          rw [reparent, if_pos rfl, en]; rfl
        | cons f2 sp =>
          have : g ∈ f2 :: sp := by
            rw [List.getLast?_cons_cons] at hg
            exact List.mem_of_getLast? hg
          have hgm : g.addr ∈ caddrs (f2 :: sp) := by
            simp only [caddrs, List.mem_flatMap]
            exact ⟨g, this, addr_mem g⟩
          have hne : g.addr ≠ f.addr := by
            intro e
            rw [List.nodup_append] at hn0
            exact hn0.2.2 _ (addr_mem f) _ hgm e.symm
          simp only [reparent, Option.some.injEq, hne, if_false, en]
          have : par (f2 :: sp ++ .left a y r :: ctx) = par (f2 :: sp ++ .left m xm r :: ctx) := rfl
          rw [← this, ← epar]
      have hsub : ∀ b ∈ f.addrs, b ≠ f.addr → h' b = h b := by
        intro b hb hne
        rw [he b ((hmem _).2 (.inl hb)), reparent, if_neg]
        simp only [Option.some.injEq]
        rintro rfl
        rw [List.getLast?_cons] at hg
        cases e : sp.getLast? with
        | none => simp [e] at hg; exact hne (by rw [← hg])
        | some g' =>
          simp [e] at hg
          subst hg
          have hgm : g'.addr ∈ caddrs sp := by
            simp only [caddrs, List.mem_flatMap]
            exact ⟨g', List.mem_of_getLast? e, addr_mem g'⟩
          rw [List.nodup_append] at hn0
          exact hn0.2.2 _ hb _ hgm rfl
      cases f with
      | left b x t =>
        obtain ⟨⟨pv, nx, c, d, e⟩, k3, -⟩ := k1
        refine ⟨⟨pv, nx, c, d, hp _ e rfl⟩, rep_frame k3 fun b' hb' => hsub b' (by simp [Frame.addrs, hb']) ?_, k2⟩
        rintro rfl
        simp only [Frame.addrs, Frame.addr, List.cons_append, List.nodup_cons, List.mem_append, not_or] at hn0
        exact hn0.1.1 hb'
      | right t b x =>
        obtain ⟨⟨pv, nx, c, d, e⟩, k3, -⟩ := k1
        refine ⟨⟨pv, nx, c, d, hp _ e rfl⟩, rep_frame k3 fun b' hb' => hsub b' (by simp [Frame.addrs, hb']) ?_, k2⟩
        rintro rfl
        simp only [Frame.addrs, Frame.addr, List.append_assoc, List.nodup_append] at hn0
        exact hn0.2.2 _ hb' _ (by simp) rfl
    cases sp with
    | nil =>
      simp only [List.getLast?_singleton, Option.some.injEq] at hg
      subst hg
      exact key hole hc hc'
    | cons f2 sp =>
      refine key hole hc (ih (by rw [List.getLast?_cons_cons] at hg; exact hg) ?_ (by rw [List.nodup_append] at hn0; exact hn0.2.1) ?_)
      · cases f <;> exact hc.2.2
      · intro b hb
        exact he b ((hmem b).2 (.inr hb))

/-! ### The tree -/

theorem same_upd {s : St α} {a f} (e : ∀ n, links (f n) = links n) (top : Option Nat) :
    Same s ⟨upd s.heap a f, top, s.head, s.tail⟩ := ⟨rfl, rfl, fun _ => links_upd e⟩

/-- A subtree in the place of its parent. -/
theorem replace_ok {s : St α} {a : Nat} {y : α} {pv nx c d} {l r v : Tree (Nat × α)} {ctx : List (Frame α)}
    (_ : s.heap a = some ⟨pv, nx, par ctx, root l, root r, y, c, d⟩) (hv : Rep s.heap (some a) v)
    (hc : RepC s.heap s.top (some a) ctx) (hn : (addrs v ++ caddrs ctx).Nodup) :
    ∃ s2, ((setSlot s (root v) (slot ctx)).bind fun s => setParent s (root v) (par ctx)) = .ok s2 ∧
      Rep s2.heap (par ctx) v ∧ RepC s2.heap s2.top (root v) ctx ∧ Same s s2 := by
  have vctx := live_of_repC hc
  rw [setSlot_ok vctx, Res.ok_bind, setParent_ok (by simpa using rep_live hv)]
  rw [List.nodup_append] at hn
  refine ⟨_, rfl, rep_reparent hv hn.1 fun b hb => ?_, repC_place hc hn.2.1 fun b hb => ?_, rfl, rfl, fun b => ?_⟩
  · have : b ∉ caddrs ctx := fun h => hn.2.2 b hb b h rfl
    simp only [reparent, place_ne this]
  · have : root v ≠ some b := fun e => hn.2.2 b (root_mem e) b hb rfl
    simp only [reparent, this, if_false]
  · exact links_reparent.trans links_place

set_option maxHeartbeats 1000000 in
theorem unlinkTree_ok {s : St α} {a : Nat} {y : α} {pv nx c d} {l r : Tree (Nat × α)} {ctx : List (Frame α)}
    (ea : s.heap a = some ⟨pv, nx, par ctx, root l, root r, y, c, d⟩) (hl : Rep s.heap (some a) l) (hr : Rep s.heap (some a) r)
    (hc : RepC s.heap s.top (some a) ctx) (hn : ((addrs l ++ a :: addrs r) ++ caddrs ctx).Nodup)
    (hpv : pv = (before ctx ++ addrs l).getLast?) (fuel : Nat) :
    ∃ s2 ctx2 v, unlinkTree fuel s a = rebalance fuel s2 (par ctx2) ∧ Rep s2.heap (par ctx2) v ∧
      RepC s2.heap s2.top (root v) ctx2 ∧ Same s s2 ∧
      before ctx2 ++ addrs v ++ after ctx2 = (before ctx ++ addrs l) ++ (addrs r ++ after ctx) ∧
      ctx2.length ≤ ctx.length + Avl.height l ∧
      up ctx2 v = (removeRoot l r).bind (up ctx) := by
  have la := load_of ea
  have actx : a ∉ caddrs ctx := by grind
  have eslot := slotOf_ok hc actx
  cases l with
  | nil =>
    obtain ⟨s2, e1, e2, e3, e4⟩ := replace_ok ea hr hc (by grind)
    refine ⟨s2, ctx, r, ?_, e2, e3, e4, by simp, by omega, by simp [removeRoot]⟩
    obtain ⟨s1, f1, f2⟩ := bind_inv e1
    simp only [unlinkTree, la, Res.bind_ok, eslot, root_nil, f1, f2]
  | node l1 nl cl dl l2 =>
    cases r with
    | nil =>
      obtain ⟨s2, e1, e2, e3, e4⟩ := replace_ok ea hl hc (by grind)
      refine ⟨s2, ctx, _, ?_, e2, e3, e4, by simp, by omega, by simp [removeRoot]⟩
      obtain ⟨s1, f1, f2⟩ := bind_inv e1
      rw [root_node] at f1 f2
      have f2' : store s1 (some nl.1) (fun m => { m with parent := par ctx }) = .ok s2 := f2
      simp only [unlinkTree, la, Res.bind_ok, eslot, root_nil, root_node, f1, f2']
    | node r1 nr cr dr r2 =>
      obtain ⟨sp, lm, m, xm, pvm, nxm, cm, dm, g1, g2, g3, g4, g5, g6, g7, g8⟩ :=
        deleteMax_path (top := s.top) (.node l1 nl cl dl l2) (.left a y (.node r1 nr cr dr r2) :: ctx) (by simp) hl
          ⟨⟨pv, nx, c, d, ea⟩, hr, hc⟩
      generalize hL : (.node l1 nl cl dl l2 : Tree (Nat × α)) = L at *
      generalize hR : (.node r1 nr cr dr r2 : Tree (Nat × α)) = R at *
      have rL : root L = some nl.1 := by rw [← hL]; rfl
      have rR : root R = some nr.1 := by rw [← hR]; rfl
      have eup : up (sp ++ .left m xm R :: ctx) lm = (removeRoot L R).bind (up ctx) := by
        rw [up_append]
        have : removeRoot L R = (Avl.deleteMax L).bind fun (m, l') => Avl.balance l' m R := by
          rw [← hL, ← hR]; rfl
        rw [this, g7]
        simp only [bind_assoc, Res.ok_bind]
        rfl
      have elist : before (sp ++ .left m xm R :: ctx) ++ addrs lm ++ after (sp ++ .left m xm R :: ctx) =
          (before ctx ++ addrs L) ++ (addrs R ++ after ctx) := by
        rw [before_append, after_append, g4, g5]; simp [before, after]
      have elen : (sp ++ .left m xm R :: ctx).length ≤ ctx.length + Avl.height L := by simp; omega
      have epv : pv = some m := by rw [hpv, g5]; simp
      subst epv
      have hspn : (before sp).Perm (caddrs sp) := by
        have := perm_ctx sp []
        simpa [g4] using this
      have hn2 : (before sp ++ addrs lm ++ [m] ++ a :: addrs R ++ caddrs ctx).Nodup := by rw [g5] at hn; simpa using hn
      have hsp : ∀ b, b ∈ caddrs sp ↔ b ∈ before sp := fun b => hspn.mem_iff.symm
      have vctx := live_of_repC hc
      have vm : Live s.heap m := by simp [Live, g1]
      have vr : Live s.heap nr.1 := rep_live hr _ rR
      have vl : Live s.heap nl.1 := rep_live hl _ rL
      have mr : m ≠ nr.1 := by have := root_mem rR; grind
      have rm : nr.1 ≠ m := Ne.symm mr
      have mctx : m ∉ caddrs ctx := by grind
      cases hg : sp.getLast? with
      | none =>
        have esp : sp = [] := by simpa using hg
        subst esp
        have e0 : nl.1 = m := by rw [rL] at g8; simpa using g8
        refine ⟨⟨place ctx (some m) (upd (upd (upd s.heap m fun k => { k with right := some nr.1 }) m
            fun k => { k with parent := par ctx }) nr.1 fun k => { k with parent := some m }),
            if ctx = [] then some m else s.top, s.head, s.tail⟩, .left m xm R :: ctx, lm, ?_, ?_, ?_, ?_, elist, elen, eup⟩
        · simp only [unlinkTree, la, Res.bind_ok, eslot, rL, rR, e0, if_true, store_ok, vm, vr, live_upd]
          rw [setSlot_ok (by simpa using vctx)]
          rfl
        · refine rep_frame g2 fun b hb => ?_
          have b1 : b ∉ caddrs ctx := by grind
          have b2 : b ≠ m := by grind
          have b3 : b ≠ nr.1 := by have := root_mem rR; grind
          simp [place_ne b1, upd, b2, b3]
        · refine ⟨⟨pvm, nxm, cm, dm, ?_⟩, rep_reparent (q' := some m) hr (by grind) fun b hb => ?_,
            repC_place hc (by grind) fun b hb => ?_⟩
          · simp [place_ne mctx, upd, mr, g1, rR]
          · have b1 : b ∉ caddrs ctx := by grind
            have b2 : b ≠ m := by grind
            rw [rR]
            simp only [place_ne b1, upd, b2, if_false, reparent, Option.some.injEq]
            by_cases e : b = nr.1
            · simp [e]
            · rw [if_neg e, if_neg (Ne.symm e)]
          · have b2 : b ≠ m := by grind
            have b3 : b ≠ nr.1 := by have := root_mem rR; grind
            exact place_congr (by simp [upd, b2, b3])
        · refine ⟨rfl, rfl, fun b => links_place.trans ?_⟩
          repeat (refine Eq.trans (links_upd ?_) ?_; · intro _; rfl)
          rfl
      | some g =>
        have eg : nl.1 = g.addr := by rw [rL, hg] at g8; simpa using g8
        obtain ⟨f, sp', rfl⟩ : ∃ f sp', sp = f :: sp' := by
          cases sp with
          | nil => simp at hg
          | cons f sp' => exact ⟨f, sp', rfl⟩
        have gmem : g.addr ∈ caddrs (f :: sp') := by
          simp only [caddrs, List.mem_flatMap]
          exact ⟨g, List.mem_of_getLast? hg, addr_mem g⟩
        have fmem : f.addr ∈ caddrs (f :: sp') := by simp [caddrs, addr_mem f]
        rw [eg] at rL vl
        have ml : m ≠ g.addr := by rw [hsp] at gmem; grind
        have lm' : g.addr ≠ m := Ne.symm ml
        have fm : f.addr ≠ m := by rw [hsp] at fmem; grind
        have mf : m ≠ f.addr := Ne.symm fm
        have gr : g.addr ≠ nr.1 := by have := root_mem rR; rw [hsp] at gmem; grind
        have fr : f.addr ≠ nr.1 := by have := root_mem rR; rw [hsp] at fmem; grind
        have rf : nr.1 ≠ f.addr := Ne.symm fr
        have rg : nr.1 ≠ g.addr := Ne.symm gr
        have vf : Live s.heap f.addr := live_of_repC g3
        have rlmm : root lm ≠ some m := fun e => by have := root_mem e; grind
        have rlmr : root lm ≠ some nr.1 := fun e => by have := root_mem e; have := root_mem rR; grind
        have rlmf : root lm ≠ some f.addr := fun e => by have := root_mem e; rw [hsp] at fmem; grind
        have rlmg : root lm ≠ some g.addr := fun e => by have := root_mem e; rw [hsp] at gmem; grind
        have hcn : (caddrs (f :: sp' ++ .left a y R :: ctx)).Nodup := by
          rw [caddrs_append]
          have h1 : (before (f :: sp') ++ caddrs (.left a y R :: ctx)).Nodup := by
            simp only [caddrs, List.flatMap_cons, Frame.addrs] at *
            grind
          exact (hspn.append_right _).nodup_iff.1 h1
        refine ⟨⟨place ctx (some m) (upd (upd (upd (upd (upd (reparent (upd s.heap f.addr fun k => { k with right := root lm })
            (root lm) (some f.addr)) m fun k => { k with left := some g.addr }) g.addr fun k => { k with parent := some m })
            m fun k => { k with right := some nr.1 }) m
            fun k => { k with parent := par ctx }) nr.1 fun k => { k with parent := some m }),
            if ctx = [] then some m else s.top, s.head, s.tail⟩, f :: sp' ++ .left m xm R :: ctx, lm, ?_, ?_, ?_, ?_, elist,
            elen, eup⟩
        · have lm1 := load_of g1
          have : load s.heap (some f.addr) = .ok (Classical.choose (Option.ne_none_iff_exists'.1 vf)) :=
            load_of (Classical.choose_spec (Option.ne_none_iff_exists'.1 vf))
          have hlive : LiveP s.heap (root lm) := rep_live g2
          have hne : (some m = some g.addr) = False := by simp [ml]
          have epar : ∀ z, par (f :: sp' ++ z) = some f.addr := fun _ => rfl
          simp only [unlinkTree, la, Res.bind_ok, eslot, rL, rR, hne, if_false, lm1, epar, store_ok, vf, load_upd_same, this,
            Res.ok_bind, setParent_ok, hlive, liveP_upd, vm, vr, vl, live_upd, live_reparent]
          rw [setSlot_ok (by simpa using vctx)]
          rfl
        · refine rep_reparent (q' := some f.addr) g2 (by grind) fun b hb => ?_
          have b1 : b ∉ caddrs ctx := by grind
          have b2 : b ≠ m := by grind
          have b3 : b ≠ nr.1 := by have := root_mem rR; grind
          have b4 : b ≠ f.addr := by rw [hsp] at fmem; grind
          have b5 : b ≠ g.addr := by rw [hsp] at gmem; grind
          simp [place_ne b1, upd, reparent, b2, b3, b4, b5]
        · have k1 : RepC (reparent (upd s.heap f.addr fun k => { k with right := root lm }) (root lm) (some f.addr)) s.top
              (root lm) (f :: sp' ++ .left a y R :: ctx) := by
            have := repC_place (v := root lm) (h' := reparent (upd s.heap f.addr fun k => { k with right := root lm }) (root lm) (some f.addr)) g3 hcn fun b hb => ?_
            · simpa using this
            · have b1 : root lm ≠ some b := fun e => by
                have h1 := root_mem e
                rw [caddrs_append, List.mem_append, hsp] at hb
                simp only [caddrs, List.flatMap_cons, Frame.addrs] at *
                grind
              simp only [reparent, b1, if_false]
              cases f with
              | left _ _ _ => simp [after] at g4
              | right _ _ _ => rfl
          refine repC_rename (a := a) (y := y) (r := R) hg k1 (hspn.nodup_iff.1 (by grind)) (fun b hb => ?_) ⟨⟨pvm, nxm, cm, dm, ?_⟩, rep_reparent (q' := some m) hr (by grind) fun b hb => ?_,
            repC_place hc (by grind) fun b hb => ?_⟩
          · have hb' := hb
            rw [hsp] at hb'
            have b1 : b ∉ caddrs ctx := by grind
            have b2 : b ≠ m := by grind
            have b3 : b ≠ nr.1 := by have := root_mem rR; grind
            simp only [place_ne b1, upd, b2, b3, if_false]
            by_cases e : b = g.addr
            · subst e; simp [reparent]
            · have e' : g.addr ≠ b := Ne.symm e
              simp [e, e', reparent]
          · simp [place_ne mctx, upd, reparent, mr, ml, mf, rlmm, g1, rR]
          · have b1 : b ∉ caddrs ctx := by grind
            have b2 : b ≠ m := by grind
            have b4 : b ≠ f.addr := by rw [hsp] at fmem; grind
            have b5 : b ≠ g.addr := by rw [hsp] at gmem; grind
            have b6 : root lm ≠ some b := fun e => by have := root_mem e; grind
            rw [rR]
            simp only [place_ne b1, upd, b2, b4, b5, b6, if_false, reparent, Option.some.injEq]
            by_cases e : b = nr.1
            · simp [e]
            · rw [if_neg e, if_neg (Ne.symm e)]
          · have b2 : b ≠ m := by grind
            have b3 : b ≠ nr.1 := by have := root_mem rR; grind
            have b4 : b ≠ f.addr := by rw [hsp] at fmem; grind
            have b5 : b ≠ g.addr := by rw [hsp] at gmem; grind
            have b6 : root lm ≠ some b := fun e => by have := root_mem e; grind
            exact place_congr (by simp [upd, reparent, b2, b3, b4, b5, b6])
        · refine ⟨rfl, rfl, fun b => links_place.trans ?_⟩
          repeat first
            | (refine Eq.trans (links_upd ?_) ?_; · intro _; rfl)
            | refine links_reparent.trans ?_
          rfl

end AvlPtr
