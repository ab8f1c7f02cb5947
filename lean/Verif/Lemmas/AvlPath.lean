import Verif.Lemmas.AvlPtr

/-!
Rebalancing along a path at the level of pointers, against rebalancing in the model without pointers (`Model/Avl`).
-/

namespace AvlPtr
open Avl (Tree inorder)

variable {α : Type}

theorem balance_inorder {β : Type} {l r t : Tree β} {x : β} (h : Avl.balance l x r = .ok t) :
    inorder t = inorder l ++ x :: inorder r := by
  unfold Avl.balance at h
  split at h
  · split at h
    · cases h
    · split at h
      · cases h; simp [Avl.mk, inorder]
      · split at h
        · cases h
        · cases h; simp [Avl.mk, inorder]
  · split at h
    · split at h
      · cases h
      · split at h
        · cases h; simp [Avl.mk, inorder]
        · split at h
          · cases h
          · cases h; simp [Avl.mk, inorder]
    · cases h; simp [Avl.mk, inorder]

theorem checkBalance_ok {s : St α} {a pv nx q x c d} {l r : Tree (Nat × α)} {q' q''}
    (ea : s.heap a = some ⟨pv, nx, q, root l, root r, x, c, d⟩) (hl : Rep s.heap q' l) (hr : Rep s.heap q'' r) :
    checkBalance s a = .ok (Avl.checkBalance l r) := by
  obtain ⟨h, top, hd, tl⟩ := s
  dsimp only at *
  simp [checkBalance, load_of ea, rep_depth hl, rep_depth hr, Avl.checkBalance]

theorem rebalanceStep_ok {s : St α} {a pv nx x c d} {l r t : Tree (Nat × α)} {ctx : List (Frame α)}
    (ea : s.heap a = some ⟨pv, nx, par ctx, root l, root r, x, c, d⟩)
    (hl : Rep s.heap (some a) l) (hr : Rep s.heap (some a) r) (hctx : RepC s.heap s.top (some a) ctx)
    (hn : (addrs l ++ a :: addrs r ++ caddrs ctx).Nodup) (hb : Avl.balance l (a, x) r = .ok t) :
    ∃ s', rebalanceStep s a = .ok (s', par ctx) ∧ Rep s'.heap (par ctx) t ∧ RepC s'.heap s'.top (root t) ctx ∧
      Same s s' := by
  have actx : a ∉ caddrs ctx := by grind
  unfold rebalanceStep
  rw [load_of ea, Res.bind_ok]
  dsimp only
  rw [slotOf_ok hctx actx, Res.bind_ok, checkBalance_ok ea hl hr, Res.bind_ok]
  unfold Avl.balance at hb
  split at hb
  · rename_i e1
    rw [if_pos e1, Res.bind_ok]
    split at hb
    · cases hb
    · rename_i ll lx cc dc lr
      obtain ⟨c, xc⟩ := lx
      obtain ⟨⟨pvc, nxc, ec⟩, hll, hlr⟩ := hl
      have e2 : load s.heap (root (Tree.node ll (c, xc) cc dc lr)) = _ := load_of ec
      rw [e2, Res.bind_ok]
      dsimp only
      have e3 : nodeDepth s (root ll) = .ok ll.depth := rep_depth hll
      have e4 : nodeDepth s (root lr) = .ok lr.depth := rep_depth hlr
      rw [e3, e4, Res.bind_ok, Res.bind_ok]
      split at hb
      · rename_i e5
        cases hb
        rw [if_pos e5]
        obtain ⟨s', f, h1, h2, h3⟩ := rotateRight_ok ea ec hll hlr hr hctx (by simpa using hn)
        exact ⟨s', by rw [root_node, f, Res.bind_ok], h1, h2, h3⟩
      · rename_i e5
        rw [if_neg e5]
        split at hb
        · cases hb
        · rename_i gl gx cg dg gr
          obtain ⟨g, xg⟩ := gx
          obtain ⟨⟨pvg, nxg, eg⟩, hgl, hgr⟩ := hlr
          cases hb
          obtain ⟨s', f, h1, h2, h3⟩ := rotateLeftRight_ok ea ec eg hll hgl hgr hr hctx (by simpa using hn)
          exact ⟨s', by rw [root_node, f, Res.bind_ok], h1, h2, h3⟩
  · rename_i e0
    rw [if_neg e0]
    split at hb
    · rename_i e1
      rw [if_pos e1, Res.bind_ok]
      split at hb
      · cases hb
      · rename_i rl rx cc dc rr
        obtain ⟨c, xc⟩ := rx
        obtain ⟨⟨pvc, nxc, ec⟩, hrl, hrr⟩ := hr
        have e2 : load s.heap (root (Tree.node rl (c, xc) cc dc rr)) = _ := load_of ec
        rw [e2, Res.bind_ok]
        dsimp only
        have e3 : nodeDepth s (root rl) = .ok rl.depth := rep_depth hrl
        have e4 : nodeDepth s (root rr) = .ok rr.depth := rep_depth hrr
        rw [e4, Res.bind_ok, e3, Res.bind_ok]
        split at hb
        · rename_i e5
          cases hb
          rw [if_pos e5]
          obtain ⟨s', f, h1, h2, h3⟩ := rotateLeft_ok ea ec hl hrl hrr hctx (by simpa using hn)
          exact ⟨s', by rw [root_node, f, Res.bind_ok], h1, h2, h3⟩
        · rename_i e5
          rw [if_neg e5]
          split at hb
          · cases hb
          · rename_i gl gx cg dg gr
            obtain ⟨g, xg⟩ := gx
            obtain ⟨⟨pvg, nxg, eg⟩, hgl, hgr⟩ := hrl
            cases hb
            obtain ⟨s', f, h1, h2, h3⟩ := rotateRightLeft_ok ea ec eg hl hgl hgr hrr hctx (by simpa using hn)
            exact ⟨s', by rw [root_node, f, Res.bind_ok], h1, h2, h3⟩
    · rename_i e1
      rw [if_neg e1]
      cases hb
      have va : Live s.heap a := by simp [Live, ea]
      obtain ⟨h, top, hd, tl⟩ := s
      dsimp only at *
      have r1 : root r ≠ some a := fun e => by have := root_mem e; grind
      have r2 : root l ≠ some a := fun e => by have := root_mem e; grind
      simp [calcCount, calcDepth, load_of ea, store_ok, va, load_upd_same, rep_count hl, rep_count hr, r1, r2,
        nodeDepth_upd, rep_depth hl, rep_depth hr]
      refine ⟨?_, ?_, ?_⟩
      · refine ⟨⟨pv, nx, by simp [upd, ea]⟩, rep_frame hl fun b hb => ?_, rep_frame hr fun b hb => ?_⟩
        · rw [upd_ne (by grind), upd_ne (by grind)]
        · rw [upd_ne (by grind), upd_ne (by grind)]
      · refine repC_frame hctx fun b hb => ?_
        rw [upd_ne (by grind), upd_ne (by grind)]
      · refine ⟨rfl, rfl, fun b => ?_⟩
        refine Eq.trans (links_upd ?_) ?_
        · intro _; rfl
        · refine links_upd ?_
          intro _; rfl

/-- Rebalancing all the way up a path. -/
def up : List (Frame α) → Tree (Nat × α) → Res (Tree (Nat × α))
  | [], t => .ok t
  | .left a x r :: ctx, t => (Avl.balance t (a, x) r).bind (up ctx)
  | .right l a x :: ctx, t => (Avl.balance l (a, x) t).bind (up ctx)

theorem Same.refl (s : St α) : Same s s := ⟨rfl, rfl, fun _ => rfl⟩
theorem Same.trans {s s' s'' : St α} (h : Same s s') (h' : Same s' s'') : Same s s'' :=
  ⟨h'.head.trans h.head, h'.tail.trans h.tail, fun b => (h'.links b).trans (h.links b)⟩

theorem bind_inv {β γ : Type} {r : Res β} {f : β → Res γ} {c : γ} (h : r.bind f = .ok c) : ∃ b, r = .ok b ∧ f b = .ok c := by
  cases r <;> simp at h
  exact ⟨_, rfl, h⟩

theorem rebalance_ok {ctx : List (Frame α)} {s : St α} {t t' : Tree (Nat × α)} {fuel : Nat} (hf : ctx.length ≤ fuel)
    (hr : Rep s.heap (par ctx) t) (hc : RepC s.heap s.top (root t) ctx) (hn : (addrs t ++ caddrs ctx).Nodup)
    (hu : up ctx t = .ok t') :
    ∃ s', rebalance fuel s (par ctx) = .ok s' ∧ Rep s'.heap none t' ∧ s'.top = root t' ∧ Same s s' := by
  induction ctx generalizing s t fuel with
  | nil =>
    cases hu
    refine ⟨s, ?_, hr, hc, Same.refl s⟩
    cases fuel <;> rfl
  | cons f ctx ih =>
    obtain ⟨fuel, rfl⟩ : ∃ k, fuel = k + 1 := ⟨fuel - 1, by simp at hf; omega⟩
    simp only [List.length_cons, Nat.add_le_add_iff_right] at hf
    cases f with
    | left a x r =>
      obtain ⟨u, e1, e2⟩ := bind_inv hu
      obtain ⟨⟨pv, nx, c, d, ea⟩, hr', hc'⟩ := hc
      simp only [caddrs, List.flatMap_cons, Frame.addrs] at hn
      obtain ⟨s1, f1, h1, h2, h3⟩ := rebalanceStep_ok (l := t) (r := r) ea hr hr' hc' (by simpa [caddrs] using hn) e1
      have e3 : addrs u = addrs t ++ a :: addrs r := by simp [addrs, balance_inorder e1]
      obtain ⟨s2, f2, h4, h5, h6⟩ := ih hf h1 h2 (by rw [e3]; simpa [caddrs] using hn) e2
      refine ⟨s2, ?_, h4, h5, h3.trans h6⟩
      show rebalance (fuel + 1) s (some a) = _
      rw [rebalance, f1, Res.bind_ok]
      exact f2
    | right l a x =>
      obtain ⟨u, e1, e2⟩ := bind_inv hu
      obtain ⟨⟨pv, nx, c, d, ea⟩, hr', hc'⟩ := hc
      simp only [caddrs, List.flatMap_cons, Frame.addrs] at hn
      have hn' : (addrs l ++ a :: addrs t ++ caddrs ctx).Nodup := by
        refine (List.Perm.nodup_iff ?_).1 hn
        simp only [caddrs, List.append_assoc, List.cons_append]
        refine List.perm_append_comm_assoc _ _ _ |>.trans ?_
        refine List.Perm.append_left _ ?_
        exact List.perm_middle
      obtain ⟨s1, f1, h1, h2, h3⟩ := rebalanceStep_ok (l := l) (r := t) ea hr' hr hc' hn' e1
      have e3 : addrs u = addrs l ++ a :: addrs t := by simp [addrs, balance_inorder e1]
      obtain ⟨s2, f2, h4, h5, h6⟩ := ih hf h1 h2 (by rw [e3]; exact hn') e2
      refine ⟨s2, ?_, h4, h5, h3.trans h6⟩
      show rebalance (fuel + 1) s (some a) = _
      rw [rebalance, f1, Res.bind_ok]
      exact f2

end AvlPtr
