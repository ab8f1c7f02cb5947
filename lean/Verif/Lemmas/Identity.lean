import Verif.Model.Identity
import Verif.Lemmas.BiobjFiles
import Verif.Props.OptionKeys

/-!
# Lemmas on ids, names and types of problems

The constructors are run on descriptions of texts: the name is a text with or without the title of the suite in it, and the
title has at most 125 characters.
-/

namespace Identity
open InfoFile (dec dec_digit dec_length)
open Observer (strdupf)
open Memory (Transform Op Stmt Size)

theorem strdupf_ok (t : List Char) (h : t.length ≤ 441) : strdupf t = .ok t := FileSystem.strdupf_ok t h

/-! ### Lengths and characters -/

/-- Templates with short texts, an id with the permitted characters, and numbers of `unsigned long`. -/
structure Good (t : Template) (f i d : Nat) : Prop where
  f : f < 2 ^ 64
  i : i < 2 ^ 64
  d : d < 2 ^ 64
  fine : Problem.idIsFine t.id.toList = true
  idLength : t.id.toList.length ≤ 40
  titleLength : t.title.toList.length ≤ 40
  widths : t.wf ≤ 20 ∧ t.wi ≤ 20 ∧ t.wd ≤ 20

theorem zeros_eq (w n : Nat) : zeros w n = BiobjFiles.Spec.pad w n := rfl

theorem zeros_length {w n : Nat} (hw : w ≤ 20) (hn : n < 2 ^ 64) : (zeros w n).length ≤ 20 := by
  have := dec_length hn
  simp only [zeros, List.length_append, List.length_replicate]
  omega

theorem fine_append (a b : List Char) : Problem.idIsFine (a ++ b) = (Problem.idIsFine a && Problem.idIsFine b) := by
  simp [Problem.idIsFine, List.all_append]

theorem digit_range (c : Char) (h : c.isDigit = true) : '0' ≤ c ∧ c ≤ '9' := by
  simp only [Char.isDigit, Bool.and_eq_true, decide_eq_true_eq] at h
  exact ⟨h.1, h.2⟩

theorem fine_zeros (w n : Nat) : Problem.idIsFine (zeros w n) = true := by
  simp only [Problem.idIsFine, List.all_eq_true]
  intro c hc
  rw [zeros_eq] at hc
  have := digit_range c (BiobjFiles.pad_digit w n c hc)
  simp [this.1, this.2]

theorem fine_idText {t : Template} (h : Problem.idIsFine t.id.toList = true) (f i d : Nat) :
    Problem.idIsFine (idText t f i d) = true := by
  simp only [idText, fine_append, fine_zeros, h]
  decide +kernel

theorem idText_length {t : Template} {f i d : Nat} (h : Good t f i d) : (idText t f i d).length ≤ 106 := by
  have h1 := zeros_length h.widths.1 h.f
  have h2 := zeros_length h.widths.2.1 h.i
  have h3 := zeros_length h.widths.2.2 h.d
  have h4 := h.idLength
  have e1 : "_f".toList.length = 2 := by decide +kernel
  have e2 : "_i".toList.length = 2 := by decide +kernel
  have e3 : "_d".toList.length = 2 := by decide +kernel
  simp only [idText, List.length_append]
  omega

theorem nameText_length {t : Template} {f i d : Nat} (h : Good t f i d) : (nameText t f i d).length ≤ 125 := by
  have h1 := dec_length h.f
  have h2 := dec_length h.i
  have h3 := dec_length h.d
  have h4 := h.titleLength
  have e1 : " problem f".toList.length = 10 := by decide +kernel
  have e2 : " instance ".toList.length = 10 := by decide +kernel
  have e3 : " in ".toList.length = 4 := by decide +kernel
  have e4 : "D".toList.length = 1 := by decide +kernel
  simp only [nameText, List.length_append]
  omega

/-! ### Descriptions of texts -/

/-- A name: a text, the title of the suite (or not), a text. -/
structure SName where
  pre : List Char
  title : Bool
  post : List Char
deriving DecidableEq

/-- Id (that of the suite or a raw one), name and type. -/
structure STexts where
  id : Option (Option (String × Nat))
  name : Option SName
  type : Option (List Char)
deriving DecidableEq

/-- The variables of a constructor. -/
structure SFrame where
  prob : Option STexts
  subs : List STexts
  aux : Option STexts
deriving DecidableEq

/-- The described name. -/
def SName.den (c : Ctx) (s : SName) : List Char :=
  s.pre ++ ((if s.title then nameText c.t c.f c.i c.d else []) ++ s.post)

/-- The described texts. -/
def STexts.den (c : Ctx) (x : STexts) : Texts := ⟨x.id.map (opId c), x.name.map (SName.den c), x.type⟩

/-- The described variables. -/
def SFrame.den (c : Ctx) (v : SFrame) : Frame := ⟨v.prob.map (STexts.den c), v.subs.map (STexts.den c), v.aux.map (STexts.den c)⟩

/-- Whether the name fits the buffer. -/
def SName.fits (s : SName) : Bool := decide (s.pre.length + s.post.length + (if s.title then 125 else 0) ≤ 441)

/-- The name with a prefix. -/
def SName.wrap (p : List Char) : Option SName → SName
  | none => ⟨p ++ "((null))".toList, false, []⟩
  | some s => ⟨p ++ '(' :: s.pre, s.title, s.post ++ [')']⟩

def sWrap (t : Transform) (x : STexts) : Option STexts :=
  let y := SName.wrap (pre t).toList x.name
  if y.fits then some { x with name := some y } else none

def sId (raw : Option (String × Nat)) (x : STexts) : Option STexts :=
  match raw with
  | none => some { x with id := some none }
  | some (s, w) =>
    if Problem.idIsFine s.toList && decide (s.toList.length ≤ 400) && decide (w ≤ 20) then some { x with id := some (some (s, w)) }
    else none

def sType (s : String) (x : STexts) : Option STexts :=
  if s.toList.length ≤ 441 then some { x with type := some s.toList } else none

def sOnProb (g : STexts → Option STexts) (v : SFrame) : Option SFrame :=
  match v.prob with
  | none => none
  | some x => (g x).bind fun x => some { v with prob := some x }

def sOnAux (g : STexts → Option STexts) (v : SFrame) : Option SFrame :=
  match v.aux with
  | none => none
  | some x => (g x).bind fun x => some { v with aux := some x }

def sScalars (name : String) : STexts := ⟨none, some ⟨name.toList, false, []⟩, none⟩

def sOp (large : Bool) (v : SFrame) : Op → Option SFrame
  | .fromScalars _ name => some { v with prob := some (sScalars name) }
  | .wrap t _ => sOnProb (sWrap t) v
  | .wrapLarge t _ => if large then sOnProb (sWrap t) v else some v
  | .setId raw => sOnProb (sId raw) v
  | .setName => sOnProb (fun x => some { x with name := some ⟨[], true, []⟩ }) v
  | .setType type => sOnProb (sType type) v
  | .auxNew name => some { v with aux := some (sScalars name) }
  | .auxWrap t _ => sOnAux (sWrap t) v
  | .auxFree => some { v with aux := none }
  | .alloc _ _ | .free _ _ | .setFree _ | .newData | .dataField _ _ | .newVd | .vdField _ _ => some v

def sOps (large : Bool) : List Op → SFrame → Option SFrame
  | [], v => some v
  | o :: os, v => (sOp large v o).bind (sOps large os)

def sOnSub (large : Bool) (body : List Op) (x : STexts) : Option STexts :=
  (sOps large body ⟨some x, [], none⟩).bind (·.prob)

def sOnEach (large : Bool) (body : List Op) : List STexts → Option (List STexts)
  | [] => some []
  | x :: xs => (sOnSub large body x).bind fun x => (sOnEach large body xs).bind fun xs => some (x :: xs)

/-- The number of sub-problems, if it does not depend on the dimension. -/
def sCount (peaks : Nat) : Size → Option Nat
  | .one => some 1
  | .dim => none
  | .peaks => some peaks

def sStmt (large : Bool) (peaks : Nat) (v : SFrame) : Stmt → Option SFrame
  | .op o => sOp large v o
  | .newSubs n body => (sCount peaks n).bind fun n =>
      ((sOps large body ⟨none, [], none⟩).bind (·.prob)).bind fun x => some { v with subs := v.subs ++ List.replicate n x }
  | .onSub i body =>
    match v.subs[i]? with
    | none => none
    | some x => (sOnSub large body x).bind fun x => some { v with subs := v.subs.set i x }
  | .forSubs body => (sOnEach large body v.subs).bind fun xs => some { v with subs := xs }

def sStmts (large : Bool) (peaks : Nat) : List Stmt → SFrame → Option SFrame
  | [], v => some v
  | s :: ss, v => (sStmt large peaks v s).bind (sStmts large peaks ss)

def sCall (large : Bool) (peaks : Nat) (ss : List Stmt) : Option STexts :=
  (sStmts large peaks ss ⟨none, [], none⟩).bind (·.prob)

/-! ### The descriptions are right -/

theorem bind_some {α β : Type} {o : Option α} {f : α → Option β} {b : β} (h : o.bind f = some b) :
    ∃ a, o = some a ∧ f a = some b := by
  cases o with
  | none => simp at h
  | some a => exact ⟨a, rfl, h⟩

theorem SName.fits_den {c : Ctx} (hc : Good c.t c.f c.i c.d) {s : SName} (h : s.fits = true) : (s.den c).length ≤ 441 := by
  have := nameText_length hc
  simp only [SName.fits, decide_eq_true_eq] at h
  simp only [SName.den, List.length_append]
  split
  · rename_i ht; rw [if_pos ht] at h; omega
  · rename_i ht; rw [if_neg ht] at h; simp; omega

theorem lparen : "(".toList = ['('] := by decide +kernel
theorem rparen : ")".toList = [')'] := by decide +kernel

theorem SName.wrap_den (c : Ctx) (p : List Char) (n : Option SName) :
    (SName.wrap p n).den c = p ++ "(".toList ++ shown (n.map (SName.den c)) ++ ")".toList := by
  rw [lparen, rparen]
  cases n with
  | none =>
    have : "((null))".toList = ['('] ++ ("(null)".toList ++ [')']) := by decide +kernel
    simp [SName.wrap, SName.den, shown, this]
  | some s => simp only [SName.wrap, SName.den, shown, Option.map_some, List.append_assoc, List.cons_append, List.nil_append]; rfl

theorem wrap_den {c : Ctx} (hc : Good c.t c.f c.i c.d) (t : Transform) {x y : STexts} (h : sWrap t x = some y) :
    wrap t (x.den c) = .ok (y.den c) := by
  simp only [sWrap] at h
  split at h
  · rename_i hf
    cases h
    have h1 := SName.fits_den hc hf
    rw [SName.wrap_den] at h1
    simp only [wrap, wrapped, setName, STexts.den]
    rw [strdupf_ok _ h1, Res.ok_bind]
    simp [SName.wrap_den]
  · simp at h

theorem id_den {c : Ctx} (hc : Good c.t c.f c.i c.d) (raw : Option (String × Nat)) {x y : STexts} (h : sId raw x = some y) :
    setId (opId c raw) (x.den c) = .ok (y.den c) := by
  unfold sId at h
  split at h
  · cases h
    have h1 := idText_length hc
    simp only [setId, opId, STexts.den]
    rw [strdupf_ok _ (by omega), Res.ok_bind, if_pos (fine_idText hc.fine _ _ _)]
    rfl
  · rename_i s w
    split at h
    · rename_i hh
      cases h
      simp only [Bool.and_eq_true, decide_eq_true_eq] at hh
      have h1 := zeros_length hh.2 hc.d
      have e3 : "_d".toList.length = 2 := by decide +kernel
      simp only [setId, opId, STexts.den]
      rw [strdupf_ok _ (by simp only [List.length_append]; omega), Res.ok_bind, if_pos]
      · rfl
      · simp only [fine_append, fine_zeros, hh.1.1]
        decide +kernel
    · simp at h

theorem type_den {c : Ctx} (s : String) {x y : STexts} (h : sType s x = some y) :
    setType s.toList (x.den c) = .ok (y.den c) := by
  unfold sType at h
  split at h
  · rename_i hh
    cases h
    simp only [setType, STexts.den]
    rw [strdupf_ok _ hh, Res.ok_bind]
  · simp at h

theorem name_den {c : Ctx} (hc : Good c.t c.f c.i c.d) (x : STexts) :
    setName (nameText c.t c.f c.i c.d) (x.den c) = .ok (STexts.den c { x with name := some ⟨[], true, []⟩ }) := by
  have := nameText_length hc
  simp only [setName, STexts.den]
  rw [strdupf_ok _ (by omega), Res.ok_bind]
  simp [SName.den]

theorem scalars_den (c : Ctx) (name : String) : (sScalars name).den c = fromScalars name := by
  simp [sScalars, STexts.den, fromScalars, SName.den]

theorem onProb_den {c : Ctx} {g : Texts → Res Texts} {g' : STexts → Option STexts}
    (hg : ∀ x y, g' x = some y → g (x.den c) = .ok (y.den c)) {v w : SFrame} (h : sOnProb g' v = some w) :
    onProb g (v.den c) = .ok (w.den c) := by
  unfold sOnProb at h
  split at h
  · simp at h
  · rename_i x hx
    obtain ⟨y, h1, h2⟩ := bind_some h
    cases h2
    simp [onProb, SFrame.den, hx, hg x y h1, Res.ok_bind]

theorem onAux_den {c : Ctx} {g : Texts → Res Texts} {g' : STexts → Option STexts}
    (hg : ∀ x y, g' x = some y → g (x.den c) = .ok (y.den c)) {v w : SFrame} (h : sOnAux g' v = some w) :
    onAux g (v.den c) = .ok (w.den c) := by
  unfold sOnAux at h
  split at h
  · simp at h
  · rename_i x hx
    obtain ⟨y, h1, h2⟩ := bind_some h
    cases h2
    simp [onAux, SFrame.den, hx, hg x y h1, Res.ok_bind]

theorem op_den {c : Ctx} (hc : Good c.t c.f c.i c.d) (o : Op) {v w : SFrame} (h : sOp c.large v o = some w) :
    runOp c (v.den c) o = .ok (w.den c) := by
  cases o with
  | fromScalars fn name => cases h; simp [runOp, SFrame.den, scalars_den]
  | wrap t args => exact onProb_den (fun x y => wrap_den hc t) h
  | wrapLarge t args =>
    simp only [sOp] at h
    simp only [runOp]
    split at h
    · rename_i hl; rw [if_pos hl]; exact onProb_den (fun x y => wrap_den hc t) h
    · rename_i hl; rw [if_neg hl]; cases h; rfl
  | setId raw => exact onProb_den (fun x y => id_den hc raw) h
  | setName => exact onProb_den (fun x y hxy => by cases hxy; exact name_den hc x) h
  | setType type => exact onProb_den (fun x y => type_den type) h
  | auxNew name => cases h; simp [runOp, SFrame.den, scalars_den]
  | auxWrap t args => exact onAux_den (fun x y => wrap_den hc t) h
  | auxFree => cases h; rfl
  | alloc | free | setFree | newData | dataField | newVd | vdField => cases h; rfl

theorem ops_den {c : Ctx} (hc : Good c.t c.f c.i c.d) : ∀ (os : List Op) {v w : SFrame}, sOps c.large os v = some w →
    runOps c os (v.den c) = .ok (w.den c)
  | [], v, w, h => by cases h; rfl
  | o :: os, v, w, h => by
    obtain ⟨u, h1, h2⟩ := bind_some h
    rw [runOps, op_den hc o h1, Res.ok_bind]
    exact ops_den hc os h2

theorem result_den {c : Ctx} {v : SFrame} {x : STexts} (h : v.prob = some x) : result (v.den c) = .ok (x.den c) := by
  simp [result, SFrame.den, h]

theorem onSub_den {c : Ctx} (hc : Good c.t c.f c.i c.d) (os : List Op) {x y : STexts} (h : sOnSub c.large os x = some y) :
    onSub c os (x.den c) = .ok (y.den c) := by
  obtain ⟨u, h1, h2⟩ := bind_some h
  have := ops_den hc os h1
  simp only [onSub]
  have e : (⟨some (x.den c), [], none⟩ : Frame) = SFrame.den c ⟨some x, [], none⟩ := rfl
  rw [e, this, Res.ok_bind, result_den h2]

theorem onEach_den {c : Ctx} (hc : Good c.t c.f c.i c.d) (os : List Op) : ∀ (xs ys : List STexts),
    sOnEach c.large os xs = some ys → onEach c os (xs.map (STexts.den c)) = .ok (ys.map (STexts.den c))
  | [], ys, h => by cases h; rfl
  | x :: xs, ys, h => by
    obtain ⟨y, h1, h2⟩ := bind_some h
    obtain ⟨zs, h3, h4⟩ := bind_some h2
    cases h4
    rw [List.map_cons, onEach, onSub_den hc os h1, Res.ok_bind, onEach_den hc os xs zs h3, Res.ok_bind]
    rfl

theorem newSubs_den {c : Ctx} (hc : Good c.t c.f c.i c.d) (os : List Op) {x : STexts}
    (h : (sOps c.large os ⟨none, [], none⟩).bind (·.prob) = some x) (n : Nat) :
    newSubs c os n = .ok (List.replicate n (x.den c)) := by
  obtain ⟨u, h1, h2⟩ := bind_some h
  have h3 := ops_den hc os h1
  have e : (⟨none, [], none⟩ : Frame) = SFrame.den c ⟨none, [], none⟩ := rfl
  induction n with
  | zero => rfl
  | succ n ih =>
    rw [newSubs, e, h3, Res.ok_bind, result_den h2, Res.ok_bind, ih, Res.ok_bind]
    rfl

theorem stmt_den {c : Ctx} (hc : Good c.t c.f c.i c.d) (s : Stmt) {v w : SFrame} (h : sStmt c.large c.peaks v s = some w) :
    runStmt c (v.den c) s = .ok (w.den c) := by
  cases s with
  | op o => exact op_den hc o h
  | newSubs n body =>
    obtain ⟨k, h1, h2⟩ := bind_some h
    obtain ⟨x, h3, h4⟩ := bind_some h2
    cases h4
    have hk : count c n = k := by
      cases n <;> simp_all [sCount, count]
    simp [runStmt, hk, newSubs_den hc body h3, Res.ok_bind, SFrame.den]
  | onSub i body =>
    simp only [sStmt] at h
    split at h
    · simp at h
    · rename_i x hx
      obtain ⟨y, h1, h2⟩ := bind_some h
      cases h2
      simp [runStmt, SFrame.den, hx, onSub_den hc body h1, Res.ok_bind]
  | forSubs body =>
    obtain ⟨ys, h1, h2⟩ := bind_some h
    cases h2
    simp [runStmt, SFrame.den, onEach_den hc body _ _ h1, Res.ok_bind]

theorem stmts_den {c : Ctx} (hc : Good c.t c.f c.i c.d) : ∀ (ss : List Stmt) {v w : SFrame},
    sStmts c.large c.peaks ss v = some w → runStmts c ss (v.den c) = .ok (w.den c)
  | [], v, w, h => by cases h; rfl
  | s :: ss, v, w, h => by
    obtain ⟨u, h1, h2⟩ := bind_some h
    rw [runStmts, stmt_den hc s h1, Res.ok_bind]
    exact stmts_den hc ss h2

theorem call_den {c : Ctx} (hc : Good c.t c.f c.i c.d) (ss : List Stmt) {x : STexts} (h : sCall c.large c.peaks ss = some x) :
    call c (some ss) = .ok (x.den c) := by
  obtain ⟨u, h1, h2⟩ := bind_some h
  have e : (⟨none, [], none⟩ : Frame) = SFrame.den c ⟨none, [], none⟩ := rfl
  rw [call, e, stmts_den hc ss h1, Res.ok_bind, result_den h2]

/-! ### Single steps -/

theorem pre_length (t : Transform) : (pre t).toList.length ≤ 34 := by
  cases t <;> simp only [pre] <;> decide +kernel

theorem wrap_ok (t : Transform) {x : Texts} {n : List Char} (hn : x.name = some n)
    (h : (pre t).toList.length + 2 + n.length ≤ 441) :
    wrap t x = .ok { x with name := some ((pre t).toList ++ "(".toList ++ n ++ ")".toList) } := by
  simp only [wrap, wrapped, setName, hn, shown]
  rw [strdupf_ok _ (by rw [lparen, rparen]; simp only [List.length_append, List.length_cons, List.length_nil]; omega), Res.ok_bind]

theorem setId_ok {s : List Char} (hs : Problem.idIsFine s = true) (hl : s.length ≤ 441) (x : Texts) :
    setId s x = .ok { x with id := some s } := by
  simp only [setId]
  rw [strdupf_ok _ hl, Res.ok_bind, if_pos hs]

theorem setName_ok {s : List Char} (hl : s.length ≤ 441) (x : Texts) : setName s x = .ok { x with name := some s } := by
  simp only [setName]
  rw [strdupf_ok _ hl, Res.ok_bind]

theorem setType_ok {s : List Char} (hl : s.length ≤ 441) (x : Texts) : setType s x = .ok { x with type := some s } := by
  simp only [setType]
  rw [strdupf_ok _ hl, Res.ok_bind]

theorem fine_no_percent {s : List Char} (hs : Problem.idIsFine s = true) : '%' ∉ s := by
  intro h
  simp only [Problem.idIsFine, List.all_eq_true] at hs
  have := hs _ h
  revert this
  decide

theorem nameFromId_ok {x : Texts} {s : List Char} (hx : x.id = some s) (hs : Problem.idIsFine s = true)
    (hl : s.length < 220) : nameFromId x = .ok { x with name := some s } := by
  simp only [nameFromId, hx, OptionKeys.strdupFormat]
  rw [if_neg (by omega), OptionKeys.format_ok s (fine_no_percent hs), Res.ok_bind, strdupf_ok _ (by omega), Res.ok_bind]

theorem fine_stacked {a b : List Char} (ha : Problem.idIsFine a = true) (hb : Problem.idIsFine b = true) :
    Problem.idIsFine (a ++ "__".toList ++ b) = true := by
  simp only [fine_append, ha, hb]
  decide +kernel

theorem under2 : "__".toList.length = 2 := by decide +kernel

theorem wrapAll_ok : ∀ (ts : List Transform) {x : Texts} {n : List Char}, x.name = some n →
    (ts.map fun t => (pre t).toList.length + 2).sum + n.length ≤ 441 →
    ∃ m, m.length = (ts.map fun t => (pre t).toList.length + 2).sum + n.length ∧ wrapAll ts x = .ok { x with name := some m }
  | [], x, n, hn, _ => ⟨n, by simp, by cases x; simp_all [wrapAll]⟩
  | t :: ts, x, n, hn, h => by
    simp only [List.map_cons, List.sum_cons] at h ⊢
    obtain ⟨m, h1, h2⟩ := wrapAll_ok ts (x := { x with name := some ((pre t).toList ++ "(".toList ++ n ++ ")".toList) }) rfl
      (by rw [lparen, rparen]; simp only [List.length_append, List.length_cons, List.length_nil]; omega)
    refine ⟨m, ?_, ?_⟩
    · rw [h1, lparen, rparen]; simp only [List.length_append, List.length_cons, List.length_nil]; omega
    · rw [wrapAll, wrap_ok t hn (by omega), Res.ok_bind, h2]

end Identity
