/-
Outcomes of a modelled C function.

* `ok a`        normal return with value `a`
* `error`       the process is terminated by `coco_error`
                (/repo/src/coco_runtime_c.c lines 16-25: print and `exit(EXIT_FAILURE)`)
* `assertFail`  a failing `assert` (process aborted)
* `ub`          undefined behaviour of C: out-of-bounds access, null dereference,
                use after free, division by zero, read of an uninitialised
                object, out-of-range conversion
-/
inductive Res (α : Type) where
  | ok (a : α)
  | error
  | assertFail
  | ub
deriving DecidableEq, Repr

namespace Res

variable {α β : Type}

/-- Sequencing: the first abnormal outcome is final. -/
def bind (r : Res α) (f : α → Res β) : Res β :=
  match r with
  | ok a => f a
  | error => error
  | assertFail => assertFail
  | ub => ub

instance : Monad Res where
  pure := Res.ok
  bind := Res.bind

@[simp] theorem pure_eq (a : α) : (pure a : Res α) = Res.ok a := rfl
@[simp] theorem bind_ok (a : α) (f : α → Res β) : (Res.ok a >>= f) = f a := rfl
@[simp] theorem bind_error (f : α → Res β) : ((Res.error : Res α) >>= f) = Res.error := rfl
@[simp] theorem bind_assertFail (f : α → Res β) :
    ((Res.assertFail : Res α) >>= f) = Res.assertFail := rfl
@[simp] theorem bind_ub (f : α → Res β) : ((Res.ub : Res α) >>= f) = Res.ub := rfl

@[simp] theorem ok_bind (a : α) (f : α → Res β) : (Res.ok a).bind f = f a := rfl
@[simp] theorem error_bind (f : α → Res β) : (Res.error : Res α).bind f = Res.error := rfl
@[simp] theorem assertFail_bind (f : α → Res β) :
    (Res.assertFail : Res α).bind f = Res.assertFail := rfl
@[simp] theorem ub_bind (f : α → Res β) : (Res.ub : Res α).bind f = Res.ub := rfl

/-- Read of `a[i]` where `a` is a C array with the elements of `l` and `i` is a signed
index: outside the array the behaviour is undefined. -/
def readAt (l : List α) (i : Int) : Res α :=
  if 0 ≤ i then
    match l[i.toNat]? with
    | some a => ok a
    | none => ub
  else ub

/-- Read of `a[i]` for an unsigned index. -/
def readNat (l : List α) (i : Nat) : Res α :=
  match l[i]? with
  | some a => ok a
  | none => ub

/-- C `assert`. -/
def assert (b : Bool) : Res Unit := if b then ok () else assertFail

end Res
