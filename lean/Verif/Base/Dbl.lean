import Mathlib.Algebra.Order.Field.Rat

/-!
Doubles as far as comparisons are concerned: NaN, the infinities, and finite values (a rational number;
-0 and +0 are identified, they compare equal). `lt` and `le` are the C operators `<` and `<=`: false
whenever an operand is NaN.
-/

inductive Dbl where
  | nan
  | ninf
  | fin (q : ℚ)
  | pinf
deriving DecidableEq

namespace Dbl

/-- C `a < b`. -/
def lt : Dbl → Dbl → Bool
  | nan, _ => false
  | _, nan => false
  | ninf, ninf => false
  | ninf, _ => true
  | _, ninf => false
  | fin a, fin b => decide (a < b)
  | fin _, pinf => true
  | pinf, _ => false

/-- C `a <= b`. -/
def le : Dbl → Dbl → Bool
  | nan, _ => false
  | _, nan => false
  | ninf, _ => true
  | _, ninf => false
  | fin a, fin b => decide (a ≤ b)
  | _, pinf => true
  | pinf, fin _ => false

/-- C `isnan`. -/
def isNan : Dbl → Bool
  | nan => true
  | _ => false

/-- C `isinf`. -/
def isInf : Dbl → Bool
  | ninf => true
  | pinf => true
  | _ => false

/-- Neither NaN nor infinite. -/
def isFinite : Dbl → Bool
  | fin _ => true
  | _ => false

/-- Sum with a finite number, without rounding. -/
def addRat (a : Dbl) (r : ℚ) : Dbl :=
  match a with
  | fin q => fin (q + r)
  | x => x

/-- DBL_MAX, the largest finite double. -/
def dblMax : ℚ := 2 ^ 1024 - 2 ^ 971

theorem isFinite_iff (a : Dbl) : a.isFinite = true ↔ a.isNan = false ∧ a.isInf = false := by
  cases a <;> simp [isFinite, isNan, isInf]

theorem lt_irrefl (a : Dbl) : a.lt a = false := by cases a <;> simp [lt]

theorem lt_trans {a b c : Dbl} (h1 : a.lt b = true) (h2 : b.lt c = true) : a.lt c = true := by
  cases a <;> cases b <;> cases c <;> simp_all [lt]
  exact _root_.lt_trans h1 h2

theorem lt_of_le_of_lt {a b c : Dbl} (h1 : a.le b = true) (h2 : b.lt c = true) : a.lt c = true := by
  cases a <;> cases b <;> cases c <;> simp_all [lt, le]
  exact _root_.lt_of_le_of_lt h1 h2

theorem lt_of_lt_of_le {a b c : Dbl} (h1 : a.lt b = true) (h2 : b.le c = true) : a.lt c = true := by
  cases a <;> cases b <;> cases c <;> simp_all [lt, le]
  exact _root_.lt_of_lt_of_le h1 h2

theorem le_trans {a b c : Dbl} (h1 : a.le b = true) (h2 : b.le c = true) : a.le c = true := by
  cases a <;> cases b <;> cases c <;> simp_all [le]
  exact _root_.le_trans h1 h2

theorem le_of_lt {a b : Dbl} (h : a.lt b = true) : a.le b = true := by
  cases a <;> cases b <;> simp_all [lt, le]
  exact _root_.le_of_lt h

theorem le_refl {a : Dbl} (h : a.isNan = false) : a.le a = true := by
  cases a <;> simp_all [le, isNan]

theorem not_lt_of_le {a b : Dbl} (h : a.le b = true) : b.lt a = false := by
  cases a <;> cases b <;> simp_all [lt, le]

theorem le_of_not_lt {a b : Dbl} (ha : a.isNan = false) (hb : b.isNan = false) (h : a.lt b = false) :
    b.le a = true := by
  cases a <;> cases b <;> simp_all [lt, le, isNan]

theorem lt_not_nan {a b : Dbl} (h : a.lt b = true) : a.isNan = false ∧ b.isNan = false := by
  cases a <;> cases b <;> simp_all [lt, isNan]

theorem le_not_nan {a b : Dbl} (h : a.le b = true) : a.isNan = false ∧ b.isNan = false := by
  cases a <;> cases b <;> simp_all [le, isNan]

end Dbl
