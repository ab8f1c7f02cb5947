import Verif.Base.Res

/-!
C strings. A NUL-terminated string is the list of its characters before the terminator. Reading at the
position of the terminator gives NUL, reading beyond it is undefined behaviour.
-/

namespace CStr

/-- The character NUL. -/
def nul : Char := Char.ofNat 0

/-- `s[i]` for a C string `s`: the terminator is readable, anything beyond is out of bounds. -/
def strAt (s : List Char) (i : Nat) : Res Char :=
  match s[i]? with
  | some c => .ok c
  | none => if i = s.length then .ok nul else .ub

/-- `isspace` of the "C" locale. -/
def isSpace (c : Char) : Bool :=
  c == ' ' || c == '\t' || c == '\n' || c == Char.ofNat 11 || c == Char.ofNat 12 || c == '\r'

/-- `isdigit`. -/
def isDigit (c : Char) : Bool := decide ('0' ≤ c) && decide (c ≤ '9')

/-- `isalpha` of the "C" locale. -/
def isAlpha (c : Char) : Bool :=
  (decide ('a' ≤ c) && decide (c ≤ 'z')) || (decide ('A' ≤ c) && decide (c ≤ 'Z'))

/-- The value of a digit character. -/
def digitVal (c : Char) : Nat := c.toNat - '0'.toNat

/-- The number denoted by a list of decimal digits, most significant first. -/
def decimal (ds : List Char) : Nat := ds.foldl (fun v c => 10 * v + digitVal c) 0

end CStr
