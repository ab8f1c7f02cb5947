import Verif.Model.Str

/-!
Model of the option parsing and counting helpers of `/repo/src/coco_utilities.c`.
-/

namespace Options
open CStr Str

/-- The number of iterations of `while (isspace(*p)) p++` on the text at `p`. -/
def spaces : List Char → Nat
  | [] => 0
  | c :: cs => if isSpace c then spaces cs + 1 else 0

/-- `while (isspace(options[i2])) i2++`, `/repo/src/coco_utilities.c` lines 770-771 and 842-843; the loop
stops at the terminator; a start beyond the terminator would be out of bounds. -/
def skipSpaces (s : List Char) (i : Nat) : Res Nat :=
  if i ≤ s.length then .ok (i + spaces (s.drop i)) else .ub

/-- The location of the value of an option, `/repo/src/coco_utilities.c` lines 761-775 (the same code at
833-847): `none` when 0 is returned. `options = NULL` is the empty string here. -/
def valueStart (options name : List Char) : Res (Option Nat) :=
  if options = [] then .ok none
  else
    (strfind options name).bind fun i1 =>
      if i1 < 0 then .ok none
      else
        (strfind (options.drop i1.toNat) [':']).bind fun k =>
          (skipSpaces options (i1 + k + 1).toNat).bind fun i2 =>
            if (i2 : Int) ≤ i1 then .ok none else .ok (some i2)

/-- The characters a `%s` conversion takes from text that does not start with white space. -/
def word (s : List Char) : List Char := s.takeWhile (fun c => !isSpace c)

/-- Storing a string with its terminator in a buffer of `cap` characters. -/
def store (cap : Nat) (v : List Char) : Res (Int × Option (List Char)) :=
  if v.length + 1 ≤ cap then .ok (1, some v) else .ub

/-- `coco_options_read_string`, `/repo/src/coco_utilities.c` lines 829-854, into a buffer of `cap`
characters. The result is the returned count (`sscanf` gives EOF = -1 when the input ends before anything
is converted) and the stored value, if any. -/
def readString (options name : List Char) (cap : Nat) : Res (Int × Option (List Char)) :=
  (valueStart options name).bind fun
  | none => .ok (0, none)
  | some i2 =>
    (strAt options i2).bind fun c =>
      if c = '"' then
        let rest := options.drop (i2 + 1)
        let v := rest.takeWhile (· != '"')
        if v = [] then (if rest = [] then .ok (-1, none) else .ok (0, none)) else store cap v
      else
        let v := word (options.drop i2)
        if v = [] then .ok (-1, none) else store cap v

/-- The loop of `coco_options_read_values`, `/repo/src/coco_utilities.c` lines 885-895, on the text from
position `i2` on, into a buffer of `cap` characters; `acc` is what has been written so far. -/
def valuesLoop (cap : Nat) : List Char → List Char → Res (Int × Option (List Char))
  | [], acc => if acc.length < cap then .ok (acc.length, some acc) else .ub
  | c :: cs, acc =>
    if isAlpha c then (if acc.length < cap then .ok (acc.length, some acc) else .ub)
    else if isSpace c then valuesLoop cap cs acc
    else if acc.length < cap then valuesLoop cap cs (acc ++ [c]) else .ub

/-- `coco_options_read_values`, `/repo/src/coco_utilities.c` lines 868-896. -/
def readValues (options name : List Char) (cap : Nat) : Res (Int × Option (List Char)) :=
  if options = [] then .ok (0, none)
  else
    (strfind options name).bind fun i1 =>
      if i1 < 0 then .ok (0, none)
      else
        (strfind (options.drop i1.toNat) [':']).bind fun k =>
          let i2 := i1 + k + 1
          if i2 ≤ i1 then .ok (0, none)
          else valuesLoop cap (options.drop i2.toNat) []

/-- The sign accepted by `strtol`/`strtoul`-like conversions, and the text after it. -/
def scanSign : List Char → Bool × List Char
  | '-' :: cs => (true, cs)
  | '+' :: cs => (false, cs)
  | cs => (false, cs)

/-- `sscanf(text, "%lu", &v)` (C library function, 64-bit `unsigned long`): count and value. -/
def scanULong (text : List Char) : Res (Int × Option Nat) :=
  let t := text.dropWhile isSpace
  if t = [] then .ok (-1, none)
  else
    let (neg, t) := scanSign t
    let ds := t.takeWhile isDigit
    if ds = [] then .ok (0, none)
    else
      let v := decimal ds
      if v < 2 ^ 64 then .ok (1, some (if neg then (2 ^ 64 - v) % 2 ^ 64 else v)) else .ub

/-- The value of a hexadecimal digit. -/
def hexVal (c : Char) : Option Nat :=
  if isDigit c then some (digitVal c)
  else if 'a' ≤ c ∧ c ≤ 'f' then some (c.toNat - 'a'.toNat + 10)
  else if 'A' ≤ c ∧ c ≤ 'F' then some (c.toNat - 'A'.toNat + 10)
  else none

/-- The digits of base `b` at the start of the text. -/
def scanDigits (b : Nat) : List Char → List Nat
  | [] => []
  | c :: cs => match hexVal c with
    | some v => if v < b then v :: scanDigits b cs else []
    | none => []

/-- The base given by the prefix of a `%i` conversion, and the digits after the prefix. -/
def scanBase : List Char → Nat × List Char
  | '0' :: 'x' :: cs => (16, cs)
  | '0' :: 'X' :: cs => (16, cs)
  | '0' :: cs => (8, '0' :: cs)
  | cs => (10, cs)

/-- `sscanf(text, " %i", &v)` (C library function, 32-bit `int`): count and value; the base is given by the
prefix (0x: 16, 0: 8, otherwise 10). -/
def scanInt (text : List Char) : Res (Int × Option Int) :=
  let t := text.dropWhile isSpace
  if t = [] then .ok (-1, none)
  else
    let (neg, t) := scanSign t
    let (b, t) := scanBase t
    let ds := scanDigits b t
    if ds = [] then .ok (0, none)
    else
      let v : Int := ((ds.foldl (fun v d => b * v + d) 0 : Nat) : Int)
      let v := if neg then -v else v
      if -2 ^ 31 ≤ v ∧ v < 2 ^ 31 then .ok (1, some v) else .ub

/-- `coco_options_read_size_t`, `/repo/src/coco_utilities.c` lines 802-804 with 757-778. -/
def readSizeT (options name : List Char) : Res (Int × Option Nat) :=
  (valueStart options name).bind fun
  | none => .ok (0, none)
  | some i2 => scanULong (options.drop i2)

/-- `coco_options_read_int`, `/repo/src/coco_utilities.c` lines 789-791 with 757-778. -/
def readInt (options name : List Char) : Res (Int × Option Int) :=
  (valueStart options name).bind fun
  | none => .ok (0, none)
  | some i2 => scanInt (options.drop i2)

/-- `coco_option_keys_get_redundant`, `/repo/src/coco_utilities.c` lines 560-594: the outer loop. -/
def redundantLoop (known : List (List Char)) : List (List Char) → List (List Char)
  | [] => []
  | g :: gs =>
    if known.any (fun k => g == k) then redundantLoop known gs else g :: redundantLoop known gs

/-- `coco_option_keys_allocate`, `/repo/src/coco_utilities.c` lines 521-539: NULL for 0 keys. -/
def allocateKeys (keys : List (List Char)) : Option (List (List Char)) :=
  if keys.length = 0 then none else some keys

/-- `coco_option_keys_get_redundant`, `/repo/src/coco_utilities.c` lines 560-594 (both arguments are
non-NULL structures; an array of 0 pointers is an allocation of 0 bytes, which aborts, see
`/repo/src/coco_runtime_c.c` lines 80-90). -/
def getRedundant (known given : List (List Char)) : Res (Option (List (List Char))) :=
  if given.length = 0 then .error else .ok (allocateKeys (redundantLoop known given))

/-- `coco_option_keys_add`, `/repo/src/coco_utilities.c` lines 599-629. -/
def addKeys (basic : List (List Char)) (additional : Option (List (List Char))) :
    Res (Option (List (List Char))) :=
  match additional with
  | none => .ok (some basic)
  | some a => if basic.length + a.length = 0 then .error else .ok (allocateKeys (basic ++ a))

/-- `coco_count_numbers`, `/repo/src/coco_utilities.c` lines 1136-1148: the loop; `n` iterations are left
before `max_count` is reached, `numbers` is the array from the current position on. -/
def countLoop : (n : Nat) → List Nat → Nat → Res Nat
  | 0, _, count => .ok count
  | n + 1, numbers, count =>
    match numbers with
    | [] => .ub
    | v :: vs => if v ≠ 0 then countLoop n vs (count + 1) else .ok count

/-- `coco_count_numbers`, `/repo/src/coco_utilities.c` lines 1136-1148. The array is given by its allocated
entries. -/
def countNumbers (numbers : List Nat) (maxCount : Nat) : Res Nat :=
  (countLoop maxCount numbers 0).bind fun count => if count = maxCount then .error else .ok count

end Options
