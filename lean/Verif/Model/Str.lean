import Verif.Base.CStr

/-!
Model of the string helpers, `/repo/src/coco_string.c`.
Allocation failures are not modelled; freed memory is not tracked.
-/

namespace Str
open CStr

/-! ### coco_strfind -/

/-- Inner loop of `coco_strfind`, `/repo/src/coco_string.c` lines 113-116; `n` is the number of iterations
left, the result is the value of `j` after the loop. -/
def matchLen (base seq : List Char) (i : Nat) : (n j : Nat) → Res Nat
  | 0, j => .ok j
  | n + 1, j => do
    let b ← strAt base (i + j)
    let c ← strAt seq j
    if b ≠ c then Res.ok j else matchLen base seq i n (j + 1)

/-- Outer loop of `coco_strfind`, `/repo/src/coco_string.c` lines 111-125; `n` is the number of iterations
left. -/
def strfindFrom (base seq : List Char) : (n i : Nat) → Res Int
  | 0, _ => .ok (-1)
  | n + 1, i => do
    let b ← strAt base i
    let c ← strAt seq 0
    if b = c then
      (matchLen base seq i seq.length 0).bind fun j =>
        if j = seq.length then
          if i > 1000000000 then Res.error else Res.ok (i : Int)
        else strfindFrom base seq n (i + 1)
    else strfindFrom base seq n (i + 1)

/-- `coco_strfind`, `/repo/src/coco_string.c` lines 103-126. -/
def strfind (base seq : List Char) : Res Int :=
  if base.length < seq.length then .ok (-1)
  else strfindFrom base seq (base.length - seq.length + 1) 0

/-! ### coco_string_split -/

/-- The tokens `strtok` delivers for a single delimiter character; `cur` is the current token, reversed.
(`strtok` is a C library function; this is its specified behaviour: skip delimiters, then take characters
up to the next delimiter.) Used in `/repo/src/coco_string.c` lines 170-175. -/
def strtok (d : Char) (cur : List Char) : List Char → List (List Char)
  | [] => if cur = [] then [] else [cur.reverse]
  | c :: cs =>
    if c = d then
      if cur = [] then strtok d [] cs else cur.reverse :: strtok d [] cs
    else strtok d (c :: cur) cs

/-- Storing the tokens in the array of `count` pointers, `/repo/src/coco_string.c` lines 166-176;
`i` is the number of tokens stored so far. -/
def storeTokens (count : Nat) : (i : Nat) → List (List Char) → Res (List (List Char))
  | i, [] => if i < count then .ok [] else .ub
  | i, t :: ts => do
    Res.assert (decide (i < count))
    let r ← storeTokens count (i + 1) ts
    return t :: r

/-- `coco_string_split`, `/repo/src/coco_string.c` lines 140-181. The result is the list of the strings
before the terminating NULL. -/
def split (s : List Char) (d : Char) : Res (List (List Char)) :=
  let count := 1 + (s.filter (· == d)).length + 1
  storeTokens count 0 (strtok d [] s)

/-! ### coco_string_trim -/

/-- Loop of lines 451-452 of `/repo/src/coco_string.c`. -/
def allSpace : List Char → Bool
  | [] => true
  | c :: cs => if isSpace c then allSpace cs else false

/-- Position of the front pointer after the loop of lines 459-461 of `/repo/src/coco_string.c`. -/
def frontPos : List Char → Nat
  | [] => 0
  | c :: cs => if isSpace c then frontPos cs + 1 else 0

/-- The loop of lines 463-464 of `/repo/src/coco_string.c`,
`while (isspace(*(--endp)) && endp != frontp)`; the argument is the value before the decrement, the
result the value after the loop (0 - 1 is never reached from a position behind `front`). -/
def endPos (s : List Char) (front : Nat) : Nat → Nat
  | 0 => 0
  | e + 1 =>
    match s[e]? with
    | some c => if isSpace c && e != front then endPos s front e else e
    | none => e

/-- The characters before the first NUL of a buffer. -/
def untilNul : List Char → List Char
  | [] => []
  | c :: cs => if c = nul then [] else c :: untilNul cs

/-- `coco_string_trim`, `/repo/src/coco_string.c` lines 435-482, for a non-NULL string. -/
def trim (s : List Char) : List Char :=
  if s = [] then []
  else if allSpace s then []
  else
    let front := frontPos s
    let e := if s.length ≠ front then endPos s front s.length else s.length
    let s' :=
      if s.length - 1 ≠ e then s.set (e + 1) nul
      else if front ≠ 0 ∧ e = front then s.set 0 nul
      else s
    if front ≠ 0 then untilNul (s'.drop front) else untilNul s'

/-! ### coco_string_parse_ranges -/

/-- `(size_t) strtol(digits, NULL, 10)` for a string of digits: saturates at LONG_MAX (64-bit `long`).
Used in `/repo/src/coco_string.c` lines 307 and 319. -/
def strtol (ds : List Char) : Nat := min (decimal ds) (2 ^ 63 - 1)

/-- One range piece: the bounds `num[0]`, `num[1]` before clipping, or `none` when parsing has to stop;
`/repo/src/coco_string.c` lines 277-381. -/
def pieceBounds (min max : Nat) (piece : List Char) : Res (Option (Nat × Nat)) :=
  let count := (piece.filter (· == '-')).length
  if count > 1 then .ok none
  else if count = 0 then .ok (some (strtol piece, strtol piece))
  else
    (split piece '-').bind fun numbers =>
      match numbers with
      | [] => if min = 0 ∨ max = 0 then .ok none else .ok (some (min, max))
      | [a] =>
        if piece.idxOf '-' = 0 then
          if min = 0 then .ok none else .ok (some (min, strtol a))
        else
          if max = 0 then .ok none else .ok (some (strtol a, max))
      | [a, b] => .ok (some (strtol a, strtol b))
      | _ => .assertFail

/-- The loop of lines 407-411 of `/repo/src/coco_string.c`: append `j, j+1, ...` (`n` of them) to the
result buffer of `maxCount + 1` entries, `acc` being the entries written so far. The test is
`i_result > max_count - 1` in unsigned arithmetic: for `max_count = 0` the right-hand side wraps around.
(`j` is not bounded to 64 bits.) -/
def writeNumbers (maxCount : Nat) : (n j : Nat) → List Nat → Res (List Nat)
  | 0, _, acc => .ok acc
  | n + 1, j, acc =>
    if maxCount ≠ 0 ∧ acc.length > maxCount - 1 then .ok acc
    else if acc.length < maxCount + 1 then writeNumbers maxCount n (j + 1) (acc ++ [j])
    else .ub

/-- The loop over the pieces, `/repo/src/coco_string.c` lines 275-415, for clipping see lines 384-404. -/
def parsePieces (min max maxCount : Nat) : List (List Char) → List Nat → Res (List Nat)
  | [], acc => .ok acc
  | p :: ps, acc =>
    (pieceBounds min max p).bind fun
    | none => .ok acc
    | some (n0, n1) =>
      let n0 := if min > 0 ∧ n0 < min then min else n0
      let n1 := if max > 0 ∧ n1 > max then max else n1
      if n0 > n1 then .ok acc
      else (writeNumbers maxCount (n1 + 1 - n0) n0 acc).bind fun acc => parsePieces min max maxCount ps acc

/-- `coco_string_parse_ranges`, `/repo/src/coco_string.c` lines 229-427. `none` is NULL; otherwise the
numbers before the terminating 0 written at line 303, 337, 357, 374, 402 or 425. -/
def parseRanges (s : List Char) (min max maxCount : Nat) : Res (Option (List Nat)) :=
  if s = [] then .ok none
  else if s.any (fun c => c != '-' && c != ',' && !isDigit c) then .ok none
  else if max > 0 ∧ min > max then .ok none
  else
    (split s ',').bind fun ranges =>
      (parsePieces min max maxCount ranges []).bind fun acc =>
        if acc.length = 0 then .ok none
        else if acc.length < maxCount + 1 then .ok (some acc)
        else .ub

/-! ### coco_remove_from_string -/

/-- `strstr`: the position of the first occurrence (C library function), used in
`/repo/src/coco_string.c` lines 201 and 207. -/
def strstr (s pat : List Char) : Option Nat :=
  if pat.isPrefixOf s then some 0
  else match s with
    | [] => none
    | _ :: cs => (strstr cs pat).map (· + 1)

/-- `coco_remove_from_string`, `/repo/src/coco_string.c` lines 191-218. -/
def removeFromString (s from' to : List Char) : Res (List Char) :=
  let start := if from' = [] then some 0 else strstr s from'
  let stop := if to = [] then some s.length else strstr s to
  match start, stop with
  | some a, some b => if b < a then .error else .ok (s.take a ++ s.drop b)
  | _, _ => .error

end Str
