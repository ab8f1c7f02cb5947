import Verif.Model.Observer

/-!
# The texts of messages (C132)

`/repo/src/coco_runtime_c.c` and `/repo/src/coco_runtime_matlab.c`.
-/

namespace Messages

open Observer

/-- Where the expansion of a format is: in plain text, right after a percent sign, or after flags
(`/repo/src/coco_runtime_c.c` line 21, `vfprintf`). -/
inductive At where
  | plain | first | flags
deriving DecidableEq

/-- Flags, widths, precisions and lengths between the percent sign and the conversion,
for example in `/repo/src/coco_archive.c` line 138. -/
def isFlag (c : Char) : Bool := c ∈ ['-', '+', ' ', '#', '0', '1', '2', '3', '4', '5', '6', '7', '8', '9', '.', 'l', 'h', 'z']

/-- Conversions that take an argument; `n` is left out (`/repo/src/coco_runtime_c.c` line 21). -/
def isConv (c : Char) : Bool := c ∈ ['s', 'd', 'i', 'u', 'e', 'f', 'g', 'c', 'x', 'p']

/-- Text in front of a result, `/repo/src/coco_runtime_c.c` line 21. -/
def before (t : List Char) (r : Res (List Char)) : Res (List Char) := r.bind fun s => .ok (t ++ s)

/-- `vprintf(message, args)`, `/repo/src/coco_runtime_c.c` line 21, with the arguments as the texts that their conversions print; a conversion
without argument and an unknown one are undefined. -/
def expand : At → List Char → List (List Char) → Res (List Char)
  | .plain, [], _ => .ok []
  | _, [], _ => .ub
  | .plain, c :: r, args => if c = '%' then expand .first r args else before [c] (expand .plain r args)
  | st, c :: r, args =>
    if st = .first ∧ c = '%' then before [c] (expand .plain r args)
    else if isFlag c then expand .flags r args
    else if isConv c then
      match args with
      | [] => .ub
      | a :: as => before a (expand .plain r as)
    else .ub

/-- The five printing functions, `/repo/src/coco_runtime_c.c` lines 16-78. -/
inductive Kind where
  | error | warning | info | infoPartial | debug
deriving DecidableEq

/-- The prefixes, `/repo/src/coco_runtime_c.c` lines 19, 31, 43 and 71, the same in `/repo/src/coco_runtime_matlab.c` lines 23, 40, 57
and 91. -/
def Kind.head : Kind → List Char
  | .error => "COCO FATAL ERROR: ".toList
  | .warning => "COCO WARNING: ".toList
  | .info => "COCO INFO: ".toList
  | .infoPartial => []
  | .debug => "COCO DEBUG: ".toList

/-- The ends, `/repo/src/coco_runtime_c.c` lines 23, 35, 47 and 75, the same in `/repo/src/coco_runtime_matlab.c` lines 29, 46, 62 and 96. -/
def Kind.tail : Kind → List Char
  | .infoPartial => []
  | _ => ['\n']

/-- Whether the function prints, `/repo/src/coco_runtime_c.c` lines 30, 42, 59 and 70, the same in `/repo/src/coco_runtime_matlab.c`
lines 39, 56, 76 and 90. -/
def Kind.printed (cur : Level) : Kind → Bool
  | .error => true
  | .warning => cur.num ≥ Level.warning.num
  | .info => cur.num ≥ Level.info.num
  | .infoPartial => cur.num ≥ Level.info.num
  | .debug => cur.num ≥ Level.debug.num

/-- What is printed by the runtime for C, `/repo/src/coco_runtime_c.c` lines 16-78 (the end of the process after an error is left out). -/
def printC (cur : Level) (k : Kind) (message : List Char) (args : List (List Char)) : Res (List Char) :=
  if k.printed cur then (expand .plain message args).bind fun t => .ok (k.head ++ t ++ k.tail) else .ok []

/-- What is printed by the runtime for Matlab, `/repo/src/coco_runtime_matlab.c` lines 17-98: the text is written to a buffer of 500
characters, which is then the format of `mexPrintf` without arguments. -/
def printMatlab (cur : Level) (k : Kind) (message : List Char) (args : List (List Char)) : Res (List Char) :=
  if k.printed cur then
    (expand .plain message args).bind fun buffer =>
      if buffer.length + 1 > 500 then .ub
      else (expand .plain buffer []).bind fun t => .ok (k.head ++ t ++ k.tail)
  else .ok []

end Messages
