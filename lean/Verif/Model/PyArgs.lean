import Mathlib.Data.List.Basic

/-!
# Arguments of experiment scripts in Python (C128)

`args_to_dict`, `/repo/build/python/src/cocoex/utilities.py` lines 27-109, which `/repo/build/python/example/example_experiment2.py`
lines 109-111 calls with the arguments of the command line.
-/

namespace PyArgs

/-- What the function does with the texts of values: `ast.literal_eval` or the text itself, `int` (`none` for `ValueError`), and `!=` of
the values. `/repo/build/python/src/cocoex/utilities.py` lines 68-72, 86 and 97. -/
structure Sem (V : Type) where
  eval : List Char → V
  int : List Char → Option V
  ne : V → V → Bool

/-- A dictionary in its order, `/repo/build/python/src/cocoex/utilities.py` line 73. -/
abbrev Dict (V : Type) := List (List Char × V)

/-- `res[k]` if `k in res`, `/repo/build/python/src/cocoex/utilities.py` lines 96-97. -/
def get {V : Type} : Dict V → List Char → Option V
  | [], _ => none
  | e :: d, k => if e.1 = k then some e.2 else get d k

/-- `res[k] = v`, `/repo/build/python/src/cocoex/utilities.py` lines 86 and 101. -/
def put {V : Type} : Dict V → List Char → V → Dict V
  | [], k, v => [(k, v)]
  | e :: d, k, v => if e.1 = k then (k, v) :: d else e :: put d k v

/-- `text.split(sep)` for one character, `/repo/build/python/src/cocoex/utilities.py` lines 75, 81 and 85. -/
def split (sep : Char) : List Char → List (List Char)
  | [] => [[]]
  | c :: cs =>
    if c = sep then [] :: split sep cs
    else
      match split sep cs with
      | [] => [[c]]
      | p :: ps => (c :: p) :: ps

/-- `known_name.startswith(name)`, `/repo/build/python/src/cocoex/utilities.py` lines 93-95. -/
def starts (name k : List Char) : Bool := name.isPrefixOf k

/-- The loop over the known names, `/repo/build/python/src/cocoex/utilities.py` lines 91-103: the first one that starts with the name,
if the name is the beginning of exactly one of them. -/
def find (known : List (List Char)) (name : List Char) : Option (List Char) :=
  known.find? fun k => starts name k && (known.filter (starts name)).length == 1

/-- An argument that is not special, `/repo/build/python/src/cocoex/utilities.py` lines 91-108 (`none` for `ValueError`; `known` is `none`
for `None`). -/
def plain {V : Type} (S : Sem V) (known : Option (List (List Char))) (res : Dict V) (name value : List Char) : Option (Dict V) :=
  match find (known.getD [name]) name with
  | none => none
  | some k =>
    match get res k with
    | some v => if S.ne v (S.eval value) then none else some res
    | none => some (put res k (S.eval value))

/-- The loop `res[k] = int(v)`, `/repo/build/python/src/cocoex/utilities.py` lines 85-87. -/
def putInts {V : Type} (S : Sem V) : Dict V → List (List Char × List Char) → Option (Dict V)
  | res, [] => some res
  | res, (k, t) :: l =>
    match S.int t with
    | none => none
    | some v => putInts S (put res k v) l

/-- The special argument `batch`, `/repo/build/python/src/cocoex/utilities.py` lines 79-88. -/
def batch {V : Type} (S : Sem V) (names : List Char) (res : Dict V) (value : List Char) : Option (Dict V) :=
  if (split '/' names).length ≠ (split '/' value).length then none
  else putInts S res ((split '/' names).zip (split '/' value))

/-- One argument, `/repo/build/python/src/cocoex/utilities.py` lines 75-108. -/
def step {V : Type} (S : Sem V) (known : Option (List (List Char))) (specials : Dict (List Char)) (res : Dict V) (arg : List Char) :
    Option (Dict V) :=
  match split '=' arg with
  | [name, value] =>
    match get specials name with
    | some names => if name = "batch".toList then batch S names res value else none
    | none => plain S known res name value
  | _ => none

/-- The loop over the arguments, `/repo/build/python/src/cocoex/utilities.py` lines 74-109. -/
def loop {V : Type} (S : Sem V) (known : Option (List (List Char))) (specials : Dict (List Char)) :
    Dict V → List (List Char) → Option (Dict V)
  | res, [] => some res
  | res, a :: as =>
    match step S known specials res a with
    | none => none
    | some res => loop S known specials res as

/-- `args_to_dict` with `split='='`, `/repo/build/python/src/cocoex/utilities.py` lines 27-109. -/
def argsToDict {V : Type} (S : Sem V) (known : Option (List (List Char))) (specials : Dict (List Char)) (args : List (List Char)) :
    Option (Dict V) :=
  loop S known specials [] args

end PyArgs
