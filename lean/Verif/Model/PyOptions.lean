import Verif.Base.CStr

/-!
# Options of observers given as dictionaries in Python (C127)

`Observer.__cinit__`, `/repo/build/python/src/cocoex/interface.pyx` lines 464-473, and `ObserverOptions`,
`/repo/build/python/src/cocoex/utilities.py` lines 208-246: the dictionary is printed, and characters are removed from the text.
-/

namespace PyOptions

/-- A value of the dictionary: a text, or another object with what `repr` prints for it (numbers, `True`, ...),
`/repo/build/python/src/cocoex/utilities.py` lines 219-225. -/
inductive Value where
  | str (s : List Char)
  | other (repr : List Char)
deriving DecidableEq, Repr

/-- A dictionary in its order (keys are texts), `/repo/build/python/src/cocoex/utilities.py` lines 208-225. -/
abbrev Dict := List (List Char × Value)

/-- What `repr` prints for a character of a text in the quotes `q` (Python; characters that are not printable other than these are
not modelled), used in `/repo/build/python/src/cocoex/utilities.py` line 243. -/
def reprChar (q : Char) (c : Char) : List Char :=
  if c = '\\' then ['\\', '\\']
  else if c = '\n' then ['\\', 'n']
  else if c = '\t' then ['\\', 't']
  else if c = '\r' then ['\\', 'r']
  else if c = q then ['\\', q]
  else [c]

/-- `repr` of a text (Python): in single quotes, unless it has single quotes and no double quotes; used in
`/repo/build/python/src/cocoex/utilities.py` line 243. -/
def reprStr (s : List Char) : List Char :=
  let q := if '\'' ∈ s ∧ '"' ∉ s then '"' else '\''
  q :: (s.flatMap (reprChar q) ++ [q])

/-- `repr` of a value, `/repo/build/python/src/cocoex/utilities.py` line 243. -/
def Value.print : Value → List Char
  | .str s => reprStr s
  | .other r => r

/-- The entries of a dictionary as printed, `/repo/build/python/src/cocoex/utilities.py` line 243. -/
def printEntries : Dict → List Char
  | [] => []
  | [(k, v)] => reprStr k ++ (": ".toList ++ v.print)
  | (k, v) :: d => reprStr k ++ (": ".toList ++ (v.print ++ (", ".toList ++ printEntries d)))

/-- `str` of a dictionary, `/repo/build/python/src/cocoex/utilities.py` line 243. -/
def printDict (d : Dict) : List Char := '{' :: (printEntries d ++ ['}'])

/-- `text.replace(pat, '')` (Python: from left to right, without overlaps); `k` characters are still to be skipped.
`/repo/build/python/src/cocoex/utilities.py` lines 244-245. -/
def removeFrom (pat : List Char) : Nat → List Char → List Char
  | _, [] => []
  | k + 1, _ :: cs => removeFrom pat k cs
  | 0, c :: cs => if pat.isPrefixOf (c :: cs) then removeFrom pat (pat.length - 1) cs else c :: removeFrom pat 0 cs

/-- The loop over the texts to be removed, `/repo/build/python/src/cocoex/utilities.py` lines 244-245. -/
def removeAll (pats : List (List Char)) (s : List Char) : List Char := pats.foldl (fun s p => removeFrom p 0 s) s

/-- `text.replace(',', ' ')`, `/repo/build/python/src/cocoex/utilities.py` line 243. -/
def noCommas (s : List Char) : List Char := s.map fun c => if c = ',' then ' ' else c

/-- `ObserverOptions.as_string`, `/repo/build/python/src/cocoex/utilities.py` lines 238-246. -/
def asString (d : Dict) : List Char :=
  removeAll ["u'".toList, "'".toList, "{".toList, "}".toList] (noCommas (printDict d))

/-- The options of `Observer` given as a dictionary, `/repo/build/python/src/cocoex/interface.pyx` lines 464-470. -/
def observerText (d : Dict) : List Char :=
  removeAll ["u'".toList, "u\"".toList, "'".toList, "\"".toList, "{".toList, "}".toList] (noCommas (printDict d))

/-- `d[key] = value`: the value is replaced, or the entry is appended (Python), `/repo/build/python/src/cocoex/utilities.py` lines
226-229. -/
def set (d : Dict) (k : List Char) (v : Value) : Dict :=
  match d with
  | [] => [(k, v)]
  | e :: d => if e.1 = k then (k, v) :: d else e :: set d k v

/-- `update`, `/repo/build/python/src/cocoex/utilities.py` lines 226-229. -/
def update (d : Dict) (new : Dict) : Dict := new.foldl (fun d e => set d e.1 e.2) d

/-- `update_gracefully`, `/repo/build/python/src/cocoex/utilities.py` lines 230-237. -/
def updateGracefully (d : Dict) (new : Dict) : Dict :=
  new.foldl (fun d e => if d.any (fun x => x.1 == e.1) then d else set d e.1 e.2) d

end PyOptions
