/-!
# Writing and reading the settings of an experiment in Python

Models `dict_to_eval`, `write_setting` and `read_setting` of `build/python/src/cocoex/utilities.py`, lines 111-176. Python's `str`,
`repr` and `ast.literal_eval` are parameters. The text of a dictionary is kept as the list of the texts of its keys and values; the
evaluation of such a text evaluates them one by one and raises if one of them does. Simplified: the name of the file is one string
(the `join` of lines 147-148 is done), files in the way are those written by `write_setting`, opening a file does not fail.
-/

namespace PySettings

/-- What lines 122, 125, 152 and 174 of `build/python/src/cocoex/utilities.py` use of Python: `str`, `repr`, and `ast.literal_eval`, `none`
if it raises an exception. -/
structure Python (Obj : Type) where
  str : Obj → List Char
  repr : Obj → String
  eval : String → Option Obj

/-- A dictionary in the order of its keys, the argument of `dict_to_eval`, line 111 of `build/python/src/cocoex/utilities.py`. -/
abbrev Dict (Obj : Type) := List (Obj × Obj)

/-- The default of `ignore_list`, line 111 of `build/python/src/cocoex/utilities.py`. -/
def defaultIgnore : List (List Char) := ["_".toList, "self".toList]

/-- `str(k).startswith(ignore_list)`, line 122 of `build/python/src/cocoex/utilities.py`. -/
def ignored {Obj : Type} (P : Python Obj) (ignore : List (List Char)) (k : Obj) : Bool :=
  ignore.any fun p => p.isPrefixOf (P.str k)

/-- The loop of `dict_to_eval`, lines 120-130 of `build/python/src/cocoex/utilities.py`. -/
def dictToEval {Obj : Type} (P : Python Obj) (ignore : List (List Char)) : Dict Obj → Dict Obj
  | [] => []
  | (k, v) :: d =>
    if ignored P ignore k then dictToEval P ignore d
    else match P.eval (P.repr v) with
      | none => dictToEval P ignore d
      | some _ => (k, v) :: dictToEval P ignore d

/-- The text of a dictionary, `repr` in lines 152 and 154 of `build/python/src/cocoex/utilities.py`, as the texts of its items. -/
abbrev Text := List (String × String)

/-- The files, `os.path.exists` and `open` in lines 149-150 and 172-173 of `build/python/src/cocoex/utilities.py`. -/
abbrev Files := String → Option Text

/-- `repr` of a dictionary, lines 152 and 154 of `build/python/src/cocoex/utilities.py`. -/
def reprDict {Obj : Type} (P : Python Obj) (d : Dict Obj) : Text := d.map fun kv => (P.repr kv.1, P.repr kv.2)

/-- `write_setting`, lines 132-158 of `build/python/src/cocoex/utilities.py`: the files afterwards and whether there was a warning. -/
def writeSetting {Obj : Type} (P : Python Obj) (d : Dict Obj) (name : String) (ignore : Option (List (List Char))) (fs : Files) :
    Files × Bool :=
  match fs name with
  | none =>
    let text := match ignore with
      | none => reprDict P (dictToEval P defaultIgnore d)
      | some ignore => reprDict P (dictToEval P ignore d)
    (fun n => if n = name then some text else fs n, false)
  | some _ => (fs, true)

/-- The outcome of `read_setting`, lines 160-176 of `build/python/src/cocoex/utilities.py`: the dictionary, an exception of
`literal_eval`, or `None` and whether there was a warning. -/
inductive Outcome (Obj : Type) where
  | value (d : Dict Obj)
  | raises
  | missing (warned : Bool)

/-- `literal_eval` of the text of a dictionary, line 174 of `build/python/src/cocoex/utilities.py`. -/
def evalText {Obj : Type} (P : Python Obj) : Text → Option (Dict Obj)
  | [] => some []
  | (k, v) :: t =>
    match P.eval k, P.eval v, evalText P t with
    | some k, some v, some d => some ((k, v) :: d)
    | _, _, _ => none

/-- `read_setting`, lines 160-176 of `build/python/src/cocoex/utilities.py`. -/
def readSetting {Obj : Type} (P : Python Obj) (name : String) (warn : Bool) (fs : Files) : Outcome Obj :=
  match fs name with
  | some t => match evalText P t with
    | some d => .value d
    | none => .raises
  | none => .missing warn

end PySettings
