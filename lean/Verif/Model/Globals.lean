/-
Model of `pywriter_globals.py` (list/string conversion) and `model/id_generator.py`.
-/
import Verif.Py.Dict

namespace Verif

/-- The `for` loop of `string_to_list` (pywriter_globals.py 67-71); `acc` is `elements`. -/
def stringToListLoop : List Str → List Str → List Str
  | acc, [] => acc
  | acc, e :: r =>
    let e := Str.strip e
    if e ≠ [] ∧ e ∉ acc then stringToListLoop (acc ++ [e]) r else stringToListLoop acc r

/-- `string_to_list(text, divider)` (pywriter_globals.py 50-75). A `None` text raises
`AttributeError`, an empty divider `ValueError`; both are caught and give `[]`. -/
def stringToList (text : Option Str) (divider : Str) : List Str :=
  match text with
  | none => []
  | some t => if divider = [] then [] else stringToListLoop [] (Str.split t divider)

/-- `list_to_string(elements, divider)` (pywriter_globals.py 78-97). `None` raises
`TypeError`, which is caught and gives `''`. Simplification: list members are strings. -/
def listToString (elements : Option (List Str)) (divider : Str) : Str :=
  match elements with
  | none => []
  | some l => Str.join divider l

/-- The `while` loop of `create_id` (model/id_generator.py 15-18) run for at most
`fuel` iterations; `none` means "still running". -/
def createIdLoop (elements : List Str) : Nat → Nat → Option Str
  | 0, _ => none
  | fuel + 1, i =>
    if Str.ofNat i ∈ elements then createIdLoop elements fuel (i + 1) else some (Str.ofNat i)

/-- `create_id(elements)` (model/id_generator.py 9-18). For a dictionary pass its keys.
`C01_terminates` shows that the `getD` default is never used. -/
def createId (elements : List Str) : Str :=
  (createIdLoop elements (elements.length + 1) 1).getD []

end Verif
