/-
Opening a document with the application of the system: /repo/src/pywriter/file/doc_open.py, and `norm_path` of
/repo/src/pywriter/pywriter_globals.py.
-/
import Verif.Py.Str

namespace Verif

/-- The loop of `os.path.normpath` (POSIX): `absolute` is `initial_slashes`, `new` is `new_comps`. -/
def normComps (absolute : Bool) : List Str → List Str → List Str
  | new, [] => new
  | new, comp :: r =>
    if comp = [] ∨ comp = c!"." then normComps absolute new r
    else if comp ≠ c!".." ∨ (absolute = false ∧ new = []) ∨ new.getLast? = some c!".." then normComps absolute (new ++ [comp]) r
    else normComps absolute new.dropLast r

/-- The number of slashes a normalised path begins with (`initial_slashes` of `os.path.normpath`, POSIX). -/
def initialSlashes (p : Str) : Nat :=
  if Str.startsWith p c!"/" then (if Str.startsWith p c!"//" && !Str.startsWith p c!"///" then 2 else 1) else 0

/-- `os.path.normpath(p)` (POSIX). -/
def normPath (p : Str) : Str :=
  if p = [] then c!"."
  else
    let text := List.replicate (initialSlashes p) '/' ++ Str.join c!"/" (normComps (decide (initialSlashes p ≠ 0)) [] (Str.split p c!"/"))
    if text = [] then c!"." else text

/-- `norm_path` (pywriter_globals.py 43-46). -/
def normalPath (p : Option Str) : Str := normPath (p.getD [])

/-- What the program asks of the system: the function for opening documents (on Windows), or a command for the shell. -/
inductive Opened where
  | windows (path : Str)
  | shell (command : Str)
  | nothing
  deriving DecidableEq

/-- `os.system(command)`: whether the text can be passed to the shell; otherwise there is an exception. A command that fails raises
none. -/
def passable (command : Str) : Bool := decide (Char.ofNat 0 ∉ command)

/-- `open_document` (doc_open.py 11-26): `startfile` is `os.startfile`, if the system has it; its result tells whether it
succeeds. -/
def openDocument (startfile : Option (Str → Bool)) (document : Option Str) : Opened :=
  let p := normalPath document
  if (startfile.map (· p)).getD false then .windows p
  else if passable (c!"xdg-open \"" ++ p ++ c!"\"") then .shell (c!"xdg-open \"" ++ p ++ c!"\"")
  else if passable (c!"open \"" ++ p ++ c!"\"") then .shell (c!"open \"" ++ p ++ c!"\"")
  else .nothing

end Verif
