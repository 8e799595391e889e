/-
The build script that joins the modules of an application: /repo/src/inliner.py. `copyPyWriter` is false (its default); messages on the
console are not modelled.
-/
import Verif.Model.OdtText
import Verif.Model.Yw7Text

namespace Verif

/-- `f.readlines()` (inliner.py 28): the lines with their line ends. -/
def keepLines : Str → List Str
  | [] => []
  | c :: r => if c = '\n' then [c] :: keepLines r
    else match keepLines r with
      | [] => [[c]]
      | l :: ls => (c :: l) :: ls

/-- The lazy group of `from (.+?) import.+` (inliner.py 65): `name` are the characters taken so far, in order; the group ends before the first
` import` that is followed by another character of the line. -/
def fromGroup : Str → Str → Option Str
  | _, [] => none
  | name, c :: r =>
    if name ≠ [] ∧ Str.startsWith (c :: r) c!" import" ∧ ((c :: r).drop 7).head?.any (· ≠ '\n') then some name
    else if c = '\n' then none
    else fromGroup (name ++ [c]) r

/-- `re.match(r'from (.+?) import.+', line)` (inliner.py 65), the group. -/
def fromImport (line : Str) : Option Str :=
  if Str.startsWith line c!"from " then fromGroup [] (line.drop 5) else none

/-- The module that a line imports from the package (inliner.py 65-68). The replacement `\/` of `re.sub` stands for these two characters. -/
def moduleNamed (package packagePath line : Str) : Option Str :=
  match fromImport line with
  | none => none
  | some name => if Str.contains name package then some (packagePath ++ Str.replace name c!"." c!"\\/") else none

/-- Why the script stops. -/
inductive InlineErr where
  | missing (file : Str)
  | deep
  deriving DecidableEq

/-- The loop over the lines of a file (inliner.py 31-80): `inDocstring`, `text`, `processedModules`; `rec` is the recursive call. -/
def inlineLoop (package packagePath : Str) (inPackage : Bool) (rec : Str → Str → List Str → Except InlineErr (Str × List Str)) :
    Bool → Str → List Str → List Str → Except InlineErr (Str × List Str)
  | _, text, processed, [] => .ok (text, processed)
  | inDoc, text, processed, line :: r =>
    if Str.startsWith line c!"# do_not_inline" then .ok (text, processed)
    else if Str.count line c!"\"\"\"" = 2 then inlineLoop package packagePath inPackage rec inDoc text processed r
    else if Str.startsWith (Str.lstrip line) c!"#" && !Str.startsWith (Str.lstrip line) c!"#!" then
      inlineLoop package packagePath inPackage rec inDoc text processed r
    else if Str.count line c!"\"\"\"" = 1 then
      if inPackage then inlineLoop package packagePath inPackage rec (!inDoc) text processed r
      else inlineLoop package packagePath inPackage rec inDoc (text ++ line) processed r
    else if inDoc then inlineLoop package packagePath inPackage rec inDoc text processed r
    else if inPackage && (Str.contains line c!"main()" || Str.contains line c!"__main__") then .ok (text, processed)
    else if Str.contains line c!"import" then
      match moduleNamed package packagePath line with
      | some m =>
        if m ∈ processed then inlineLoop package packagePath inPackage rec inDoc text processed r
        else do
          let (text', processed') ← rec (m ++ c!".py") text (processed ++ [m])
          inlineLoop package packagePath inPackage rec inDoc text' processed' r
      | none =>
        if Str.startsWith (Str.lstrip line) c!"import" then
          let name := Str.rstrip (Str.replace line c!"import " [])
          if name ∈ processed then inlineLoop package packagePath inPackage rec inDoc text processed r
          else inlineLoop package packagePath inPackage rec inDoc (text ++ line) (processed ++ [name]) r
        else inlineLoop package packagePath inPackage rec inDoc (text ++ line) processed r
    else inlineLoop package packagePath inPackage rec inDoc (text ++ line) processed r

/-- `inline_module` (inliner.py 18-81). The first argument bounds the depth of the recursion. `files` are the texts of the files. -/
def inlineModule (files : Str → Option Str) (package packagePath : Str) : Nat → Str → Str → List Str → Except InlineErr (Str × List Str)
  | 0, _, _, _ => .error .deep
  | n + 1, file, text, processed =>
    match files file with
    | none => .error (.missing file)
    | some source =>
      inlineLoop package packagePath (Str.contains file package) (inlineModule files package packagePath n) false text processed
        (keepLines (universalNewlines source))

/-- `run` (inliner.py 84-90): the text that is written into the target file; the file is opened after the text is complete. -/
def inlineRun (files : Str → Option Str) (package packagePath : Str) (depth : Nat) (sourceFile : Str) : Except InlineErr Str :=
  match inlineModule files package packagePath depth sourceFile [] [] with
  | .ok (text, _) => .ok text
  | .error e => .error e

end Verif
