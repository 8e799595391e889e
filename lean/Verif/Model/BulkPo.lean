/-
The scripts that work on the translation files of projects: /repo/src/update_de_po.py and /repo/src/translate_de.py. Messages on the console
are not modelled. The syntax of JSON and that of the binary catalogue are parameters.
-/
import Verif.Model.Translations

namespace Verif
open Prog

/-- What `Translations('de')` knows without further arguments (update_de_po.py 22, translations.py 64-74): no name, version 'unknown'. -/
def bulkEnv (now : Str) : TrEnv := ⟨[], c!"unknown", now⟩

/-- `read_json` after `read_po` (translations.py 102-119, update_de_po.py 24-25): each entry of the JSON dictionary replaces the one that is
there; a dictionary that cannot be read is ignored. -/
def mergeJson (d : Dict Str) : Option (Dict Str) → Dict Str
  | none => d
  | some j => j.foldl (fun d p => d.set p.1 p.2) d

/-- The text that `write_po` writes after `read_pot`, `read_po`, `read_json` (update_de_po.py 22-26). -/
def bulkText (now pot po : Str) (json : Option (Dict Str)) : Str :=
  let p := readPotLoop true (noCreation (bulkEnv now)) [] (strippedLines pot)
  let d := mergeJson (readPo [] (some po)) json
  (poHeader (bulkEnv now) p.1 :: p.2.map (poEntry d)).flatten

/-- `f'{prjPath.path}/i18n/de.po'` (update_de_po.py 18); the path that `Translations` uses is the same one, relative to the directory that was
changed to (translations.py 33-34, 65). -/
def poPath (root name : Str) : Str := root ++ c!"/" ++ name ++ c!"/i18n/de.po"

/-- The template next to it (translations.py 66). -/
def potPath (root name : Str) : Str := root ++ c!"/" ++ name ++ c!"/i18n/messages.pot"

/-- The JSON dictionary (translations.py 34, 67). -/
def jsonPath (root : Str) : Str := root ++ c!"/PyWriter/i18n/de.json"

/-- `read_json` (translations.py 102-119): all exceptions are caught. `parse` is `json.load`. -/
def readJsonFile (parse : Str → Option (Dict Str)) (path : Str) : Prog (Option (Dict Str)) :=
  tryExcept (do
    let t ← readFile path
    match parse t with
    | some d => return some d
    | none => raise .valueError) fun _ => return none

/-- The body of the loop for one directory (update_de_po.py 18-26). Simplification: in `read_po` a file that is missing would be ignored; here it
has just been seen, and another failure to read it is not caught. -/
def bulkProject (now : Str) (parse : Str → Option (Dict Str)) (root name : Str) : Prog Unit := do
  if ← isfile (poPath root name) then
    other
    let pot ← readFile (potPath root name)
    let po ← readFile (poPath root name)
    let json ← readJsonFile parse (jsonPath root)
    let _ ← writeChecked (poPath root name) (bulkText now pot po json)

/-- update_de_po.py 12-27: `names` are the directories that `os.scandir` yields; `now` is the time when the project is reached. -/
def bulkUpdate (now : Str → Str) (parse : Str → Option (Dict Str)) (root : Str) : List Str → Prog Unit
  | [] => other
  | name :: r => do
    bulkProject (now name) parse root name
    bulkUpdate now parse root r

/-- `shutil.copyfile(a, b)` (translate_de.py 45). -/
def copyFile (a b : Str) : Prog Unit := do
  let t ← readFile a
  writeFile b t

/-- The reading of the translation file in `read_po` (translations.py 167-173): a missing file is ignored. -/
def readIfThere (path : Str) : Prog (Option Str) := do
  if ← isfile path then (do let t ← readFile path; return some t) else return none

/-- `msgfmt.make(po, mo)` (msgfmt.py 96-232): `compile` yields the contents of the catalogue, or fails (a syntax error ends the program); a
failure to write is reported and ignored (228-232). -/
def makeFile (compile : Str → Option Str) (po mo : Str) : Prog Unit := do
  let text ← readFile po
  match compile text with
  | none => raise .valueError
  | some c => tryExcept (writeFile mo c) fun _ => return ()

/-- translate_de.py 42-45: `translations.main('de', app)` (translations.py 242-267, without the JSON dictionary), then, if all messages are
translated and the file was written, the catalogue and its copy. -/
def translateDe (e : TrEnv) (compile : Str → Option Str) (pot po mo copy : Str) : Prog Unit := do
  let template ← readFile pot
  let old ← readIfThere po
  let r := updateTranslations e [] template old
  if (← writeChecked po r.text) && r.complete then
    makeFile compile po mo
    copyFile mo copy

end Verif
