/-
The translation files: /repo/src/translations.py. Messages on the console are not modelled; the JSON dictionary is a dictionary (the
syntax of JSON is not modelled).
-/
import Verif.Model.Save
import Verif.Py.Template

namespace Verif
open Prog

/-- The lines of a file opened in text mode, stripped (translations.py 83-87, 167-177: `readlines`, `line.strip()`). After a final
newline character there is one more empty line here, which no branch cares about. -/
def strippedLines (text : Str) : List Str := (Str.split (universalNewlines text) c!"\n").map Str.strip

/-- `_extract_text(prefix, line)` (translations.py 235-239): everything but the prefix and the last character. -/
def extractText (pre line : Str) : Str := (line.take (line.length - 1)).drop pre.length

/-- The order of strings: by code points. -/
def strLe : Str → Str → Bool
  | [], _ => true
  | _ :: _, [] => false
  | a :: as, b :: bs => if a.toNat < b.toNat then true else if a = b then strLe as bs else false

/-- Insertion into a sorted list. -/
def insertStr (s : Str) : List Str → List Str
  | [] => [s]
  | a :: r => if strLe s a then s :: a :: r else a :: insertStr s r

/-- `list.sort()` for strings. -/
def sortStrs : List Str → List Str
  | [] => []
  | a :: r => insertStr a (sortStrs r)

/-- The loop of `read_pot` (translations.py 85-99): `inHeader`, `potCreation`, `msgList`. The list is sorted after every line. -/
def readPotLoop : Bool → Str → List Str → List Str → Str × List Str
  | _, creation, msgs, [] => (creation, msgs)
  | inHeader, creation, msgs, line :: r =>
    let blank := Str.startsWith line c!"msgid \"\""
    let creation' := if blank then creation else if inHeader && Str.startsWith line c!"\"POT-Creation-Date" then line else creation
    let inHeader' := if blank then inHeader
      else if inHeader && !Str.startsWith line c!"\"POT-Creation-Date" && Str.startsWith line c!"msgid \"" then false else inHeader
    let msgs' := if !inHeader' && Str.startsWith line c!"msgid \"" then msgs ++ [extractText c!"msgid \"" line] else msgs
    readPotLoop inHeader' creation' (sortStrs msgs') r

/-- The loop of `read_po` (translations.py 174-190): `inHeader`, `message`, `msgDict`. `message` is set before it is used, because a line
that ends the header sets it. -/
def readPoLoop : Bool → Str → Dict Str → List Str → Dict Str
  | _, _, d, [] => d
  | inHeader, message, d, line :: r =>
    let inHeader' := if Str.startsWith line c!"msgid \"\"" then inHeader
      else if inHeader && Str.startsWith line c!"msgid \"" then false else inHeader
    if inHeader' then readPoLoop inHeader' message d r
    else if Str.startsWith line c!"msgid \"" then readPoLoop inHeader' (extractText c!"msgid \"" line) d r
    else if Str.startsWith line c!"msgstr \"" then
      let t := extractText c!"msgstr \"" line
      readPoLoop inHeader' message (if t = [] then d else d.set message t) r
    else readPoLoop inHeader' message d r

/-- `read_po` (translations.py 166-190): a missing file is ignored. -/
def readPo (dict : Dict Str) : Option Str → Dict Str
  | none => dict
  | some t => readPoLoop true [] dict (strippedLines t)

/-- `poHeader` (translations.py 36-50). -/
def poHeaderTemplate : Str :=
  c!"# ${app} Dictionary (English-German)\n# Copyright (C) 2022 Peter Triesberger\n#\nmsgid \"\"\nmsgstr \"\"\n" ++
  c!"\"Project-Id-Version: ${appVersion}\\n\"\n${pot_creation}\n\"PO-Revision-Date: ${datetime}\\n\"\n" ++
  c!"\"Last-Translator: Peter Triesberger\\n\"\n\"Language: de\\n\"\n\"MIME-Version: 1.0\\n\"\n" ++
  c!"\"Content-Type: text/plain; charset=UTF-8\\n\"\n\"Content-Transfer-Encoding: 8bit\\n\"\n\n\n"

/-- What the program knows besides the files: the application, its version, the current time (translations.py 64-74). -/
structure TrEnv where
  app : Str
  version : Str
  now : Str

/-- The header (translations.py 158-164). -/
def poHeader (e : TrEnv) (creation : Str) : Str :=
  Template.subst poHeaderTemplate [(c!"app", e.app), (c!"appVersion", e.version), (c!"datetime", e.now), (c!"pot_creation", creation)]

/-- The initial value of `potCreation` (translations.py 74). -/
def noCreation (e : TrEnv) : Str := c!"\"POT-Creation-Date: " ++ e.now ++ c!"\\n\""

/-- The entry for a message (translations.py 203-208); a missing translation is empty. -/
def poEntry (d : Dict Str) (message : Str) : Str :=
  c!"msgid \"" ++ message ++ c!"\"\nmsgstr \"" ++ (d.get? message).getD [] ++ c!"\"\n\n"

/-- The files after an update: the text of the translation file, the dictionary, and whether all messages have translations. -/
structure TrResult where
  text : Str
  dict : Dict Str
  complete : Bool

/-- `main` (translations.py 242-267) without the file access: `dict` is the dictionary that was read (`read_json` 102-119; empty if there is
none or it is not wanted), `pot` the text of the template, `po` that of the translation file, if there is one. The dictionary that
`write_json` (121-149) writes has no empty entries. -/
def updateTranslations (e : TrEnv) (dict : Dict Str) (pot : Str) (po : Option Str) : TrResult :=
  let p := readPotLoop true (noCreation e) [] (strippedLines pot)
  let d := readPo dict po
  { text := (poHeader e p.1 :: p.2.map (poEntry d)).flatten
    dict := d.filter (fun q => q.2 ≠ [])
    complete := p.2.all (fun m => decide ((d.get? m).getD [] ≠ [])) }

/-- The writing of `write_po` and `write_json` (translations.py 128-149, 214-226): an exception of the first
`os.replace` is not caught; a failure to write restores the backup. The result tells whether the file could be written. -/
def writeChecked (path text : Str) : Prog Bool := do
  let backedUp ← (do if ← isfile path then (do replace path (bak path); return true) else return false : Prog Bool)
  tryExcept (do writeFile path text; return true) fun _ => do
    if backedUp then replace (bak path) path
    return false

end Verif
