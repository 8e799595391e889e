/-
The collector of messages: /repo/src/pgettext.py. Messages on the console are not modelled.
-/
import Verif.Model.Translations

namespace Verif
open Prog

/-- The rest of a match of `_\("(.+?)"\)` after the opening (pgettext.py 15-16): the shortest group and its length in the text,
with the closing; `.` does not match a newline character. -/
def msgBody (q : Char) : Str → Option Str
  | [] => none
  | c :: r =>
    if c = '\n' then none
    else if [q, ')'].isPrefixOf r then some [c]
    else (msgBody q r).map (c :: ·)

/-- `msgPattern.findall(text)` (pgettext.py 74): `skip` characters of the current match are still to be consumed. -/
def findMsgs (q : Char) : Nat → Str → List Str
  | _, [] => []
  | skip + 1, _ :: r => findMsgs q skip r
  | 0, c :: r =>
    if ['_', '(', q].isPrefixOf (c :: r) then
      match msgBody q (r.drop 2) with
      | some m => m :: findMsgs q (m.length + 4) r
      | none => findMsgs q 0 r
    else findMsgs q 0 r

/-- `get_messages` (pgettext.py 71-75). -/
def getMessages (text : Str) : List Str := findMsgs '"' 0 text ++ findMsgs '\'' 0 text

/-- A directory: its entries in the order of `os.scandir`. A file that cannot be read (or is no UTF-8 text) has an exception for its text. -/
inductive SrcEntry where
  | file (name : Str) (text : Except Exc Str)
  | dir (name : Str) (entries : List SrcEntry)

mutual
/-- One step of the loop in `scan_dir` with `scan_file` (pgettext.py 77-81, 86-90). -/
def scanEntry : SrcEntry → Except Exc (List Str)
  | .file name text =>
    if Str.endsWith name c!".py" then
      match text with
      | .ok t => .ok (getMessages (universalNewlines t))
      | .error e => .error e
    else .ok []
  | .dir _ entries => scanDir entries

/-- `scan_dir` (pgettext.py 83-90): the messages that are added to the list. -/
def scanDir : List SrcEntry → Except Exc (List Str)
  | [] => .ok []
  | e :: r =>
    match scanEntry e with
    | .error x => .error x
    | .ok a =>
      match scanDir r with
      | .error x => .error x
      | .ok b => .ok (a ++ b)
end

/-- `potHeader` (pgettext.py 19-35). -/
def potHeaderTemplate : Str :=
  c!"# ${app} Dictionary\n# Copyright (C) 2022 Peter Triesberger\n#\nmsgid \"\"\nmsgstr \"\"\n" ++
  c!"\"Project-Id-Version: ${appVersion}\\n\"\n\"POT-Creation-Date: ${datetime}\\n\"\n" ++
  c!"\"PO-Revision-Date: YEAR-MO-DA HO:MI+ZONE\\n\"\n\"Last-Translator: FULL NAME <EMAIL@ADDRESS>\\n\"\n" ++
  c!"\"Language: LANGUAGE\\n\"\n\"MIME-Version: 1.0\\n\"\n\"Content-Type: text/plain; charset=UTF-8\\n\"\n" ++
  c!"\"Content-Transfer-Encoding: 8bit\\n\"\n\"Generated-By: PyWriter pgettext.py ${version}\\n\"\n\n"

/-- The header of the template (pgettext.py 54-60); `VERSION` is 0.3 (line 7). -/
def potHeader (e : TrEnv) : Str :=
  Template.subst potHeaderTemplate [(c!"app", e.app), (c!"appVersion", e.version), (c!"datetime", e.now), (c!"version", c!"0.3")]

/-- `list(set(l))`, in some order (it is sorted afterwards). -/
def distinct : List Str → List Str
  | [] => []
  | a :: r => if a ∈ r then distinct r else a :: distinct r

/-- The text that `write_pot` writes (pgettext.py 60-66). -/
def potText (e : TrEnv) (msgs : List Str) : Str :=
  (potHeader e :: (sortStrs (distinct msgs)).map fun m =>
    c!"\nmsgid \"" ++ Str.replace m c!"\"" c!"\\\"" ++ c!"\"\nmsgstr \"\"\n").flatten

/-- What is written for a directory (pgettext.py 102-104, 60-66). -/
def templateText (e : TrEnv) (entries : List SrcEntry) : Except Exc Str :=
  match scanDir entries with
  | .ok msgs => .ok (potText e msgs)
  | .error x => .error x

/-- `main` (pgettext.py 93-108); `text` is the result of scanning. An exception of the first `os.replace` is not caught. -/
def writeTemplate (path : Str) (text : Except Exc Str) : Prog Bool := do
  let backedUp ← (do if ← isfile path then (do replace path (bak path); return true) else return false : Prog Bool)
  tryExcept (do
      let t ← lift text
      writeFile path t
      return true) fun _ => do
    if backedUp then replace (bak path) path
    return false

end Verif
