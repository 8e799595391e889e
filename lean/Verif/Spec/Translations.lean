/-
What an update of the translations should do (C58).
-/
import Verif.Model.Translations

namespace Verif.Spec

/-- A line of text. -/
def OneLine (l : Str) : Prop := '\n' ∉ l ∧ '\r' ∉ l

/-- An entry of a translation file: other lines (comments, blank lines), a message and its translation, which is empty if it is missing. -/
structure PoEntry where
  above : List Str
  message : Str
  translation : Str

/-- The lines of an entry. -/
def PoEntry.lines (e : PoEntry) : List Str := e.above ++ [c!"msgid \"" ++ e.message ++ c!"\"", c!"msgstr \"" ++ e.translation ++ c!"\""]

/-- A translation file or a template: the lines of its header, its entries, and other lines at the end. -/
structure PoFile where
  header : List Str
  entries : List PoEntry
  below : List Str

/-- The text of a file. -/
def PoFile.text (f : PoFile) : Str := (f.header ++ f.entries.flatMap PoEntry.lines ++ f.below).flatMap (· ++ c!"\n")

/-- The file is regular: messages and translations of one line each, no empty message, no quotation mark at the beginning of a message; in the
header, only empty messages (that is how the header is marked). -/
structure PoFile.Regular (f : PoFile) : Prop where
  header : ∀ l ∈ f.header, OneLine l ∧ (c!"msgid \"" <+: Str.strip l → c!"msgid \"\"" <+: Str.strip l)
  above : ∀ e ∈ f.entries, ∀ l ∈ e.above, OneLine l ∧ ¬ c!"msgid \"" <+: Str.strip l ∧ ¬ c!"msgstr \"" <+: Str.strip l
  below : ∀ l ∈ f.below, OneLine l ∧ ¬ c!"msgid \"" <+: Str.strip l ∧ ¬ c!"msgstr \"" <+: Str.strip l
  message : ∀ e ∈ f.entries, OneLine e.message ∧ e.message ≠ [] ∧ e.message.head? ≠ some '"'
  translation : ∀ e ∈ f.entries, OneLine e.translation

/-- The messages of a file. -/
def PoFile.messages (f : PoFile) : List Str := f.entries.map PoEntry.message

/-- The last translation of a message that is not empty. -/
def lastTranslation (m : Str) : List PoEntry → Option Str
  | [] => none
  | e :: r => (lastTranslation m r).orElse fun _ => if e.message = m ∧ e.translation ≠ [] then some e.translation else none

/-- The translation of a message: that of the old translation file, otherwise that of the dictionary, otherwise none (empty). -/
def translationOf (dict : Dict Str) (old : Option PoFile) (m : Str) : Str :=
  (((old.map PoFile.entries).bind (lastTranslation m)).orElse fun _ => dict.get? m).getD []

/-- Strings in the order of their code points. -/
def InOrder (a b : Str) : Prop := a.map Char.toNat = b.map Char.toNat ∨ List.Lex (· < ·) (a.map Char.toNat) (b.map Char.toNat)

/-- The lines before the first message. -/
def PoFile.start (f : PoFile) : List Str := f.header ++ (f.entries.head?.map PoEntry.above).getD f.below

/-- The line of the template that tells when it was created: the last one before the first message. -/
def creationLine (e : TrEnv) (f : PoFile) : Str :=
  ((f.start.map Str.strip).filter (fun l => c!"\"POT-Creation-Date".isPrefixOf l)).getLast?.getD
    (c!"\"POT-Creation-Date: " ++ e.now ++ c!"\\n\"")

/-- The header lines of a new translation file. -/
def newHeader (e : TrEnv) (creation : Str) : List Str :=
  [c!"# " ++ e.app ++ c!" Dictionary (English-German)", c!"# Copyright (C) 2022 Peter Triesberger", c!"#", c!"msgid \"\"", c!"msgstr \"\"",
   c!"\"Project-Id-Version: " ++ e.version ++ c!"\\n\"", creation, c!"\"PO-Revision-Date: " ++ e.now ++ c!"\\n\"",
   c!"\"Last-Translator: Peter Triesberger\\n\"", c!"\"Language: de\\n\"", c!"\"MIME-Version: 1.0\\n\"",
   c!"\"Content-Type: text/plain; charset=UTF-8\\n\"", c!"\"Content-Transfer-Encoding: 8bit\\n\"", [], []]

/-- The new translation file: the messages `ms`, a blank line after each entry. -/
def newFile (e : TrEnv) (creation : Str) (ms : List Str) (tr : Str → Str) : Str :=
  (newHeader e creation ++ ms.flatMap (fun m => [c!"msgid \"" ++ m ++ c!"\"", c!"msgstr \"" ++ tr m ++ c!"\"", []])).flatMap (· ++ c!"\n")

end Verif.Spec
