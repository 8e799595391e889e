/-
What a compiled translation file is (C60): the format of GNU gettext's `.mo` files, and what a `.po` file says.
-/
import Verif.Model.Msgfmt

namespace Verif.Spec

/-- The number in four bytes of a file. -/
def word (file : Bytes) (pos : Nat) : Option Nat :=
  match (file.drop pos).take 4 with
  | [a, b, c, d] => some (a.toNat + 256 * b.toNat + 65536 * c.toNat + 16777216 * d.toNat)
  | _ => none

/-- String number `i` of a table: its length and its place are in the table, a zero follows it. -/
def moString (file : Bytes) (table i : Nat) : Option Bytes := do
  let len ← word file (table + 8 * i)
  let pos ← word file (table + 8 * i + 4)
  let s := (file.drop pos).take len
  if s.length = len ∧ file[pos + len]? = some 0 then some s else none

/-- Comparison of byte strings. -/
def cmpBytes : Bytes → Bytes → Ordering
  | [], [] => .eq
  | [], _ :: _ => .lt
  | _ :: _, [] => .gt
  | a :: as, b :: bs => if a.toNat < b.toNat then .lt else if b.toNat < a.toNat then .gt else cmpBytes as bs

/-- Binary search between `lo` and `hi`. -/
def moSearch (file : Bytes) (keys values : Nat) (key : Bytes) : Nat → Nat → Nat → Option Bytes
  | 0, _, _ => none
  | fuel + 1, lo, hi =>
    if lo < hi then
      let mid := (lo + hi) / 2
      match moString file keys mid with
      | none => none
      | some k =>
        match cmpBytes key k with
        | .eq => moString file values mid
        | .lt => moSearch file keys values key fuel lo mid
        | .gt => moSearch file keys values key fuel (mid + 1) hi
    else none

/-- The translation of a message in a file, as programs look it up. -/
def moFind (file key : Bytes) : Option Bytes := do
  let magic ← word file 0
  if magic = 0x950412de then
    let n ← word file 8
    let keys ← word file 12
    let values ← word file 16
    moSearch file keys values key n 0 n
  else none

/-- What the characters between the quotation marks of a string mean. -/
inductive Denotes : Str → Str → Prop where
  | nil : Denotes [] []
  | plain {c : Char} {r t : Str} : c ∉ c!"\"\\\n\r" → c ≠ Char.ofNat 0 → Denotes r t → Denotes (c :: r) (c :: t)
  | escape {c d : Char} {r t : Str} : (c, d) ∈ [('n', '\n'), ('t', '\t'), ('r', '\r'), ('"', '"'), ('\'', '\''), ('\\', '\\')] →
      Denotes r t → Denotes ('\\' :: c :: r) (d :: t)

/-- What some strings mean together. -/
inductive DenotesAll : List Str → Str → Prop where
  | nil : DenotesAll [] []
  | cons {p t : Str} {r : List Str} {u : Str} : Denotes p t → DenotesAll r u → DenotesAll (p :: r) (t ++ u)

/-- An entry of a translation file: comments and blank lines, the strings of the message, the strings of the translation; and what they mean. -/
structure CatEntry where
  above : List Str
  message : List Str
  says : Str
  translation : List Str
  reads : Str

/-- A keyword and its strings, one in each line. -/
def keyed (kw : Str) : List Str → List Str
  | [] => []
  | p :: r => (kw ++ c!" \"" ++ p ++ c!"\"") :: r.map fun q => c!"\"" ++ q ++ c!"\""

/-- The lines of an entry. -/
def CatEntry.lines (e : CatEntry) : List Str := e.above ++ keyed c!"msgid" e.message ++ keyed c!"msgstr" e.translation

def isRemark (l : Str) : Bool := l.head? = some '#'

/-- The translation is marked as uncertain. -/
def CatEntry.fuzzy (e : CatEntry) : Bool := e.above.any fun l => (c!"#,").isPrefixOf l && Str.contains l c!"fuzzy"

/-- A comment or a blank line. -/
def SideLine (l : Str) : Prop := '\n' ∉ l ∧ (isRemark l = true ∨ ∀ c ∈ l, c ∈ c!" \t\r")

structure CatEntry.Regular (e : CatEntry) : Prop where
  above : ∀ l ∈ e.above, SideLine l
  some : e.message ≠ [] ∧ e.translation ≠ []
  says : DenotesAll e.message e.says
  reads : DenotesAll e.translation e.reads

/-- The text of a file. -/
def catText (es : List CatEntry) (below : List Str) : Str := (es.flatMap CatEntry.lines ++ below).flatMap (· ++ c!"\n")

/-- The translation of a message: the last one that is neither empty nor uncertain. -/
def catTranslation (key : Str) : List CatEntry → Option Str
  | [] => none
  | e :: r => (catTranslation key r).orElse fun _ => if e.says = key ∧ e.reads ≠ [] ∧ e.fuzzy = false then some e.reads else none

/-- After an uncertain entry, there is a comment above the next one. -/
def FuzzySeparated : List CatEntry → Prop
  | a :: b :: r => (a.fuzzy = true → ∃ l ∈ b.above, isRemark l = true) ∧ FuzzySeparated (b :: r)
  | _ => True

/-- A message of plain (ASCII) characters. -/
def CatEntry.Plain (e : CatEntry) : Prop := ∀ p ∈ e.message, ∀ c ∈ p, c.toNat < 128

end Verif.Spec
