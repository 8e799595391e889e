/-
What spreadsheets contain and what importing them does, independent of the readers.
-/
import Verif.Model.Novel
import Verif.Py.XTree
import Verif.Spec.Lists
import Verif.Spec.Xml
import Verif.Spec.Export

namespace Verif.Spec
open XNode

/-- A decimal digit. -/
def Digit (c : Char) : Prop := '0' ≤ c ∧ c ≤ '9'

/-- The text names the element `id`: it contains the mark followed by the digits `id` and no further digit, and no digit follows the
mark at an earlier place. -/
def Names (mark text id : Str) : Prop :=
  ∃ a b, text = a ++ mark ++ id ++ b ∧ id ≠ [] ∧ (∀ c ∈ id, Digit c) ∧ (∀ c, b.head? = some c → ¬ Digit c) ∧
    ∀ a' c b', text = a' ++ mark ++ c :: b' → Digit c → a.length ≤ a'.length

/-- The row names the element in its first cell. -/
def RowOf (mark : Str) (row : List Str) (id : Str) : Prop := ∃ t, row.head? = some t ∧ Names mark t id

/-- The cell in a column. -/
def col (row : List Str) (i : Nat) : Str := (row[i]?).getD []

/-- What importing a cell does to a text attribute: the text of the cell becomes the value; an empty cell clears a value and leaves an
unset attribute unset. -/
def TextCell (cell value : Str) (old new : Option Str) : Prop :=
  (cell ≠ [] → new = some value) ∧ (cell = [] → (old = none → new = none) ∧ (old ≠ none → new = some []))

/-- The same for tags, separated by a comma and a blank: blanks around a tag, empty tags and duplicates are dropped. -/
def TagsCell (cell : Str) (old new : Option (List Str)) : Prop :=
  (cell ≠ [] → ∃ l parts, new = some l ∧ Segments c!", " cell parts ∧ FirstOccurrences ((parts.map Str.strip).filter (· ≠ [])) l) ∧
  (cell = [] → (old = none → new = none) ∧ (old ≠ none → new = some []))

/-- The columns of the character list. -/
structure CharUpdated (row : List Str) (old new : Character) : Prop where
  title : TextCell (col row 1) (col row 1) old.title new.title
  fullName : TextCell (col row 2) (col row 2) old.fullName new.fullName
  aka : TextCell (col row 3) (col row 3) old.aka new.aka
  desc : TextCell (col row 4) (Str.rstrip (col row 4)) old.desc new.desc
  bio : TextCell (col row 5) (Str.rstrip (col row 5)) old.bio new.bio
  goals : TextCell (col row 6) (Str.rstrip (col row 6)) old.goals new.goals
  isMajor : ∃ b, new.isMajor = some b ∧ (b = true ↔ c!"Major" <:+: col row 7)
  tags : TagsCell (col row 8) old.tags new.tags
  notes : TextCell (col row 9) (Str.rstrip (col row 9)) old.notes new.notes
  image : new.image = old.image
  kwVar : new.kwVar = old.kwVar

/-- The columns of the location and item lists. -/
structure WorldUpdated (row : List Str) (old new : WorldElement) : Prop where
  title : TextCell (col row 1) (Str.rstrip (col row 1)) old.title new.title
  desc : TextCell (col row 2) (Str.rstrip (col row 2)) old.desc new.desc
  aka : TextCell (col row 3) (Str.rstrip (col row 3)) old.aka new.aka
  tags : TagsCell (col row 4) old.tags new.tags
  image : new.image = old.image
  kwVar : new.kwVar = old.kwVar

/-- A rating: 2 to 10, everything else counts as 1 ("not applicable"). -/
def ratingValue (cell : Str) : Str :=
  if cell ∈ [c!"2", c!"3", c!"4", c!"5", c!"6", c!"7", c!"8", c!"9", c!"10"] then cell else c!"1"

/-- The names of the states of a scene, from 1. -/
def stateNames : List (Str × Int) := [(c!"Outline", 1), (c!"Draft", 2), (c!"1st Edit", 3), (c!"2nd Edit", 4), (c!"Done", 5)]

/-- The columns of the scene list that are imported. The text attributes set to an empty text even if they were unset: title and
description. The other attributes of a scene keep their values. -/
structure SceneUpdated (row : List Str) (old new : Scene) : Prop where
  title : new.title = some (Str.rstrip (col row 1))
  desc : new.desc = some (Str.rstrip (col row 2))
  tags : TagsCell (col row 3) old.tags new.tags
  notes : TextCell (col row 4) (Str.rstrip (col row 4)) old.notes new.notes
  isReactionScene : ∃ b, new.isReactionScene = some b ∧ (b = true ↔ 'R' ∈ col row 5 ∨ 'r' ∈ col row 5)
  goal : TextCell (col row 6) (Str.rstrip (col row 6)) old.goal new.goal
  conflict : TextCell (col row 7) (Str.rstrip (col row 7)) old.conflict new.conflict
  outcome : TextCell (col row 8) (Str.rstrip (col row 8)) old.outcome new.outcome
  field1 : new.field1 = some (ratingValue (col row 11))
  field2 : new.field2 = some (ratingValue (col row 12))
  field3 : new.field3 = some (ratingValue (col row 13))
  field4 : new.field4 = some (ratingValue (col row 14))
  status : (∀ i, stateNames.lookup (col row 17) = some i → new.status = some i) ∧
    (stateNames.lookup (col row 17) = none → new.status = old.status)
  others : { new with title := old.title, desc := old.desc, tags := old.tags, notes := old.notes, isReactionScene := old.isReactionScene, goal := old.goal, conflict := old.conflict, outcome := old.outcome, field1 := old.field1, field2 := old.field2, field3 := old.field3, field4 := old.field4, status := old.status } = old

/-- What importing a table does to a collection of elements: elements that no row names stay as they are. An element is changed by the
rows that name it, one after the other; the last one leaves it in the state described by `upd`; what it was before that (`mid`) is the old
value (or a new element without attributes), if no earlier row names it. -/
structure Imported {α : Type} (mark : Str) (new : α) (upd : List Str → α → α → Prop) (rows : List (List Str)) (old out : Dict α) : Prop where
  unlisted : ∀ id, (∀ row ∈ rows, ¬ RowOf mark row id) → out.get? id = old.get? id
  listed : ∀ a row b id, rows = a ++ row :: b → RowOf mark row id → (∀ r ∈ b, ¬ RowOf mark r id) →
    ∃ mid e, out.get? id = some e ∧ upd row mid e ∧ ((∀ r ∈ a, ¬ RowOf mark r id) → mid = (old.get? id).getD new)

/-- The IDs the rows name, in the order of the rows. -/
inductive RowIds (mark : Str) : List (List Str) → List Str → Prop
  | nil : RowIds mark [] []
  | named {row rows id ids} : RowOf mark row id → RowIds mark rows ids → RowIds mark (row :: rows) (id :: ids)
  | skip {row rows ids} : (∀ t, row.head? = some t → ¬ mark <:+: t) → RowIds mark rows ids → RowIds mark (row :: rows) ids

/-! ### Tables (C32) -/

open XNode

/-- The cells of a row as they are in the document. -/
def tableCells (row : XNode) : List XNode := sel c!"table:table-cell" row.kids

/-- The rows of a table. -/
def tableRows (table : XNode) : List XNode := sel c!"table:table-row" table.kids

/-- The text of a cell: its paragraphs, separated by line breaks. -/
def cellText (cell : XNode) : Str := Str.join c!"\n" ((sel c!"text:p" cell.kids).map itertext)

/-- The value of a decimal number. -/
def decimal (s : Str) : Option Nat :=
  if s ≠ [] ∧ s.all (fun c => '0' ≤ c && c ≤ '9') then some (s.foldl (fun n c => 10 * n + (c.toNat - '0'.toNat)) 0) else none

/-- How many columns a cell stands for. -/
def repeats (cell : XNode) : Nat :=
  match cell.attr c!"table:number-columns-repeated" with
  | none | some [] => 1
  | some a => max 1 ((decimal a).getD 1)

/-- The texts of all columns of a row. -/
def columns (cells : List XNode) : List Str := cells.flatMap (fun c => List.replicate (repeats c) (cellText c))

/-- Whether the ID cell, the first one, has a paragraph. -/
def hasId (row : XNode) : Bool :=
  match (tableCells row).head? with
  | none => false
  | some c => !(sel c!"text:p" c.kids).isEmpty

/-- `table` is the first table of the document. -/
def TableOf (root table : XNode) : Prop :=
  ∃ body sheet, find c!"office:body" root.kids = some body ∧ find c!"office:spreadsheet" body.kids = some sheet ∧
    find c!"table:table" sheet.kids = some table

/-- What a text cell shows: the text without trailing white space. -/
def shown : Option Str → Str
  | none => []
  | some t => Str.rstrip t

/-- The tags, separated by a comma and a blank. -/
def shownTags (tags : Option (List Str)) : Str := Str.rstrip (Str.join c!", " (tags.getD []))

/-- The row of a character. -/
def charCells (id : Str) (c : Character) : List Str :=
  [c!"CrID:" ++ id, shown c.title, shown c.fullName, shown c.aka, shown c.desc, shown c.bio, shown c.goals,
   if c.isMajor = some true then c!"Major" else c!"Minor", shownTags c.tags, shown c.notes]

/-- The row of a location or item. -/
def worldCells (mark id : Str) (e : WorldElement) : List Str :=
  [mark ++ id, shown e.title, shown e.desc, shown e.aka, shownTags e.tags]

/-- A text that can be in an XML document at all. -/
def CarriableO : Option Str → Prop
  | none => True
  | some t => Carriable t

/-- A text without special characters. -/
def Plain (t : Str) : Prop := ∀ c ∈ t, xmlLegal c = true ∧ c ≠ '<' ∧ c ≠ '&' ∧ c ≠ '>' ∧ c ≠ '\r'

/-- The texts of a character can be in an XML document. -/
def CharCarriable (c : Character) : Prop :=
  CarriableO c.title ∧ CarriableO c.fullName ∧ CarriableO c.aka ∧ CarriableO c.desc ∧ CarriableO c.bio ∧ CarriableO c.goals ∧
  CarriableO c.notes ∧ ∀ t ∈ c.tags.getD [], Carriable t

/-- The texts of a location or item can be in an XML document. -/
def WorldCarriable (e : WorldElement) : Prop :=
  CarriableO e.title ∧ CarriableO e.desc ∧ CarriableO e.aka ∧ ∀ t ∈ e.tags.getD [], Carriable t

/-! ### Scene lists (C32) -/

/-- The titles of listed elements, separated by a comma and a blank; nothing if an element does not exist or has no title. -/
def shownNames {α : Type} (title : α → Option Str) (d : Dict α) (ids : Option (List Str)) : Str :=
  let titles := (ids.getD []).map (fun id => (d.get? id).bind title)
  if titles.all (·.isSome) then Str.join c!", " (titles.map (·.getD [])) else []

/-- A rating: 1 means "not applicable" and is not shown; an unset rating is shown as `None`. -/
def shownRating : Option Str → Str
  | none => c!"None"
  | some t => if t = c!"1" then [] else t

/-- The name of the state of a scene. -/
def shownState (s : Option Int) : Str :=
  match s with
  | none => []
  | some i => ([c!"None", c!"Outline", c!"Draft", c!"1st Edit", c!"2nd Edit", c!"Done"][(i % 6).toNat]?).getD []

/-- The row of a scene; `before` are the scenes of the rows before it. -/
def sceneCells (n : Novel) (before : List (Str × Scene)) (p : Str × Scene) : List Str :=
  let s := p.2
  [c!"ScID:" ++ p.1, shown s.title, shown s.desc, shownTags s.tags, shown s.notes, if s.isReactionScene = some true then c!"R" else c!"A",
   shown s.goal, shown s.conflict, shown s.outcome, Str.ofNat (before.length + 1), Str.ofNat (total (·.wordCount) (before ++ [p])),
   shownRating s.field1, shownRating s.field2, shownRating s.field3, shownRating s.field4, Str.ofNat s.wordCount, Str.ofNat s.letterCount,
   shownState s.status, shownNames (·.title) n.characters s.characters, shownNames (·.title) n.locations s.locations,
   shownNames (·.title) n.items s.items]

/-- The rows of all scenes. -/
def sceneTable (n : Novel) : List (Str × Scene) → List (Str × Scene) → List (List Str)
  | _, [] => []
  | before, p :: r => sceneCells n before p :: sceneTable n (before ++ [p]) r

/-- The header row of the scene list: the ratings have the titles the project defines for them. -/
def sceneHeads (n : Novel) : List Str :=
  [c!"Scene link", c!"Scene title", c!"Scene description", c!"Tags", c!"Scene notes", c!"A/R", c!"Goal", c!"Conflict", c!"Outcome",
   c!"Scene", c!"Words total", shown n.fieldTitle1, shown n.fieldTitle2, shown n.fieldTitle3, shown n.fieldTitle4, c!"Word count",
   c!"Letter count", c!"Status", c!"Characters", c!"Locations", c!"Items"]

/-- The texts of a scene can be in an XML document; the names of characters, locations and items have no special characters; ratings are
numbers. -/
structure SceneCarriable (n : Novel) (s : Scene) : Prop where
  title : CarriableO s.title
  desc : CarriableO s.desc
  notes : CarriableO s.notes
  goal : CarriableO s.goal
  conflict : CarriableO s.conflict
  outcome : CarriableO s.outcome
  tags : ∀ t ∈ s.tags.getD [], Carriable t
  ratings : ∀ f ∈ [s.field1, s.field2, s.field3, s.field4], ∀ t, f = some t → ∀ c ∈ t, Digit c
  characters : Plain (shownNames (·.title) n.characters s.characters)
  locations : Plain (shownNames (·.title) n.locations s.locations)
  items : Plain (shownNames (·.title) n.items s.items)

/-- The project the scene list links to: its path is quoted as in a URL, its name is printable. -/
def LinkTarget (path name : Str) : Prop := (∀ c ∈ path, xmlLegal c = true ∧ c ∉ c!"<&\" \t\n\r") ∧
  ∀ c ∈ Str.rstrip name, xmlLegal c = true ∧ c ≠ '\r' ∧ c ≠ '\t' ∧ c ≠ '\n'

/-! ### What a list can carry without loss (C47) -/

/-- A text without trailing white space, or none. -/
def TextKept (t : Option Str) : Prop := ∀ s, t = some s → Str.rstrip s = s

/-- Tags that can be told apart in a cell: not empty, no blanks around them, no comma followed by a blank, no duplicates. -/
def TagsKept (tags : Option (List Str)) : Prop := ∀ l, tags = some l → l.Nodup ∧ ∀ t ∈ l, t ≠ [] ∧ Str.strip t = t ∧ ¬ c!", " <:+: t

/-- A character the list carries without loss. -/
structure CharKept (c : Character) : Prop where
  title : TextKept c.title
  fullName : TextKept c.fullName
  aka : TextKept c.aka
  desc : TextKept c.desc
  bio : TextKept c.bio
  goals : TextKept c.goals
  notes : TextKept c.notes
  tags : TagsKept c.tags
  isMajor : ∃ b, c.isMajor = some b

/-- A location or item the list carries without loss. -/
structure WorldKept (w : WorldElement) : Prop where
  title : TextKept w.title
  desc : TextKept w.desc
  aka : TextKept w.aka
  tags : TagsKept w.tags

/-- A scene the list carries without loss: title and description are set, the ratings are 1 to 10. -/
structure SceneKept (s : Scene) : Prop where
  title : TextKept s.title ∧ s.title ≠ none
  desc : TextKept s.desc ∧ s.desc ≠ none
  tags : TagsKept s.tags
  notes : TextKept s.notes
  goal : TextKept s.goal
  conflict : TextKept s.conflict
  outcome : TextKept s.outcome
  isReactionScene : ∃ b, s.isReactionScene = some b
  field1 : s.field1 ∈ [c!"1", c!"2", c!"3", c!"4", c!"5", c!"6", c!"7", c!"8", c!"9", c!"10"].map some
  field2 : s.field2 ∈ [c!"1", c!"2", c!"3", c!"4", c!"5", c!"6", c!"7", c!"8", c!"9", c!"10"].map some
  field3 : s.field3 ∈ [c!"1", c!"2", c!"3", c!"4", c!"5", c!"6", c!"7", c!"8", c!"9", c!"10"].map some
  field4 : s.field4 ∈ [c!"1", c!"2", c!"3", c!"4", c!"5", c!"6", c!"7", c!"8", c!"9", c!"10"].map some
  status : ∃ i, s.status = some i ∧ 0 ≤ i ∧ i ≤ 5

end Verif.Spec
