/-
The ODS readers: ods_r/ods_parser.py, ods_reader.py, ods_r_charlist.py, ods_r_loclist.py, ods_r_itemlist.py, ods_r_scenelist.py.
-/
import Verif.Py.XTree
import Verif.Model.OdsWrite

namespace Verif
open XNode

namespace Str

/-- The decimal digits `[0-9]`. -/
def isDig (c : Char) : Bool := '0' ≤ c && c ≤ '9'

/-- `int(s)` for a string of ASCII digits, `none` (`ValueError`) otherwise. Simplification: Python also accepts signs, surrounding blanks,
underscores and other digits. -/
def toNat? (s : Str) : Option Nat :=
  if s ≠ [] ∧ s.all isDig then some (s.foldl (fun n c => 10 * n + (c.toNat - 48)) 0) else none

end Str

/-! ### The parser (ods_r/ods_parser.py 55-93) -/

/-- The text of a cell, `none` if it has no paragraph (60-67). -/
def odsCellText (cell : XNode) : Option Str :=
  match sel c!"text:p" cell.kids with
  | [] => none
  | ps => some (Str.join c!"\n" (ps.map itertext))

/-- The loop over the cells of a row (59-89); `i` cells have been read. -/
def odsCells (k : Nat) : Nat → List XNode → Except Exc (List Str)
  | _, [] => .ok []
  | i, cell :: r =>
    if (odsCellText cell).isNone ∧ i = 0 then .ok []
    else
      let content := (odsCellText cell).getD []
      if i + 1 ≥ k then .ok [content]
      else
        match cell.attr c!"table:number-columns-repeated" with
        | none | some [] => do
          let rest ← odsCells k (i + 1) r
          .ok (content :: rest)
        | some a =>
          match Str.toNat? a with
          | none => .error .valueError
          | some n => do
            let m := min (n - 1) (k - (i + 1))
            let rest ← odsCells k (i + 1 + m) r
            .ok (content :: List.replicate m content ++ rest)

/-- The loop over the rows (56-92). -/
def odsRows (k : Nat) : List XNode → Except Exc (List (List Str))
  | [] => .ok []
  | row :: r => do
    let cells ← odsCells k 0 (sel c!"table:table-cell" row.kids)
    let rest ← odsRows k r
    .ok (if cells = [] then rest else cells :: rest)

/-- `find` that is followed by an attribute access: `None` raises `AttributeError`. -/
def findOr (t : Str) (ks : List XNode) : Except Exc XNode :=
  match find t ks with
  | some e => .ok e
  | none => .error .attributeError

/-- `get_rows` on the parsed `content.xml` (51-93). -/
def getRows (k : Nat) (root : XNode) : Except Exc (List (List Str)) := do
  let body ← findOr c!"office:body" root.kids
  let sheet ← findOr c!"office:spreadsheet" body.kids
  let table ← findOr c!"table:table" sheet.kids
  odsRows k (sel c!"table:table-row" table.kids)

/-- `OdsReader.read` (ods_r/ods_reader.py 45-61): the rows, if all have the right number of cells. -/
def readTable (k : Nat) (root : XNode) : Except Exc (List (List Str)) := do
  let rows ← getRows k root
  if rows.all (fun row => row.length = k) then .ok rows else .error (.error c!"Wrong table structure.")

/-! ### The elements -/

/-- `re.search(mark + '([0-9]+)', s).group(1)`; no match raises `AttributeError`. -/
def searchId (mark : Str) : Str → Except Exc Str
  | [] => .error .attributeError
  | c :: cs =>
    if mark.isPrefixOf (c :: cs) ∧ ((c :: cs).drop mark.length).takeWhile Str.isDig ≠ [] then
      .ok (((c :: cs).drop mark.length).takeWhile Str.isDig)
    else searchId mark cs

/-- Truth value of an optional string. -/
def isSetCell (v : Option Str) : Bool := v ≠ none && v ≠ some []

/-- `if old or cell: old = value`. -/
def putCell (old : Option Str) (cell value : Str) : Option Str := if isSetCell old ∨ cell ≠ [] then some value else old

/-- The same for a list of tags. -/
def putCellTags (old : Option (List Str)) (cell : Str) : Option (List Str) :=
  if (old ≠ none ∧ old ≠ some []) ∨ cell ≠ [] then some (stringToList (some cell) exportDivider) else old

/-- A cell of a row; the rows have been checked for their length. -/
def cellAt (row : List Str) (i : Nat) : Str := row.getD i []

/-- The update of a character (ods_r/ods_r_charlist.py 38-57). -/
def charFromRow (row : List Str) (c : Character) : Character :=
  { c with
    title := putCell c.title (cellAt row 1) (cellAt row 1)
    fullName := putCell c.fullName (cellAt row 2) (cellAt row 2)
    aka := putCell c.aka (cellAt row 3) (cellAt row 3)
    desc := putCell c.desc (cellAt row 4) (Str.rstrip (cellAt row 4))
    bio := putCell c.bio (cellAt row 5) (Str.rstrip (cellAt row 5))
    goals := putCell c.goals (cellAt row 6) (Str.rstrip (cellAt row 6))
    isMajor := some (Str.contains (cellAt row 7) c!"Major")
    tags := putCellTags c.tags (cellAt row 8)
    notes := putCell c.notes (cellAt row 9) (Str.rstrip (cellAt row 9)) }

/-- The update of a location or item (ods_r/ods_r_loclist.py 38-45, ods_r_itemlist.py 38-45). -/
def worldFromRow (row : List Str) (e : WorldElement) : WorldElement :=
  { e with
    title := putCell e.title (cellAt row 1) (Str.rstrip (cellAt row 1))
    desc := putCell e.desc (cellAt row 2) (Str.rstrip (cellAt row 2))
    aka := putCell e.aka (cellAt row 3) (Str.rstrip (cellAt row 3))
    tags := putCellTags e.tags (cellAt row 4) }

/-- `_SCENE_RATINGS` (ods_r/ods_r_scenelist.py 21). -/
def sceneRatings : List Str := [c!"2", c!"3", c!"4", c!"5", c!"6", c!"7", c!"8", c!"9", c!"10"]

/-- A rating (ods_r_scenelist.py 72-90). -/
def ratingOf (cell : Str) : Option Str := some (if cell ∈ sceneRatings then Str.rstrip cell else c!"1")

/-- `Scene.STATUS.index(cell)` (model/scene.py 63-69): the first member is `None`, which equals no string. -/
def statusIndex (cell : Str) : Option Int :=
  ([c!"Outline", c!"Draft", c!"1st Edit", c!"2nd Edit", c!"Done"].findIdx? (· = cell)).map (fun i => ((i + 1 : Nat) : Int))

/-- The update of a scene (ods_r/ods_r_scenelist.py 41-107). -/
def sceneFromRow (row : List Str) (s : Scene) : Scene :=
  { s with
    title := some (Str.rstrip (cellAt row 1))
    desc := some (Str.rstrip (cellAt row 2))
    tags := putCellTags s.tags (cellAt row 3)
    notes := putCell s.notes (cellAt row 4) (Str.rstrip (cellAt row 4))
    isReactionScene := some (Str.contains (Str.lower (cellAt row 5)) c!"r")
    goal := putCell s.goal (cellAt row 6) (Str.rstrip (cellAt row 6))
    conflict := putCell s.conflict (cellAt row 7) (Str.rstrip (cellAt row 7))
    outcome := putCell s.outcome (cellAt row 8) (Str.rstrip (cellAt row 8))
    field1 := ratingOf (cellAt row 11)
    field2 := ratingOf (cellAt row 12)
    field3 := ratingOf (cellAt row 13)
    field4 := ratingOf (cellAt row 14)
    status := match statusIndex (cellAt row 17) with | some i => some i | none => s.status }

/-- The loop over the rows common to the four readers: the elements and the list of IDs. -/
def rowsLoop {α : Type} (mark : Str) (new : α) (upd : List Str → α → α) :
    List (List Str) → Dict α × List Str → Except Exc (Dict α × List Str)
  | [], st => .ok st
  | row :: r, st =>
    if Str.contains (cellAt row 0) mark then do
      let id ← searchId mark (cellAt row 0)
      let d := if st.1.has id then st.1 else st.1.set id new
      rowsLoop mark new upd r (d.modify id (upd row), st.2 ++ [id])
    else rowsLoop mark new upd r st

/-- `OdsRCharList.read` (ods_r/ods_r_charlist.py 23-57). -/
def readCharList (root : XNode) (n : Novel) : Except Exc Novel := do
  let rows ← readTable charTitles.length root
  let r ← rowsLoop c!"CrID:" {} charFromRow rows (n.characters, [])
  .ok { n with characters := r.1, srtCharacters := r.2 }

/-- `OdsRLocList.read` (ods_r/ods_r_loclist.py 23-45). -/
def readLocList (root : XNode) (n : Novel) : Except Exc Novel := do
  let rows ← readTable worldTitles.length root
  let r ← rowsLoop c!"LcID:" {} worldFromRow rows (n.locations, [])
  .ok { n with locations := r.1, srtLocations := r.2 }

/-- `OdsRItemList.read` (ods_r/ods_r_itemlist.py 23-45). -/
def readItemList (root : XNode) (n : Novel) : Except Exc Novel := do
  let rows ← readTable worldTitles.length root
  let r ← rowsLoop c!"ItID:" {} worldFromRow rows (n.items, [])
  .ok { n with items := r.1, srtItems := r.2 }

/-- `OdsRSceneList.read` (ods_r/ods_r_scenelist.py 28-107): no list of IDs is changed. -/
def readSceneList (root : XNode) (n : Novel) : Except Exc Novel := do
  let rows ← readTable sceneTitles.length root
  let r ← rowsLoop c!"ScID:" {} sceneFromRow rows (n.scenes, [])
  .ok { n with scenes := r.1 }

end Verif
