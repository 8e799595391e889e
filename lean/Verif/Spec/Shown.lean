/-
What the description documents and the sheets of a novel show (C74).
-/
import Verif.Spec.XrefDoc
import Verif.Spec.Sheets

namespace Verif.Spec

/-- The paragraphs of a text, one for each line. The first one has the style `st`, the others are indented; a single empty line between two lines begins a new block, whose first
paragraph is not indented. -/
def blocks (st : Str) : List Str → List Paragraph
  | [] => []
  | [l] => [⟨st, l, []⟩]
  | l :: [] :: m :: r => ⟨st, l, []⟩ :: ⟨c!"First_20_line_20_indent", [], []⟩ :: blocks c!"Text_20_body" (m :: r)
  | l :: m :: r => ⟨st, l, []⟩ :: blocks c!"First_20_line_20_indent" (m :: r)

/-- The paragraphs of a description (of an empty one, if there is none). -/
def description (st : Str) (d : Option Str) : List Paragraph := blocks st (linesOf (d.getD []))

/-- The title and the author at the beginning of every document. -/
def titlePage (n : Novel) : List Paragraph := [⟨c!"Title", n.title.getD [], []⟩, ⟨c!"Subtitle", n.authorName.getD [], []⟩]

/-- The alternate name in a heading, if there is one. -/
def akaShown (aka : Option Str) : Str := if aka.getD [] = [] then [] else c!" (\"" ++ aka.getD [] ++ c!"\")"

/-- The full name in a heading, if there is one. -/
def fullNameShown (name : Option Str) : Str := if name.getD [] = [] then [] else c!"/" ++ name.getD []

/-- The sheet of a location or an item. -/
def elementShown (e : WorldElement) : List Paragraph := ⟨c!"Heading_20_2", e.title.getD [] ++ akaShown e.aka, []⟩ :: description c!"Text_20_body" e.desc

/-- A text of a character with its heading. -/
def aspectShown (heading : Str) (d : Option Str) : List Paragraph := ⟨c!"Heading_20_3", heading, []⟩ :: description c!"Text_20_body" d

/-- The sheet of a character. -/
def personShown (c : Character) : List Paragraph :=
  ⟨c!"Heading_20_2", c.title.getD [] ++ (fullNameShown c.fullName ++ akaShown c.aka), []⟩ ::
    (aspectShown c!"Description" c.desc ++ aspectShown c!"Bio" c.bio ++ aspectShown c!"Goals" c.goals ++ aspectShown c!"Notes" c.notes)

/-- The location sheets, the item sheets and the character sheets: one for each listed element, in the order of the lists. -/
def locationSheets (n : Novel) : List Paragraph := titlePage n ++ n.srtLocations.flatMap (fun id => elementShown ((n.locations.get? id).getD {}))
def itemSheets (n : Novel) : List Paragraph := titlePage n ++ n.srtItems.flatMap (fun id => elementShown ((n.items.get? id).getD {}))
def characterSheets (n : Novel) : List Paragraph := titlePage n ++ n.srtCharacters.flatMap (fun id => personShown ((n.characters.get? id).getD {}))

/-- Where the heading of a chapter is linked to: the chapter in the manuscript. -/
def chapterLink (project id : Str) : Str := c!"../" ++ project ++ c!"_manuscript.odt#ChID:" ++ id ++ c!"%7Cregion"

/-- The heading of a chapter that begins a part. -/
def partHeading (ch : Chapter) : Paragraph := ⟨c!"Heading_20_1", ch.title.getD [], []⟩

/-- The heading of another chapter, linked to the manuscript. -/
def chapterHeading (project id : Str) (ch : Chapter) : Paragraph := ⟨c!"Heading_20_2", ch.title.getD [], [chapterLink project id]⟩

/-- What a document shows for the chapters that are shown, in their order. -/
def chaptersShown (n : Novel) (f : Str → Chapter → List Paragraph) : List Paragraph :=
  titlePage n ++ n.srtChapters.flatMap (fun id => match n.chapters.get? id with | some ch => if chapterShown n ch = true then f id ch else [] | none => [])

/-- The part descriptions: the heading, linked to the manuscript, and the description of each part. -/
def partDescriptions (project : Str) (n : Novel) : List Paragraph :=
  chaptersShown n (fun id ch => if ch.chLevel = some 1 then ⟨c!"Heading_20_1", ch.title.getD [], [chapterLink project id]⟩ :: description c!"Text_20_body" ch.desc else [])

/-- The chapter descriptions: the headings of the parts, the heading and the description of each chapter. -/
def chapterDescriptions (project : Str) (n : Novel) : List Paragraph :=
  chaptersShown n (fun id ch => if ch.chLevel = some 1 then [partHeading ch] else chapterHeading project id ch :: description c!"Text_20_body" ch.desc)

/-- A scene: its title (in a heading that is invisible in print) and its description. -/
def sceneBlock (st : Str) (s : Scene) : List Paragraph := ⟨c!"Invisible_20_Heading_20_3", s.title.getD [], []⟩ :: description st s.desc

/-- The scenes of a chapter: three stars between two scenes, unless the second is appended to the first. -/
def sceneBlocks : List Scene → List Paragraph
  | [] => []
  | s :: r => sceneBlock c!"Text_20_body" s ++ r.flatMap (fun s => if s.appendToPrev = some true then sceneBlock c!"First_20_line_20_indent" s
      else ⟨c!"Heading_20_4", c!"* * *", []⟩ :: sceneBlock c!"Text_20_body" s)

/-- The scene descriptions: the headings of the parts and chapters, each exported scene. -/
def sceneDescriptions (project : Str) (n : Novel) : List Paragraph :=
  chaptersShown n (fun id ch => (if ch.chLevel = some 1 then partHeading ch else chapterHeading project id ch) :: sceneBlocks ((exportedIn n ch).map (·.2)))

/-- The texts of the chapters and exported scenes can be in a document. -/
structure ScenesShow (n : Novel) : Prop where
  chapters : ∀ k ∈ n.srtChapters, ∀ ch, n.chapters.get? k = some ch → chapterShown n ch = true → NumId k ∧ CarriableO ch.title
  scenes : ∀ k ∈ n.srtChapters, ∀ ch, n.chapters.get? k = some ch → ∀ p ∈ exportedIn n ch, NumId p.1 ∧ CarriableO p.2.title ∧ CarriableO p.2.desc

/-- What an ordinary project has: numbers as IDs, and no XML special characters in the alternate names and full names (the program does not escape them). -/
structure Ordinary (n : Novel) : Prop where
  scenes : ∀ id ∈ narrative n, NumId id
  chapters : ∀ id ∈ n.srtChapters, NumId id
  locations : ∀ id ∈ n.srtLocations, NumId id ∧ ∀ e, n.locations.get? id = some e → ∀ t, e.aka = some t → Plain t
  items : ∀ id ∈ n.srtItems, NumId id ∧ ∀ e, n.items.get? id = some e → ∀ t, e.aka = some t → Plain t
  characters : ∀ id ∈ n.srtCharacters, NumId id ∧ ∀ c, n.characters.get? id = some c → (∀ t, c.aka = some t → Plain t) ∧ ∀ t, c.fullName = some t → Plain t

end Verif.Spec
