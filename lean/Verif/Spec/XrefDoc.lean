/-
What the cross reference document of a novel shows (C55).
-/
import Verif.Spec.Ods
import Verif.Spec.Sax
import Verif.Props.C10_Xref

namespace Verif.Spec

mutual
/-- The text inside a node. -/
def textIn : XNode → Str
  | .elem _ _ ks => textsIn ks
  | .text s => s
/-- The text inside nodes. -/
def textsIn : List XNode → Str
  | [] => []
  | k :: ks => textIn k ++ textsIn ks
end

mutual
/-- The targets of the links inside a node. -/
def linksIn : XNode → List Str
  | .elem t as ks => (if t = c!"text:a" then (as.get? c!"xlink:href").toList else []) ++ linksInAll ks
  | .text _ => []
/-- The targets of the links inside nodes. -/
def linksInAll : List XNode → List Str
  | [] => []
  | k :: ks => linksIn k ++ linksInAll ks
end

/-- A paragraph or heading of a document: its style, the text that is shown, the targets of the links in it. -/
structure Paragraph where
  style : Str
  text : Str
  links : List Str := []
  deriving DecidableEq, Repr

mutual
/-- The paragraphs and headings of a document in their order. -/
def paragraphs : XNode → List Paragraph
  | .elem t as ks => if t = c!"text:p" ∨ t = c!"text:h" then [⟨(as.get? c!"text:style-name").getD [], textsIn ks, linksInAll ks⟩] else paragraphsAll ks
  | .text _ => []
/-- The paragraphs and headings in nodes. -/
def paragraphsAll : List XNode → List Paragraph
  | [] => []
  | k :: ks => paragraphs k ++ paragraphsAll ks
end

/-- The elements of a list, each at its first place only. -/
def distinct : List Str → List Str
  | [] => []
  | a :: l => a :: (distinct l).filter (· ≠ a)

/-- Where something is in a list, counted from one. -/
def position (l : List Str) (x : Str) : Nat := l.idxOf x + 1

/-- The chapter a scene belongs to (if it is listed several times: the last one). -/
def chapterOf (n : Novel) (s : Str) : Str := ((n.srtChapters.filter (fun c => s ∈ scenesOf n.chapters c)).getLast?).getD []

/-- The entry of a scene: its number among all scenes of the novel, the number of its chapter among all chapters, its title; linked to the
manuscript if the scene is in it, otherwise its kind is shown. -/
def sceneEntry (project : Str) (n : Novel) (id : Str) : Paragraph :=
  let s := (n.scenes.get? id).getD {}
  let text := Str.ofNat (position (narrative n) id) ++ c!" (Ch " ++ Str.ofNat (position n.srtChapters (chapterOf n id)) ++ c!") " ++ s.title.getD []
  if s.scType = some 1 then ⟨c!"scene_20_mark_20_notes", c!"\n" ++ text ++ c!" (Notes)\n", []⟩
  else if s.scType = some 2 then ⟨c!"scene_20_mark_20_todo", c!"\n" ++ text ++ c!" (ToDo)\n", []⟩
  else if s.scType = some 3 then ⟨c!"scene_20_mark_20_unused", c!"\n" ++ text ++ c!" (Unused)\n", []⟩
  else ⟨c!"scene_20_mark", c!"\n" ++ text ++ c!"\n", [c!"../" ++ project ++ c!"_manuscript.odt#ScID:" ++ id ++ c!"%7Cregion"]⟩

/-- The entry of a character. -/
def characterEntry (project : Str) (n : Novel) (id : Str) : Paragraph :=
  let c := (n.characters.get? id).getD {}
  ⟨c!"Text_20_body", c!"\n" ++ c.title.getD [] ++ c!" " ++ c.fullName.getD [] ++ c!"\n", [c!"../" ++ project ++ c!"_characters.odt#CrID:" ++ id ++ c!"%7Cregion"]⟩

/-- The entry of a location (`doc` = locations, `mark` = LcID) or an item (`doc` = items, `mark` = ItID). -/
def worldEntry (project doc mark : Str) (d : Dict WorldElement) (id : Str) : Paragraph :=
  ⟨c!"Text_20_body", c!"\n" ++ ((d.get? id).getD {}).title.getD [] ++ c!"\n", [c!"../" ++ project ++ c!"_" ++ doc ++ c!".odt#" ++ mark ++ c!":" ++ id ++ c!"%7Cregion"]⟩

/-- A list of sections: one for each of the `keys` (once, in their order) that has `hits`. -/
def sections (heading : Str → Str) (keys : List Str) (hits : Str → List Str) (line : Str → Paragraph) : List Paragraph :=
  (distinct keys).flatMap (fun k => if hits k = [] then [] else ⟨c!"Heading_20_2", heading k, []⟩ :: (hits k).map line)

/-- The tags of an element. -/
def tagsIn {α : Type} (d : Dict α) (tags : α → Option (List Str)) (id : Str) : List Str := ((d.get? id).bind tags).getD []

/-- What the document shows. -/
def crossReference (project : Str) (n : Novel) : List Paragraph :=
  let scene := sceneEntry project n
  let chr := tagsIn n.characters (·.tags)
  let loc := tagsIn n.locations (·.tags)
  let itm := tagsIn n.items (·.tags)
  [⟨c!"Title", n.title.getD [], []⟩, ⟨c!"Subtitle", n.authorName.getD [], []⟩] ++
  sections (fun k => c!"Scenes with Character " ++ (((n.characters.get? k).getD {}).title.getD []) ++ c!":") n.srtCharacters
    (occurrences (narrative n) (refsOf n (·.characters))) scene ++
  sections (fun k => c!"Scenes with Location " ++ (((n.locations.get? k).getD {}).title.getD []) ++ c!":") n.srtLocations
    (occurrences (narrative n) (refsOf n (·.locations))) scene ++
  sections (fun k => c!"Scenes with Item " ++ (((n.items.get? k).getD {}).title.getD []) ++ c!":") n.srtItems
    (occurrences (narrative n) (refsOf n (·.items))) scene ++
  sections (fun t => c!"Scenes tagged " ++ t ++ c!":") ((narrative n).flatMap (refsOf n (·.tags))) (occurrences (narrative n) (refsOf n (·.tags))) scene ++
  sections (fun t => c!"Characters tagged " ++ t ++ c!":") (n.srtCharacters.flatMap chr) (occurrences n.srtCharacters chr) (characterEntry project n) ++
  sections (fun t => c!"Locations tagged " ++ t ++ c!":") (n.srtLocations.flatMap loc) (occurrences n.srtLocations loc)
    (worldEntry project c!"locations" c!"LcID" n.locations) ++
  sections (fun t => c!"Items tagged " ++ t ++ c!":") (n.srtItems.flatMap itm) (occurrences n.srtItems itm)
    (worldEntry project c!"items" c!"ItID" n.items)

/-- An ID that can be written into an attribute as it is. -/
def PlainId (t : Str) : Prop := ∀ c ∈ t, xmlLegal c = true ∧ c ≠ '<' ∧ c ≠ '&' ∧ c ≠ '"' ∧ xmlBlank c = false ∧ c ≠ '\r'

/-- The texts a cross reference document can carry; the program does not escape tags and IDs. -/
structure XrefFits (project : Str) (n : Novel) : Prop where
  project : ∀ c ∈ project, xmlLegal c = true ∧ c ≠ '\r' ∧ c ≠ '\n' ∧ c ≠ '\t'
  title : CarriableO n.title
  author : CarriableO n.authorName
  scenes : ∀ id ∈ narrative n, ∀ s, n.scenes.get? id = some s → PlainId id ∧ CarriableO s.title ∧ ∀ t ∈ s.tags.getD [], Plain t
  characters : ∀ id ∈ n.srtCharacters, ∀ c, n.characters.get? id = some c →
    PlainId id ∧ CarriableO c.title ∧ CarriableO c.fullName ∧ ∀ t ∈ c.tags.getD [], Plain t
  locations : ∀ id ∈ n.srtLocations, ∀ w, n.locations.get? id = some w → PlainId id ∧ CarriableO w.title ∧ ∀ t ∈ w.tags.getD [], Plain t
  items : ∀ id ∈ n.srtItems, ∀ w, n.items.get? id = some w → PlainId id ∧ CarriableO w.title ∧ ∀ t ∈ w.tags.getD [], Plain t

end Verif.Spec
