/-
Specification: the shape of a yWriter project tree, and the IDs of a novel.
-/
import Verif.Spec.Yw7
import Verif.Spec.Novel

namespace Verif.Spec
open Xml

/-- The list sections of a project file and the tags of their entries. -/
def sectionTags : List (Str × Str) :=
  [(c!"LOCATIONS", c!"LOCATION"), (c!"ITEMS", c!"ITEM"), (c!"CHARACTERS", c!"CHARACTER"),
   (c!"PROJECTNOTES", c!"PROJECTNOTE"), (c!"SCENES", c!"SCENE"), (c!"CHAPTERS", c!"CHAPTER")]

/-- The children of the root of a project file as yWriter writes them: each list section has only
entries of its own kind; the IDs of scenes and chapters are text elements; scene and chapter elements
are regular; there is at most one section of project notes. Any other sections, and any other elements
in the entries, are allowed. -/
structure ProjectTree (rk : List Elem) : Prop where
  entries : ∀ p ∈ sectionTags, ∀ s, find p.1 rk = some s → ∀ e ∈ s.kids, e.tag = p.2
  ids : ∀ t ∈ [c!"SCENES", c!"CHAPTERS"], ∀ s, find t rk = some s →
    ∀ e ∈ s.kids, ∀ i ∈ sel c!"ID" e.kids, i.kids = []
  scenes : ∀ s, find c!"SCENES" rk = some s → ∀ e ∈ s.kids, SceneElement e.kids
  chapters : ∀ s, find c!"CHAPTERS" rk = some s → ∀ e ∈ s.kids, ChapterElement e.kids
  notesOnce : (sel c!"PROJECTNOTES" rk).length ≤ 1

/-- An ID as it can be written into a project file: not empty, nothing to escape (yWriter and PyWriter
use decimal numbers). -/
def GoodId (id : Str) : Prop := id ≠ [] ∧ PlainStr id

/-- The structure of the novel is sound, its lists have no repetitions, and all IDs are good. -/
structure GoodIds (n : Novel) : Prop where
  sound : Sound n
  locations : n.srtLocations.Nodup ∧ ∀ id ∈ n.srtLocations, GoodId id
  items : n.srtItems.Nodup ∧ ∀ id ∈ n.srtItems, GoodId id
  characters : n.srtCharacters.Nodup ∧ ∀ id ∈ n.srtCharacters, GoodId id
  notes : n.srtPrjNotes.Nodup ∧ ∀ id ∈ n.srtPrjNotes, GoodId id
  scenes : ∀ id ∈ n.scenes.keys, GoodId id
  chapters : ∀ id ∈ n.srtChapters, GoodId id

/-- Both novels have the same structure: the same chapters in the same order with the same scenes in the
same order, exactly the same scenes, and the same orders of characters, locations, items and notes. The
dictionaries of `m` have exactly the listed elements. -/
structure SameStructure (n m : Novel) : Prop where
  chapters : m.srtChapters = n.srtChapters ∧ m.chapters.keys = n.srtChapters
  chapterScenes : ∀ ch ∈ n.srtChapters, scenesOf m.chapters ch = scenesOf n.chapters ch
  scenes : m.scenes.keys = n.scenes.keys
  characters : m.srtCharacters = n.srtCharacters ∧ m.characters.keys = n.srtCharacters
  locations : m.srtLocations = n.srtLocations ∧ m.locations.keys = n.srtLocations
  items : m.srtItems = n.srtItems ∧ m.items.keys = n.srtItems
  notes : m.srtPrjNotes = n.srtPrjNotes ∧ m.projectNotes.keys = n.srtPrjNotes

/-- `ks` is the content of the entry with the ID `id` in the section `sec` of the old tree, or of a new
entry, if there is no such entry. -/
def OldEntry (rk : List Elem) (sec id : Str) (ks : List Elem) : Prop :=
  (∃ s e, find sec rk = some s ∧ e ∈ s.kids ∧ Verif.textOf c!"ID" e.kids = some id ∧ ks = e.kids) ∨
  ((∀ s, find sec rk = some s → ∀ e ∈ s.kids, Verif.textOf c!"ID" e.kids ≠ some id) ∧
    ks = [Elem.leaf c!"ID" (some id)])

end Verif.Spec
