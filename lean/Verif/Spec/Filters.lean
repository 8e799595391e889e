/-
What an export with filters should show.
-/
import Verif.Model.Filters

namespace Verif.Spec

/-- The project that remains if everything the filters reject is taken from the lists of scenes, chapters, characters, locations and items. -/
def remaining (f : Filters) (n : Novel) : Novel :=
  { n with
    srtChapters := n.srtChapters.filter f.chapter
    chapters := n.chapters.map (fun p => (p.1, { p.2 with srtScenes := p.2.srtScenes.filter f.scene }))
    srtCharacters := n.srtCharacters.filter f.character
    srtLocations := n.srtLocations.filter f.location
    srtItems := n.srtItems.filter f.item }

/-- There are scenes, and all of them are marked "do not export". -/
def AllMarked (n : Novel) (ids : List Str) : Prop := ids ≠ [] ∧ ∀ id ∈ ids, ∃ s, n.scenes.get? id = some s ∧ s.doNotExport = some true

/-- The scenes of the listed chapters exist, and rejecting scenes does not change whether a chapter is one of those whose scenes are all marked "do not export". -/
structure MarksRemain (f : Filters) (n : Novel) : Prop where
  scenes : ∀ id ∈ n.srtChapters, f.chapter id = true → ∀ ch, n.chapters.get? id = some ch → ∀ s ∈ ch.srtScenes, s ∈ n.scenes.keys
  marks : ∀ id ∈ n.srtChapters, f.chapter id = true → ∀ ch, n.chapters.get? id = some ch → (AllMarked n (ch.srtScenes.filter f.scene) ↔ AllMarked n ch.srtScenes)

/-- `m` is `n` with other chapters, scenes and lists. -/
def SameFrame (n m : Novel) : Prop :=
  ∃ cs d l1 l2 l3 l4, m = { n with chapters := cs, scenes := d, srtChapters := l1, srtCharacters := l2, srtLocations := l3, srtItems := l4 }

/-- A chapter apart from the list of its scenes. -/
def aloneChapter (ch : Chapter) : Chapter := { ch with srtScenes := [] }

/-- An exporter whose placeholders stand for data of the element at hand: those of a chapter for data of this chapter, those of a scene for data of this
scene (or for data that belong to no chapter and no scene, as the title of the project or the names of the characters). -/
structure OwnData (x : Exporter) : Prop where
  header : ∀ n m, SameFrame n m → x.headerMapping m = x.headerMapping n
  chapter : ∀ n m id k, SameFrame n m → (m.chapters.get? id).map aloneChapter = (n.chapters.get? id).map aloneChapter → x.chapterMapping m id k = x.chapterMapping n id k
  scene : ∀ n m id k w l, SameFrame n m → m.scenes.get? id = n.scenes.get? id → x.sceneMapping m id k w l = x.sceneMapping n id k w l
  character : ∀ n m id, SameFrame n m → x.characterMapping m id = x.characterMapping n id
  location : ∀ n m id, SameFrame n m → x.locationMapping m id = x.locationMapping n id
  item : ∀ n m id, SameFrame n m → x.itemMapping m id = x.itemMapping n id
  note : ∀ n m id, SameFrame n m → x.noteMapping m id = x.noteMapping n id

/-- `m` is `n` with other data in what the filters reject: in the rejected chapters with their scenes and in the rejected scenes of the other chapters, of which
only the mark "do not export" is the same. -/
structure DiffersRejected (f : Filters) (n m : Novel) : Prop where
  frame : ∃ cs d, m = { n with chapters := cs, scenes := d }
  chapters : ∀ id ∈ n.srtChapters, f.chapter id = true → m.chapters.get? id = n.chapters.get? id
  scenes : ∀ id ∈ n.srtChapters, f.chapter id = true → ∀ ch, n.chapters.get? id = some ch → ∀ s ∈ ch.srtScenes, f.scene s = true → m.scenes.get? s = n.scenes.get? s
  marks : ∀ id ∈ n.srtChapters, f.chapter id = true → ∀ ch, n.chapters.get? id = some ch → ∀ s ∈ ch.srtScenes,
    (m.scenes.get? s).map (·.doNotExport) = (n.scenes.get? s).map (·.doNotExport)

end Verif.Spec
