/-
Template-based export with filters: file/filter.py and the loops of file/file_export.py with them.
-/
import Verif.Model.Export

namespace Verif

/-- The five filters of an exporter (file/file_export.py 73-77): the answers of `accept(source, eId)` (file/filter.py 21-31) for the project that
is exported. Simplification: a filter answers the same question the same way during one export, and raises no exception. -/
structure Filters where
  scene : Str → Bool := fun _ => true
  chapter : Str → Bool := fun _ => true
  character : Str → Bool := fun _ => true
  location : Str → Bool := fun _ => true
  item : Str → Bool := fun _ => true

/-- The loop of `_get_scenes` (file/file_export.py 571-631): a rejected scene is skipped before anything else is done (576-577). -/
def scenesFiltered (f : Filters) (x : Exporter) (n : Novel) (chType : Option Nat) (notExported : Bool) :
    Bool → Counters → List Str → Except Exc (List Str × Counters)
  | _, k, [] => .ok ([], k)
  | first, k, scId :: r =>
    if f.scene scId = false then scenesFiltered f x n chType notExported first k r
    else do
      let s ← n.scenes.get! scId
      match sceneTemplate x.toTemplates chType notExported first s with
      | none => scenesFiltered f x n chType notExported first k r
      | some (t, counted) =>
        let k' : Counters := if counted then
          { number := k.number + 1, words := k.words + s.wordCount, letters := k.letters + s.letterCount } else k
        let divider := if first = true ∨ s.appendToPrev = some true then [] else [x.sceneDivider]
        let t' := if first = true ∧ x.firstScene ≠ [] then x.firstScene else t
        let m ← x.sceneMapping n scId (if counted then k'.number else 0) k'.words k'.letters
        let (rest, k'') ← scenesFiltered f x n chType notExported false k' r
        .ok (divider ++ Template.subst t' m :: rest, k'')

/-- The loop of `_get_chapters` (file/file_export.py 161-249): a rejected chapter is skipped (178-179); the mark "not for export" of a chapter is
computed from all of its scenes, the rejected ones included (184-194). -/
def chaptersFiltered (f : Filters) (x : Exporter) (n : Novel) : Nat → Counters → List Str → Except Exc (List Str)
  | _, _, [] => .ok []
  | chNumber, k, chId :: r =>
    if f.chapter chId = false then chaptersFiltered f x n chNumber k r
    else do
      let ch ← n.chapters.get! chId
      let notExported ← chapterNotExported n ch.srtScenes
      let t := chapterTemplate x.toTemplates ch notExported
      let chNumber' := if t.2 then chNumber + 1 else chNumber
      let disp := if t.2 then chNumber' else 0
      let head ← chapterLine x n chId disp t.1
      let (scenes, k') ← scenesFiltered f x n ch.chType notExported true k ch.srtScenes
      let tail ← chapterLine x n chId disp (chapterEndTemplate x.toTemplates ch notExported)
      let rest ← chaptersFiltered f x n chNumber' k' r
      .ok (head ++ scenes ++ tail ++ rest)

/-- The loops of `_get_characters`, `_get_items`, `_get_locations` (file/file_export.py 285-302, 343-360, 387-404). -/
def elementsFiltered (accept : Str → Bool) (t : Str) (mapping : Str → Except Exc Mapping) : List Str → Except Exc (List Str)
  | [] => .ok []
  | id :: r =>
    if accept id then do
      let m ← mapping id
      let rest ← elementsFiltered accept t mapping r
      .ok (Template.subst t m :: rest)
    else elementsFiltered accept t mapping r

/-- `_get_text()` of an exporter with filters (file/file_export.py 666-679). The project notes have no filter (650-664). -/
def filteredText (f : Filters) (x : Exporter) (n : Novel) : Except Exc Str := do
  let header ← getFileHeader x n
  let chapters ← chaptersFiltered f x n 0 {} n.srtChapters
  let characters ← elementsFiltered f.character x.character (x.characterMapping n) n.srtCharacters
  let locations ← elementsFiltered f.location x.location (x.locationMapping n) n.srtLocations
  let items ← elementsFiltered f.item x.item (x.itemMapping n) n.srtItems
  let notes ← elementLines x.projectNote (x.noteMapping n) n.srtPrjNotes
  .ok (header ++ chapters ++ (headingLine x.characterHeading ++ characters) ++
    (headingLine x.locationHeading ++ locations) ++ (headingLine x.itemHeading ++ items) ++ notes ++
    [x.fileFooter]).flatten

/-- A subclass of `FileExport` that only has its own templates: `_convert_from_yw` and the mappings are those of the base class
(file/file_export.py 103-159 etc.). -/
def templateBase (name path : Str) : Base := ⟨fun _ t _ => t.getD [], name, path⟩

/-- See `templateBase`. -/
def templateExport (name path : Str) (t : Templates) : Exporter :=
  { t with
    headerMapping := (templateBase name path).header
    chapterMapping := (templateBase name path).chapter
    sceneMapping := (templateBase name path).scene
    characterMapping := (templateBase name path).character
    locationMapping := (templateBase name path).location
    itemMapping := (templateBase name path).item
    noteMapping := (templateBase name path).note }

end Verif
