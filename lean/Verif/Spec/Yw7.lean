/-
Specification: what the elements of a yWriter project file look like, and what "read back as saved"
means. Independent of the writer and the reader.
-/
import Verif.Spec.Layout
import Verif.Model.Novel

namespace Verif.Spec
open Xml

/-- Each of the elements occurs at most once and has no children. -/
def PlainOnce (ts : List Str) (ks : List Elem) : Prop :=
  ∀ t ∈ ts, (sel t ks).length ≤ 1 ∧ ∀ e ∈ sel t ks, e.kids = []

/-- The text elements of a scene in a yWriter project file. -/
def sceneTextTags : List Str :=
  [c!"Title", c!"Desc", c!"SceneContent", c!"Unused", c!"ExportCondSpecific", c!"ExportWhenRTF",
   c!"Status", c!"Notes", c!"Tags", c!"Field1", c!"Field2", c!"Field3", c!"Field4", c!"AppendToPrev",
   c!"SpecificDateTime", c!"SpecificDateMode", c!"Day", c!"Hour", c!"Minute", c!"LastsDays",
   c!"LastsHours", c!"LastsMinutes", c!"ReactionScene", c!"SubPlot", c!"Goal", c!"Conflict",
   c!"Outcome", c!"ImageFile"]

/-- The children of a scene element as yWriter writes them: no element PyWriter manages is repeated,
text elements have no children. There may be any number of other elements. -/
structure SceneElement (ks : List Elem) : Prop where
  plain : PlainOnce sceneTextTags ks
  fieldsOnce : (sel c!"Fields" ks).length ≤ 1
  lists : ∀ t ∈ [c!"Characters", c!"Locations", c!"Items"], (sel t ks).length ≤ 1
  fields : ∀ f ∈ sel c!"Fields" ks,
    PlainOnce [c!"Field_SceneType", c!"Field_SceneArcs", c!"Field_SceneMode"] f.kids

/-- The value read back after saving `new` over `old`: an attribute that is `None` leaves the old value
in the file alone; an empty text is read as `None`. -/
def saved (old new : Option Str) : Option Str := readText (new.or old)

end Verif.Spec

namespace Verif.Spec
open Xml

/-- The texts of a scene `s` that have a CDATA section are read back into `x` as they were saved over
the scene element `old`. -/
structure SceneTexts (old : List Elem) (s x : Scene) : Prop where
  title : x.title = saved (Verif.textOf c!"Title" old) s.title
  desc : x.desc = saved (Verif.textOf c!"Desc" old) s.desc
  notes : x.notes = saved (Verif.textOf c!"Notes" old) s.notes
  goal : x.goal = saved (Verif.textOf c!"Goal" old) s.goal
  outcome : x.outcome = saved (Verif.textOf c!"Outcome" old) s.outcome
  image : x.image = saved (Verif.textOf c!"ImageFile" old) s.image
  content : x.sceneContent = saved (Verif.textOf c!"SceneContent" old) s.sceneContent
  counts : ∀ c, x.sceneContent = some c → x.wordCount = wordCountOf c ∧ x.letterCount = letterCountOf c

/-- The texts of a scene that have no CDATA section: the conflict, the ratings and the duration. -/
structure ScenePlainTexts (old : List Elem) (s x : Scene) : Prop where
  conflict : x.conflict = saved (Verif.textOf c!"Conflict" old) s.conflict
  field1 : x.field1 = saved (Verif.textOf c!"Field1" old) s.field1
  field2 : x.field2 = saved (Verif.textOf c!"Field2" old) s.field2
  field3 : x.field3 = saved (Verif.textOf c!"Field3" old) s.field3
  field4 : x.field4 = saved (Verif.textOf c!"Field4" old) s.field4
  lastsDays : x.lastsDays = saved (Verif.textOf c!"LastsDays" old) s.lastsDays
  lastsHours : x.lastsHours = saved (Verif.textOf c!"LastsHours" old) s.lastsHours
  lastsMinutes : x.lastsMinutes = saved (Verif.textOf c!"LastsMinutes" old) s.lastsMinutes

/-- Neither the new nor the old value of such a text has characters that need escaping in XML. -/
structure PlainValues (old : List Elem) (s : Scene) : Prop where
  conflict : ∀ v, s.conflict.or (Verif.textOf c!"Conflict" old) = some v → PlainStr v
  field1 : ∀ v, s.field1.or (Verif.textOf c!"Field1" old) = some v → PlainStr v
  field2 : ∀ v, s.field2.or (Verif.textOf c!"Field2" old) = some v → PlainStr v
  field3 : ∀ v, s.field3.or (Verif.textOf c!"Field3" old) = some v → PlainStr v
  field4 : ∀ v, s.field4.or (Verif.textOf c!"Field4" old) = some v → PlainStr v
  lastsDays : ∀ v, s.lastsDays.or (Verif.textOf c!"LastsDays" old) = some v → PlainStr v
  lastsHours : ∀ v, s.lastsHours.or (Verif.textOf c!"LastsHours" old) = some v → PlainStr v
  lastsMinutes : ∀ v, s.lastsMinutes.or (Verif.textOf c!"LastsMinutes" old) = some v → PlainStr v

/-- A list as read back: the empty list is read as `None`. -/
def readList (l : List Str) : Option (List Str) := if l = [] then none else some l

end Verif.Spec

namespace Verif.Spec
open Xml

/-- The text elements of a chapter in a yWriter project file. -/
def chapterTextTags : List Str :=
  [c!"Title", c!"Desc", c!"Unused", c!"SectionStart", c!"Type", c!"ChapterType"]

/-- The children of a chapter element as yWriter writes them: no element PyWriter manages is repeated,
text elements have no children. There may be any number of other elements. -/
structure ChapterElement (ks : List Elem) : Prop where
  plain : PlainOnce chapterTextTags ks
  fieldsOnce : (sel c!"Fields" ks).length ≤ 1
  scenesOnce : (sel c!"Scenes" ks).length ≤ 1
  fields : ∀ f ∈ sel c!"Fields" ks,
    PlainOnce [c!"Field_SuppressChapterTitle", c!"Field_SuppressChapterBreak", c!"Field_IsTrash"] f.kids

/-- The tags PyWriter manages in a `SCENE` element. -/
def managedScene : List Str :=
  sceneTextTags ++ [c!"WordCount", c!"LetterCount", c!"RTFFile", c!"BelongsToChID", c!"Fields",
    c!"Characters", c!"Locations", c!"Items"]

/-- The entries PyWriter manages in the `Fields` element of a scene. -/
def managedSceneFields : List Str := [c!"Field_SceneType", c!"Field_SceneArcs", c!"Field_SceneMode"]

/-- The tags PyWriter manages in a `CHAPTER` element. -/
def managedChapter : List Str := chapterTextTags ++ [c!"SortOrder", c!"Fields", c!"Scenes"]

/-- The entries PyWriter manages in the `Fields` element of a chapter. -/
def managedChapterFields : List Str :=
  [c!"Field_SuppressChapterTitle", c!"Field_SuppressChapterBreak", c!"Field_IsTrash"]

/-- The tags PyWriter manages in the `PROJECT` element. -/
def managedProject : List Str :=
  [c!"Ver", c!"Title", c!"Desc", c!"AuthorName", c!"Bio", c!"FieldTitle1", c!"FieldTitle2",
   c!"FieldTitle3", c!"FieldTitle4", c!"WordCountStart", c!"WordTarget", c!"Fields", c!"SavedWith",
   c!"SavedOn"]

/-- The entries PyWriter manages in the `Fields` element of the project. -/
def managedProjectFields : List Str := [c!"Field_LanguageCode", c!"Field_CountryCode"]

/-- The elements whose tag is not among the managed ones, in order. -/
def foreign (managed : List Str) (ks : List Elem) : List Elem := ks.filter (fun e => decide (e.tag ∉ managed))

/-- The entries of the (first) `Fields` element. -/
def fieldEntries (ks : List Elem) : List Elem :=
  match find c!"Fields" ks with
  | none => []
  | some f => f.kids

end Verif.Spec
