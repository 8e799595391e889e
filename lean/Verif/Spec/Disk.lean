/-
Specification: projects whose texts a project file can carry, and the way from one file to the next.
-/
import Verif.Spec.File
import Verif.Spec.Settled
import Verif.Model.Yw7Write
import Verif.Model.Yw7Text

namespace Verif.Spec
open Elem Xml

/-- Characters that need no escaping, and that cannot be part of a sequence that is altered in the file. -/
def simpleChar (c : Char) : Prop := safeChar c ∧ c ∉ ['<', '>', '&', '[', ']', '\n']

/-- A simple text, like an ID, a number, a date or a language code. -/
def Simple (s : Str) : Prop := ∀ c ∈ s, simpleChar c

/-- A text that needs no escaping and survives without CDATA section. -/
structure SafePlain (s : Str) : Prop where
  chars : ∀ c ∈ s, safeChar c ∧ c ≠ '<' ∧ c ≠ '>' ∧ c ≠ '&'
  noOpen : ¬ c!"[CDATA[ \n" <:+: s
  noClose : ¬ c!"\n]]" <:+: s

mutual
/-- A tree with proper names; the texts in CDATA sections are safe, all others have the property `R`; elements with CDATA sections have no children. -/
def GoodTree (R : Str → Prop) : Elem → Prop
  | node t x y ks =>
    IsName t ∧ (if t ∈ cdataTags then SafeCdata (x.getD []) ∧ ks = [] else R (x.getD [])) ∧ R (y.getD []) ∧ GoodTreeL R ks
/-- The same for lists of elements. -/
def GoodTreeL (R : Str → Prop) : List Elem → Prop
  | [] => True
  | e :: r => GoodTree R e ∧ GoodTreeL R r
end

/-- The lists that are replaced as a whole when a project is saved. -/
def rebuiltLists : List (Str × Str) :=
  [(c!"LOCATIONS", c!"LOCATION"), (c!"ITEMS", c!"ITEM"), (c!"CHARACTERS", c!"CHARACTER"), (c!"PROJECTNOTES", c!"PROJECTNOTE")]

/-- A section without the entries that are replaced. -/
def withoutLists (D : List (Str × Str)) (e : Elem) : Elem := e.mapKids (fun ks => ks.filter (fun k => !D.contains (e.tag, k.tag)))

/-- A project tree of which a project file can carry everything that is kept on saving, without any escaping. -/
structure KeepableTree (x : Elem) : Prop where
  good : GoodTree SafePlain (x.mapKids (fun ks => ks.map (withoutLists rebuiltLists)))
  once : ∀ p ∈ rebuiltLists, (sel p.1 x.kids).length ≤ 1
  tail : BlankTail x

/-- A text that is put into a CDATA section, if there is one. -/
def CdataText (v : Option Str) : Prop := ∀ s, v = some s → SafeCdata s

/-- A text that is written as it is, if there is one. -/
def RawText (v : Option Str) : Prop := ∀ s, v = some s → SafePlain s

/-- A short text, if there is one. -/
def SimpleText (v : Option Str) : Prop := ∀ s, v = some s → Simple s

/-- The text of a list of tags. -/
def TagsText (v : Option (List Str)) : Prop := ∀ l, v = some l → SafeCdata (Str.join c!";" l)

/-- A scene a project file can carry. -/
structure StorableScene (s : Scene) : Prop where
  texts : ∀ v ∈ [s.title, s.desc, s.notes, s.goal, s.outcome, s.image, s.sceneContent], CdataText v
  plain : ∀ v ∈ [s.conflict, s.field1, s.field2, s.field3, s.field4, s.lastsDays, s.lastsHours, s.lastsMinutes], RawText v
  tags : TagsText s.tags
  start : ∀ v ∈ [s.date, s.time, s.day], SimpleText v
  arcs : ∀ v ∈ [s.scnArcs, (s.kwVar.get? c!"Field_SceneArcs").join], ∀ t, v = some t → SafeCdata (ywConvert (some t))
  mode : ∀ t, (s.kwVar.get? c!"Field_SceneMode").join = some t → SafePlain (ywConvert (some t))
  ids : ∀ l ∈ [s.characters, s.locations, s.items], ∀ id ∈ l.getD [], Simple id

/-- A location, an item or a note a project file can carry; the value of the custom field is escaped. -/
structure StorableElement (w : WorldElement) : Prop where
  texts : ∀ v ∈ [w.title, w.desc, w.image, w.aka], CdataText v
  tags : TagsText w.tags
  link : ∀ v, (w.kwVar.get? c!"Field_Link").join = some v → SafeRaw (ywConvert (some v))

/-- A character a project file can carry. -/
structure StorableCharacter (w : Character) : Prop where
  texts : ∀ v ∈ [w.title, w.desc, w.image, w.aka, w.notes, w.bio, w.goals, w.fullName], CdataText v
  tags : TagsText w.tags
  custom : ∀ f ∈ [c!"Field_Link", c!"Field_BirthDate", c!"Field_DeathDate"], ∀ v, (w.kwVar.get? f).join = some v → SafeRaw (ywConvert (some v))

/-- The languages that are registered in the project file. -/
def languagesToSave (n : Novel) : List Str := ((if n.languages = none then n.getLanguages else n).languages).getD []

/-- A project with texts that a project file can carry. -/
structure StorableNovel (n : Novel) : Prop where
  texts : ∀ v ∈ [n.title, n.desc, n.authorName, n.authorBio, n.fieldTitle1, n.fieldTitle2, n.fieldTitle3, n.fieldTitle4], CdataText v
  locale : ∀ v ∈ [n.languageCode, n.countryCode], SimpleText v
  languages : ∀ l ∈ languagesToSave n, Simple l
  scenes : ∀ id s, n.scenes.get? id = some s → Simple id ∧ StorableScene s
  chapters : ∀ id ∈ n.srtChapters, Simple id ∧ ∀ c, n.chapters.get? id = some c → CdataText c.title ∧ CdataText c.desc ∧ ∀ s ∈ c.srtScenes, Simple s
  locations : ∀ id ∈ n.srtLocations, Simple id ∧ ∀ w, n.locations.get? id = some w → StorableElement w
  items : ∀ id ∈ n.srtItems, Simple id ∧ ∀ w, n.items.get? id = some w → StorableElement w
  characters : ∀ id ∈ n.srtCharacters, Simple id ∧ ∀ w, n.characters.get? id = some w → StorableCharacter w
  notes : ∀ id ∈ n.srtPrjNotes, Simple id ∧ ∀ w, n.projectNotes.get? id = some w → CdataText w.title ∧ CdataText w.desc

/-! ### Files -/

/-- Read a project file with the text `s`: the element tree and the novel. Nothing is returned if the file is not well-formed or cannot be read. -/
def loadFile (lib : PyLib) (s : Str) : Option (Elem × Novel) :=
  match parseXml (parserInput s) with
  | none => none
  | some x => match readTree lib x with
    | .error _ => none
    | .ok n => some (x, n)

/-- Save a novel: the text of the project file. -/
def saveFile (sysLng sysCtr : Str) (n : Novel) (tree : Option Elem) : Option Str :=
  match writeTree sysLng sysCtr n tree with
  | .error _ => none
  | .ok out => some (fileText (!n.chapters.isEmpty) out)

/-- Open the project file `s` and save it without a change. -/
def resaved (lib : PyLib) (sysLng sysCtr s : Str) : Option Str :=
  match loadFile lib s with
  | none => none
  | some (x, n) => saveFile sysLng sysCtr n (some x)

/-- Open the project file `s` and save it, again and again, with the system locales `ls`. -/
def resavedAll (lib : PyLib) : List (Str × Str) → Str → Option Str
  | [], s => some s
  | p :: r, s =>
    match resaved lib p.1 p.2 s with
    | none => none
    | some s' => resavedAll lib r s'

/-- Nothing that is removed on saving is there twice, and no section is there twice. -/
structure TidyTree (rk : List Elem) : Prop where
  sections : ∀ t ∈ [c!"PROJECT", c!"LOCATIONS", c!"ITEMS", c!"CHARACTERS", c!"PROJECTNOTES", c!"PROJECTVARS", c!"SCENES", c!"CHAPTERS"], (sel t rk).length ≤ 1
  project : ∀ p, find c!"PROJECT" rk = some p → ∀ t ∈ [c!"SavedWith", c!"SavedOn"], (sel t p.kids).length ≤ 1
  scenes : ∀ s, find c!"SCENES" rk = some s → ∀ e ∈ s.kids, ∀ t ∈ [c!"WordCount", c!"LetterCount", c!"RTFFile", c!"BelongsToChID"], (sel t e.kids).length ≤ 1
  chapters : ∀ s, find c!"CHAPTERS" rk = some s → ∀ e ∈ s.kids, (sel c!"SortOrder" e.kids).length ≤ 1

end Verif.Spec
