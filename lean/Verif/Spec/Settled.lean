/-
Specification: projects that a further save and reload must not change.
-/
import Verif.Spec.Project
import Verif.Model.Yw7Read
import Verif.Props.C23_World
import Verif.Props.C17_DateTime
import Verif.Props.C38_Project
import Verif.Props.C11_C12_Languages

namespace Verif.Spec
open Xml

/-- No text at all, or a text that is not empty. -/
def NotEmpty (v : Option Str) : Prop := v ≠ some []

/-- No text at all, or a text that is not empty and needs no escaping. -/
def PlainText (v : Option Str) : Prop := ∀ t, v = some t → t ≠ [] ∧ PlainStr t

/-- A start that can be saved: a valid date and time; or a day, possibly with hours and minutes; or nothing. -/
def SettledStart (lib : PyLib) (date time day : Option Str) : Prop :=
  (∃ d t, date = some d ∧ time = some t ∧ day = none ∧ PlainStr (d ++ ' ' :: t) ∧ 2 ≤ (d ++ ' ' :: t).count ':' ∧ lib.fromIso (d ++ ' ' :: t) = some (d, t)) ∨
  (date = none ∧ time = none ∧ day = none) ∨
  (date = none ∧ ∃ y, day = some y ∧ y ≠ [] ∧ PlainStr y ∧ (lib.int y).isSome ∧ (time = none ∨ ∃ t hh mm, time = some t ∧ HMS t hh mm c!"00"))

/-- A scene as it is in memory after a project has been read, without anything that is known to get lost: no items; the texts that have no CDATA section
and the arcs need no escaping; tags are stripped and distinct; the mode is a number other than 0. -/
structure SettledScene (lib : PyLib) (s : Scene) : Prop where
  texts : ∀ v ∈ [s.title, s.desc, s.notes, s.goal, s.outcome, s.image, s.sceneContent], NotEmpty v
  plain : ∀ v ∈ [s.conflict, s.field1, s.field2, s.field3, s.field4, s.lastsDays, s.lastsHours, s.lastsMinutes], PlainText v
  arcs : ∀ t, s.scnArcs = some t → t ≠ [] ∧ ∀ c ∈ t, c ∉ ['&', '<', '>', '\'', '"']
  status : s.status ≠ none
  tags : ∀ l, s.tags = some l → l ≠ [] ∧ GoodTags l
  items : s.items = none
  mode : ∀ m, s.scnMode = some m → m ≠ 0 ∧ s.kwVar.get? c!"Field_SceneMode" = some (some (Str.ofInt m))
  modeText : ∀ v, s.kwVar.get? c!"Field_SceneMode" = some (some v) → v ≠ [] ∧ Carriable v
  start : SettledStart lib s.date s.time s.day

/-- A chapter as it is in memory after a project has been read. -/
structure SettledChapter (c : Chapter) : Prop where
  texts : ∀ v ∈ [c.title, c.desc], NotEmpty v
  flags : c.isTrash = none → c.suppressChapterTitle = some false

/-- A location or an item. -/
structure SettledElement (w : WorldElement) : Prop where
  texts : ∀ v ∈ [w.title, w.desc, w.image, w.aka], NotEmpty v
  tags : ∀ l, w.tags = some l → l ≠ [] ∧ GoodTags l
  link : ∀ v, w.kwVar.get? c!"Field_Link" = some (some v) → v ≠ [] ∧ Carriable v

/-- A character. -/
structure SettledCharacter (w : Character) : Prop where
  texts : ∀ v ∈ [w.title, w.desc, w.image, w.aka, w.notes, w.bio, w.goals, w.fullName], NotEmpty v
  tags : ∀ l, w.tags = some l → l ≠ [] ∧ GoodTags l
  custom : ∀ f ∈ [c!"Field_Link", c!"Field_BirthDate", c!"Field_DeathDate"], ∀ v, w.kwVar.get? f = some (some v) → v ≠ [] ∧ Carriable v

/-- The description of the project itself: the counts are set; the locale is a pair of two-letter codes or the one for "no language", or there is none
and no language is registered; it is not kept in custom fields any more. The registered languages are distinct; if none is registered, none is used. -/
structure SettledProject (n : Novel) : Prop where
  texts : ∀ v ∈ [n.title, n.desc, n.authorName, n.authorBio, n.fieldTitle1, n.fieldTitle2, n.fieldTitle3, n.fieldTitle4], NotEmpty v
  counts : n.wordTarget.isSome ∧ n.wordCountStart.isSome
  custom : n.kwVar = [(c!"Field_LanguageCode", none), (c!"Field_CountryCode", none)]
  locale : (∃ l c, n.languageCode = some l ∧ n.countryCode = some c ∧ (l.length = 2 ∧ c.length = 2 ∨ l = c!"zxx" ∧ c = c!"none")) ∨
    (n.languageCode = none ∧ n.countryCode = none ∧ n.languages = none)
  languages : ∀ l, n.languages = some l → l.Nodup ∧ ∀ c ∈ l, '=' ∉ c
  used : n.languages = none → ∀ p ∈ n.scenes, ∀ t, p.2.sceneContent = some t → ∀ q u code rest, t = q ++ u → ¬ TagAt u code rest

/-- A project as it is in memory after it has been read, with nothing that is known to change on saving. -/
structure SettledNovel (lib : PyLib) (n : Novel) : Prop where
  project : SettledProject n
  ids : GoodIds n
  scenes : ∀ id s, n.scenes.get? id = some s → SettledScene lib s
  chapters : ∀ id c, n.chapters.get? id = some c → SettledChapter c
  locations : ∀ id w, n.locations.get? id = some w → SettledElement w
  items : ∀ id w, n.items.get? id = some w → SettledElement w
  characters : ∀ id w, n.characters.get? id = some w → SettledCharacter w
  notes : ∀ id w, n.projectNotes.get? id = some w → NotEmpty w.title ∧ NotEmpty w.desc

/-- No scene ID occurs twice in the tree. -/
def DistinctScenes (rk : List Elem) : Prop :=
  ∀ s, find c!"SCENES" rk = some s → (s.kids.map (fun e => Verif.textOf c!"ID" e.kids)).Nodup

/-- A regular project tree: as yWriter writes it, scene IDs are distinct, and there is no date mode without a date. -/
structure RegularTree (rk : List Elem) : Prop where
  tree : ProjectTree rk
  node : ProjectNode rk
  distinct : DistinctScenes rk
  modes : ∀ s, find c!"SCENES" rk = some s → ∀ e ∈ s.kids, sel c!"SpecificDateTime" e.kids = [] → sel c!"SpecificDateMode" e.kids = []

end Verif.Spec
