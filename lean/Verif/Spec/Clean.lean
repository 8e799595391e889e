/-
Specification: a novel whose texts can be in a document (C72).
-/
import Verif.Spec.Ods

namespace Verif.Spec

/-- All these texts (if there are any) consist of characters that are legal in XML, without carriage returns. -/
def CleanTexts (l : List (Option Str)) : Prop := ∀ v ∈ l, CarriableO v

/-- The same for a list of tags. -/
def CleanTags (v : Option (List Str)) : Prop := ∀ t ∈ v.getD [], Carriable t

/-- The texts of a scene. -/
structure CleanScene (s : Scene) : Prop where
  texts : CleanTexts [s.title, s.desc, s.sceneContent, s.notes, s.goal, s.conflict, s.outcome, s.image, s.scnArcs, s.field1, s.field2, s.field3, s.field4, s.lastsDays, s.lastsHours, s.lastsMinutes]
  tags : CleanTags s.tags

/-- The texts of a location or item. -/
structure CleanElement (w : WorldElement) : Prop where
  texts : CleanTexts [w.title, w.desc, w.image, w.aka]
  tags : CleanTags w.tags

/-- The texts of a character. -/
structure CleanCharacter (w : Character) : Prop where
  texts : CleanTexts [w.title, w.desc, w.image, w.aka, w.notes, w.bio, w.goals, w.fullName]
  tags : CleanTags w.tags

/-- All texts and all IDs of a novel. -/
structure CleanNovel (n : Novel) : Prop where
  texts : CleanTexts [n.title, n.desc, n.authorName, n.authorBio, n.fieldTitle1, n.fieldTitle2, n.fieldTitle3, n.fieldTitle4]
  scenes : ∀ id s, n.scenes.get? id = some s → Carriable id ∧ CleanScene s
  chapters : ∀ id c, n.chapters.get? id = some c → Carriable id ∧ CleanTexts [c.title, c.desc]
  locations : ∀ id w, n.locations.get? id = some w → Carriable id ∧ CleanElement w
  items : ∀ id w, n.items.get? id = some w → Carriable id ∧ CleanElement w
  characters : ∀ id w, n.characters.get? id = some w → Carriable id ∧ CleanCharacter w
  notes : ∀ id w, n.projectNotes.get? id = some w → Carriable id ∧ CleanTexts [w.title, w.desc]

end Verif.Spec
