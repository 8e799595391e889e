/-
Specification of the round trip of description documents.
-/
import Verif.Spec.Roundtrip
import Verif.Spec.Ods
import Verif.Spec.Novel
import Verif.Spec.Export
import Verif.Spec.Sax

namespace Verif.Spec

/-- A description without blanks around its lines, and without white space at its end. -/
def tidy (t : Str) : Str := Str.rstrip (Str.join c!"\n" ((linesOf t).map Str.strip))

/-- The description that comes back from a document. -/
def tidyDesc (d : Option Str) : Option Str := some (tidy (d.getD []))

/-- The texts of a location or an item that a sheet shows can be in a document. The alternate name must not contain XML special
characters: the program does not escape it. -/
structure ElementFits (id : Str) (e : WorldElement) : Prop where
  number : NumId id
  title : CarriableO e.title
  aka : ∀ t, e.aka = some t → Plain t
  desc : CarriableO e.desc

/-- The texts of a character that a sheet shows can be in a document. Alternate name and full name must not contain XML special
characters: the program does not escape them. -/
structure PersonFits (id : Str) (c : Character) : Prop where
  number : NumId id
  title : CarriableO c.title
  aka : ∀ t, c.aka = some t → Plain t
  fullName : ∀ t, c.fullName = some t → Plain t
  desc : CarriableO c.desc
  bio : CarriableO c.bio
  goals : CarriableO c.goals
  notes : CarriableO c.notes

/-- Every listed element exists and fits. -/
def ElementsFit (ids : List Str) (d : Dict WorldElement) : Prop := ∀ id ∈ ids, ∃ e, d.get? id = some e ∧ ElementFits id e

/-- Every listed character exists and fits. -/
def PersonsFit (ids : List Str) (d : Dict Character) : Prop := ∀ id ∈ ids, ∃ c, d.get? id = some c ∧ PersonFits id c

/-! ### Chapter and part descriptions -/

/-- A project name that can be part of a link: legal characters, no white space but blanks. -/
def LinkName (name : Str) : Prop := ∀ c ∈ name, xmlLegal c = true ∧ (xmlBlank c = true → c = ' ') ∧ c ≠ '\r'

/-- The number, the title and the description of a chapter can be in a document. -/
structure DescFits (id : Str) (ch : Chapter) : Prop where
  number : NumId id
  title : CarriableO ch.title
  desc : CarriableO ch.desc

/-- The chapters whose descriptions are in the document: those that are shown and begin a part (`parts`), or do not. -/
def described (parts : Bool) (n : Novel) (ids : List Str) : List Str :=
  ids.filter (fun id => match n.chapters.get? id with | some ch => chapterShown n ch && ((ch.chLevel == some 1) == parts) | none => false)

/-- Without a title. -/
def lacksTitle (t : Option Str) : Bool := t == none || t == some []

/-- A chapter after reading the description of the exported chapter: it is a normal chapter with this description; it gets the exported title if
it has none. -/
def withDescription (exported before : Chapter) : Chapter :=
  { before with chType := some 0, desc := tidyDesc exported.desc,
                title := if lacksTitle before.title then some (Str.strip (exported.title.getD [])) else before.title }

/-- The listed chapters have the descriptions of the exported chapters (a chapter that did not exist is created), the others are as before. -/
def DescriptionsRead (ids : List Str) (exported before after : Dict Chapter) : Prop :=
  ∀ id, after.get? id = if id ∈ ids then some (withDescription ((exported.get? id).getD {}) ((before.get? id).getD {})) else before.get? id

/-! ### Scene descriptions -/

/-- The number, the title and the description of a scene can be in a document, and the description does not begin with a comment mark. -/
structure SceneDescFits (p : Str × Scene) : Prop where
  number : NumId p.1
  title : CarriableO p.2.title
  desc : CarriableO p.2.desc
  plain : Str.startsWith (p.2.desc.getD []) c!"/*" = false

/-- The scene descriptions of `n` can be in a document, and the project `m` has all the scenes and chapters in it. A chapter that has no title in `m`
must get one from the document. -/
structure ScenesFit (n m : Novel) : Prop where
  chapters : ∀ k ∈ n.srtChapters, ∀ ch, n.chapters.get? k = some ch → chapterShown n ch = true → NumId k ∧ CarriableO ch.title ∧
    ∃ x, m.chapters.get? k = some x ∧ (lacksTitle x.title = false ∨ Str.strip (ch.title.getD []) ≠ [])
  scenes : ∀ k ∈ n.srtChapters, ∀ ch, n.chapters.get? k = some ch → ∀ p ∈ exportedIn n ch, SceneDescFits p ∧ p.1 ∈ m.scenes.keys

/-- The scenes exported from `n` have the exported descriptions in `after` (without white space at the end) and are normal scenes, the others are as before. -/
def SceneDescriptionsRead (n : Novel) (before after : Dict Scene) : Prop :=
  ∀ id, after.get? id = if id ∈ (exported n n.srtChapters).map Prod.fst
    then (before.get? id).map (fun s => { s with scType := some 0, desc := some (Str.rstrip (((n.scenes.get? id).bind (·.desc)).getD [])) }) else before.get? id

/-- The chapters shown in the document of `n` are normal chapters in `after`, with the exported title if they had none; the others are as before. -/
def ChapterHeadingsRead (n : Novel) (before after : Dict Chapter) : Prop :=
  ∀ id, after.get? id = if id ∈ shownChapters n n.srtChapters
    then (before.get? id).map (fun c => { c with chType := some 0, title := if lacksTitle c.title then some (Str.strip (((n.chapters.get? id).bind (·.title)).getD [])) else c.title })
    else before.get? id

end Verif.Spec
