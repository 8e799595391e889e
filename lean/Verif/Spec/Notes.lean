/-
Specification: what the documents with the notes and the to-do lists contain, and what it means to read them again (C66).
-/
import Verif.Spec.Roundtrip

namespace Verif.Spec

/-- The scenes of the given type (1: notes, 2: to-do) in a chapter, in the order of the chapter, with their data. -/
def asideIn (type : Nat) (n : Novel) (ids : List Str) : List (Str × Scene) :=
  (ids.filterMap (fun id => (n.scenes.get? id).map (fun s => (id, s)))).filter (fun p => p.2.scType = some type)

/-- The scenes of this type in the given chapters, whatever the type of the chapters is. -/
def asideOf (type : Nat) (n : Novel) (chIds : List Str) : List (Str × Scene) :=
  chIds.flatMap (fun id => match n.chapters.get? id with | some ch => asideIn type n ch.srtScenes | none => [])

/-- The chapters of this type. -/
def asideChapters (type : Nat) (n : Novel) (chIds : List Str) : List Str :=
  chIds.filter (fun id => match n.chapters.get? id with | some ch => ch.chType = some type | none => false)

/-- The document of `n` with the material of this type can be read into `m`: titles and texts can be written, and `m` has these chapters
(titled) and scenes. -/
structure AsideFits (type : Nat) (n m : Novel) : Prop where
  languages : ∀ l ∈ n.languages.getD [], LangCode l
  distinct : (n.languages.getD []).Nodup
  author : AuthorOk n.authorName
  title : ∀ t, n.title = some t → Carriable t
  chapters : ∀ id ∈ asideChapters type n n.srtChapters, ∀ ch, n.chapters.get? id = some ch → ChapterCarried id ch ∧ TitledIn m id
  scenes : ∀ p ∈ asideOf type n n.srtChapters, SceneCarried (n.languages.getD []) p ∧ SceneIn m p.1

/-- The project `m'` is the project `m` with the texts of the notes (or to-do lists) of `n`; nothing else is changed, apart from the language
settings. -/
structure AsideReceived (type : Nat) (n m m' : Novel) : Prop where
  scenes : ∀ p ∈ asideOf type n n.srtChapters, ∀ s0, m.scenes.get? p.1 = some s0 → ∃ t, t = p.2.sceneContent.getD [] ∧
    m'.scenes.get? p.1 = some { s0 with scType := some type, sceneContent := some t, wordCount := wordCountOf t, letterCount := letterCountOf t }
  otherScenes : ∀ id, id ∉ (asideOf type n n.srtChapters).map Prod.fst → m'.scenes.get? id = m.scenes.get? id
  chapters : ∀ id ∈ asideChapters type n n.srtChapters, ∀ c0, m.chapters.get? id = some c0 → m'.chapters.get? id = some { c0 with chType := some type }
  otherChapters : ∀ id, id ∉ asideChapters type n n.srtChapters → m'.chapters.get? id = m.chapters.get? id
  sceneIds : m'.scenes.keys = m.scenes.keys
  chapterIds : m'.chapters.keys = m.chapters.keys
  rest : { m' with scenes := m.scenes, chapters := m.chapters, languages := m.languages, languageCode := m.languageCode, countryCode := m.countryCode } = m
  languages : ∃ l, m'.languages = some l ∧ ∀ x ∈ l, x ∈ n.languages.getD []

end Verif.Spec
