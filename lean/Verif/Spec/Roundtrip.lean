/-
What it means that an exported manuscript is read again (C43, C48).
-/
import Verif.Spec.Markup
import Verif.Spec.Flow
import Verif.Spec.Export
import Verif.Spec.Ods

namespace Verif.Spec

/-- The language and the country in the first list of styles of a document: the ones of the default style for paragraphs. -/
def paragraphLocales (root : XNode) : List (Option Str × Option Str) :=
  (((root.kids.find? (XNode.isTag c!"office:styles")).toList.flatMap fun s => (XNode.sel c!"style:default-style" s.kids).filter fun e =>
    decide (e.attr c!"style:family" = some c!"paragraph")).flatMap fun e => XNode.sel c!"style:text-properties" e.kids).map
      fun e => (e.attr c!"fo:language", e.attr c!"fo:country")

/-- If the document has a language and a country, they are `lc` and `cc`. -/
def CodesFrom (root : XNode) (lc cc : Option Str) : Prop :=
  ∀ l c, paragraphLocales root = [(some l, some c)] → l ≠ [] → c ≠ [] → lc = some l ∧ cc = some c

/-- IDs are numbers. -/
def NumId (id : Str) : Prop := id ≠ [] ∧ ∀ c ∈ id, Digit c

/-- A scene whose text and title a document can carry. -/
structure SceneCarried (ls : List Str) (p : Str × Scene) : Prop where
  number : NumId p.1
  title : ∀ t, p.2.title = some t → Carriable t
  text : ∃ ps, p.2.sceneContent.getD [] = rawText ps ∧ Flowing ls ps

/-- A chapter whose heading a document can carry. -/
structure ChapterCarried (id : Str) (ch : Chapter) : Prop where
  number : NumId id
  title : ∀ t, ch.title = some t → Carriable t

/-- A scene that is written as well-formed markup. -/
structure SceneWritable (ls : List Str) (p : Str × Scene) : Prop where
  number : NumId p.1
  title : ∀ t, p.2.title = some t → Carriable t
  text : ∃ ps, p.2.sceneContent.getD [] = rawText ps ∧ Mendables ls ps

/-- The project has the chapter, and it is titled. -/
def TitledIn (m : Novel) (id : Str) : Prop := ∃ ch, m.chapters.get? id = some ch ∧ ch.title.isSome = true

/-- The project has the scene. -/
def SceneIn (m : Novel) (id : Str) : Prop := ∃ s, m.scenes.get? id = some s

/-- The author's name can be inserted into a document (it is not escaped in comments). -/
def AuthorOk (author : Option Str) : Prop := ∀ c ∈ pyStr author, xmlLegal c = true ∧ c ∉ c!"<>&[*\r\n"

/-- The manuscript of `n` can be read into `m`: titles and texts can be written, and `m` has the chapters (titled) and
scenes of the manuscript. -/
structure ManuscriptFits (n m : Novel) : Prop where
  languages : ∀ l ∈ n.languages.getD [], LangCode l
  distinct : (n.languages.getD []).Nodup
  author : AuthorOk n.authorName
  title : ∀ t, n.title = some t → Carriable t
  chapters : ∀ id ∈ n.srtChapters, ∀ ch, n.chapters.get? id = some ch → chapterShown n ch = true → ChapterCarried id ch ∧ TitledIn m id
  scenes : ∀ p ∈ exported n n.srtChapters, SceneCarried (n.languages.getD []) p ∧ SceneIn m p.1

/-- The manuscript of `n` is written as well-formed markup: titles and the author's name can be written, and the texts can be mended. -/
structure ManuscriptWritable (n : Novel) : Prop where
  languages : ∀ l ∈ n.languages.getD [], LangCode l
  distinct : (n.languages.getD []).Nodup
  author : AuthorOk n.authorName
  title : ∀ t, n.title = some t → Carriable t
  chapters : ∀ id ∈ n.srtChapters, ∀ ch, n.chapters.get? id = some ch → chapterShown n ch = true → ChapterCarried id ch
  scenes : ∀ p ∈ exported n n.srtChapters, SceneWritable (n.languages.getD []) p

/-- The chapters that have a heading in the manuscript. -/
def shownChapters (n : Novel) (ids : List Str) : List Str :=
  ids.filter (fun id => match n.chapters.get? id with | some ch => chapterShown n ch | none => false)

/-- The project `m'` is the project `m` with the texts of the manuscript of `n`: every exported scene has the exported text (and the word
and letter counts of it) and the given type, every chapter in the manuscript has the given type; nothing else is changed, apart from the
language settings. -/
structure Received (type : Nat) (n m m' : Novel) : Prop where
  scenes : ∀ p ∈ exported n n.srtChapters, ∀ s0, m.scenes.get? p.1 = some s0 → ∃ t, t = p.2.sceneContent.getD [] ∧
    m'.scenes.get? p.1 = some { s0 with scType := some type, sceneContent := some t, wordCount := wordCountOf t, letterCount := letterCountOf t }
  otherScenes : ∀ id, id ∉ (exported n n.srtChapters).map Prod.fst → m'.scenes.get? id = m.scenes.get? id
  chapters : ∀ id ∈ shownChapters n n.srtChapters, ∀ c0, m.chapters.get? id = some c0 → m'.chapters.get? id = some { c0 with chType := some type }
  otherChapters : ∀ id, id ∉ shownChapters n n.srtChapters → m'.chapters.get? id = m.chapters.get? id
  sceneIds : m'.scenes.keys = m.scenes.keys
  chapterIds : m'.chapters.keys = m.chapters.keys
  rest : { m' with scenes := m.scenes, chapters := m.chapters, languages := m.languages, languageCode := m.languageCode, countryCode := m.countryCode } = m
  languages : ∃ l, m'.languages = some l ∧ ∀ x ∈ l, x ∈ n.languages.getD []

end Verif.Spec
