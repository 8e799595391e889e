/-
What it means that a document for proof reading is read again (C54).
-/
import Verif.Spec.Roundtrip

namespace Verif.Spec

/-- A title in one line, without anything that looks like formatting, a comment or a scene marker. -/
structure PlainTitle (t : Str) : Prop where
  legal : ∀ c ∈ t, xmlLegal c = true ∧ c ≠ '\n' ∧ c ≠ '\r'
  plain : ∀ c ∈ c!"ibl/h|crsu", ¬ ['[', c] <:+: t
  noted : ¬ c!"/*" <:+: t ∧ ¬ c!"*/" <:+: t
  unmarked : ¬ c!"[ScID" <:+: t

/-- A scene whose text and title a document for proof reading can carry: in addition to what any document can carry, there is no scene
marker in the text, and no blank at its beginning. -/
structure SceneProofed (ls : List Str) (p : Str × Scene) : Prop where
  number : NumId p.1
  title : ∀ t, p.2.title = some t → PlainTitle t
  text : ∃ ps, p.2.sceneContent.getD [] = rawText ps ∧ Flowing ls ps
  unmarked : ¬ c!"[ScID" <:+: p.2.sceneContent.getD [] ∧ ¬ c!"[/ScID" <:+: p.2.sceneContent.getD []
  begin : ∀ c r, p.2.sceneContent.getD [] = c :: r → Str.isWs c = false

/-- The document for proof reading of `n` can be read into `m`: titles and texts can be written, and `m` has the scenes. -/
structure ProofFits (n m : Novel) : Prop where
  languages : ∀ l ∈ n.languages.getD [], LangCode l
  distinct : (n.languages.getD []).Nodup
  author : AuthorOk n.authorName
  title : ∀ t, n.title = some t → PlainTitle t
  chapters : ∀ id ∈ n.srtChapters, ∀ ch, n.chapters.get? id = some ch → chapterShown n ch = true → ∀ t, ch.title = some t → PlainTitle t
  scenes : ∀ p ∈ exported n n.srtChapters, SceneProofed (n.languages.getD []) p ∧ SceneIn m p.1

/-- The project `m'` is the project `m` with the texts of the document of `n`: every exported scene has the exported text (and the word and
letter counts of it); nothing else is changed, apart from the language settings. -/
structure Proofed (n m m' : Novel) : Prop where
  scenes : ∀ p ∈ exported n n.srtChapters, ∀ s0, m.scenes.get? p.1 = some s0 → ∃ t, t = p.2.sceneContent.getD [] ∧
    m'.scenes.get? p.1 = some { s0 with sceneContent := some t, wordCount := wordCountOf t, letterCount := letterCountOf t }
  otherScenes : ∀ id, id ∉ (exported n n.srtChapters).map Prod.fst → m'.scenes.get? id = m.scenes.get? id
  sceneIds : m'.scenes.keys = m.scenes.keys
  rest : { m' with scenes := m.scenes, languages := m.languages, languageCode := m.languageCode, countryCode := m.countryCode } = m
  languages : ∃ l, m'.languages = some l ∧ ∀ x ∈ l, x ∈ n.languages.getD []

end Verif.Spec
