/-
Specification for C31: notes and to-do lists, documents for proof reading, exported documents.
-/
import Verif.Spec.Notes
import Verif.Spec.Proof
import Verif.Spec.Book

namespace Verif.Spec

/-- The document of `n` with the notes (type 1) or the to-do lists (type 2) is written as well-formed markup: titles and the author's name can be written, and the
texts can be mended. -/
structure NotesWritable (type : Nat) (n : Novel) : Prop where
  languages : ∀ l ∈ n.languages.getD [], LangCode l
  distinct : (n.languages.getD []).Nodup
  author : AuthorOk n.authorName
  title : ∀ t, n.title = some t → Carriable t
  chapters : ∀ id ∈ asideChapters type n n.srtChapters, ∀ ch, n.chapters.get? id = some ch → ChapterCarried id ch
  scenes : ∀ p ∈ asideOf type n n.srtChapters, SceneWritable (n.languages.getD []) p

/-- The document of `n` for proof reading is written as well-formed markup: titles have no formatting, and the texts can be mended. -/
structure ProofWritable (n : Novel) : Prop where
  languages : ∀ l ∈ n.languages.getD [], LangCode l
  distinct : (n.languages.getD []).Nodup
  author : AuthorOk n.authorName
  title : ∀ t, n.title = some t → PlainTitle t
  chapters : ∀ id ∈ n.srtChapters, ∀ ch, n.chapters.get? id = some ch → chapterShown n ch = true → ∀ t, ch.title = some t → PlainTitle t
  numbers : ∀ p ∈ exported n n.srtChapters, NumId p.1
  titles : ∀ p ∈ exported n n.srtChapters, ∀ t, p.2.title = some t → PlainTitle t
  texts : ∀ p ∈ exported n n.srtChapters, ∃ ps, p.2.sceneContent.getD [] = rawText ps ∧ Mendables (n.languages.getD []) ps

/-- A text without its formattings. -/
def unformatted (ps : List Piece) : List Piece := ps.filter (fun p => match p with | .op _ => false | .cl _ => false | _ => true)

/-- The text of a scene can be mended; it has no inline code, and its letters are not the marks the export uses for itself. -/
structure MendedText (languages : List Str) (content : Option Str) (ps : List Piece) : Prop where
  text : content.getD [] = rawText ps
  mendable : Mendables languages ps
  code : NoCode (content.getD [])
  breaks : ¬ c!"@n@" <:+: rawText (unformatted ps) ∧ ¬ c!"@r@" <:+: rawText (unformatted ps)

/-- A blank or a line break. -/
def Blank : Piece → Prop
  | .nl => True
  | .ch c => Str.isWs c = true
  | _ => False

/-- `qs` has the letters, the comments and the line breaks of `ps`, up to blanks at the end; no formatting stays open over a line break. -/
structure Mended (ps qs : List Piece) : Prop where
  letters : ∃ w, unformatted ps = unformatted qs ++ w ∧ ∀ x ∈ w, Blank x
  lines : ∀ l ∈ pieceLines qs, openLeft [] l = []

/-- The exported document of `n` is written as well-formed markup: titles and the author's name can be written, and the texts can be mended;
`marks` gives their pieces. -/
structure ExportWritable (n : Novel) (marks : Str → List Piece) : Prop where
  languages : ∀ l ∈ n.languages.getD [], LangCode l
  distinct : (n.languages.getD []).Nodup
  author : AuthorOk n.authorName ∧ '@' ∉ pyStr n.authorName
  title : BookTitle n.title
  chapters : ∀ id ∈ n.srtChapters, ∀ ch, n.chapters.get? id = some ch → chapterShown n ch = true → BookTitle ch.title
  texts : ∀ p ∈ exported n n.srtChapters, MendedText (n.languages.getD []) p.2.sceneContent (marks p.1)

end Verif.Spec
