/-
What the brief synopsis of a novel shows (C71).
-/
import Verif.Spec.XrefDoc
import Verif.Spec.Export

namespace Verif.Spec

/-- The heading of a chapter: a part or a chapter. -/
def synopsisHeading (ch : Chapter) : Paragraph := ⟨if ch.chLevel = some 1 then c!"Heading_20_1" else c!"Heading_20_2", ch.title.getD [], []⟩

/-- The line of a scene: its title. -/
def synopsisLine (s : Scene) : Paragraph := ⟨c!"Text_20_body", s.title.getD [], []⟩

/-- The heading of a chapter that is shown, and one line for each of its exported scenes; nothing of a chapter that is not shown. -/
def synopsisChapter (n : Novel) (ch : Chapter) : List Paragraph :=
  if chapterShown n ch = true then synopsisHeading ch :: (exportedIn n ch).map (fun p => synopsisLine p.2) else []

/-- What the document shows: the title, the author, then the chapters in their order. -/
def synopsis (n : Novel) : List Paragraph :=
  ⟨c!"Title", n.title.getD [], []⟩ :: ⟨c!"Subtitle", n.authorName.getD [], []⟩ ::
    n.srtChapters.flatMap (fun id => match n.chapters.get? id with | some ch => synopsisChapter n ch | none => [])

/-- The titles can be in a document: legal characters, no carriage return. -/
structure SynopsisFits (n : Novel) : Prop where
  title : CarriableO n.title
  author : CarriableO n.authorName
  chapters : ∀ id ∈ n.srtChapters, ∀ ch, n.chapters.get? id = some ch → chapterShown n ch = true → CarriableO ch.title ∧ ∀ p ∈ exportedIn n ch, CarriableO p.2.title

end Verif.Spec
