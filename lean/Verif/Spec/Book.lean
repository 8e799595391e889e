/-
What the exported document of a novel shows (C56).
-/
import Verif.Spec.XrefDoc
import Verif.Spec.Flow
import Verif.Spec.Roundtrip

namespace Verif.Spec

/-- What is shown inside a paragraph: a character with the styles of the spans around it (outermost first), a comment in the margin, a
footnote or endnote. -/
inductive Shown
  | ch (c : Char) (styles : List Str)
  | comment (author text : Str)
  | note (id kind label text : Str)
  deriving DecidableEq, Repr

/-- The content of the elements with the given name. -/
def inside (name : Str) : List XNode → List XNode
  | [] => []
  | .elem t _ ks :: r => (if t = name then ks else []) ++ inside name r
  | .text _ :: r => inside name r

/-- An attribute of the first element with the given name. -/
def attrOf (name attr : Str) : List XNode → Str
  | [] => []
  | .elem t as _ :: r => if t = name then (as.get? attr).getD [] else attrOf name attr r
  | .text _ :: r => attrOf name attr r

mutual
/-- What a node inside a paragraph shows, given the styles around it. -/
def shownIn (S : List Str) : XNode → List Shown
  | .text s => s.map (Shown.ch · S)
  | .elem t as ks =>
    if t = c!"text:span" then shownAll (S ++ [(as.get? c!"text:style-name").getD []]) ks
    else if t = c!"office:annotation" then [.comment (textsIn (inside c!"dc:creator" ks)) (textsIn (inside c!"text:p" ks))]
    else if t = c!"text:note" then
      [.note ((as.get? c!"text:id").getD []) ((as.get? c!"text:note-class").getD []) (attrOf c!"text:note-citation" c!"text:label" ks)
        (textsIn (inside c!"text:note-body" ks))]
    else shownAll S ks
/-- What nodes show. -/
def shownAll (S : List Str) : List XNode → List Shown
  | [] => []
  | k :: ks => shownIn S k ++ shownAll S ks
end

/-- A paragraph or heading: its style and what it shows. -/
structure Passage where
  style : Str
  shown : List Shown
  deriving DecidableEq, Repr

mutual
/-- The paragraphs and headings of a document. -/
def passages : XNode → List Passage
  | .elem t as ks => if t = c!"text:p" ∨ t = c!"text:h" then [⟨(as.get? c!"text:style-name").getD [], shownAll [] ks⟩] else passagesAll ks
  | .text _ => []
/-- The paragraphs and headings in nodes. -/
def passagesAll : List XNode → List Passage
  | [] => []
  | k :: ks => passages k ++ passagesAll ks
end

mutual
/-- The language and country a document defines for a text style. -/
def styleLanguage (name : Str) : XNode → Option (Str × Str)
  | .elem t as ks =>
    if t = c!"style:style" ∧ as.get? c!"style:name" = some name then
      some (attrOf c!"style:text-properties" c!"fo:language" ks, attrOf c!"style:text-properties" c!"fo:country" ks)
    else styleLanguageAll name ks
  | .text _ => none
/-- See `styleLanguage`. -/
def styleLanguageAll (name : Str) : List XNode → Option (Str × Str)
  | [] => none
  | k :: ks => (styleLanguage name k).orElse (fun _ => styleLanguageAll name ks)
end

/-! ### What should be shown -/

/-- Unformatted text. -/
def plainShown (t : Str) : List Shown := t.map (Shown.ch · [])

/-- The style of the i-th language of the document. -/
def languageStyleName (i : Nat) : Str := c!"T" ++ Str.ofNat i

/-- The style of a formatting. -/
def formatStyle (languages : List Str) (t : Str) : Str :=
  if t = c!"i" then c!"Emphasis"
  else if t = c!"b" then c!"Strong_20_Emphasis"
  else languageStyleName (position languages (t.drop 5))

/-- A comment; a comment that begins with `@fn ` is a footnote, one that begins with `@en ` is an endnote (without its number). -/
def shownNote (author s : Str) : Shown :=
  if c!"@fn " <+: s then .note [] c!"footnote" [] (s.drop 4)
  else if c!"@en " <+: s then .note [] c!"endnote" [] (s.drop 4)
  else .comment author s

/-- A line that begins with the formattings `st` (innermost first): every character with the formattings open at its place. -/
def shownLine (languages : List Str) (author : Str) : List Str → List Piece → List Shown
  | _, [] => []
  | st, .ch c :: r => .ch c (st.reverse.map (formatStyle languages)) :: shownLine languages author st r
  | st, .op t :: r => shownLine languages author (t :: st) r
  | st, .cl _ :: r => shownLine languages author st.tail r
  | st, .note s :: r => shownNote author s :: shownLine languages author st r
  | st, .nl :: r => shownLine languages author st r

/-- The style of the first line of a text body. -/
def bodyText : Str := c!"Text_20_body"
/-- The style of the other lines. -/
def indented : Str := c!"First_20_line_20_indent"

/-- The styles of lines: after an empty line, a new text body begins; all other lines but the first are indented. -/
def lineStyles : Str → List (List Piece) → List Str
  | _, [] => []
  | s, [_] => [s]
  | s, _ :: [] :: m :: r => s :: indented :: lineStyles bodyText (m :: r)
  | s, _ :: m :: r => s :: lineStyles indented (m :: r)

/-- A line: a line that begins with `> ` is a quotation. -/
def linePassage (languages : List Str) (author style : Str) (st : List Str) (l : List Piece) : Passage :=
  if st = [] ∧ [Piece.ch '>', .ch ' '] <+: l then ⟨c!"Quotations", shownLine languages author [] (l.drop 2)⟩
  else ⟨style, shownLine languages author st l⟩

/-- The lines of a text with their styles; formattings stay open over line breaks. -/
def linesPassages (languages : List Str) (author : Str) : List Str → List Str → List (List Piece) → List Passage
  | _, _, [] => []
  | styles, st, l :: r =>
    linePassage languages author (styles.headD []) st l :: linesPassages languages author styles.tail (openLeft st l) r

/-- A text. -/
def textPassages (languages : List Str) (author first : Str) (ps : List Piece) : List Passage :=
  linesPassages languages author (lineStyles first (pieceLines ps)) [] (pieceLines ps)

/-- A scene: its text, separated by a divider unless it is the first one of its chapter or appended to the scene before. -/
def scenePassages (n : Novel) (marks : Str → List Piece) (first : Bool) (p : Str × Scene) : List Passage :=
  let appended := p.2.appendToPrev == some true
  (if first || appended then [] else [⟨c!"Heading_20_4", plainShown c!"* * *"⟩]) ++
  textPassages (n.languages.getD []) (pyStr n.authorName) (if !first && appended then indented else bodyText) (marks p.1)

/-- The scenes of a chapter. -/
def scenesPassages (n : Novel) (marks : Str → List Piece) : Bool → List (Str × Scene) → List Passage
  | _, [] => []
  | first, p :: r => scenePassages n marks first p ++ scenesPassages n marks false r

/-- A chapter: its heading (empty if the title is suppressed) and its exported scenes. -/
def chapterPassages (n : Novel) (marks : Str → List Piece) (id : Str) : List Passage :=
  match n.chapters.get? id with
  | none => []
  | some ch =>
    if chapterShown n ch then
      ⟨if ch.chLevel = some 1 then c!"Heading_20_1" else c!"Heading_20_2", plainShown (if ch.suppressChapterTitle = some true then [] else ch.title.getD [])⟩ ::
        scenesPassages n marks true (exportedIn n ch)
    else []

/-- Numbers for footnotes and endnotes, in their order. -/
def numberShown : Nat → List Shown → List Shown
  | _, [] => []
  | k, .note _ kind _ text :: r => .note (c!"ftn" ++ Str.ofNat (k + 1)) kind (Str.ofNat (k + 1)) text :: numberShown (k + 1) r
  | k, x :: r => x :: numberShown k r

/-- How many footnotes and endnotes there are. -/
def noteCount (l : List Shown) : Nat := l.countP (fun x => match x with | .note .. => true | _ => false)

/-- Numbers for the footnotes and endnotes of a document. -/
def numberNotes : Nat → List Passage → List Passage
  | _, [] => []
  | k, p :: r => ⟨p.style, numberShown k p.shown⟩ :: numberNotes (k + noteCount p.shown) r

/-- The document: title, author, all chapters. -/
def book (n : Novel) (marks : Str → List Piece) : List Passage :=
  numberNotes 0 ([⟨c!"Title", plainShown (n.title.getD [])⟩, ⟨c!"Subtitle", plainShown (n.authorName.getD [])⟩] ++ n.srtChapters.flatMap (chapterPassages n marks))

/-! ### Which novels -/

/-- Text without the letters the export uses for itself: beginning of comments, substitutes for line breaks. -/
def NoMarks (t : Str) : Prop := ¬ c!"/*" <:+: t ∧ ¬ c!"@n@" <:+: t ∧ ¬ c!"@r@" <:+: t

/-- Text without inline code for yWriter's own exports. -/
def NoCode (t : Str) : Prop :=
  ¬ c!"<RTFBRK>" <:+: t ∧ ∀ code ∈ [c!"HTM", c!"TEX", c!"RTF", c!"epub", c!"mobi", c!"rtfimg"], ¬ '<' :: code ++ c!" " <:+: t

/-- The text of a scene: it consists of the pieces `ps`. -/
structure BookText (languages : List Str) (content : Option Str) (ps : List Piece) : Prop where
  text : content.getD [] = rawText ps
  flowing : Flowing languages ps
  code : NoCode (content.getD [])
  breaks : ¬ c!"@n@" <:+: content.getD [] ∧ ¬ c!"@r@" <:+: content.getD []

/-- A title: one line, without layout marks like `[h1]`, which the export removes. -/
def BookTitle (o : Option Str) : Prop := CarriableO o ∧ '\n' ∉ o.getD [] ∧ NoMarks (o.getD []) ∧ ∀ c ∈ c!"/h|crsu", ¬ ['[', c] <:+: o.getD []

/-- The novels: `marks` gives the pieces of the scenes' texts. -/
structure BookFits (n : Novel) (marks : Str → List Piece) : Prop where
  languages : ∀ l ∈ n.languages.getD [], LangCode l
  distinct : (n.languages.getD []).Nodup
  author : AuthorOk n.authorName ∧ (∀ c ∈ pyStr n.authorName, c ≠ '\\' ∧ c ≠ '@')
  title : BookTitle n.title
  chapters : ∀ id ∈ n.srtChapters, ∀ ch, n.chapters.get? id = some ch → chapterShown n ch = true → BookTitle ch.title
  scenes : ∀ p ∈ exported n n.srtChapters, BookText (n.languages.getD []) p.2.sceneContent (marks p.1)

end Verif.Spec
