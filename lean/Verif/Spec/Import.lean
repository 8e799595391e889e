/-
Documents without section marks: a work in progress and an outline, and the projects that are expected to result from importing them.
-/
import Verif.Py.XTree
import Verif.Model.Novel

namespace Verif.Spec

/-- The numbers from 1 to `k`, as IDs. -/
def ids (k : Nat) : List Str := (List.range k).map (fun i => Str.ofNat (i + 1))

/-- The IDs of the numbers from `a + 1` to `a + k`. -/
def idsFrom (a k : Nat) : List Str := (List.range' a k).map (fun i => Str.ofNat (i + 1))

/-! ### Parts of a document -/

/-- A part of a paragraph: text, emphasised text, strongly emphasised text, and a comment (with its author). -/
inductive Run
  | plain (s : Str)
  | emph (s : Str)
  | strong (s : Str)
  | note (author s : Str)

/-- The part is a comment. -/
def Run.isNote : Run → Bool
  | .note _ _ => true
  | _ => false

/-- The XML events of a part. -/
def Run.events : Run → List Ev
  | .plain s => [.chars s]
  | .emph s => [.start c!"text:span" [(c!"text:style-name", c!"Emphasis")], .chars s, .stop c!"text:span"]
  | .strong s => [.start c!"text:span" [(c!"text:style-name", c!"Strong_20_Emphasis")], .chars s, .stop c!"text:span"]
  | .note a s => [.start c!"office:annotation" [], .start c!"dc:creator" [], .chars a, .stop c!"dc:creator",
      .start c!"text:p" [], .chars s, .stop c!"text:p", .stop c!"office:annotation"]

/-- The part in the text of a scene. -/
def Run.text : Run → Str
  | .plain s => s
  | .emph s => c!"[i]" ++ s ++ c!"[/i]"
  | .strong s => c!"[b]" ++ s ++ c!"[/b]"
  | .note _ s => c!"/*" ++ Str.strip s ++ c!"*/"

/-- The characters of the part, without comments. -/
def Run.chars : Run → Str
  | .plain s => s
  | .emph s => s
  | .strong s => s
  | .note _ _ => []

/-- The elements that have a meaning for the import. -/
def knownElements : List Str :=
  [c!"text:p", c!"text:span", c!"text:section", c!"office:annotation", c!"text:h", c!"text:list-item", c!"style:style",
   c!"style:text-properties", c!"text:s"]

/-- Events between two paragraphs that have no meaning: other elements, white space (or any other character data), the definition of a
style that is not derived from that of a heading or a quotation, and not emphasised or in another language. -/
def Inert : Ev → Prop
  | .start t as => t ∉ knownElements ∨
      (t = c!"style:style" ∧ (∀ v, Dict.get? as c!"style:parent-style-name" = some v → Str.startsWith v c!"Heading" = false ∧ v ≠ c!"Quotations")) ∨
      (t = c!"style:text-properties" ∧ Dict.get? as c!"fo:font-style" ≠ some c!"italic" ∧ Dict.get? as c!"fo:font-weight" ≠ some c!"bold" ∧
        Dict.get? as c!"fo:language" = none)
  | .stop t => t ∉ knownElements ∨ t = c!"style:style" ∨ t = c!"style:text-properties"
  | .chars _ => True

/-- The style of a paragraph that is no heading, no quotation, and not emphasised. -/
def PlainStyle (s : Str) : Prop := s ∉ [c!"Emphasis", c!"Strong_20_Emphasis", c!"Quotations"] ∧ Str.startsWith s c!"Heading" = false

/-- A paragraph, and the events up to the next paragraph or heading. -/
structure Par where
  style : Str
  runs : List Run
  after : List Ev

/-- The XML events of a paragraph. -/
def Par.events (p : Par) : List Ev :=
  .start c!"text:p" [(c!"text:style-name", p.style)] :: p.runs.flatMap Run.events ++ .stop c!"text:p" :: p.after

/-- The text of a paragraph in a scene. -/
def Par.text (p : Par) : Str := p.runs.flatMap Run.text

/-- A paragraph of a document. -/
structure Par.Ok (p : Par) : Prop where
  style : PlainStyle p.style
  after : ∀ e ∈ p.after, Inert e

/-- A heading of the given level, and the events up to the next paragraph or heading. -/
structure Heading where
  level : Nat
  text : Str
  after : List Ev

/-- The XML events of a heading. -/
def Heading.events (h : Heading) : List Ev :=
  [.start c!"text:h" [(c!"text:style-name", c!"Heading_20_" ++ Str.ofNat h.level), (c!"text:outline-level", Str.ofNat h.level)],
   .chars h.text, .stop c!"text:h"] ++ h.after

/-- A field of the document properties, if it is not empty. -/
def infoField (name : Str) : Option XNode → Option Str
  | none => none
  | some root => (XNode.find c!"office:meta" root.kids).bind fun m => (XNode.find name m.kids).bind fun e =>
      match e.kids with
      | .text (c :: s) :: _ => some (c :: s)
      | _ => none

/-! ### A work in progress -/

/-- The mark for a new scene. -/
def stars : Str := c!"* * *"

/-- The paragraph has no part that contains the mark for a new scene. -/
def Par.NoStars (p : Par) : Prop := ∀ r ∈ p.runs, ∀ s, (r = .plain s ∨ r = .emph s ∨ r = .strong s) → ¬ stars <:+: s

/-- A chapter of a work in progress: its heading, the paragraphs up to the first divider, and the other dividers, each with the paragraphs
that follow it. -/
structure WipChapter where
  head : Heading
  first : List Par
  more : List (Par × List Par)

/-- The XML events of a chapter. -/
def WipChapter.events (c : WipChapter) : List Ev :=
  c.head.events ++ (c.first.flatMap Par.events ++ c.more.flatMap (fun m => m.1.events ++ m.2.flatMap Par.events))

/-- The scenes of the chapter: what is between the dividers; there is no scene after the last divider (or the heading) if nothing
follows it. -/
def WipChapter.scenes (c : WipChapter) : List (List Par) :=
  let l := c.first :: c.more.map Prod.snd
  if (l.getLast?.getD []).isEmpty then l.dropLast else l

/-- The chapter is a chapter of a work in progress: its heading is of the first or second level, its paragraphs do not contain the mark
of a divider, and the dividers consist of one. -/
structure WipChapter.Ok (c : WipChapter) : Prop where
  level : c.head.level = 1 ∨ c.head.level = 2
  after : ∀ e ∈ c.head.after, Inert e
  first : ∀ p ∈ c.first, p.Ok ∧ p.NoStars
  more : ∀ m ∈ c.more, (m.1.Ok ∧ ∃ s, m.1.runs = [.plain s] ∧ stars <:+: s) ∧ ∀ p ∈ m.2, p.Ok ∧ p.NoStars

/-- The comments at the beginning of a scene: the last one is its title. -/
def sceneTitle : List Par → Option Str
  | [] => none
  | p :: _ => ((p.runs.takeWhile Run.isNote).getLast?).map (fun r => match r with | .note _ s => Str.strip s | _ => [])

/-- The text of a scene: its paragraphs, without the comments at its beginning. -/
def sceneLines : List Par → List Str
  | [] => []
  | p :: ps => (p.runs.dropWhile Run.isNote).flatMap Run.text :: ps.map Par.text

/-- See `sceneLines`. -/
def wipText (ps : List Par) : Str := Str.rstrip (Str.join c!"\n" (sceneLines ps))

/-- No formatting is ended and begun again (the import joins these). -/
def Joined (t : Str) : Prop :=
  ∀ u ∈ [c!"i", c!"b"], ¬ (c!"[/" ++ u ++ c!"][" ++ u ++ c!"]" <:+: t) ∧ ¬ (c!"[/" ++ u ++ c!"]\n[" ++ u ++ c!"]" <:+: t) ∧
    ¬ (c!"[/" ++ u ++ c!"]\n> [" ++ u ++ c!"]" <:+: t)

/-- A text in a scene, with its counts; a short text has the status "Outline", a long one the status "Draft". -/
def withText (s : Scene) (t : Str) : Scene :=
  { s with sceneContent := some t, wordCount := wordCountOf t, letterCount := letterCountOf t, status := some (if wordCountOf t < 10 then 1 else 2) }

/-- The scene number `k` with these paragraphs. -/
def wipScene (k : Nat) (ps : List Par) : Scene :=
  let s : Scene := { title := some ((sceneTitle ps).getD (c!"Scene " ++ Str.ofNat k)), scType := some 0, status := some 1 }
  if ps.isEmpty then s else withText s (wipText ps)

/-- The scenes with their IDs, numbered from `j + 1`. -/
def numbered (j : Nat) : List (List Par) → List (Str × Scene)
  | [] => []
  | ps :: r => (Str.ofNat (j + 1), wipScene (j + 1) ps) :: numbered (j + 1) r

/-- A new chapter with this heading and these scenes. -/
def newWith (title : Str) (desc : Option Str) (level : Nat) (scenes : List Str) : Chapter :=
  { title := some title, desc := desc, chType := some 0, chLevel := some (if level = 1 then 1 else 0), srtScenes := scenes }

/-- The chapters with their IDs, numbered from `k + 1`; their scenes are numbered from `j + 1`. -/
def wipChapters (k j : Nat) : List WipChapter → List (Str × Chapter)
  | [] => []
  | c :: r => (Str.ofNat (k + 1), newWith c.head.text none c.head.level (idsFrom j c.scenes.length)) :: wipChapters (k + 1) (j + c.scenes.length) r

/-! ### An outline -/

/-- A scene of an outline: a heading of the third level and the paragraphs of the description. -/
structure OutlineScene where
  head : Heading
  pars : List Par

/-- A chapter of an outline: a heading, the paragraphs of the description, the scenes. -/
structure OutlineChapter where
  head : Heading
  pars : List Par
  scenes : List OutlineScene

/-- The XML events of a scene. -/
def OutlineScene.events (s : OutlineScene) : List Ev := s.head.events ++ s.pars.flatMap Par.events

/-- The XML events of a chapter. -/
def OutlineChapter.events (c : OutlineChapter) : List Ev := c.head.events ++ (c.pars.flatMap Par.events ++ c.scenes.flatMap OutlineScene.events)

/-- The characters of a paragraph. -/
def Par.chars (p : Par) : Str := p.runs.flatMap Run.chars

/-- The paragraph has no comments, is not empty, and has no white space at its beginning and its end. -/
structure Par.Solid (p : Par) : Prop where
  notes : ∀ r ∈ p.runs, r.isNote = false
  visible : p.chars ≠ []
  trimmed : Str.strip p.chars = p.chars

/-- A scene of an outline. -/
structure OutlineScene.Ok (s : OutlineScene) : Prop where
  level : s.head.level = 3
  after : ∀ e ∈ s.head.after, Inert e
  pars : ∀ p ∈ s.pars, p.Ok ∧ p.Solid

/-- A chapter of an outline. -/
structure OutlineChapter.Ok (c : OutlineChapter) : Prop where
  level : c.head.level = 1 ∨ c.head.level = 2
  after : ∀ e ∈ c.head.after, Inert e
  pars : ∀ p ∈ c.pars, p.Ok ∧ p.Solid
  scenes : ∀ s ∈ c.scenes, s.Ok

/-- The description that consists of these paragraphs, if there are any. -/
def outlineDesc (ps : List Par) : Option Str := if ps.isEmpty then none else some (ps.flatMap (fun p => p.chars ++ c!"\n"))

/-- A new scene with this heading and description. -/
def outlineScene (s : OutlineScene) : Scene :=
  { title := some (Str.strip s.head.text), desc := outlineDesc s.pars, scType := some 0, status := some 1, sceneContent := some [] }

/-- The scenes with their IDs, numbered from `j + 1`. -/
def outlineScenes (j : Nat) : List OutlineScene → List (Str × Scene)
  | [] => []
  | s :: r => (Str.ofNat (j + 1), outlineScene s) :: outlineScenes (j + 1) r

/-- The chapters with their IDs, numbered from `k + 1`; their scenes are numbered from `j + 1`. -/
def outlineChapters (k j : Nat) : List OutlineChapter → List (Str × Chapter)
  | [] => []
  | c :: r => (Str.ofNat (k + 1), newWith (Str.strip c.head.text) (outlineDesc c.pars) c.head.level (idsFrom j c.scenes.length)) ::
      outlineChapters (k + 1) (j + c.scenes.length) r

end Verif.Spec
