/-
Specifications about the structure of a novel, independent of the modelled functions.
-/
import Verif.Model.Novel

namespace Verif.Spec

/-- The scenes listed in a chapter. -/
def scenesOf (chapters : Dict Chapter) (chId : Str) : List Str :=
  match chapters.get? chId with
  | some ch => ch.srtScenes
  | none => []

/-- All listed scenes in narrative order. -/
def narrative (n : Novel) : List Str := n.srtChapters.flatMap (scenesOf n.chapters)

/-- A structurally sound novel: IDs are unique, every listed chapter and scene exists, no chapter
and no scene is listed twice. -/
structure Sound (n : Novel) : Prop where
  chKeys : n.chapters.keys.Nodup
  scKeys : n.scenes.keys.Nodup
  chNodup : n.srtChapters.Nodup
  chIn : ∀ c ∈ n.srtChapters, c ∈ n.chapters.keys
  scNodup : (narrative n).Nodup
  scIn : ∀ s ∈ narrative n, s ∈ n.scenes.keys

/-- The lines of a text. -/
def linesOf (text : Str) : List Str := Str.split text c!"\n"

/-- The text of a scene (empty if it has none). -/
def textOf (scenes : Dict Scene) (id : Str) : Str :=
  ((scenes.get? id).bind (·.sceneContent)).getD []

/-- A heading line: it begins with `#`. -/
def isHeading (l : Str) : Bool := l.head? = some '#'

/-- A scene heading begins with `###`; a chapter or part heading is any other heading. -/
def isSceneHeading (l : Str) : Bool := c!"###".isPrefixOf l

/-- The scene has at least one heading line. -/
def hasHeading (text : Str) : Bool := (linesOf text).any isHeading

/-- The non-empty text lines of a text, without headings. -/
def bodyLines (text : Str) : List Str :=
  (linesOf text).filter (fun l => l ≠ [] && !isHeading l)

/-- All body lines of the listed scenes in narrative order: the text of the novel. -/
def novelText (n : Novel) : List Str := (narrative n).flatMap (fun id => bodyLines (textOf n.scenes id))

/-- The counts of every scene belong to its content (they are set together by the
`sceneContent` setter). -/
def CountsFit (n : Novel) : Prop := ∀ id sc t, n.scenes.get? id = some sc → sc.sceneContent = some t →
  sc.wordCount = wordCountOf t ∧ sc.letterCount = letterCountOf t

end Verif.Spec

namespace Verif.Spec

/-- No scene heading comes directly after a chapter or part heading. -/
def SafeHeadings (text : Str) : Prop :=
  ∀ a b l₁ l₂, linesOf text = l₁ ++ a :: b :: l₂ →
    isHeading a = true → isSceneHeading a = false → isSceneHeading b = false

/-- All listed scenes have safe headings. -/
def SafeNovel (n : Novel) : Prop := ∀ id ∈ narrative n, SafeHeadings (textOf n.scenes id)

end Verif.Spec
