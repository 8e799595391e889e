/-
How an XML parser may report character data: in one or in several pieces.
-/
import Verif.Model.OdtParse
import Verif.Model.Novel

namespace Verif.Spec

/-- The events with every run of adjacent pieces of character data joined. -/
def joined : List Ev → List Ev
  | [] => []
  | .chars s :: r =>
    match joined r with
    | .chars t :: r' => .chars (s ++ t) :: r'
    | j => .chars s :: j
  | e :: r => e :: joined r

/-- Two reports of the same document: they only differ in how the character data is divided into pieces. -/
def SameDocument (a b : List Ev) : Prop := joined a = joined b

/-- Whether the report begins with character data. -/
def startsWithChars : List Ev → Bool
  | .chars _ :: _ => true
  | _ => false

/-- Wherever a text is reported in more than one piece, each piece satisfies `Q`. -/
def SplitPieces (Q : Str → Prop) : Bool → List Ev → Prop
  | _, [] => True
  | inRun, .chars s :: r => (inRun = true ∨ startsWithChars r = true → Q s) ∧ SplitPieces Q true r
  | _, _ :: r => SplitPieces Q false r

/-- A piece of text that neither begins nor ends with a blank. -/
def Trimmed (s : Str) : Prop :=
  s ≠ [] ∧ (∀ c, s.head? = some c → Str.isWs c = false) ∧ (∀ c, s.getLast? = some c → Str.isWs c = false)

/-- A piece of text that is not blank. -/
def NotBlank (s : Str) : Prop := ∃ c ∈ s, Str.isWs c = false

/-- The attributes of a section that stands for a scene. -/
def isSceneSection (tag : Str) (as : List (Str × Option Str)) : Bool :=
  match as with
  | (k, some v) :: _ => tag = c!"div" && k = c!"id" && Str.startsWith v c!"ScID"
  | _ => false

/-- No heading of level 3 inside a scene's section. -/
def NoSceneHeading3 : Bool → List Call → Prop
  | _, [] => True
  | b, .start t as :: cs => ((b || isSceneSection t as) = true → t ≠ c!"h3") ∧ NoSceneHeading3 (b || isSceneSection t as) cs
  | b, .stop t :: cs => NoSceneHeading3 (b && t ≠ c!"div") cs
  | b, _ :: cs => NoSceneHeading3 b cs

/-- The chapters without their titles. -/
def untitled (d : Dict Chapter) : Dict Chapter := d.map (fun p => (p.1, { p.2 with title := none }))

/-- Equal results, or results that only differ in chapter titles. -/
def UpToTitles : Except Exc Novel → Except Exc Novel → Prop
  | .error e, .error e' => e = e'
  | .ok a, .ok b => untitled a.chapters = untitled b.chapters ∧ { a with chapters := [] } = { b with chapters := [] }
  | _, _ => False

end Verif.Spec
