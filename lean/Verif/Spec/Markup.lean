/-
Formatted text as the user sees it (C43, C48): characters, formatting marks, comments and line breaks, and what makes a text one that a
document can carry.
-/
import Verif.Py.Str
import Verif.Spec.Xml
import Verif.Spec.XmlDoc

namespace Verif.Spec

/-- The parts of a formatted text: a character, the beginning and the end of a formatting (`i`, `b` or `lang=xx-XX`), a comment, a line
break. -/
inductive Piece
  | ch (c : Char)
  | op (tag : Str)
  | cl (tag : Str)
  | note (s : Str)
  | nl
  deriving DecidableEq, Repr

/-- How yWriter writes it. -/
def Piece.raw : Piece → Str
  | .ch c => [c]
  | .op t => c!"[" ++ t ++ c!"]"
  | .cl t => c!"[/" ++ t ++ c!"]"
  | .note s => c!"/*" ++ s ++ c!"*/"
  | .nl => c!"\n"

/-- The text. -/
def rawText (ps : List Piece) : Str := ps.flatMap Piece.raw

/-- The lines. -/
def pieceLines : List Piece → List (List Piece)
  | [] => [[]]
  | .nl :: r => [] :: pieceLines r
  | p :: r =>
    match pieceLines r with
    | [] => [[p]]
    | l :: ls => (p :: l) :: ls

/-- The open formattings (innermost first) after a line; `none` if a formatting ends that is not the innermost one, or if a language begins
inside another one. -/
def openAfter : List Str → List Piece → Option (List Str)
  | st, [] => some st
  | st, .op t :: r => if (c!"lang=" <+: t ∧ ∃ u ∈ st, c!"lang=" <+: u) then none else openAfter (t :: st) r
  | [], .cl _ :: _ => none
  | u :: st, .cl t :: r => if t = u then openAfter st r else none
  | st, _ :: r => openAfter st r

/-- The runs of characters between two other pieces. -/
def textRuns : Str → List Piece → List Str
  | acc, [] => [acc]
  | acc, .ch c :: r => textRuns (acc ++ [c]) r
  | acc, _ :: r => acc :: textRuns [] r

/-- A line without the mark of a quotation. -/
def unquoted : List Piece → List Piece
  | .ch '>' :: .ch ' ' :: r => r
  | l => l

/-- The formattings of a project with the given languages. -/
def formats (languages : List Str) : List Str := c!"i" :: c!"b" :: languages.map (fun l => c!"lang=" ++ l)

/-- `y` may follow `x`: a bracket that is not part of a mark is followed by a character with which no mark begins; the characters `/`
and `*` do not follow each other; a comment is not followed by `*` or `>`. -/
def mayFollow : Piece → Piece → Bool
  | .ch '[', .ch c => !(decide (c ∈ c!"ibl/h|crsu"))
  | .ch '[', _ => false
  | .ch '/', .ch '*' => false
  | .ch '*', .ch '/' => false
  | .note _, .ch '*' => false
  | .note _, .ch '>' => false
  | _, _ => true

/-- Neighbours. -/
def Neighbours : List Piece → Prop
  | x :: y :: r => mayFollow x y = true ∧ Neighbours (y :: r)
  | _ => True

/-- A piece a document can carry. -/
def Piece.Ok (languages : List Str) : Piece → Prop
  | .ch c => xmlLegal c = true ∧ c ≠ '\n' ∧ c ≠ '\r'
  | .op t => t ∈ formats languages
  | .cl t => t ∈ formats languages
  | .note s => (∀ c ∈ s, xmlLegal c = true ∧ c ≠ '\n' ∧ c ≠ '\r' ∧ c ≠ '[' ∧ c ≠ '*' ∧ c ≠ '/' ∧ c ≠ '~') ∧ Str.strip s = s
  | .nl => True

/-- Texts that are written as well-formed markup: every formatting ends in the line in which it begins, in proper nesting. -/
structure Nested (languages : List Str) (ps : List Piece) : Prop where
  ok : ∀ p ∈ ps, p.Ok languages
  neighbours : Neighbours ps
  lines : ∀ l ∈ pieceLines ps, openAfter [] l = some []

/-- Texts in normal form: no empty formatting, none that ends and begins again at once (or in the next line), no formatting marks
separated by blanks only, no blanks at the end. -/
structure Normal (languages : List Str) (ps : List Piece) : Prop extends Nested languages ps where
  used : ∀ t ∈ formats languages, ¬ (Piece.op t).raw ++ (Piece.cl t).raw <:+: rawText ps
  joined : ∀ t ∈ formats languages, ¬ (Piece.cl t).raw ++ (Piece.op t).raw <:+: rawText ps ∧
    ¬ (Piece.cl t).raw ++ c!"\n" ++ (Piece.op t).raw <:+: rawText ps ∧ ¬ (Piece.cl t).raw ++ c!"\n> " ++ (Piece.op t).raw <:+: rawText ps
  runs : ∀ l ∈ pieceLines ps, ∀ s ∈ textRuns [] (unquoted l), s = [] ∨ ∃ c ∈ s, Str.isWs c = false
  tidy : Str.rstrip (rawText ps) = rawText ps

/-- A line that can be mended: no prefix has more ends of the formatting `t` than beginnings, if the beginnings that are missing in the
line (at least one if the formatting is still open from the line before, `o`) are put before the line. -/
def Mendable (t : Str) (o : Bool) (l : List Piece) : Prop :=
  ∀ n, n ≤ l.length → (l.take n).count (.cl t) ≤ (l.take n).count (.op t) + max o.toNat (l.count (.cl t) - l.count (.op t))

instance (t : Str) (o : Bool) (l : List Piece) : Decidable (Mendable t o l) := by unfold Mendable; infer_instance

/-- Lines that can be mended; a formatting stays open if there are more beginnings than ends (so that one never ended remains open in all
lines that follow). -/
def MendableLines (t : Str) : Bool → List (List Piece) → Prop
  | _, [] => True
  | o, l :: r => Mendable t o l ∧ MendableLines t (decide (l.count (.cl t) < l.count (.op t) + o.toNat)) r

instance decMendableLines (t : Str) : (o : Bool) → (ls : List (List Piece)) → Decidable (MendableLines t o ls)
  | _, [] => isTrue trivial
  | o, l :: r =>
    have := decMendableLines t (decide (l.count (.cl t) < l.count (.op t) + o.toNat)) r
    show Decidable (_ ∧ _) from inferInstance

/-- Texts with formattings that need not be nested, nor end in the line in which they begin, nor end at all, nor begin before they end, as
long as no line begins one again after a surplus end. No formatting is empty; the text does not end with a bracket and does not contain the
letters `&gt; `. -/
structure Mendables (languages : List Str) (ps : List Piece) : Prop where
  ok : ∀ p ∈ ps, p.Ok languages
  neighbours : Neighbours ps
  lines : ∀ t ∈ formats languages, MendableLines t false (pieceLines ps)
  used : ∀ t ∈ formats languages, ¬ [Piece.op t, Piece.cl t] <:+: ps
  ending : ps.getLast? ≠ some (.ch '[')
  plain : ¬ (c!"&gt; ").map Piece.ch <:+: ps

/-- Language codes like `en-US`. -/
def LangCode (l : Str) : Prop :=
  ∃ a b, l = a ++ c!"-" ++ b ∧ a ≠ [] ∧ b ≠ [] ∧ b ≠ c!"none" ∧ (∀ c ∈ a, c.isAlphanum = true) ∧ (∀ c ∈ b, c.isAlphanum = true)

end Verif.Spec
