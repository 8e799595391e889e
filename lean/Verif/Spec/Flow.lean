/-
Formatted texts whose formattings may reach over line breaks (C43, C48).
-/
import Verif.Spec.Markup

namespace Verif.Spec

/-- The formattings open after a line that begins with the formattings `st` open. -/
def openLeft (st : List Str) (l : List Piece) : List Str := (openAfter st l).getD []

/-- The lines of a text in which no formatting reaches over a line break: in each line, what is still open from the line before is begun
again, and what is still open at its end is ended. -/
def spreadLines : List Str → List (List Piece) → List (List Piece)
  | _, [] => []
  | st, l :: r => (st.reverse.map Piece.op ++ l ++ (openLeft st l).map Piece.cl) :: spreadLines (openLeft st l) r

/-- Texts a document can carry. The formattings are properly nested, and at a line break at most one of them is open; the line that
follows then does not begin with the letters `&gt; `. If every line is looked at on its own, with what is open begun and ended in it, no
formatting is empty, and no formatting marks are separated by blanks only. No formatting ends and begins again at once (or in the next
line). There are no blanks at the end. -/
structure Flowing (languages : List Str) (ps : List Piece) : Prop where
  ok : ∀ p ∈ ps, p.Ok languages
  neighbours : Neighbours ps
  nested : openAfter [] ps = some []
  breaks : ∀ a b, ps = a ++ .nl :: b → openLeft [] a = [] ∨ ∃ t, openLeft [] a = [t] ∧ ¬ (c!"&gt; ").map Piece.ch <+: b
  used : ∀ l ∈ spreadLines [] (pieceLines ps), ∀ t, ¬ [Piece.op t, Piece.cl t] <:+: l
  joined : ∀ t, ¬ [Piece.cl t, .op t] <:+: ps ∧ ¬ [Piece.cl t, .nl, .op t] <:+: ps ∧ ¬ [Piece.cl t, .nl, .ch '>', .ch ' ', .op t] <:+: ps
  runs : ∀ l ∈ spreadLines [] (pieceLines ps), ∀ s ∈ textRuns [] (unquoted l), s = [] ∨ ∃ c ∈ s, Str.isWs c = false
  tidy : Str.rstrip (rawText ps) = rawText ps

end Verif.Spec
