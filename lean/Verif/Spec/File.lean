/-
Specification: element trees that a project file can carry.
-/
import Verif.Spec.Layout
import Verif.Spec.XmlDoc

namespace Verif.Spec
open Elem

/-- Characters that survive writing and reading: legal in XML, neither carriage return (read as newline)
nor bar (deleted when reading). -/
def safeChar (c : Char) : Prop := xmlLegal c = true ∧ c ≠ '\r' ∧ c ≠ '|'

/-- A text that survives in a CDATA section. The two sequences with newlines are altered when the file is
written; in particular, a text that ends with a newline loses it, and a text that begins with a blank and
a newline loses them. -/
structure SafeCdata (s : Str) : Prop where
  chars : ∀ c ∈ s, safeChar c
  noEnd : ¬ c!"]]>" <:+: s
  noOpen : ¬ c!"[CDATA[ \n" <:+: c!"[CDATA[" ++ s
  noClose : ¬ c!"\n]]" <:+: s ++ c!"]]"

/-- A text that is written without CDATA section: it must be well-formed character data. -/
structure SafeRaw (s : Str) : Prop where
  chars : ∀ c ∈ s, safeChar c
  charData : ∃ t, CharData s t
  noOpen : ¬ c!"[CDATA[ \n" <:+: s
  noClose : ¬ c!"\n]]" <:+: s

mutual
/-- A tree that a project file can carry: proper names; the texts are safe; elements with CDATA sections
have no children. -/
def SafeTree : Elem → Prop
  | node t x y ks =>
    IsName t ∧ (if t ∈ cdataTags then SafeCdata (x.getD []) ∧ ks = [] else SafeRaw (x.getD [])) ∧
      SafeRaw (y.getD []) ∧ SafeTreeL ks
/-- The same for lists of elements. -/
def SafeTreeL : List Elem → Prop
  | [] => True
  | e :: r => SafeTree e ∧ SafeTreeL r
end

/-- Blanks, tabs and newlines. -/
def BlankTail (e : Elem) : Prop := ∀ c ∈ e.tail.getD [], c = ' ' ∨ c = '\t' ∨ c = '\n'

end Verif.Spec
