/-
Specification vocabulary for paths and conversions.
-/
import Verif.Py.Path

namespace Verif.Spec
open Verif

/-- The same letter, possibly in the other case (ASCII). -/
inductive SameLetter : Char → Char → Prop
  | same (c : Char) : SameLetter c c
  | upper (n : Nat) (h : 65 ≤ n ∧ n ≤ 90) : SameLetter (Char.ofNat n) (Char.ofNat (n + 32))
  | lower (n : Nat) (h : 65 ≤ n ∧ n ≤ 90) : SameLetter (Char.ofNat (n + 32)) (Char.ofNat n)

/-- The same text up to the case of letters. -/
inductive SameText : Str → Str → Prop
  | nil : SameText [] []
  | cons {a b : Char} {x y : Str} : SameLetter a b → SameText x y → SameText (a :: x) (b :: y)

/-- `s` ends with `e`, ignoring case. -/
def EndsIgnoringCase (s e : Str) : Prop := ∃ a b, s = a ++ b ∧ SameText b e

/-- The name of a file (the part after the last slash of `p`) has a character other than a dot. -/
def HasName (p : Str) : Prop := ∃ d n, (p = n ∨ p = d ++ '/' :: n) ∧ '/' ∉ n ∧ ∃ c ∈ n, c ≠ '.'

end Verif.Spec
