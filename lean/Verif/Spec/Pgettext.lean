/-
What the collector of messages should find (C61).
-/
import Verif.Model.Pgettext
import Verif.Spec.Translations
import Verif.Spec.Msgfmt

namespace Verif.Spec

/-- A marked message in a program: `_("...")` or `_('...')`, with the characters between the quotation marks. -/
structure MarkedMsg where
  quote : Char
  message : Str

/-- How it is written. -/
def MarkedMsg.text (m : MarkedMsg) : Str := c!"_(" ++ [m.quote] ++ m.message ++ [m.quote] ++ c!")"

/-- A program: code, and marked messages, each with the code after it. -/
structure Source where
  first : Str
  marked : List (MarkedMsg × Str)

def Source.text (s : Source) : Str := s.first ++ s.marked.flatMap fun p => p.1.text ++ p.2

/-- A text without the beginning of a marked message. -/
def Unmarked (s : Str) : Prop := ¬ c!"_(\"" <:+: s ∧ ¬ c!"_('" <:+: s

/-- Regular: messages of one line, not empty, that contain neither the end nor the beginning of a marked message; and nothing else looks like the
beginning of one. -/
structure Source.Regular (s : Source) : Prop where
  first : Unmarked s.first ∧ '\r' ∉ s.first
  code : ∀ p ∈ s.marked, Unmarked p.2 ∧ '\r' ∉ p.2
  quote : ∀ p ∈ s.marked, p.1.quote = '"' ∨ p.1.quote = '\''
  message : ∀ p ∈ s.marked, OneLine p.1.message ∧ p.1.message ≠ [] ∧ Unmarked p.1.message ∧ ¬ [p.1.quote, ')'] <:+: p.1.message

/-- The file, somewhere in the directory, is a program with this text. -/
inductive HasProgram : List SrcEntry → Except Exc Str → Prop where
  | here {name : Str} {text : Except Exc Str} {r : List SrcEntry} : c!".py" <:+ name → HasProgram (.file name text :: r) text
  | inside {name : Str} {es r : List SrcEntry} {text : Except Exc Str} : HasProgram es text → HasProgram (.dir name es :: r) text
  | later {e : SrcEntry} {r : List SrcEntry} {text : Except Exc Str} : HasProgram r text → HasProgram (e :: r) text

/-- A message with a backslash before each double quotation mark. -/
def quoted (m : Str) : Str := m.flatMap fun c => if c = '"' then c!"\\\"" else [c]

/-- What the characters between the quotation marks `q` mean in a program. (Double quotation marks after a backslash are left out: C61_quotes.) -/
inductive Written (q : Char) : Str → Str → Prop where
  | nil : Written q [] []
  | plain {c : Char} {r t : Str} : c ≠ q → c ∉ c!"\\\n\r" → c ≠ Char.ofNat 0 → Written q r t → Written q (c :: r) (c :: t)
  | escape {c d : Char} {r t : Str} : (c, d) ∈ [('n', '\n'), ('t', '\t'), ('r', '\r'), ('\'', '\''), ('\\', '\\')] →
      Written q r t → Written q ('\\' :: c :: r) (d :: t)

end Verif.Spec
