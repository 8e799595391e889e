/-
Line ends of text files (C57).
-/
import Verif.Py.Str

namespace Verif.Spec

/-- The line ends of text files: Unix, Windows, and old ones with the carriage return alone. -/
def lineEnds : List Str := [c!"\n", c!"\r\n", c!"\r"]

/-- A text whose lines end with `e` instead of the newline character. -/
def endedBy (e : Str) : Str → Str
  | [] => []
  | c :: r => (if c = '\n' then e else [c]) ++ endedBy e r

end Verif.Spec
