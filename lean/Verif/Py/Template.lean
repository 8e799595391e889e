/-
Python's `string.Template.safe_substitute` (CPython Lib/string.py): a single left-to-right pass of
the pattern `\$(?:(?P<escaped>\$)|(?P<named>id)|{(?P<braced>id)}|(?P<invalid>))` with
`id = (?a:[_a-z][_a-z0-9]*)`, ignoring case.
-/
import Verif.Py.Dict

namespace Verif

/-- A piece of a template. -/
inductive Seg where
  /-- A character that is copied. -/
  | lit (c : Char)
  /-- A placeholder with its name and its spelling. -/
  | var (name raw : Str)
  deriving DecidableEq, Repr

namespace Template

/-- The first character of an identifier. -/
def idStart (c : Char) : Bool := c = '_' || ('a' ≤ c && c ≤ 'z') || ('A' ≤ c && c ≤ 'Z')

/-- A further character of an identifier. -/
def idChar (c : Char) : Bool := idStart c || ('0' ≤ c && c ≤ '9')

/-- The longest identifier at the beginning of the text (`[]` if there is none). -/
def ident : Str → Str
  | [] => []
  | c :: cs => if idStart c then c :: cs.takeWhile idChar else []

/-- Scan a template; `skip` characters belong to the current match. -/
def segsGo : Nat → Str → List Seg
  | _, [] => []
  | n + 1, _ :: cs => segsGo n cs
  | 0, c :: cs =>
    if c = '$' then
      match cs with
      | [] => [.lit '$']
      | d :: r =>
        if d = '$' then .lit '$' :: segsGo 1 cs
        else if ident cs ≠ [] then .var (ident cs) ('$' :: ident cs) :: segsGo (ident cs).length cs
        else if d = '{' ∧ ident r ≠ [] ∧ (r.drop (ident r).length).head? = some '}' then
          .var (ident r) ('$' :: '{' :: ident r ++ ['}']) :: segsGo ((ident r).length + 2) cs
        else .lit '$' :: segsGo 0 cs
    else .lit c :: segsGo 0 cs

/-- The pieces of a template. -/
def segs (t : Str) : List Seg := segsGo 0 t

/-- The text put in place of a piece: a placeholder without a value is left as it is. -/
def render (m : Dict Str) : Seg → Str
  | .lit c => [c]
  | .var name raw => (m.get? name).getD raw

/-- `Template(t).safe_substitute(m)`: all values are strings here (`str(value)` is applied to the others when the
mapping is built). -/
def subst (t : Str) (m : Dict Str) : Str := (segs t).flatMap (render m)

end Template
end Verif
