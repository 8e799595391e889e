/-
The fragment of Python's `re` that PyWriter uses, by hand-written matchers.

A matcher `m bol s` gets the rest `s` of the subject at the current position and `bol`, true iff
the position is at the beginning of a line (start of the subject or after a newline); it
returns the length of the match that Python's backtracking matcher finds there (leftmost
alternative first, lazy quantifiers shortest first), or `none`.
-/
import Verif.Py.Str

namespace Verif.Re

/-- A matcher, see above. -/
abbrev Matcher := Bool → Str → Option Nat

/-- Worker of `re.sub` for patterns without empty matches: `bol` as above, `skip` characters of
the current match are still to be consumed. -/
def subGo (m : Matcher) (rep : Str) : Bool → Nat → Str → Str
  | _, _, [] => []
  | _, n + 1, c :: cs => subGo m rep (c = '\n') n cs
  | bol, 0, c :: cs =>
    match m bol (c :: cs) with
    | some (k + 1) => rep ++ subGo m rep (c = '\n') k cs
    | _ => c :: subGo m rep (c = '\n') 0 cs

/-- `re.sub(pattern, rep, s)` with a fixed replacement. -/
def sub (m : Matcher) (rep s : Str) : Str := subGo m rep true 0 s

/-- A literal string. -/
def lit (p : Str) : Matcher := fun _ s => if p.isPrefixOf s then some p.length else none

/-- `a|b`: the first alternative is preferred. -/
def alt (a b : Matcher) : Matcher := fun bol s => (a bol s).or (b bol s)

/-- `^p` with `re.MULTILINE`, `p` literal. -/
def bolLit (p : Str) : Matcher := fun bol s => if bol then lit p bol s else none

/-- `.*?close`: shortest run of non-newline characters followed by the literal `close`. -/
def lazyTo (close : Str) : Str → Option Nat
  | [] => if close = [] then some 0 else none
  | c :: cs =>
    if close.isPrefixOf (c :: cs) then some close.length
    else if c = '\n' then none else (lazyTo close cs).map (· + 1)

/-- `open.+?close`. -/
def between1 (op close : Str) : Matcher := fun _ s =>
  if op.isPrefixOf s then
    match s.drop op.length with
    | [] => none
    | c :: cs => if c = '\n' then none else (lazyTo close cs).map (· + (op.length + 1))
  else none

/-- `open.*?close`. -/
def between0 (op close : Str) : Matcher := fun _ s =>
  if op.isPrefixOf s then (lazyTo close (s.drop op.length)).map (· + op.length) else none

end Verif.Re
