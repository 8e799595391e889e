/-
Python strings as lists of characters, with the `str` methods PyWriter uses.

Nothing in this file models a particular source file; it models the Python
built-ins that the cited functions of the other files call.  All functions are
structurally recursive, so the kernel can evaluate them.
-/

namespace Verif

/-- A Python `str`. -/
abbrev Str := List Char

/-- `c!"abc"` is the explicit character list `['a','b','c']`. -/
syntax:max "c!" str : term

open Lean in
macro_rules
  | `(c! $s:str) => do
    let cs := s.getString.toList.map fun c => Syntax.mkCharLit c
    `([$(cs.toArray),*])

namespace Str

/-- The characters for which Python's `str.isspace` is true, i.e. the ones
removed by `str.strip()` and splitting `str.split()`. -/
def isWs (c : Char) : Bool :=
  let n := c.toNat
  (9 ≤ n && n ≤ 13) || (28 ≤ n && n ≤ 32) || n == 0x85 || n == 0xa0 || n == 0x1680 ||
  (0x2000 ≤ n && n ≤ 0x200a) || n == 0x2028 || n == 0x2029 || n == 0x202f ||
  n == 0x205f || n == 0x3000

/-- `s.lstrip(chars)` for the characters satisfying `p`. -/
def lstripBy (p : Char → Bool) (s : Str) : Str := s.dropWhile p

/-- `s.rstrip(chars)` for the characters satisfying `p`:
drop the longest suffix all of whose characters satisfy `p`. -/
def rstripBy (p : Char → Bool) : Str → Str
  | [] => []
  | c :: cs => match rstripBy p cs with
    | [] => if p c then [] else [c]
    | d :: ds => c :: d :: ds

/-- `s.strip(chars)` for the characters satisfying `p`. -/
def stripBy (p : Char → Bool) (s : Str) : Str := rstripBy p (lstripBy p s)

/-- `s.rstrip()`. -/
def rstrip (s : Str) : Str := rstripBy isWs s

/-- `s.lstrip()`. -/
def lstrip (s : Str) : Str := lstripBy isWs s

/-- `s.strip()`. -/
def strip (s : Str) : Str := stripBy isWs s

/-- `s.startswith(p)`. -/
def startsWith (s p : Str) : Bool := p.isPrefixOf s

/-- `s.endswith(p)`. -/
def endsWith (s p : Str) : Bool := p.isSuffixOf s

/-- `p in s` for strings. -/
def contains (s p : Str) : Bool :=
  match s with
  | [] => p.isEmpty
  | c :: cs => p.isPrefixOf (c :: cs) || contains cs p

/-- Worker of `replace`: `skip` characters of an already replaced occurrence
are still to be dropped. -/
def replaceGo (old new : Str) : Nat → Str → Str
  | _, [] => []
  | n + 1, _ :: cs => replaceGo old new n cs
  | 0, c :: cs =>
    if old.isPrefixOf (c :: cs) then new ++ replaceGo old new (old.length - 1) cs
    else c :: replaceGo old new 0 cs

/-- `s.replace(old, new)` for a non-empty `old`. -/
def replace (s old new : Str) : Str := replaceGo old new 0 s

/-- Put a character in front of the first segment of a split result. -/
def consHead (c : Char) : List Str → List Str
  | [] => [[c]]
  | h :: t => (c :: h) :: t

/-- Worker of `split`: `skip` characters of an already recognised separator
are still to be dropped. -/
def splitGo (sep : Str) : Nat → Str → List Str
  | _, [] => [[]]
  | n + 1, _ :: cs => splitGo sep n cs
  | 0, c :: cs =>
    if sep.isPrefixOf (c :: cs) then [] :: splitGo sep (sep.length - 1) cs
    else consHead c (splitGo sep 0 cs)

/-- `s.split(sep)` for a non-empty `sep` (Python raises `ValueError` for an empty one). -/
def split (s sep : Str) : List Str := splitGo sep 0 s

/-- `sep.join(parts)`. -/
def join (sep : Str) : List Str → Str
  | [] => []
  | [a] => a
  | a :: b :: r => a ++ sep ++ join sep (b :: r)

/-- Worker of `words`: state `inWord` tells whether the previous character
belonged to a word. -/
def wordsGo : Str → Str → List Str
  | cur, [] => if cur.isEmpty then [] else [cur]
  | cur, c :: cs =>
    if isWs c then
      if cur.isEmpty then wordsGo [] cs else cur :: wordsGo [] cs
    else wordsGo (cur ++ [c]) cs

/-- `s.split()` (split at runs of whitespace, no empty parts). -/
def words (s : Str) : List Str := wordsGo [] s

/-- `str(n)` for a non-negative `int`. -/
def ofNat (n : Nat) : Str := Nat.toDigits 10 n

/-- `str(n)` for an `int`. -/
def ofInt : Int → Str
  | .ofNat n => ofNat n
  | .negSucc n => '-' :: ofNat (n + 1)

/-- ASCII part of `str.lower()`. Simplification: characters outside `A`–`Z` are
mapped to themselves (Python also folds other alphabets). -/
def lowerChar (c : Char) : Char := if 'A' ≤ c ∧ c ≤ 'Z' then Char.ofNat (c.toNat + 32) else c

/-- `s.lower()`, see `lowerChar`. -/
def lower (s : Str) : Str := s.map lowerChar

end Str
end Verif
