/-
The names of a project as links show them: file/file.py 86-105, `urllib.parse.quote` and `os.path.split`.
-/
import Verif.Model.Converter
import Verif.Model.Msgfmt

namespace Verif

/-- `_ALWAYS_SAFE` of `urllib.parse`. -/
def alwaysSafe : Str := c!"ABCDEFGHIJKLMNOPQRSTUVWXYZabcdefghijklmnopqrstuvwxyz0123456789_.-~"

/-- A digit of `'{:02X}'.format`. -/
def hexUpper (n : Nat) : Char := Char.ofNat (if n < 10 then 48 + n else 55 + n)

/-- `_Quoter.__missing__(b)` of `urllib.parse`; `safe` are ASCII characters. -/
def quoteByte (safe : Str) (b : UInt8) : Str :=
  if Char.ofNat b.toNat ∈ alwaysSafe ∨ Char.ofNat b.toNat ∈ safe then [Char.ofNat b.toNat]
  else ['%', hexUpper (b.toNat / 16), hexUpper (b.toNat % 16)]

/-- `quote(string, safe)` of `urllib.parse`. The text has no lone surrogates (`quote` raises `UnicodeEncodeError` for them). -/
def quote (s safe : Str) : Str := (utf8 s).flatMap (quoteByte safe)

/-- `os.path.split(p)` (POSIX). -/
def pathSplit (p : Str) : Str × Str :=
  let tail := (p.reverse.takeWhile (· ≠ '/')).reverse
  let head := p.take (p.length - tail.length)
  (if head.all (· = '/') then head else (head.reverse.dropWhile (· = '/')).reverse, tail)

/-- `projectPath` and `projectName` after `filePath = path` (file.py 86-105), if the path is accepted. `realpath` is `os.path.realpath`, where
`none` is an exception. -/
def projectNames (realpath : Str → Option Str) (c : DocClass) (path : Str) : Option (Str × Str) :=
  let path := Path.slashes path
  if Str.endsWith (Str.lower path) (Str.lower c.ending) then
    let p := pathSplit ((realpath path).getD path)
    some (quote (Path.slashes p.1) c!"/:", quote (Str.replace p.2 c.ending []) c!"/")
  else none

end Verif
