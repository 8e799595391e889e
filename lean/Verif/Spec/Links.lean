/-
Links in documents (C68): what a program that follows them sees.
-/
import Verif.Model.Msgfmt
import Verif.Spec.Sax

namespace Verif.Spec

/-- The value of a hexadecimal digit. -/
def hexDigitValue (c : Char) : Option Nat :=
  if 48 ≤ c.toNat ∧ c.toNat ≤ 57 then some (c.toNat - 48)
  else if 65 ≤ c.toNat ∧ c.toNat ≤ 70 then some (c.toNat - 55)
  else if 97 ≤ c.toNat ∧ c.toNat ≤ 102 then some (c.toNat - 87)
  else none

/-- The bytes of a URI component (RFC 3986, 2.1): a percent sign and two hexadecimal digits are a byte, other ASCII characters stand for
themselves, and nothing else is allowed. -/
def percentDecode : Str → Option Bytes
  | [] => some []
  | '%' :: a :: b :: r => do
    let x ← hexDigitValue a
    let y ← hexDigitValue b
    let rest ← percentDecode r
    some (UInt8.ofNat (16 * x + y) :: rest)
  | c :: r => if c = '%' ∨ 128 ≤ c.toNat then none else (percentDecode r).map (UInt8.ofNat c.toNat :: ·)

/-- The text a URI component stands for. -/
def uriText (s : Str) : Option Str := (percentDecode s).bind Enc.utf8.decode

/-- The folder a file is in, with the slash at its end (empty for a bare file name), -/
def folder (p : Str) : Str := (p.reverse.dropWhile (· ≠ '/')).reverse
/-- and the name of the file. -/
def fileName (p : Str) : Str := (p.reverse.takeWhile (· ≠ '/')).reverse

/-- Where a relative link `../name#fragment` in an ODF document leads: such links leave the package (OpenDocument 1.2, part 3, 3.7), so the
file is in the folder of the document. The name must not contain the delimiters of URIs, nor stand for a path. The fragment is the place in
the file. -/
def linkedPlace (doc link : Str) : Option (Str × Str) :=
  if c!"../".isPrefixOf link then
    let rel := (link.drop 3).takeWhile (· ≠ '#')
    let fragment := ((link.drop 3).dropWhile (· ≠ '#')).drop 1
    if rel.any (· ∈ c!"/?") then none
    else do
      let name ← uriText rel
      let place ← uriText fragment
      if name.any (· = '/') then none else some (folder doc ++ name, place)
  else none

/-- Where a link `file://path#fragment` leads (RFC 8089, empty host). -/
def linkedFile (link : Str) : Option (Str × Str) :=
  if c!"file:///".isPrefixOf link then
    let rel := (link.drop 7).takeWhile (· ≠ '#')
    let fragment := ((link.drop 7).dropWhile (· ≠ '#')).drop 1
    if rel.any (· = '?') then none
    else do
      let path ← uriText rel
      let place ← uriText fragment
      some (path, place)
  else none

/-- A document has a section of this name (the place `name|region` of a link): its markup is lexically correct and has the start tag. -/
def HasRegion (document name : Str) : Prop := ∃ evs as, saxEvents document = some evs ∧ Ev.start c!"text:section" as ∈ evs ∧ as.get? c!"text:name" = some name

end Verif.Spec
