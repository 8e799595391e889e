/-
Opening a project file: from the bytes of the file to the novel (`Yw7File.read`).
-/
import Verif.Model.Msgfmt
import Verif.Model.Yw7Text
import Verif.Model.Yw7Read

namespace Verif

/-- The 16 bit units of a byte sequence (Python's `utf-16` codec): an odd number of bytes cannot be decoded. -/
def units (little : Bool) : Bytes → Option (List Nat)
  | [] => some []
  | [_] => none
  | a :: b :: r => (units little r).map ((if little then a.toNat + 256 * b.toNat else 256 * a.toNat + b.toNat) :: ·)

/-- The characters of 16 bit units (Python's `utf-16` codec): surrogates that are not in pairs cannot be decoded. -/
def fromUnits : List Nat → Option Str
  | [] => some []
  | u :: r =>
    if u < 0xD800 ∨ 0xE000 ≤ u then (fromUnits r).map (Char.ofNat u :: ·)
    else if u < 0xDC00 then
      match r with
      | [] => none
      | v :: r' =>
        if 0xDC00 ≤ v ∧ v < 0xE000 then (fromUnits r').map (Char.ofNat (0x10000 + (u - 0xD800) * 1024 + (v - 0xDC00)) :: ·)
        else none
    else none

/-- `b.decode('utf-16')`: a byte order mark is removed; without one, the byte order is that of the
machine. Simplification: the machine is a little-endian one. -/
def decodeUtf16 : Bytes → Option Str
  | 0xFF :: 0xFE :: r => (units true r).bind fromUnits
  | 0xFE :: 0xFF :: r => (units false r).bind fromUnits
  | b => (units true b).bind fromUnits

/-- The text of the file (yw7_file.py 142-149): UTF-8, and if this fails, UTF-16. Simplification: newlines
are translated in `parserInput`. -/
def decodeFile (b : Bytes) : Option Str :=
  match Enc.utf8.decode b with
  | some s => some s
  | none => decodeUtf16 b

/-- The XML library: `ET.fromstring(text)`, where `none` is a `ParseError`, and `ET.parse(path)` for a file
with the given bytes (`none`: there is no such file), which fails with a message. -/
structure XmlLib where
  fromText : Str → Option Elem
  parse : Option Bytes → Except Str Elem

/-- `_("Can not process file") - {ex}` (yw7_file.py 153). -/
def processError (ex : Str) : Exc := .error (c!"Can not process file - " ++ ex)

/-- `Yw7File.read` (yw7_file.py 129-178) for a new `Novel`: the element tree and the novel. `locked`
says whether there is a lock file, `file` is what is at the path. -/
def openYw7 (lib : PyLib) (xml : XmlLib) (locked : Bool) (file : Option Bytes) : Except Exc (Elem × Novel) :=
  if locked then .error (.error c!"yWriter seems to be open. Please close first.")
  else
    match file.bind decodeFile with
    | none =>
      match xml.parse file with
      | .error ex => .error (processError ex)
      | .ok _ => .error .unboundLocal
    | some s =>
      match xml.fromText (parserInput s) with
      | none => .error .parseError
      | some x =>
        match readTree lib x with
        | .error e => .error e
        | .ok n => .ok (x, n)

end Verif
