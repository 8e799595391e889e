/-
Specification: the encodings in which project files are stored.
-/
import Verif.Model.Msgfmt
import Verif.Spec.Disk

namespace Verif.Spec

/-- The 16 bit units of a character (RFC 2781, section 2.1). -/
def unitsOf (c : Char) : List Nat :=
  if c.toNat < 0x10000 then [c.toNat] else [0xD800 + (c.toNat - 0x10000) / 0x400, 0xDC00 + (c.toNat - 0x10000) % 0x400]

/-- The two bytes of a unit. -/
def unitBytes (little : Bool) (u : Nat) : Bytes :=
  if little then [UInt8.ofNat u, UInt8.ofNat (u / 256)] else [UInt8.ofNat (u / 256), UInt8.ofNat u]

/-- A text in UTF-16, without byte order mark. -/
def utf16 (little : Bool) (s : Str) : Bytes := (s.flatMap unitsOf).flatMap (unitBytes little)

/-- A text in UTF-16 with a byte order mark (U+FEFF). -/
def utf16Bom (little : Bool) (s : Str) : Bytes := unitBytes little 0xFEFF ++ utf16 little s

/-- The byte order mark. -/
def bomChar : Char := '\uFEFF'

/-- The exceptions that are meant for the user. -/
def IsError {α : Type} (r : Except Exc α) : Prop := ∃ msg, r = .error (.error msg)

end Verif.Spec
