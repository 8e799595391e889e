import Verif.Model.Links
import Verif.Spec.Links
import Verif.Spec.Sheets
import Verif.Spec.Ods
import Verif.Spec.XrefDoc
import Verif.Lemmas.Opening
import Verif.Lemmas.Path
import Verif.Lemmas.Convert2
import Verif.Lemmas.Text

namespace Verif
open Spec

/-! ### Quoting -/

theorem percentDecode_char {c : Char} (h : c ≠ '%') (h2 : c.toNat < 128) (r : Str) :
    percentDecode (c :: r) = (percentDecode r).map (UInt8.ofNat c.toNat :: ·) := by
  rw [percentDecode]
  · rw [if_neg (by rintro (x | x); exact h x; omega)]
  · intro a b r e; exact absurd e h

/-- Characters that `quote` may keep. -/
def SafeSet (safe : Str) : Prop := ∀ c ∈ safe, c ≠ '%' ∧ c.toNat < 128

theorem ofNat_byte (b : UInt8) : (Char.ofNat b.toNat).toNat = b.toNat := by
  have hb : b.toNat < 256 := b.toNat_lt
  have hv : b.toNat.isValidChar := Or.inl (by omega)
  unfold Char.ofNat
  rw [dif_pos hv]
  rfl

theorem alwaysSafe_set : SafeSet alwaysSafe := by unfold SafeSet alwaysSafe; decide +kernel

theorem hex_value : ∀ n < 16, hexDigitValue (hexUpper n) = some n := by decide +kernel

theorem percentDecode_byte {safe : Str} (hs : SafeSet safe) (b : UInt8) (r : Str) :
    percentDecode (quoteByte safe b ++ r) = (percentDecode r).map (b :: ·) := by
  unfold quoteByte
  split
  · rename_i h
    have h' : Char.ofNat b.toNat ≠ '%' ∧ (Char.ofNat b.toNat).toNat < 128 := by
      rcases h with h | h
      · exact alwaysSafe_set _ h
      · exact hs _ h
    rw [List.singleton_append, percentDecode_char h'.1 h'.2, ofNat_byte, UInt8.ofNat_toNat]
  · have hb : b.toNat < 256 := b.toNat_lt
    show percentDecode ('%' :: hexUpper (b.toNat / 16) :: hexUpper (b.toNat % 16) :: r) = _
    rw [percentDecode, hex_value _ (by omega), hex_value _ (by omega)]
    show (percentDecode r).bind (fun rest => some (UInt8.ofNat (16 * (b.toNat / 16) + b.toNat % 16) :: rest)) = _
    rw [Nat.div_add_mod, UInt8.ofNat_toNat]
    cases percentDecode r <;> rfl

theorem percentDecode_quoted {safe : Str} (hs : SafeSet safe) (l : Bytes) (r : Str) :
    percentDecode (l.flatMap (quoteByte safe) ++ r) = (percentDecode r).map (l ++ ·) := by
  induction l with
  | nil => simp
  | cons b l ih =>
    rw [List.flatMap_cons, List.append_assoc, percentDecode_byte hs, ih]
    cases percentDecode r <;> rfl

theorem percentDecode_quote {safe : Str} (hs : SafeSet safe) (s : Str) : percentDecode (quote s safe) = some (utf8 s) := by
  have := percentDecode_quoted hs (utf8 s) []
  rw [List.append_nil] at this
  unfold quote
  rw [this]
  simp [percentDecode]

theorem utf8_decode (s : Str) : Enc.utf8.decode (utf8 s) = some s := (utf8_decode_iff _ _).2 rfl

/-- A component that begins with a quoted text. -/
theorem uriText_quote {safe : Str} (hs : SafeSet safe) (s r t : Str) (hr : percentDecode r = some (utf8 t)) :
    uriText (quote s safe ++ r) = some (s ++ t) := by
  unfold uriText quote
  rw [percentDecode_quoted hs, hr]
  show Enc.utf8.decode (utf8 s ++ utf8 t) = _
  have : utf8 s ++ utf8 t = utf8 (s ++ t) := by unfold utf8; rw [List.flatMap_append]
  rw [this, utf8_decode]

/-- ASCII characters without percent signs stand for themselves. -/
theorem percentDecode_plain {r : Str} (h : SafeSet r) (t : Str) : percentDecode (r ++ t) = (percentDecode t).map (utf8 r ++ ·) := by
  induction r with
  | nil => simp [utf8]
  | cons c r ih =>
    have hc := h c (by simp)
    rw [List.cons_append, percentDecode_char hc.1 hc.2, ih (fun x hx => h x (by simp [hx]))]
    have : utf8 (c :: r) = UInt8.ofNat c.toNat :: utf8 r := by
      unfold utf8
      rw [List.flatMap_cons, utf8_ascii_char hc.2]
      rfl
    rw [this]
    cases percentDecode t <;> rfl

/-- The characters of a quoted text. -/
def quoteChars : Str := c!"ABCDEFGHIJKLMNOPQRSTUVWXYZabcdefghijklmnopqrstuvwxyz0123456789_.-~%"

theorem hex_mem : ∀ n < 16, hexUpper n ∈ quoteChars := by decide +kernel
theorem safe_mem : ∀ c ∈ alwaysSafe, c ∈ quoteChars := by decide +kernel

theorem quote_chars {s safe : Str} {c : Char} (h : c ∈ quote s safe) : c ∈ quoteChars ∨ c ∈ safe := by
  unfold quote at h
  obtain ⟨b, _, h⟩ := List.mem_flatMap.1 h
  unfold quoteByte at h
  have hb : b.toNat < 256 := b.toNat_lt
  split at h
  · rename_i hs
    cases List.mem_singleton.1 h
    rcases hs with hs | hs
    · exact .inl (safe_mem _ hs)
    · exact .inr hs
  · simp only [List.mem_cons, List.not_mem_nil, or_false] at h
    rcases h with rfl | rfl | rfl
    · exact .inl (by decide)
    · exact .inl (hex_mem _ (by omega))
    · exact .inl (hex_mem _ (by omega))

end Verif
