/-
Lemmas about opening project files.
-/
import Verif.Model.Opening
import Verif.Spec.Opening
import Verif.Lemmas.Msgfmt3
import Verif.Lemmas.Ini

namespace Verif
open Spec

theorem utf8_decode_iff (b : Bytes) (s : Str) : Enc.utf8.decode b = some s ↔ b = utf8 s := by
  constructor
  · intro h
    obtain ⟨a, ha, has⟩ := Option.map_eq_some_iff.mp (show b.toByteArray.utf8Decode?.map Array.toList = some s from h)
    have hv : b.toByteArray.IsValidUTF8 := ByteArray.isSome_utf8Decode?_iff.mp (by rw [ha]; rfl)
    obtain ⟨m, hm⟩ := hv
    have hd : (m.utf8Encode).utf8Decode? = some m.toArray := List.utf8Decode?_utf8Encode
    rw [hm, hd] at ha
    have hms : m = s := by
      have := Option.some.inj ha
      rw [← has, ← this]
    subst hms
    have hb : b.toByteArray = (utf8 m).toByteArray := hm
    have := congrArg (fun x : ByteArray => x.data.toList) hb
    simpa using this
  · rintro rfl
    exact decode_view (E := .utf8) (by decide) s

theorem utf8_head (c : Char) : ∃ b r, String.utf8EncodeChar c = b :: r ∧ b.toNat < 0xF8 := by
  unfold String.utf8EncodeChar
  dsimp only
  split
  · exact ⟨_, _, rfl, by simp only [UInt8.toNat_ofNat']; omega⟩
  · split
    · exact ⟨_, _, rfl, by simp only [UInt8.toNat_ofNat']; omega⟩
    · split
      · exact ⟨_, _, rfl, by simp only [UInt8.toNat_ofNat']; omega⟩
      · exact ⟨_, _, rfl, by simp only [UInt8.toNat_ofNat']; omega⟩

/-- Nothing that begins with a byte of a byte order mark is UTF-8. -/
theorem utf8_decode_high {b : UInt8} {r : Bytes} (h : 0xF8 ≤ b.toNat) : Enc.utf8.decode (b :: r) = none := by
  cases hd : Enc.utf8.decode (b :: r) with
  | none => rfl
  | some s =>
    exfalso
    have e := (utf8_decode_iff _ _).mp hd
    cases s with
    | nil => cases e
    | cons c s =>
      obtain ⟨x, y, hx, hlt⟩ := utf8_head c
      have e : b :: r = String.utf8EncodeChar c ++ utf8 s := e
      rw [hx] at e
      have := (List.cons.inj e).1
      subst this
      omega

theorem units_bytes (little : Bool) (l : List Nat) (h : ∀ u ∈ l, u < 65536) : units little (l.flatMap (unitBytes little)) = some l := by
  induction l with
  | nil => rfl
  | cons u l ih =>
    have hu := h u List.mem_cons_self
    have := ih fun x hx => h x (List.mem_cons_of_mem _ hx)
    cases little with
    | true =>
      show units true (UInt8.ofNat u :: UInt8.ofNat (u / 256) :: l.flatMap (unitBytes true)) = _
      rw [units, this]
      simp only [if_true, Option.map_some, UInt8.toNat_ofNat']
      congr 2
      omega
    | false =>
      show units false (UInt8.ofNat (u / 256) :: UInt8.ofNat u :: l.flatMap (unitBytes false)) = _
      rw [units, this]
      simp only [Bool.false_eq_true, if_false, Option.map_some, UInt8.toNat_ofNat']
      congr 2
      omega

theorem char_range (c : Char) : c.toNat < 0xD800 ∨ (0xE000 ≤ c.toNat ∧ c.toNat < 0x110000) := by
  have h := c.valid
  rcases h with h | ⟨h1, h2⟩
  · exact Or.inl h
  · refine Or.inr ⟨?_, h2⟩
    have : 0xDFFF < c.toNat := h1
    omega

theorem unitsOf_small (c : Char) : ∀ u ∈ unitsOf c, u < 65536 := by
  intro u hu
  have hr := char_range c
  unfold unitsOf at hu
  split at hu
  · simp only [List.mem_cons, List.not_mem_nil, or_false] at hu
    omega
  · simp only [List.mem_cons, List.not_mem_nil, or_false] at hu
    omega

theorem fromUnits_char (c : Char) (r : List Nat) : fromUnits (unitsOf c ++ r) = (fromUnits r).map (c :: ·) := by
  have hr := char_range c
  unfold unitsOf
  split
  · rename_i h
    show fromUnits (c.toNat :: r) = _
    rw [fromUnits.eq_def]
    simp only []
    rw [if_pos (by omega), Char.ofNat_toNat]
  · rename_i h
    show fromUnits (_ :: _ :: r) = _
    rw [fromUnits.eq_def]
    simp only []
    rw [if_neg (by omega), if_pos (by omega), if_pos (by omega)]
    have : 65536 + (55296 + (c.toNat - 65536) / 1024 - 55296) * 1024 + (56320 + (c.toNat - 65536) % 1024 - 56320) = c.toNat := by omega
    rw [this, Char.ofNat_toNat]

theorem fromUnits_units (s : Str) : fromUnits (s.flatMap unitsOf) = some s := by
  induction s with
  | nil => rfl
  | cons c s ih =>
    show fromUnits (unitsOf c ++ s.flatMap unitsOf) = _
    rw [fromUnits_char, ih]
    rfl

theorem units_utf16 (little : Bool) (s : Str) : (units little (utf16 little s)).bind fromUnits = some s := by
  unfold utf16
  rw [units_bytes little _ (by
    intro u hu
    obtain ⟨c, _, hc⟩ := List.mem_flatMap.mp hu
    exact unitsOf_small c u hc)]
  exact fromUnits_units s

theorem decode_bom (little : Bool) (s : Str) : decodeFile (utf16Bom little s) = some s := by
  cases little with
  | true =>
    show decodeFile (0xFF :: 0xFE :: utf16 true s) = _
    unfold decodeFile
    rw [utf8_decode_high (by decide)]
    exact units_utf16 true s
  | false =>
    show decodeFile (0xFE :: 0xFF :: utf16 false s) = _
    unfold decodeFile
    rw [utf8_decode_high (by decide)]
    exact units_utf16 false s

theorem decode_utf8 (s : Str) : decodeFile (utf8 s) = some s := by
  unfold decodeFile
  rw [(utf8_decode_iff _ _).mpr rfl]

/-- A text with a zero before or after every character. -/
def padded (little : Bool) (s : Str) : Str := s.flatMap fun c => if little then [c, Char.ofNat 0] else [Char.ofNat 0, c]

theorem padded_utf8 (little : Bool) (s : Str) (h : ∀ c ∈ s, c.toNat < 128) : utf16 little s = utf8 (padded little s) := by
  induction s with
  | nil => rfl
  | cons c s ih =>
    have hc := h c List.mem_cons_self
    have ih := ih fun x hx => h x (List.mem_cons_of_mem _ hx)
    have e1 : utf16 little (c :: s) = (unitsOf c).flatMap (unitBytes little) ++ utf16 little s := by
      show (unitsOf c ++ s.flatMap unitsOf).flatMap (unitBytes little) = _
      rw [List.flatMap_append]
      rfl
    have e2 : unitsOf c = [c.toNat] := by unfold unitsOf; rw [if_pos (by omega)]
    have hz : UInt8.ofNat (c.toNat / 256) = 0 := by
      rw [show c.toNat / 256 = 0 by omega]; rfl
    have h0 : String.utf8EncodeChar (Char.ofNat 0) = [0] := by decide
    rw [e1, e2, ih]
    cases little with
    | true =>
      show [UInt8.ofNat c.toNat, UInt8.ofNat (c.toNat / 256)] ++ _ = utf8 (c :: Char.ofNat 0 :: padded true s)
      show _ = String.utf8EncodeChar c ++ (String.utf8EncodeChar (Char.ofNat 0) ++ utf8 (padded true s))
      rw [utf8_ascii_char hc, h0, hz]
      rfl
    | false =>
      show [UInt8.ofNat (c.toNat / 256), UInt8.ofNat c.toNat] ++ _ = utf8 (Char.ofNat 0 :: c :: padded false s)
      show _ = String.utf8EncodeChar (Char.ofNat 0) ++ (String.utf8EncodeChar c ++ utf8 (padded false s))
      rw [utf8_ascii_char hc, h0, hz]
      rfl

theorem sanitize_padded (little : Bool) (s : Str) : sanitize (padded little s) = sanitize s := by
  induction s with
  | nil => rfl
  | cons c s ih =>
    have hd : dropped (Char.ofNat 0) = true := by decide
    have ih : (padded little s).filter (fun c => !dropped c) = s.filter (fun c => !dropped c) := ih
    cases little with
    | true =>
      show (c :: Char.ofNat 0 :: padded true s).filter (fun c => !dropped c) = (c :: s).filter (fun c => !dropped c)
      rw [List.filter_cons, List.filter_cons, hd, List.filter_cons, ih]
      rfl
    | false =>
      show (Char.ofNat 0 :: c :: padded false s).filter (fun c => !dropped c) = (c :: s).filter (fun c => !dropped c)
      rw [List.filter_cons, hd, List.filter_cons, List.filter_cons, ih]
      rfl

theorem padded_noCR (little : Bool) (s : Str) (h : '\r' ∉ s) : '\r' ∉ padded little s := by
  unfold padded
  rw [List.mem_flatMap]
  rintro ⟨c, hc, hm⟩
  have : c ≠ '\r' := fun e => h (e ▸ hc)
  have h0 : '\r' ≠ Char.ofNat 0 := by decide
  cases little <;> simp [h0, this.symm] at hm

end Verif
