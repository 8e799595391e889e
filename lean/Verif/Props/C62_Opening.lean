/-
C62: a project file is opened no matter how it is encoded.
-/
import Verif.Lemmas.Opening

namespace Verif
open Spec

/-- What is opened depends only on the text that gets to the XML parser. -/
theorem open_congr {lib : PyLib} {xml : XmlLib} {a b : Bytes} {s t : Str} (ha : decodeFile a = some s) (hb : decodeFile b = some t)
    (h : parserInput s = parserInput t) : openYw7 lib xml false (some a) = openYw7 lib xml false (some b) := by
  unfold openYw7
  rw [Option.bind_some, Option.bind_some, ha, hb]
  simp only [h]

/-- A project file in UTF-8 is opened, and the result is that of reading its text; this connects files
of bytes with all that is proved about the texts of files. -/
theorem C62_utf8 (lib : PyLib) (s : Str) (parse : Option Bytes → Except Str Elem) (r : Elem × Novel) :
    openYw7 lib ⟨parseXml, parse⟩ false (some (utf8 s)) = .ok r ↔ loadFile lib s = some r := by
  unfold openYw7 loadFile
  rw [Option.bind_some, decode_utf8]
  simp only [Bool.false_eq_true, if_false]
  cases parseXml (parserInput s) with
  | none => simp
  | some x =>
    dsimp only
    cases readTree lib x with
    | error e => simp
    | ok n => simp

/-- A project file in UTF-16 with byte order mark, no matter of which byte order, gives the same as one in
UTF-8 with the same text: for every text, and whatever the XML parser does. -/
theorem C62_utf16 (lib : PyLib) (xml : XmlLib) (little : Bool) (s : Str) :
    openYw7 lib xml false (some (utf16Bom little s)) = openYw7 lib xml false (some (utf8 s)) :=
  open_congr (decode_bom little s) (decode_utf8 s) rfl

/-- Without byte order mark this holds for ASCII texts without carriage returns, also for both byte orders.
Other texts may be altered, see `C62_refute_letters` and `C62_refute_lines`. -/
theorem C62_ascii_partial (lib : PyLib) (xml : XmlLib) (little : Bool) (s : Str) (hs : ∀ c ∈ s, c.toNat < 128 ∧ c ≠ '\r') :
    openYw7 lib xml false (some (utf16 little s)) = openYw7 lib xml false (some (utf8 s)) := by
  have hd : decodeFile (utf16 little s) = some (padded little s) := by
    rw [padded_utf8 little s fun c hc => (hs c hc).1]
    exact decode_utf8 _
  refine open_congr hd (decode_utf8 s) ?_
  have hr : '\r' ∉ s := fun h => (hs _ h).2 rfl
  unfold parserInput
  rw [universalNewlines_noCR fun c hc e => padded_noCR little s hr (e ▸ hc), universalNewlines_noCR fun c hc e => hr (e ▸ hc)]
  exact sanitize_padded little s

/-- Without byte order mark this also holds for every text of which the bytes are not a text in UTF-8, if the
byte order is that of the machine and the text does not begin with a byte order mark or its reverse. -/
theorem C62_unmarked_partial (lib : PyLib) (xml : XmlLib) (s : Str) (hv : ¬ ∃ t, utf16 true s = utf8 t)
    (h1 : ¬ [0xFF, 0xFE] <+: utf16 true s) (h2 : ¬ [0xFE, 0xFF] <+: utf16 true s) :
    openYw7 lib xml false (some (utf16 true s)) = openYw7 lib xml false (some (utf8 s)) := by
  refine open_congr (s := s) (t := s) ?_ (decode_utf8 s) rfl
  unfold decodeFile
  cases hd : Enc.utf8.decode (utf16 true s) with
  | some t => exact absurd ⟨t, (utf8_decode_iff _ _).mp hd⟩ hv
  | none =>
    dsimp only
    have hu := units_utf16 true s
    generalize utf16 true s = b at *
    unfold decodeUtf16
    split
    · exact absurd ⟨_, rfl⟩ h1
    · exact absurd ⟨_, rfl⟩ h2
    · exact hu

/-- A byte order mark at the beginning of a file in UTF-8 is given to the XML parser, which ignores it. -/
theorem C62_utf8Bom (lib : PyLib) (xml : XmlLib) (hx : ∀ t, xml.fromText (bomChar :: t) = xml.fromText t) (s : Str) :
    openYw7 lib xml false (some (utf8 (bomChar :: s))) = openYw7 lib xml false (some (utf8 s)) := by
  have hb : parserInput (bomChar :: s) = bomChar :: parserInput s := by
    unfold parserInput
    rw [show universalNewlines (bomChar :: s) = bomChar :: universalNewlines s from by
      unfold bomChar
      rw [universalNewlines] <;> simp]
    unfold sanitize
    rw [List.filter_cons, if_pos (by decide)]
  unfold openYw7
  rw [Option.bind_some, Option.bind_some, decode_utf8, decode_utf8]
  simp only [hb, hx]

/-! ### What is reported to the user -/

/-- A project that is locked is not opened, whatever its contents: the user gets a message. -/
theorem C62_locked (lib : PyLib) (xml : XmlLib) (file : Option Bytes) : IsError (openYw7 lib xml true file) := ⟨_, rfl⟩

/-- If there is no such file, the user gets a message. -/
theorem C62_missing (lib : PyLib) (xml : XmlLib) (hx : ∃ m, xml.parse none = .error m) (locked : Bool) : IsError (openYw7 lib xml locked none) := by
  obtain ⟨m, hm⟩ := hx
  cases locked with
  | true => exact ⟨_, rfl⟩
  | false => exact ⟨_, by unfold openYw7; simp only [Bool.false_eq_true, if_false, Option.bind_none, hm]; rfl⟩

/-- A file that is neither UTF-8 nor UTF-16 nor a document for the XML parser: the user gets a message. -/
theorem C62_undecodable (lib : PyLib) (xml : XmlLib) (b : Bytes) (h8 : ¬ ∃ s, b = utf8 s) (h16 : decodeUtf16 b = none)
    (hx : ∃ m, xml.parse (some b) = .error m) : IsError (openYw7 lib xml false (some b)) := by
  obtain ⟨m, hm⟩ := hx
  have hd : decodeFile b = none := by
    unfold decodeFile
    cases he : Enc.utf8.decode b with
    | some s => exact absurd ⟨s, (utf8_decode_iff _ _).mp he⟩ h8
    | none => exact h16
  exact ⟨_, by unfold openYw7; simp only [Bool.false_eq_true, if_false, Option.bind_some, hd, hm]; rfl⟩

/-- The whole: the result is a project exactly if the project is not locked, the file is there, it can be
decoded, its text is a document, and the elements have values that can be read. -/
theorem C62_opened_iff (lib : PyLib) (xml : XmlLib) (locked : Bool) (file : Option Bytes) (x : Elem) (n : Novel) :
    openYw7 lib xml locked file = .ok (x, n) ↔
      locked = false ∧ ∃ b s, file = some b ∧ (b = utf8 s ∨ (¬ ∃ t, b = utf8 t) ∧ decodeUtf16 b = some s) ∧
        xml.fromText (parserInput s) = some x ∧ readTree lib x = .ok n := by
  have hdec : ∀ b s, decodeFile b = some s ↔ (b = utf8 s ∨ (¬ ∃ t, b = utf8 t) ∧ decodeUtf16 b = some s) := by
    intro b s
    unfold decodeFile
    cases he : Enc.utf8.decode b with
    | some t =>
      have ht := (utf8_decode_iff _ _).mp he
      dsimp only
      constructor
      · intro h
        cases h
        exact Or.inl ht
      · rintro (h | ⟨h, _⟩)
        · rw [utf8_inj (ht.symm.trans h)]
        · exact absurd ⟨t, ht⟩ h
    | none =>
      dsimp only
      have hn : ¬ ∃ t, b = utf8 t := by
        rintro ⟨t, ht⟩
        rw [(utf8_decode_iff b t).mpr ht] at he
        cases he
      constructor
      · exact fun h => Or.inr ⟨hn, h⟩
      · rintro (h | ⟨_, h⟩)
        · exact absurd ⟨s, h⟩ hn
        · exact h
  cases locked with
  | true => unfold openYw7; simp
  | false =>
    cases file with
    | none =>
      unfold openYw7
      simp only [Bool.false_eq_true, if_false, Option.bind_none]
      constructor
      · intro h
        split at h <;> cases h
      · rintro ⟨_, b, s, h, _⟩
        cases h
    | some b =>
      unfold openYw7
      simp only [Bool.false_eq_true, if_false, Option.bind_some]
      constructor
      · intro h
        split at h
        · split at h <;> cases h
        · rename_i s hs
          split at h
          · cases h
          · rename_i y hy
            split at h
            · cases h
            · rename_i m hm
              cases h
              exact ⟨trivial, b, s, rfl, (hdec b s).mp hs, hy, hm⟩
      · rintro ⟨_, b', s, hb, hs, hx, hn⟩
        cases hb
        simp only [(hdec b s).mpr hs, hx, hn]

/-! ### Limits -/

/-- Not every failure gives a message: a file with a text that is not well-formed raises a `ParseError`
that the method does not catch. -/
theorem C62_refute_malformed (lib : PyLib) (xml : XmlLib) (s : Str) (h : xml.fromText (parserInput s) = none) :
    openYw7 lib xml false (some (utf8 s)) = .error .parseError ∧ ¬ IsError (openYw7 lib xml false (some (utf8 s))) := by
  have e : openYw7 lib xml false (some (utf8 s)) = .error .parseError := by
    unfold openYw7
    simp only [Bool.false_eq_true, if_false, Option.bind_some, decode_utf8, h]
  refine ⟨e, ?_⟩
  rintro ⟨m, hm⟩
  rw [e] at hm
  cases hm

/-- A file in another encoding which the XML parser knows is not opened either, but raises an
`UnboundLocalError`: the third attempt to read the file parses it and forgets the result. -/
theorem C62_refute_other (lib : PyLib) (xml : XmlLib) (b : Bytes) (h8 : ¬ ∃ s, b = utf8 s) (h16 : decodeUtf16 b = none) (x : Elem)
    (hx : xml.parse (some b) = .ok x) : openYw7 lib xml false (some b) = .error .unboundLocal := by
  have hd : decodeFile b = none := by
    unfold decodeFile
    cases he : Enc.utf8.decode b with
    | some s => exact absurd ⟨s, (utf8_decode_iff _ _).mp he⟩ h8
    | none => exact h16
  unfold openYw7
  simp only [Bool.false_eq_true, if_false, Option.bind_some, hd, hx]

/-- In a file without byte order mark, letters may be replaced silently: for `<A>Ł</A>` the parser gets `<A>A</A>`. -/
theorem C62_refute_letters : (decodeFile (utf16 true c!"<A>Ł</A>")).map parserInput = some c!"<A>A</A>" ∧ parserInput c!"<A>Ł</A>" = c!"<A>Ł</A>" := by
  have h : utf16 true c!"<A>Ł</A>" = utf8 [Char.ofNat 60, Char.ofNat 0, 'A', Char.ofNat 0, '>', Char.ofNat 0, 'A', Char.ofNat 1, '<', Char.ofNat 0, '/', Char.ofNat 0, 'A', Char.ofNat 0, '>', Char.ofNat 0] := by
    decide
  rw [h, decode_utf8]
  decide

/-- In a file without byte order mark, the line ends CR-LF are doubled. -/
theorem C62_refute_lines : (decodeFile (utf16 true c!"a\r\nb")).map parserInput = some c!"a\n\nb" ∧ parserInput c!"a\r\nb" = c!"a\nb" := by
  have h : utf16 true c!"a\r\nb" = utf8 ['a', Char.ofNat 0, '\r', Char.ofNat 0, '\n', Char.ofNat 0, 'b', Char.ofNat 0] := by
    decide
  rw [h, decode_utf8]
  decide

/-! ### Examples -/

/-- A text with a letter outside of the basic plane, in UTF-16. -/
example : utf16Bom false c!"é😀" = [0xFE, 0xFF, 0x00, 0xE9, 0xD8, 0x3D, 0xDE, 0x00] := by decide

/-- A text in UTF-16 that is no text in UTF-8. -/
example : ¬ ∃ t, utf16 true c!"<A>é</A>" = utf8 t := by
  rintro ⟨t, ht⟩
  have hv : ByteArray.IsValidUTF8 (utf16 true c!"<A>é</A>").toByteArray := ⟨t, by rw [ht]; rfl⟩
  rw [← ByteArray.isSome_utf8Decode?_iff, ByteArray.isSome_utf8Decode?_eq_validateUTF8] at hv
  revert hv
  decide +kernel

/-- A small project, in UTF-16 without byte order mark, of the other byte order. -/
example : (∀ c ∈ c!"<YWRITER7><PROJECT><Title>A</Title></PROJECT></YWRITER7>\n", c.toNat < 128 ∧ c ≠ '\r') := by decide +kernel

/-- A text that is not well-formed. -/
example : parseXml (parserInput c!"<YWRITER7><PROJECT></YWRITER7>") = none := by decide +kernel

/-- A text in Latin-1, with an odd number of bytes, cannot be decoded. -/
example : decodeUtf16 (c!"<?xml version=\"1.0\" encoding=\"iso-8859-1\"?><A>ä</A>".map fun c => UInt8.ofNat c.toNat) = none := by decide +kernel

end Verif
