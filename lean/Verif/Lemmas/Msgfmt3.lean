/-
Reading translation files: encodings and strings.
-/
import Verif.Lemmas.Msgfmt2
import Verif.Lemmas.Str

namespace Verif
open Spec

theorem utf8_append (a b : Str) : utf8 (a ++ b) = utf8 a ++ utf8 b := List.flatMap_append

theorem utf8_ascii_char {c : Char} (h : c.toNat < 128) : String.utf8EncodeChar c = [UInt8.ofNat c.toNat] := by
  unfold String.utf8EncodeChar
  have : c.val.toNat ≤ 0x7f := by have : c.val.toNat = c.toNat := rfl; omega
  simp only [if_pos this]
  rfl

theorem utf8_high_char {c : Char} (h : ¬ c.toNat < 128) : ∀ b ∈ String.utf8EncodeChar c, 128 ≤ b.toNat := by
  unfold String.utf8EncodeChar
  have h0 : ¬ c.val.toNat ≤ 0x7f := by have : c.val.toNat = c.toNat := rfl; omega
  simp only [if_neg h0]
  intro b hb
  split at hb
  · simp only [List.mem_cons, List.not_mem_nil, or_false] at hb
    rcases hb with rfl | rfl <;> simp only [UInt8.toNat_ofNat'] <;> omega
  · split at hb
    · simp only [List.mem_cons, List.not_mem_nil, or_false] at hb
      rcases hb with rfl | rfl | rfl <;> simp only [UInt8.toNat_ofNat'] <;> omega
    · simp only [List.mem_cons, List.not_mem_nil, or_false] at hb
      rcases hb with rfl | rfl | rfl | rfl <;> simp only [UInt8.toNat_ofNat'] <;> omega

theorem utf8_inj {a b : Str} (h : utf8 a = utf8 b) : a = b := by
  have e : ∀ s : Str, (utf8 s).toByteArray.utf8Decode? = some s.toArray := fun s => List.utf8Decode?_utf8Encode
  have := e a
  rw [h, e b] at this
  simpa using this.symm

/-- A byte as a character. -/
def latin (b : UInt8) : Char := Char.ofNat b.toNat

theorem latin_toNat (b : UInt8) : (latin b).toNat = b.toNat := by
  unfold latin
  have : b.toNat < 256 := b.toNat_lt
  have hv : Nat.isValidChar b.toNat := .inl (by omega)
  unfold Char.ofNat
  rw [dif_pos hv]
  rfl

theorem latin_ascii {c : Char} (h : c.toNat < 128) : latin (UInt8.ofNat c.toNat) = c := by
  refine Char.toNat_inj.1 ?_
  rw [latin_toNat, UInt8.toNat_ofNat']
  omega

/-- How a text in UTF-8 looks with an encoding. -/
def view : Enc → Str → Str
  | .latin1, s => (utf8 s).map latin
  | _, s => s

theorem view_append (E : Enc) (a b : Str) : view E (a ++ b) = view E a ++ view E b := by
  cases E with
  | latin1 => show (utf8 (a ++ b)).map latin = _; rw [utf8_append, List.map_append]; rfl
  | utf8 => rfl
  | other => rfl

theorem view_cons (E : Enc) (c : Char) (s : Str) : view E (c :: s) = view E [c] ++ view E s := view_append E [c] s

theorem view_nil (E : Enc) : view E [] = [] := by cases E <;> rfl

theorem view_char {E : Enc} {c : Char} (h : c.toNat < 128) : view E [c] = [c] := by
  cases E with
  | latin1 =>
    show ([c].flatMap String.utf8EncodeChar).map latin = _
    rw [List.flatMap_singleton, utf8_ascii_char h, List.map_singleton, latin_ascii h]
  | utf8 => rfl
  | other => rfl

theorem view_high {E : Enc} {c : Char} (h : ¬ c.toNat < 128) : ∀ x ∈ view E [c], 128 ≤ x.toNat := by
  cases E with
  | latin1 =>
    intro x hx
    have hx : x ∈ ([c].flatMap String.utf8EncodeChar).map latin := hx
    rw [List.flatMap_singleton, List.mem_map] at hx
    obtain ⟨b, hb, rfl⟩ := hx
    rw [latin_toNat]
    exact utf8_high_char h b hb
  | utf8 =>
    intro x hx
    rw [List.mem_singleton.1 hx]; omega
  | other =>
    intro x hx
    rw [List.mem_singleton.1 hx]; omega

theorem view_ascii {E : Enc} {s : Str} (h : ∀ c ∈ s, c.toNat < 128) : view E s = s := by
  induction s with
  | nil => exact view_nil E
  | cons c s ih =>
    rw [view_cons, view_char (h c List.mem_cons_self), ih fun x hx => h x (List.mem_cons_of_mem _ hx)]
    rfl

theorem utf8_ascii {s : Str} (h : ∀ c ∈ s, c.toNat < 128) : utf8 s = s.map fun c => UInt8.ofNat c.toNat := by
  induction s with
  | nil => rfl
  | cons c s ih =>
    show String.utf8EncodeChar c ++ utf8 s = _
    rw [utf8_ascii_char (h c List.mem_cons_self), ih fun x hx => h x (List.mem_cons_of_mem _ hx)]
    rfl

theorem decode_view {E : Enc} (h : E ≠ .other) (s : Str) : E.decode (utf8 s) = some (view E s) := by
  cases E with
  | latin1 => rfl
  | utf8 =>
    show (utf8 s).toByteArray.utf8Decode?.map Array.toList = _
    have : (utf8 s).toByteArray.utf8Decode? = some s.toArray := List.utf8Decode?_utf8Encode
    rw [this]
    rfl
  | other => exact absurd rfl h

theorem encode_view {E : Enc} (h : E ≠ .other) (s : Str) : E.encode (view E s) = some (utf8 s) := by
  cases E with
  | latin1 =>
    show (if ((utf8 s).map latin).all _ = true then some (((utf8 s).map latin).map _) else none) = _
    rw [if_pos]
    · rw [List.map_map]
      refine congrArg some ?_
      refine (List.map_congr_left fun b _ => ?_).trans (List.map_id _)
      show UInt8.ofNat (latin b).toNat = b
      rw [latin_toNat]
      exact UInt8.ofNat_toNat
    · rw [List.all_eq_true]
      intro x hx
      obtain ⟨b, _, rfl⟩ := List.mem_map.1 hx
      rw [latin_toNat]
      simpa using b.toNat_lt
  | utf8 => rfl
  | other => exact absurd rfl h

theorem Spec.Denotes.append {a b c d : Str} (h1 : Denotes a b) (h2 : Denotes c d) : Denotes (a ++ c) (b ++ d) := by
  induction h1 with
  | nil => exact h2
  | plain hc h0 _ ih => exact .plain hc h0 ih
  | escape hc _ ih => exact .escape hc ih

theorem denotes_high {s : Str} (h : ∀ x ∈ s, 128 ≤ x.toNat) : Denotes s s := by
  induction s with
  | nil => exact .nil
  | cons c s ih =>
    have hc := h c List.mem_cons_self
    refine .plain ?_ ?_ (ih fun x hx => h x (List.mem_cons_of_mem _ hx))
    · intro hm
      have : ∀ x ∈ c!"\"\\\n\r", x.toNat < 128 := by decide
      have := this c hm
      omega
    · intro e
      rw [e] at hc
      revert hc; decide

theorem denotes_view (E : Enc) {a b : Str} (h : Denotes a b) : Denotes (view E a) (view E b) := by
  induction h with
  | nil => rw [view_nil]; exact .nil
  | @plain c r t hc h0 _ ih =>
    rw [view_cons E c r, view_cons E c t]
    refine Spec.Denotes.append ?_ ih
    by_cases h : c.toNat < 128
    · rw [view_char h]; exact .plain hc h0 .nil
    · exact denotes_high (view_high h)
  | @escape c d r t hc _ ih =>
    have ha : ∀ p ∈ [('n', '\n'), ('t', '\t'), ('r', '\r'), ('"', '"'), ('\'', '\''), ('\\', '\\')], p.1.toNat < 128 ∧ p.2.toNat < 128 := by decide
    obtain ⟨h1, h2⟩ := ha _ hc
    have e : '\\' :: c :: r = ['\\', c] ++ r := rfl
    rw [e, view_append, view_cons E d t, view_char h2, view_ascii (s := ['\\', c])]
    · exact .escape hc ih
    · intro x hx
      rcases List.mem_cons.1 hx with rfl | hx
      · decide
      · rw [List.mem_singleton.1 hx]; exact h1

theorem literalBody_denotes {a b : Str} (h : Denotes a b) : literalBody (a ++ c!"\"") = some b := by
  induction h with
  | nil => rfl
  | @plain c r t hc h0 _ ih =>
    simp only [List.mem_cons, List.not_mem_nil, or_false, not_or] at hc
    obtain ⟨h1, h2, h3, h4⟩ := hc
    rw [List.cons_append, literalBody]
    · rw [if_neg (by simp [h2, h3, h4]; exact h0), ih]; rfl
    · intro e; exact h1 e
    · intro _ _ e; exact absurd e h2
  | @escape c d r t hc _ ih =>
    have ha : ∀ p ∈ [('n', '\n'), ('t', '\t'), ('r', '\r'), ('"', '"'), ('\'', '\''), ('\\', '\\')], escapeValue p.1 = some p.2 := by decide
    have := ha _ hc
    rw [List.cons_append, List.cons_append, literalBody, this, ih]
    rfl

theorem rstrip_trail (s b : Str) (hb : ∀ c ∈ b, Str.isWs c = true) : Str.rstripBy Str.isWs (s ++ b) = Str.rstripBy Str.isWs s := by
  induction b generalizing s with
  | nil => rw [List.append_nil]
  | cons c b ih =>
    rw [List.append_cons, ih (s ++ [c]) fun x hx => hb x (List.mem_cons_of_mem _ hx), Str.rstripBy_append_single, if_pos (hb c List.mem_cons_self)]

theorem strip_quoted (a b s : Str) (ha : ∀ c ∈ a, Str.isWs c = true) (hb : ∀ c ∈ b, Str.isWs c = true) :
    Str.strip (a ++ (c!"\"" ++ s ++ c!"\"") ++ b) = c!"\"" ++ s ++ c!"\"" := by
  unfold Str.strip Str.stripBy Str.lstripBy
  rw [List.append_assoc, List.dropWhile_append_of_pos ha]
  have e : c!"\"" ++ s ++ c!"\"" ++ b = '"' :: (s ++ c!"\"" ++ b) := rfl
  rw [e, List.dropWhile_cons_of_neg (by decide), ← e, rstrip_trail _ _ hb, Str.rstripBy_append_single, if_neg (by decide)]

theorem pyLiteral_denotes {a b : Str} (h : Denotes a b) : pyLiteral (c!"\"" ++ a ++ c!"\"") = some b := literalBody_denotes h

/-! ### ASCII patterns in a view -/

theorem prefix_view {E : Enc} {p : Str} (hp : ∀ c ∈ p, c.toNat < 128) : ∀ s : Str, p.isPrefixOf (view E s) = p.isPrefixOf s := by
  induction p with
  | nil => intro s; rfl
  | cons a p ih =>
    intro s
    cases s with
    | nil => rw [view_nil]
    | cons c s =>
      rw [view_cons]
      by_cases h : c.toNat < 128
      · rw [view_char h]
        show (a == c && p.isPrefixOf (view E s)) = (a == c && p.isPrefixOf s)
        rw [ih (fun x hx => hp x (List.mem_cons_of_mem _ hx))]
      · have hne : a ≠ c := fun e => h (e ▸ hp a List.mem_cons_self)
        have e2 : (a :: p).isPrefixOf (c :: s) = false := by
          show (a == c && _) = false
          rw [beq_eq_false_iff_ne.2 hne]; rfl
        rw [e2]
        cases hv : view E [c] with
        | nil =>
          exfalso
          cases E with
          | latin1 =>
            have hv : ([c].flatMap String.utf8EncodeChar).map latin = [] := hv
            rw [List.flatMap_singleton, List.map_eq_nil_iff] at hv
            revert hv
            unfold String.utf8EncodeChar
            dsimp only
            split
            · simp
            · split
              · simp
              · split <;> simp
          | utf8 => cases hv
          | other => cases hv
        | cons x v =>
          show (a == x && _) = false
          have hx := view_high h x (by rw [hv]; exact List.mem_cons_self)
          have : a ≠ x := fun e => by
            have := hp a List.mem_cons_self
            rw [e] at this; omega
          rw [beq_eq_false_iff_ne.2 this]; rfl

theorem contains_skip {p : Str} {a : Char} (ha : a.toNat < 128) (t : Str) : ∀ v : Str, (∀ x ∈ v, 128 ≤ x.toNat) →
    Str.contains (v ++ t) (a :: p) = Str.contains t (a :: p) := by
  intro v
  induction v with
  | nil => intro _; rfl
  | cons x v ih =>
    intro h
    rw [List.cons_append, Str.contains, ih fun y hy => h y (List.mem_cons_of_mem _ hy)]
    have : a ≠ x := fun e => by
      have := h x List.mem_cons_self
      rw [← e] at this; omega
    have : (a :: p).isPrefixOf (x :: (v ++ t)) = false := by
      show (a == x && _) = false
      rw [beq_eq_false_iff_ne.2 this]; rfl
    rw [this]; rfl

theorem contains_view {E : Enc} {p : Str} {a : Char} (hp : ∀ c ∈ a :: p, c.toNat < 128) : ∀ s : Str, Str.contains (view E s) (a :: p) = Str.contains s (a :: p) := by
  intro s
  induction s with
  | nil => rw [view_nil]
  | cons c s ih =>
    by_cases h : c.toNat < 128
    · have e : view E (c :: s) = c :: view E s := by rw [view_cons, view_char h]; rfl
      rw [e, Str.contains, Str.contains, ih, ← e, prefix_view hp]
    · rw [view_cons, contains_skip (hp a List.mem_cons_self) _ _ (view_high h), ih, Str.contains]
      have : a ≠ c := fun e => h (e ▸ hp a List.mem_cons_self)
      have : (a :: p).isPrefixOf (c :: s) = false := by
        show (a == c && _) = false
        rw [beq_eq_false_iff_ne.2 this]; rfl
      rw [this]; rfl

end Verif
