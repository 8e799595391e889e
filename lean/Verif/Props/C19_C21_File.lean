/-
C19 and C21: the text of the project file.
-/
import Verif.Lemmas.Text4
import Verif.Model.Yw7Write

namespace Verif
open Elem Spec

/-! ### C19 -/

/-- C19: what the reader deletes: the control characters that XML does not allow, and the bar. -/
theorem C19_dropped (c : Char) :
    dropped c = true ↔ c = '|' ∨ (c.toNat < 0x20 ∧ c ≠ '\t' ∧ c ≠ '\n' ∧ c ≠ '\r') := by
  have e : ∀ d : Char, c ≠ d ↔ c.toNat ≠ d.toNat := by
    intro d
    constructor
    · intro h h2; exact h (Char.toNat_inj.1 h2)
    · intro h h2; exact h (congrArg _ h2)
  have h1 := e '\t'
  have h2 := e '\n'
  have h3 := e '\r'
  have n1 : ('\t' : Char).toNat = 9 := rfl
  have n2 : ('\n' : Char).toNat = 10 := rfl
  have n3 : ('\r' : Char).toNat = 13 := rfl
  rw [n1] at h1; rw [n2] at h2; rw [n3] at h3
  rw [h1, h2, h3]
  unfold dropped
  simp only [Bool.or_eq_true, Bool.and_eq_true, decide_eq_true_eq]
  by_cases hb : c = '|'
  · simp [hb]
  · simp only [hb, false_or, or_false]; omega

/-- **C19** for texts without a bar: only control characters that are illegal in XML are dropped, and the
remaining ones are delivered to the parser in order. -/
theorem C19_partial (s : Str) (h : '|' ∉ s) :
    sanitize s = s.filter (fun c => xmlLegal c || decide (0x20 ≤ c.toNat)) := by
  unfold sanitize
  refine List.filter_congr ?_
  intro c hc
  have hd := C19_dropped c
  have hb : c ≠ '|' := fun e => h (e ▸ hc)
  rw [Bool.eq_iff_iff]
  simp only [Bool.not_eq_true', Bool.or_eq_true, decide_eq_true_eq]
  rw [← Bool.not_eq_true, hd]
  unfold xmlLegal
  simp only [Bool.or_eq_true, Bool.and_eq_true, decide_eq_true_eq, bne_iff_ne, ne_eq]
  constructor
  · intro hn
    by_cases h1 : c.toNat < 0x20
    · left; left
      by_cases t1 : c = '\t'
      · exact Or.inl (Or.inl t1)
      · by_cases t2 : c = '\n'
        · exact Or.inl (Or.inr t2)
        · by_cases t3 : c = '\r'
          · exact Or.inr t3
          · exact absurd (Or.inr ⟨h1, t1, t2, t3⟩) hn
    · right; omega
  · rintro (((((rfl | rfl) | rfl) | hh)) | hh) <;> rintro (hx | hx)
    · exact hb hx
    · exact hx.2.1 rfl
    · exact hb hx
    · exact hx.2.2.1 rfl
    · exact hb hx
    · exact hx.2.2.2 rfl
    · exact hb hx
    · omega
    · exact hb hx
    · omega

/-- **C19 is false**: the reader also deletes every vertical bar. A file that contains the title `a|b` is
read as having the title `ab`. -/
theorem C19_false : ∃ file : Str, (∀ c ∈ file, xmlLegal c = true) ∧
    parseXml file = some (node c!"T" none none [node c!"Title" (some c!"a|b") none []]) ∧
    parseXml (parserInput file) = some (node c!"T" none none [node c!"Title" (some c!"ab") none []]) :=
  ⟨c!"<T><Title><![CDATA[a|b]]></Title></T>", by decide, rfl, rfl⟩

/-- Without bars and illegal control characters, and with newlines as line ends, nothing is changed. -/
theorem C19_unchanged (s : Str) (h : ∀ c ∈ s, safeChar c) : parserInput s = s := parserInput_safe h

/-! ### C21 -/

/-- **C21, whole files**: if a tree consists of texts that are safe, then the file that is written for it
is well-formed, and a parser returns the tree with the same elements and texts. -/
theorem C21_file_partial (hasChapters : Bool) (e : Elem) (h : SafeTree e) (ht : BlankTail e) :
    ∃ e', parseXml (parserInput (fileText hasChapters e)) = some e' ∧ Reloaded e e' := by
  obtain ⟨e', h1, h2, _⟩ := parse_fileText hasChapters h ht
  exact ⟨e', h1, h2⟩

/-- **C21, text fields**: every safe text of a field with a CDATA section comes back literally. -/
theorem C21_field_partial (t s : Str) (ht : t ∈ cdataTags) (hne : s ≠ []) (hs : SafeCdata s) :
    parseXml (parserInput (fileText true (leaf t (some s)))) = some (leaf t (some s)) := by
  have hsafe : SafeTree (leaf t (some s)) := by
    unfold leaf
    rw [SafeTree]
    refine ⟨cdataTags_names t ht, ?_, ⟨?_, ⟨[], .nil⟩, ?_, ?_⟩, trivial⟩
    · rw [if_pos ht]; exact ⟨hs, rfl⟩
    · intro c hc; cases hc
    · intro h
      have := h.length_le
      simp at this
    · intro h
      have := h.length_le
      simp at this
  obtain ⟨e', h1, h2, h3⟩ := parse_fileText true hsafe (by intro c hc; cases hc)
  rw [h1]
  congr 1
  unfold leaf at h2 ⊢
  generalize hw : node t (some s) none [] = w at h2
  cases h2 with
  | leaf t' x x' y y' hc =>
    injection hw with w1 w2 w3 w4
    subst w1; subst w2
    have hx : x' = some s := by
      cases hc with
      | cdata _ _ _ => rfl
      | plain _ _ hn => exact absurd ht hn
      | empty => exact absurd rfl hne
    cases h3
    cases w3
    rw [hx]
  | inner => injection hw with w1 w2 w3 w4; cases w4

/-- The conditions are needed, and **C21 is false** without them: a scene conflict with an ampersand makes
the file unreadable; a description loses a newline at its end, and a blank and a newline at its beginning;
a title loses its bars. -/
theorem C21_false :
    parseXml (parserInput (fileText true (leaf c!"Conflict" (some c!"he & she")))) = none ∧
    parseXml (parserInput (fileText true (leaf c!"Desc" (some c!"a\n")))) = some (leaf c!"Desc" (some c!"a")) ∧
    parseXml (parserInput (fileText true (leaf c!"Desc" (some c!" \na")))) = some (leaf c!"Desc" (some c!"a")) ∧
    parseXml (parserInput (fileText true (leaf c!"Title" (some c!"a|b")))) = some (leaf c!"Title" (some c!"ab")) :=
  ⟨rfl, rfl, rfl, rfl⟩

theorem safeRaw_of {s : Str} (h : s.all (fun c => xmlLegal c && c != '\r' && c != '|' && c != '<' && c != '>' && c != '&') = true)
    (h1 : Str.contains s c!"[CDATA[ \n" = false) (h2 : Str.contains s c!"\n]]" = false) : SafeRaw s := by
  refine ⟨?_, ⟨s, ?_⟩, (contains_false_iff _ _).1 h1, (contains_false_iff _ _).1 h2⟩
  · intro c hc
    have := List.all_eq_true.1 h c hc
    simp only [Bool.and_eq_true, bne_iff_ne, ne_eq] at this
    exact ⟨this.1.1.1.1.1, this.1.1.1.1.2, this.1.1.1.2⟩
  · clear h1 h2
    induction s with
    | nil => exact .nil
    | cons c s ih =>
      rw [List.all_cons, Bool.and_eq_true] at h
      have hc := h.1
      simp only [Bool.and_eq_true, bne_iff_ne, ne_eq] at hc
      exact .char c hc.1.1.1.1.1 hc.1.1.2 hc.1.2 hc.2 hc.1.1.1.1.2 (ih h.2)

theorem safeCdata_of {s : Str} (h : s.all (fun c => xmlLegal c && c != '\r' && c != '|') = true)
    (h0 : Str.contains s c!"]]>" = false)
    (h1 : Str.contains (c!"[CDATA[" ++ s) c!"[CDATA[ \n" = false) (h2 : Str.contains (s ++ c!"]]") c!"\n]]" = false) :
    SafeCdata s :=
  ⟨safe_of_all h, (contains_false_iff _ _).1 h0, (contains_false_iff _ _).1 h1, (contains_false_iff _ _).1 h2⟩

/-- Texts with XML markup, brackets and several lines are safe. -/
example : SafeCdata c!"<b> & \"c\" [i]]\n\nsecond line</b> &amp; ]" :=
  safeCdata_of (by decide) (by decide) (by decide) (by decide)

end Verif
