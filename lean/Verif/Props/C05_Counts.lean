/-
C05: word and letter counts.
-/
import Verif.Lemmas.Counts

namespace Verif
open Re

/-- Assigning the scene content sets the content and both counts, and nothing else. -/
theorem C05_setter (s : Scene) (text : Str) :
    (s.setContent text).sceneContent = some text ∧
    (s.setContent text).wordCount = wordCountOf text ∧
    (s.setContent text).letterCount = letterCountOf text ∧
    { s.setContent text with
        sceneContent := s.sceneContent, wordCount := s.wordCount, letterCount := s.letterCount } = s :=
  ⟨rfl, rfl, rfl, rfl⟩

/-- The counts depend on the last assignment only. -/
theorem C05_last_assignment (s : Scene) (t u : Str) :
    (s.setContent t).setContent u = s.setContent u := rfl

/-- Word counts add up over lines. -/
theorem C05_words_additive (a b : Str) :
    wordCountOf (a ++ c!"\n" ++ b) = wordCountOf a + wordCountOf b := by
  simp only [wordCountOf, List.append_assoc, List.cons_append, List.nil_append]
  rw [sub_additional_newline, sub_noWord_newline, words_newline, List.length_append]

/-- Letter counts add up over lines. -/
theorem C05_letters_additive (a b : Str) :
    letterCountOf (a ++ c!"\n" ++ b) = letterCountOf a + letterCountOf b := by
  simp only [letterCountOf, List.append_assoc, List.cons_append, List.nil_append]
  rw [sub_nonLetters_newline, List.length_append]

/-- Hence the counts of a text are the sums over its lines, for any number of lines. -/
theorem C05_sum_over_lines (lines : List Str) :
    wordCountOf (Str.join c!"\n" lines) = (lines.map wordCountOf).sum ∧
    letterCountOf (Str.join c!"\n" lines) = (lines.map letterCountOf).sum := by
  induction lines with
  | nil => exact ⟨by decide, by decide⟩
  | cons l r ih =>
    cases r with
    | nil => simp [Str.join]
    | cons m r =>
      have e : Str.join c!"\n" (l :: m :: r) = l ++ c!"\n" ++ Str.join c!"\n" (m :: r) := rfl
      rw [e, C05_words_additive, C05_letters_additive, ih.1, ih.2]
      simp

/-- The letter count never exceeds the length of the text. -/
theorem C05_letters_le_length (t : Str) : letterCountOf t ≤ t.length :=
  subGo_nil_length _ _ _ _

/-- Text without any `[` or `/` counts every character except line breaks. -/
theorem C05_letters_plain (t : Str) (h : ∀ c ∈ t, c ≠ '[' ∧ c ≠ '/') :
    letterCountOf t = (t.filter (fun c => c ≠ '\n' && c ≠ '\r')).length := by
  have := sub_nonLetters_plain t [] h
  simp only [List.append_nil] at this
  simp only [letterCountOf, this]
  simp [sub, subGo]

/-- A `[tag]` (a bracket, at least one character, a bracket, all on one line) contributes
nothing, whatever text follows. -/
theorem C05_tag_not_counted (a x b : Str) (ha : ∀ c ∈ a, c ≠ '[' ∧ c ≠ '/') (hx : x ≠ [])
    (hbr : ']' ∉ x) (hnl : '\n' ∉ x) :
    letterCountOf (a ++ (c!"[" ++ x ++ c!"]") ++ b) = letterCountOf a + letterCountOf b := by
  have hsub : sub nonLetters [] ((c!"[" ++ x ++ c!"]") ++ b) = sub nonLetters [] b := by
    refine sub_nonLetters_match _ b (x.length + 1) (by simp) ?_
    cases x with
    | nil => exact absurd rfl hx
    | cons c cs =>
      have hc : c ≠ '\n' := fun e => hnl (by simp [e])
      have hl := lazyTo_first c!"]" cs b (by simp) (fun h => hnl (by simp [h]))
        ((Str.freeOf_singleton ']' cs).2 (fun h => hbr (by simp [h])))
      simp only [List.append_assoc, List.cons_append, List.nil_append] at hl ⊢
      simp only [nonLetters, alt, between1]
      simp [List.isPrefixOf, hc, hl]
  have h1 := sub_nonLetters_plain a ((c!"[" ++ x ++ c!"]") ++ b) ha
  have h2 := sub_nonLetters_plain a [] ha
  simp only [List.append_nil] at h2
  simp only [letterCountOf]
  rw [List.append_assoc, h1, hsub, h2]
  simp [sub, subGo]

/-- A comment on one line contributes nothing, whatever text follows. -/
theorem C05_comment_not_counted (a x b : Str) (ha : ∀ c ∈ a, c ≠ '[' ∧ c ≠ '/') (hx : x ≠ [])
    (hfree : ¬ c!"*/" <:+: x.tail ++ c!"*") (hnl : '\n' ∉ x) :
    letterCountOf (a ++ (c!"/*" ++ x ++ c!"*/") ++ b) = letterCountOf a + letterCountOf b := by
  have hsub : sub nonLetters [] ((c!"/*" ++ x ++ c!"*/") ++ b) = sub nonLetters [] b := by
    refine sub_nonLetters_match _ b (x.length + 3) (by simp) ?_
    cases x with
    | nil => exact absurd rfl hx
    | cons c cs =>
      have hc : c ≠ '\n' := fun e => hnl (by simp [e])
      have hl := lazyTo_first c!"*/" cs b (by simp) (fun h => hnl (by simp [h]))
        (by simpa using hfree)
      simp only [List.append_assoc, List.cons_append, List.nil_append] at hl ⊢
      simp only [nonLetters, alt, between1]
      simp [List.isPrefixOf, hc, hl]
  have h1 := sub_nonLetters_plain a ((c!"/*" ++ x ++ c!"*/") ++ b) ha
  have h2 := sub_nonLetters_plain a [] ha
  simp only [List.append_nil] at h2
  simp only [letterCountOf]
  rw [List.append_assoc, h1, hsub, h2]
  simp [sub, subGo]

/-- Tests on concrete texts: dashes limit words, hyphens join them, markup and comments are
excluded, a quotation mark at the line start is no word. -/
example : wordCountOf c!"> one two--three[i] four-five[/i] /* six seven */\n> x" = 5 := by decide
example : letterCountOf c!"ab [i]cd[/i]\n/* hidden */e" = 6 := by decide
example : (∀ c ∈ c!"ab ", c ≠ '[' ∧ c ≠ '/') ∧ c!"lang=de" ≠ [] ∧ ']' ∉ c!"lang=de" := by decide
example : ¬ c!"*/" <:+: c!" hidden ".tail ++ c!"*" := by decide
/-- A comment across lines *is* counted (the pattern stops at the line break). -/
example : letterCountOf c!"/*a\nb*/" = 6 := by decide

end Verif
