/-
The head of the exported document (C56).
-/
import Verif.Lemmas.Book12
import Verif.Lemmas.Proof2

namespace Verif.Book
open Spec Re Template

variable {ls : List Str} {author : Option Str}

/-! ### Language styles -/

/-- The style of a language, in three lines. -/
def styleLine1 (i : Nat) : Str := c!"  <style:style style:name=\"T" ++ (Str.ofNat i ++ c!"\" style:family=\"text\">")
/-- See `styleLine1`. -/
def styleLine2 (a b : Str) : Str :=
  c!"   <style:text-properties fo:language=\"" ++ (a ++ (c!"\" fo:country=\"" ++ (b ++ (c!"\" style:language-asian=\"" ++ (a ++ (c!"\" style:country-asian=\"" ++
    (b ++ (c!"\" style:language-complex=\"" ++ (a ++ (c!"\" style:country-complex=\"" ++ (b ++ c!"\"/>")))))))))))

theorem style_lines {l a b : Str} (h : languageParts l = (a, b)) (i : Nat) :
    '\n' :: languageStyle i l = c!"\n" ++ (styleLine1 i ++ (c!"\n" ++ (styleLine2 a b ++ (c!"\n" ++ c!"  </style:style>")))) := by
  unfold languageStyle styleLine1 styleLine2
  rw [h]
  generalize Str.ofNat i = i
  simp only [List.flatten_cons, List.flatten_nil, List.append_nil, List.append_assoc]
  rfl

/-- Characters that do not appear in the lines of a style. -/
def odd (c : Char) : Prop := c = '\n' ∨ c = '\r' ∨ c = '*' ∨ c = '@'

theorem odd_alnum {c : Char} (h : odd c) : c.isAlphanum = false := by
  rcases h with rfl | rfl | rfl | rfl <;> decide

theorem line1_no {c : Char} (hc : odd c) (i : Nat) : c ∉ styleLine1 i := by
  unfold styleLine1
  have hd : c.isDigit = false := by rcases hc with rfl | rfl | rfl | rfl <;> decide
  have h1 := number_no hd (i := i)
  have h2 : c ∉ c!"  <style:style style:name=\"T" ∧ c ∉ c!"\" style:family=\"text\">" := by
    rcases hc with rfl | rfl | rfl | rfl <;> decide
  simp only [List.mem_append, not_or]
  exact ⟨h2.1, h1, h2.2⟩

theorem line2_no {c : Char} (hc : odd c) {a b : Str} (ha : ∀ c ∈ a, c.isAlphanum = true) (hb : ∀ c ∈ b, c.isAlphanum = true) : c ∉ styleLine2 a b := by
  unfold styleLine2
  have ha : c ∉ a := fun hm => by have := ha c hm; rw [odd_alnum hc] at this; cases this
  have hb : c ∉ b := fun hm => by have := hb c hm; rw [odd_alnum hc] at this; cases this
  simp only [List.mem_append, not_or]
  refine ⟨?_, ha, ?_, hb, ?_, ha, ?_, hb, ?_, ha, ?_, hb, ?_⟩ <;> rcases hc with rfl | rfl | rfl | rfl <;> decide

theorem style_no {c : Char} (hc : odd c) (hn : c ≠ '\n') {l : Str} (hl : LangCode l) (i : Nat) : c ∉ '\n' :: languageStyle i l := by
  obtain ⟨a, b, h1, h2, h3, h4, h5, h6⟩ := languageParts_code hl
  rw [style_lines h1]
  have h7 : c ∉ c!"\n" := by simpa using hn
  have h8 : c ∉ c!"  </style:style>" := by rcases hc with rfl | rfl | rfl | rfl <;> decide
  simp only [List.mem_append, not_or]
  exact ⟨h7, line1_no hc i, h7, line2_no hc h5 h6, h7, h8⟩

theorem nl_back : Back c!"\n" := Back.lit (by decide) (by decide) (by decide)

theorem Back.line {s : Str} (hh : s.head? = some ' ') (h : ∀ c, odd c → c ∉ s) : Back s :=
  Back.inline (by rw [hh]; decide) (h _ (.inl rfl)) (NoBegin.of_not_mem (h _ (.inr (.inr (.inr rfl))))) (NoBegin.of_not_mem (h _ (.inr (.inr (.inr rfl)))))

theorem style_back {l : Str} (hl : LangCode l) (i : Nat) : Back ('\n' :: languageStyle i l) := by
  obtain ⟨a, b, h1, h2, h3, h4, h5, h6⟩ := languageParts_code hl
  rw [style_lines h1]
  refine nl_back.append (Back.append ?_ (nl_back.append (Back.append ?_ (nl_back.append ?_))))
  · exact Back.line rfl (fun c hc => line1_no hc i)
  · exact Back.line rfl (fun c hc => line2_no hc h5 h6)
  · exact Back.lit (by decide) (by decide) (by decide)

theorem styles_back (hL : ∀ l ∈ ls, LangCode l) (i : Nat) : Back ((languageStyles i ls).flatMap (fun s => '\n' :: s)) := by
  induction ls generalizing i with
  | nil => exact Back.nil
  | cons l ls ih =>
    unfold languageStyles
    rw [List.flatMap_cons]
    exact (style_back (hL l (by simp)) i).append (ih (fun x hx => hL x (by simp [hx])) (i + 1))

theorem styles_odd {c : Char} (hc : odd c) (hn : c ≠ '\n') (hL : ∀ l ∈ ls, LangCode l) (i : Nat) : c ∉ (languageStyles i ls).flatMap (fun s => '\n' :: s) := by
  induction ls generalizing i with
  | nil => simp [languageStyles]
  | cons l ls ih =>
    unfold languageStyles
    rw [List.flatMap_cons, List.mem_append, not_or]
    exact ⟨style_no hc hn (hL l (by simp)) i, ih (fun x hx => hL x (by simp [hx])) (i + 1)⟩

theorem automatic_back (hL : ∀ l ∈ ls, LangCode l) : Back (automaticStyles ls) := by
  by_cases hne : ls = []
  · subst hne
    exact Back.lit (by decide) (by decide) (by decide)
  · rw [automaticStyles_eq hne]
    exact Back.append (Back.lit (by decide) (by decide) (by decide)) ((styles_back hL 1).append (Back.lit (by decide) (by decide) (by decide)))

theorem automatic_odd {c : Char} (hc : odd c) (hn : c ≠ '\n') (hL : ∀ l ∈ ls, LangCode l) : c ∉ automaticStyles ls := by
  by_cases hne : ls = []
  · subst hne
    rcases hc with rfl | rfl | rfl | rfl <;> decide
  · rw [automaticStyles_eq hne]
    simp only [List.mem_append, not_or]
    refine ⟨?_, styles_odd hc hn hL 1, ?_⟩
    · rcases hc with rfl | rfl | rfl | rfl <;> decide
    · rcases hc with rfl | rfl | rfl | rfl
      · exact absurd rfl hn
      all_goals decide

set_option maxRecDepth 100000 in
theorem headStart_chars : (odtHeadStart.all (fun c => c ≠ '*' ∧ c ≠ '@')) = true := by decide +kernel

set_option maxRecDepth 100000 in
theorem headStart_nlr : noStart c!"\nr" odtHeadStart = true := by decide +kernel

theorem noStart_infix {p s : Str} (hp : p ≠ []) (h : noStart p s = true) : ¬ p <:+: s := by
  induction s with
  | nil => intro hi; exact hp (List.infix_nil.1 hi)
  | cons c s ih =>
    intro hi
    rw [List.infix_cons_iff] at hi
    rcases hi with hi | hi
    · exact noStart_prefix h [] (by rw [List.append_nil]; exact hi)
    · refine ih ?_ hi
      simp only [noStart, Bool.and_eq_true] at h
      exact h.2

theorem header_back (hL : ∀ l ∈ ls, LangCode l) : Back (formattedHeader ls) := by
  rw [formattedHeader_eq]
  refine Back.append (Back.lit (by decide) ?_ (noStart_infix (by decide) headStart_nlr)) ((automatic_back hL).append (Back.lit (by decide) (by decide) (by decide)))
  intro h
  have := List.all_eq_true.1 headStart_chars _ h
  revert this
  decide

theorem header_star (hL : ∀ l ∈ ls, LangCode l) : '*' ∉ formattedHeader ls := by
  rw [formattedHeader_eq]
  simp only [List.mem_append, not_or]
  refine ⟨?_, automatic_odd (.inr (.inr (.inl rfl))) (by decide) hL, by decide⟩
  intro h
  have := List.all_eq_true.1 headStart_chars _ h
  revert this
  decide

theorem header_begin (hL : ∀ l ∈ ls, LangCode l) : NoBegin c!"/*" (formattedHeader ls) := by
  have e : ∃ h, formattedHeader ls = h ++ ['\n'] := by
    rw [formattedHeader_eq]
    refine ⟨odtHeadStart ++ (automaticStyles ls ++ c!"\n <office:body>\n  <office:text text:use-soft-page-breaks=\"true\">\n"), ?_⟩
    have : odtHeadEnd = c!"\n <office:body>\n  <office:text text:use-soft-page-breaks=\"true\">\n" ++ ['\n'] := rfl
    rw [this]
    generalize c!"\n <office:body>\n  <office:text text:use-soft-page-breaks=\"true\">\n" = z
    simp only [List.append_assoc]
  have hs := header_star hL
  obtain ⟨h, e⟩ := e
  rw [e] at hs ⊢
  refine NoBegin.stop ?_ (by decide) (by decide)
  intro hi
  exact hs (List.mem_append_left _ (hi.subset (by simp)))

theorem header_head (r : Str) : ¬ c!"/*" <+: formattedHeader ls ++ r := by
  rw [formattedHeader_eq]
  have : ∃ z, odtHeadStart = '<' :: z := ⟨_, rfl⟩
  obtain ⟨z, e⟩ := this
  rw [e]
  intro h
  rw [List.cons_append, List.cons_append, List.cons_prefix_cons] at h
  exact absurd h.1 (by decide)

end Verif.Book
