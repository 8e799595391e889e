/-
The paragraphs of the exported document after the conversion of comments (C56).
-/
import Verif.Lemmas.Book5

namespace Verif.Book
open Spec Re

variable {ls : List Str} {author : Option Str}

theorem prefix_stop {p a r : Str} {x : Char} (h : p <+: a ++ x :: r) (hx : x ∉ p) : p <+: a := by
  rcases List.prefix_or_prefix_of_prefix h ⟨x :: r, rfl⟩ with h1 | h1
  · exact h1
  · obtain ⟨w, hw⟩ := h1
    rw [← hw] at h ⊢
    cases w with
    | nil => rw [List.append_nil]; exact List.prefix_refl _
    | cons y w =>
      rw [List.prefix_append_right_inj] at h
      obtain ⟨z, hz⟩ := h
      injection hz with hz _
      exact absurd (by rw [← hw, hz]; simp) hx

theorem esc_only {d : Char} (hd : d = '@' ∨ d = '/') {c : Char} (h : c ≠ d) : d ∉ escChar c := by
  unfold escChar
  repeat' split
  all_goals first
    | (rcases hd with rfl | rfl <;> decide)
    | (intro hm; rw [List.mem_singleton] at hm; exact h hm.symm)

theorem esc_at {d : Char} (hd : d = '@' ∨ d = '/') : escChar d = [d] := by
  rcases hd with rfl | rfl <;> rfl

/-- Escaped text before a character that does not occur in `p`. -/
theorem esc_begin {d : Char} (hd : d = '@' ∨ d = '/') {p : Str} (hp : '&' ∉ p) {x : Char} (hx : x ∉ d :: p) {s : Str} (h : ¬ d :: p <:+: s) :
    NoBegin (d :: p) (s.flatMap escChar ++ [x]) := by
  induction s with
  | nil => exact NoBegin.of_not_mem (by intro hm; rw [List.flatMap_nil, List.nil_append, List.mem_singleton] at hm; exact hx (by simp [hm]))
  | cons c s ih =>
    have ih := ih (fun hi => h (hi.trans (List.suffix_cons _ _).isInfix))
    rw [List.flatMap_cons, List.append_assoc]
    by_cases hc : c = d
    · subst hc
      rw [esc_at hd]
      refine NoBegin.cons ?_ ih
      intro r hr
      have hr : c :: p <+: c :: (s.flatMap escChar ++ [x] ++ r) := hr
      have e : c :: (s.flatMap escChar ++ [x] ++ r) = (c :: s).flatMap escChar ++ x :: r := by
        rw [List.flatMap_cons, esc_at hd]
        simp
      rw [e] at hr
      have h1 := prefix_stop hr hx
      refine h (esc_prefix ?_ h1).isInfix
      intro hm
      rcases List.mem_cons.1 hm with h2 | h2
      · rcases hd with rfl | rfl
        · exact absurd h2 (by decide)
        · exact absurd h2 (by decide)
      · exact hp h2
    · exact NoBegin.append (NoBegin.of_not_mem (esc_only hd hc)) ih

/-! ### Characters of a line -/

/-- Line breaks. -/
def isBreak (c : Char) : Prop := c = '\n' ∨ c = '\r'

theorem esc_break {c : Char} (hc : isBreak c) {d : Char} (h : d ≠ c) : c ∉ escChar d := by
  unfold escChar
  repeat' split
  all_goals first
    | (rcases hc with rfl | rfl <;> decide)
    | (intro hm; rw [List.mem_singleton] at hm; exact h hm.symm)

theorem escs_break {c : Char} (hc : isBreak c) {s : Str} (h : c ∉ s) : c ∉ s.flatMap escChar := by
  intro hm
  obtain ⟨d, hd, hcd⟩ := List.mem_flatMap.1 hm
  exact esc_break hc (fun e => h (by rw [← e]; exact hd)) hcd

theorem break_digit {c : Char} (hc : isBreak c) : c.isDigit = false := by rcases hc with rfl | rfl <;> decide

theorem op_break {c : Char} (hc : isBreak c) {t : Str} (ht : t ∈ formats ls) : c ∉ opText ls t := by
  rcases opText_cases (ls := ls) ht with e | e | ⟨i, e⟩
  · rw [e]; rcases hc with rfl | rfl <;> decide
  · rw [e]; rcases hc with rfl | rfl <;> decide
  · rw [e]
    simp only [langSpan, List.mem_append, not_or]
    exact ⟨⟨by rcases hc with rfl | rfl <;> decide, number_no (break_digit hc)⟩, by rcases hc with rfl | rfl <;> decide⟩

theorem noteText_break {c : Char} (hc : isBreak c) {k : Nat} {s : Str} (h : c ∉ s) : c ∉ noteText k s := by
  have hl : ∀ a b : Str, c ∉ a → c ∉ b → c ∉ (if c!"@fn " <+: s then a else b) := by
    intro a b ha hb
    split
    · exact ha
    · exact hb
  have he : c ∉ (s.drop 4).flatMap escChar := escs_break hc (fun hm => h (List.mem_of_mem_drop hm))
  have hn : c ∉ Str.ofNat (k + 1) := number_no (break_digit hc)
  unfold noteText
  intro hm
  simp only [List.mem_append] at hm
  rcases hm with (((((((((hm | hm) | hm) | hm) | hm) | hm) | hm) | hm) | hm) | hm) | hm
  · revert hm; rcases hc with rfl | rfl <;> decide
  · exact hn hm
  · revert hm; rcases hc with rfl | rfl <;> decide
  · exact hl _ _ (by rcases hc with rfl | rfl <;> decide) (by rcases hc with rfl | rfl <;> decide) hm
  · revert hm; rcases hc with rfl | rfl <;> decide
  · exact hn hm
  · revert hm; rcases hc with rfl | rfl <;> decide
  · exact hl _ _ (by rcases hc with rfl | rfl <;> decide) (by rcases hc with rfl | rfl <;> decide) hm
  · revert hm; rcases hc with rfl | rfl <;> decide
  · exact he hm
  · revert hm; rcases hc with rfl | rfl <;> decide

theorem note_chars {s : Str} (h : NoteOk s) {c : Char} (hc : isBreak c) : c ∉ s := by
  intro hm
  rcases hc with rfl | rfl
  · exact (h _ hm).2.1 rfl
  · exact (h _ hm).2.2.1 rfl

theorem noteStart_break (ha : AuthorOk author) {c : Char} (hc : isBreak c) : c ∉ noteStart author := by
  unfold noteStart
  simp only [List.mem_append, not_or]
  refine ⟨⟨by rcases hc with rfl | rfl <;> decide, ?_⟩, by rcases hc with rfl | rfl <;> decide⟩
  intro hm
  refine (ha c hm).2 ?_
  rcases hc with rfl | rfl <;> decide

theorem out_break {c : Char} (hc : isBreak c) {p : Piece} (ho : p.Ok ls) (hn : p ≠ .nl) : c ∉ (rawStage ls).out (some p) := by
  cases p with
  | nl => exact absurd rfl hn
  | ch d =>
    rw [out_ch]
    refine esc_break hc ?_
    rintro rfl
    rcases hc with rfl | rfl
    · exact ho.2.1 rfl
    · exact ho.2.2 rfl
  | op t => exact op_break hc ho
  | cl t => show c ∉ spanEnd; rcases hc with rfl | rfl <;> decide
  | note s =>
    rw [out_note]
    simp only [List.mem_append, not_or]
    exact ⟨⟨by rcases hc with rfl | rfl <;> decide, escs_break hc (note_chars ho.1 hc)⟩, by rcases hc with rfl | rfl <;> decide⟩

theorem lineOut_break {c : Char} (hc : isBreak c) {l : List Piece} (ho : ∀ x ∈ l, x.Ok ls) (hn : Piece.nl ∉ l) : c ∉ lineOut ls l := by
  induction l with
  | nil => exact List.not_mem_nil
  | cons x l ih =>
    rw [lineOut_cons, List.mem_append, not_or]
    exact ⟨out_break hc (ho x (by simp)) (fun e => hn (by simp [e])), ih (fun y hy => ho y (by simp [hy])) (fun hm => hn (by simp [hm]))⟩

theorem lineFin_break (ha : AuthorOk author) {c : Char} (hc : isBreak c) {l : List Piece} (ho : ∀ x ∈ l, x.Ok ls) (hn : Piece.nl ∉ l) (k : Nat) : c ∉ lineFin author ls k l := by
  induction l generalizing k with
  | nil => exact List.not_mem_nil
  | cons x l ih =>
    have ih := ih (fun y hy => ho y (by simp [hy])) (fun hm => hn (by simp [hm]))
    cases x with
    | note s =>
      have hs := ho (.note s) (by simp)
      unfold lineFin
      split
      · rw [List.mem_append, not_or]
        exact ⟨noteText_break hc (note_chars hs.1 hc), ih _⟩
      · simp only [List.mem_append, not_or]
        exact ⟨⟨⟨noteStart_break ha hc, escs_break hc (note_chars hs.1 hc)⟩, by rcases hc with rfl | rfl <;> decide⟩, ih _⟩
    | nl => exact absurd (by simp) hn
    | ch d =>
      rw [lineFin_cons (by simp), List.mem_append, not_or]
      exact ⟨out_break hc (ho _ (by simp)) (by simp), ih _⟩
    | op d =>
      rw [lineFin_cons (by simp), List.mem_append, not_or]
      exact ⟨out_break hc (ho _ (by simp)) (by simp), ih _⟩
    | cl d =>
      rw [lineFin_cons (by simp), List.mem_append, not_or]
      exact ⟨out_break hc (ho _ (by simp)) (by simp), ih _⟩

/-! ### A line -/

theorem noNote_fin {l : List Piece} (h : ¬ c!"/*" <:+: lineOut ls l) (k : Nat) : lineFin author ls k l = lineOut ls l := by
  induction l generalizing k with
  | nil => rfl
  | cons x l ih =>
    rw [lineOut_cons] at h ⊢
    have ih := ih (fun hi => h (hi.trans (List.suffix_append _ _).isInfix))
    cases x with
    | note s =>
      refine absurd ?_ h
      rw [out_note]
      exact ⟨[], s.flatMap escChar ++ c!"*/" ++ lineOut ls l, by simp⟩
    | _ => rw [lineFin_cons (by simp), ih]

theorem line_noted (ha : AuthorOk author) {l : List Piece} (ho : ∀ x ∈ l, x.Ok ls) (hn : Piece.nl ∉ l) (hb : Neighbours l) (k : Nat) :
    Noted author k (lineOut ls l ++ pEnd) (lineFin author ls k l ++ pEnd) (k + lineNotes l) := by
  have e1 : nlE (lineOut ls l ++ pEnd) = lineOut ls l ++ pEnd := by
    refine nlE_id ?_
    rw [List.mem_append, not_or]
    exact ⟨lineOut_break (.inl rfl) ho hn, by decide⟩
  have e2 : nlE (lineFin author ls k l ++ pEnd) = lineFin author ls k l ++ pEnd := by
    refine nlE_id ?_
    rw [List.mem_append, not_or]
    exact ⟨lineFin_break ha (.inl rfl) ho hn k, by decide⟩
  refine ⟨⟨lineMid ls k l ++ pEnd, ?_, ?_⟩, ?_⟩
  · intro r
    rw [e1]
    exact go1_line ho hn hb k r
  · intro r
    rw [e2]
    exact go2_line author ho hn hb k r
  · intro h
    rw [noNote_fin (fun hi => h (hi.trans (List.prefix_append _ _).isInfix))]

/-! ### The substitutes for line breaks -/

/-- The substitutes do not occur in a line. -/
structure Unbroken (p : Str) (l : List Piece) : Prop where
  text : ¬ p.map Piece.ch <:+: l
  notes : ∀ s, Piece.note s ∈ l → ¬ p <:+: s

theorem Unbroken.tail {p : Str} {x : Piece} {l : List Piece} (h : Unbroken p (x :: l)) : Unbroken p l :=
  ⟨fun hi => h.text (hi.trans (List.suffix_cons _ _).isInfix), fun s hs => h.notes s (by simp [hs])⟩

theorem lineFin_head {k : Nat} {l : List Piece} (ho : ∀ x ∈ l, x.Ok ls) (hn : Piece.nl ∉ l) {r w : Str} {d : Char} (hd : d ≠ '<' ∧ d ≠ '&') (h : lineFin author ls k l ++ pEnd ++ r = d :: w) :
    ∃ l', l = .ch d :: l' ∧ w = lineFin author ls k l' ++ pEnd ++ r := by
  cases l with
  | nil => injection h with h; exact absurd h.symm hd.1
  | cons x l =>
    cases x with
    | nl => exact absurd (by simp) hn
    | op t =>
      obtain ⟨z, hz⟩ := opText_ltStart (ls := ls) (ho (.op t) (by simp))
      replace h : opText ls t ++ lineFin author ls k l ++ pEnd ++ r = _ := h
      rw [hz] at h
      injection h with h; exact absurd h.symm hd.1
    | cl t => injection h with h; exact absurd h.symm hd.1
    | note t =>
      unfold lineFin at h
      split at h
      · obtain ⟨z, hz⟩ := noteText_lt k t
        rw [hz] at h
        injection h with h; exact absurd h.symm hd.1
      · injection h with h; exact absurd h.symm hd.1
    | ch c =>
      obtain ⟨x, y, e2, _⟩ := escChar_head c
      rw [lineFin_cons (by simp), out_ch, e2] at h
      injection h with h1 h2
      subst h1
      obtain ⟨rfl, rfl⟩ := escChar_other e2 hd.2
      exact ⟨l, rfl, h2.symm⟩

theorem noteText_at {k : Nat} {s : Str} {p : Str} (hp : p = c!"n@" ∨ p = c!"r@") (h : ¬ '@' :: p <:+: s) : NoBegin ('@' :: p) (noteText k s) := by
  have hd : '@' ∉ Str.ofNat (k + 1) := number_no (by decide)
  have he : NoBegin ('@' :: p) ((s.drop 4).flatMap escChar ++ ['<']) :=
    esc_begin (.inl rfl) (by rcases hp with rfl | rfl <;> decide) (by rcases hp with rfl | rfl <;> decide) (fun hi => h (hi.trans (List.drop_suffix _ _).isInfix))
  have hl : ∀ a b : Str, '@' ∉ a → '@' ∉ b → NoBegin ('@' :: p) (if c!"@fn " <+: s then a else b) := by
    intro a b ha hb
    split
    · exact NoBegin.of_not_mem ha
    · exact NoBegin.of_not_mem hb
  unfold noteText
  have e : ∀ x : Str, x ++ (s.drop 4).flatMap escChar ++ c!"</text:p></text:note-body></text:note>" = x ++ ((s.drop 4).flatMap escChar ++ ['<']) ++ c!"/text:p></text:note-body></text:note>" := by
    intro x; simp
  rw [e]
  refine NoBegin.append (NoBegin.append (NoBegin.append (NoBegin.append (NoBegin.append (NoBegin.append (NoBegin.append (NoBegin.append (NoBegin.append (NoBegin.append ?_ ?_) ?_) ?_) ?_) ?_) ?_) ?_) ?_) he) ?_
  · exact NoBegin.of_not_mem (by decide)
  · exact NoBegin.of_not_mem hd
  · exact NoBegin.of_not_mem (by decide)
  · exact hl _ _ (by decide) (by decide)
  · exact NoBegin.of_not_mem (by decide)
  · exact NoBegin.of_not_mem hd
  · exact NoBegin.of_not_mem (by decide)
  · exact hl _ _ (by decide) (by decide)
  · exact NoBegin.of_not_mem (by decide)
  · exact NoBegin.of_not_mem (by decide)

theorem lineFin_at (hA : '@' ∉ pyStr author) {d : Char} (hd : d = 'n' ∨ d = 'r') {l : List Piece} (ho : ∀ x ∈ l, x.Ok ls) (hn : Piece.nl ∉ l)
    (hu : Unbroken ['@', d, '@'] l) (k : Nat) : NoBegin ['@', d, '@'] (lineFin author ls k l ++ pEnd) := by
  have hp : [d, '@'] = c!"n@" ∨ [d, '@'] = c!"r@" := by rcases hd with rfl | rfl <;> simp
  induction l generalizing k with
  | nil => show NoBegin _ pEnd; exact NoBegin.of_not_mem (by decide)
  | cons x l ih =>
    have ho' : ∀ y ∈ l, y.Ok ls := fun y hy => ho y (by simp [hy])
    have hn' : Piece.nl ∉ l := fun hm => hn (by simp [hm])
    have ih := ih ho' hn' hu.tail
    cases x with
    | nl => exact absurd (by simp) hn
    | op t =>
      rw [lineFin_cons (by simp), List.append_assoc]
      refine NoBegin.append ?_ (ih k)
      show NoBegin _ (opText ls t)
      refine NoBegin.of_not_mem ?_
      rcases opText_cases (ls := ls) (ho (.op t) (by simp)) with e | e | ⟨i, e⟩
      · rw [e]; decide
      · rw [e]; decide
      · rw [e]
        simp only [langSpan, List.mem_append, not_or]
        exact ⟨⟨by decide, number_no (by decide)⟩, by decide⟩
    | cl t =>
      rw [lineFin_cons (by simp), List.append_assoc]
      exact NoBegin.append (a := spanEnd) (NoBegin.of_not_mem (by decide)) (ih k)
    | note s =>
      have hs := hu.notes s (by simp)
      unfold lineFin
      split
      · rw [List.append_assoc]
        exact NoBegin.append (noteText_at hp hs) (ih _)
      · have e : noteStart author ++ s.flatMap escChar ++ noteEnd ++ lineFin author ls k l ++ pEnd =
            noteStart author ++ ((s.flatMap escChar ++ ['<']) ++ (c!"/text:p></office:annotation>" ++ (lineFin author ls k l ++ pEnd))) := by
          unfold noteEnd
          simp
        rw [e]
        refine NoBegin.append ?_ (NoBegin.append ?_ (NoBegin.append ?_ (ih k)))
        · refine NoBegin.of_not_mem ?_
          unfold noteStart
          simp only [List.mem_append, not_or]
          exact ⟨⟨by decide, hA⟩, by decide⟩
        · exact esc_begin (.inl rfl) (by rcases hd with rfl | rfl <;> decide) (by rcases hd with rfl | rfl <;> decide) hs
        · exact NoBegin.of_not_mem (by decide)
    | ch c =>
      rw [lineFin_cons (by simp), List.append_assoc, out_ch]
      by_cases hc : c = '@'
      · subst hc
        refine NoBegin.cons ?_ (ih k)
        rintro r ⟨w, hw⟩
        injection hw with _ hw
        have hd' : d ≠ '<' ∧ d ≠ '&' := by rcases hd with rfl | rfl <;> decide
        obtain ⟨l1, rfl, e1⟩ := lineFin_head ho' hn' hd' hw.symm
        obtain ⟨l2, rfl, e2⟩ := lineFin_head (fun y hy => ho' y (by simp [hy])) (fun hm => hn' (by simp [hm])) (by decide) e1.symm
        exact hu.text ⟨[], l2, rfl⟩
      · exact NoBegin.append (NoBegin.of_not_mem (esc_only (.inl rfl) hc)) (ih k)

theorem line_back (ha : AuthorOk author) (hA : '@' ∉ pyStr author) {l : List Piece} (ho : ∀ x ∈ l, x.Ok ls) (hn : Piece.nl ∉ l)
    (h1 : Unbroken c!"@n@" l) (h2 : Unbroken c!"@r@" l) {op : Str} (hop : op.head? = some '<' ∧ '@' ∉ op ∧ '\n' ∉ op) (k : Nat) : Back (op ++ (lineFin author ls k l ++ pEnd)) := by
  refine Back.inline ?_ ?_ ?_ ?_
  · cases op with
    | nil => cases hop.1
    | cons c op =>
      injection hop.1 with h
      have h : c = '<' := h
      subst h
      simp
  · simp only [List.mem_append, not_or]
    exact ⟨hop.2.2, lineFin_break ha (.inl rfl) ho hn k, by decide⟩
  · exact NoBegin.append (NoBegin.of_not_mem hop.2.1) (lineFin_at hA (.inr rfl) ho hn h2 k)
  · exact NoBegin.append (NoBegin.of_not_mem hop.2.1) (lineFin_at hA (.inl rfl) ho hn h1 k)

end Verif.Book
