/-
The quotations of a converted text.
-/
import Verif.Lemmas.Para

namespace Verif
open Spec Re

variable {ls : List Str} {author : Option Str}

/-! ### No quotation mark follows a comment -/

theorem author_lt (ha : AuthorOk author) : '<' ∉ pyStr author := fun hm => (ha _ hm).2 (by decide)
theorem author_cr (ha : AuthorOk author) : '\r' ∉ pyStr author := fun hm => (ha _ hm).2 (by decide)

theorem langSpan_occ (i : Nat) : NoOcc quotNote (langSpan i) := by
  have hq : '<' ∉ Str.ofNat i := fun hm => by
    have := Str.isDigit_of_mem_ofNat hm
    revert this; decide
  unfold langSpan
  exact (NoOcc.append (NoOcc.lit (by decide)) (NoOcc.skip hq)).append (NoOcc.lit (by decide))

theorem noteStart_occ (ha : AuthorOk author) : NoOcc quotNote (noteStart author) := by
  unfold noteStart
  exact (NoOcc.append (NoOcc.lit (by decide)) (NoOcc.skip (author_lt ha))).append (NoOcc.lit (by decide))

theorem line_occ (ha : AuthorOk author) {l : List Piece} (ho : ∀ x ∈ l, x.Ok ls) (hn : Piece.nl ∉ l) (hb : Neighbours l) :
    NoOcc quotNote (lineOut author ls l ++ pEnd) := by
  induction l with
  | nil => exact NoOcc.lit (s := pEnd) (by decide)
  | cons x l ih =>
    have ih := ih (fun y hy => ho y (by simp [hy])) (fun hm => hn (by simp [hm])) (Neighbours.tail hb)
    rw [lineOut_cons, List.append_assoc]
    cases x with
    | nl => exact absurd (by simp) hn
    | ch c => exact NoOcc.append (NoOcc.skip (esc_no_lt c)) ih
    | op t =>
      refine NoOcc.append ?_ ih
      show NoOcc quotNote (opText ls t)
      rcases opText_cases (ls := ls) (ho (.op t) (by simp)) with e | e | ⟨i, e⟩
      · rw [e]; exact NoOcc.lit (by decide)
      · rw [e]; exact NoOcc.lit (by decide)
      · rw [e]; exact langSpan_occ i
    | cl t => exact NoOcc.append (a := spanEnd) (NoOcc.lit (by decide)) ih
    | note s =>
      show NoOcc quotNote (noteStart author ++ s.flatMap escChar ++ noteEnd ++ (lineOut author ls l ++ pEnd))
      rw [show noteEnd = c!"</text:p>" ++ c!"</office:annotation>" from rfl]
      generalize hA : c!"</office:annotation>" = A
      simp only [List.append_assoc]
      rw [← hA, ← List.append_assoc c!"</text:p>" ]
      rw [List.append_assoc c!"</text:p>"]
      refine NoOcc.append (noteStart_occ ha) (NoOcc.append (NoOcc.skip (escs_no_lt s)) (NoOcc.append (NoOcc.lit (by decide)) ?_))
      intro r hr
      show ¬ quotNote <:+: '<' :: (c!"/office:annotation>" ++ ((lineOut author ls l ++ pEnd) ++ r))
      rw [List.infix_cons_iff]
      rintro (hp | hi)
      · have hp : c!"</office:annotation>" ++ c!"&gt; " <+: c!"</office:annotation>" ++ (lineOut author ls l ++ pEnd ++ r) := hp
        rw [List.prefix_append_right_inj] at hp
        obtain ⟨l', rfl⟩ := line_quote hp
        have := hb.1
        cases this
      · exact NoOcc.skip (c := '<') (p := quotNote.tail) (by decide) _ (ih _ hr) hi

/-! ### No carriage returns -/

theorem escs_cr {s : Str} (h : '\r' ∉ s) : '\r' ∉ s.flatMap escChar := not_mem_escs (by decide) h

theorem langSpan_cr (i : Nat) : '\r' ∉ langSpan i := by
  have hq : '\r' ∉ Str.ofNat i := fun hm => by
    have := Str.isDigit_of_mem_ofNat hm
    revert this; decide
  unfold langSpan
  simp only [List.mem_append, not_or]
  exact ⟨⟨by decide, hq⟩, by decide⟩

theorem line_cr (ha : AuthorOk author) {l : List Piece} (ho : ∀ x ∈ l, x.Ok ls) : '\r' ∉ lineOut author ls l := by
  induction l with
  | nil => show '\r' ∉ ([] : Str); simp
  | cons x l ih =>
    rw [lineOut_cons, List.mem_append, not_or]
    refine ⟨?_, ih (fun y hy => ho y (by simp [hy]))⟩
    have hx := ho x (by simp)
    cases x with
    | nl => show '\r' ∉ nlOut; decide
    | ch c => exact not_mem_esc (by decide) hx.2.2
    | op t =>
      show '\r' ∉ opText ls t
      rcases opText_cases (ls := ls) hx with e | e | ⟨i, e⟩
      · rw [e]; decide
      · rw [e]; decide
      · rw [e]; exact langSpan_cr i
    | cl t => show '\r' ∉ spanEnd; decide
    | note s =>
      show '\r' ∉ noteStart author ++ s.flatMap escChar ++ noteEnd
      simp only [List.mem_append, not_or, noteStart]
      exact ⟨⟨⟨⟨by decide, author_cr ha⟩, by decide⟩, escs_cr (fun hm => (hx.1 _ hm).2.2.1 rfl)⟩, by decide⟩

/-! ### Paragraphs -/

theorem pOpen_ind : pOpen indStyle = c!"<text:p text:style-name=" ++ c!"\"First_20_line_20_indent\">" := rfl
theorem pOpen_body : pOpen bodyStyle = c!"<text:p text:style-name=" ++ c!"\"Text_20_body\">" := rfl

/-- The beginning of a paragraph of the other style. -/
theorem quoted_rep {p q : Str} (h : IsQuot p) : RepOf p q (pOpen c!"Quotations") (pOpen c!"Quotations") := h.lit (by decide) (by decide)

theorem para_miss {p q hd : Str} (hp : p = hd ++ c!"&gt; ") {d : Char} {hd' : Str} (e : hd = d :: hd') (h1 : noStart p c!"<text:p text:style-name=" = true)
    (h2 : noStart p hd' = true) {body : Str} (hb : RepOf p q body body) (hm : ∀ r, ¬ c!"&gt; " <+: body ++ r) :
    RepOf p q (c!"<text:p text:style-name=" ++ hd ++ body) (c!"<text:p text:style-name=" ++ hd ++ body) := by
  rw [List.append_assoc]
  refine RepOf.append (RepOf.lit h1) ?_
  intro r r' k hr
  obtain ⟨k1, h3⟩ := hb r r' k hr
  obtain ⟨k2, h4⟩ := RepOf.lit (q := q) h2 _ _ _ h3
  refine ⟨k2, ?_⟩
  rw [e]
  have e2 : ∀ z : Str, d :: hd' ++ body ++ z = d :: (hd' ++ (body ++ z)) := by intro z; simp
  rw [e2, e2]
  refine .miss ?_ h4
  intro h5
  rw [hp, ← e2, ← e, List.append_assoc, List.prefix_append_right_inj] at h5
  exact hm r h5

theorem para_hit {p q hd : Str} (hp : p = hd ++ c!"&gt; ") (h1 : noStart p c!"<text:p text:style-name=" = true)
    {body : Str} (hb : RepOf p q body body) :
    RepOf p q (c!"<text:p text:style-name=" ++ hd ++ (c!"&gt; " ++ body)) (c!"<text:p text:style-name=" ++ q ++ body) := by
  rw [List.append_assoc, List.append_assoc]
  refine RepOf.append (RepOf.lit h1) ?_
  intro r r' k hr
  obtain ⟨k1, h3⟩ := hb r r' k hr
  refine ⟨k1 + 1, ?_⟩
  have e2 : hd ++ (c!"&gt; " ++ body) ++ r = p ++ (body ++ r) := by rw [hp]; simp only [List.append_assoc]
  rw [e2, List.append_assoc]
  exact .hit h3

theorem line_body_rep {p q : Str} (h : IsQuot p) (ha : AuthorOk author) {l : List Piece} (ho : ∀ x ∈ l, x.Ok ls) (hn : Piece.nl ∉ l) :
    RepOf p q (lineOut author ls l ++ pEnd) (lineOut author ls l ++ pEnd) := (line_rep h ha ho hn).append (h.text (by decide))

theorem Quot.unquoted {st : Str} (hs : st = indStyle ∨ st = bodyStyle) (ha : AuthorOk author) {l : List Piece} (ho : ∀ x ∈ l, x.Ok ls) (hn : Piece.nl ∉ l)
    (hb : Neighbours l) (hq : ∀ l', l ≠ .ch '>' :: .ch ' ' :: l') :
    Quot (pOpen st ++ lineOut author ls l ++ pEnd) (pOpen st ++ lineOut author ls l ++ pEnd) := by
  have h1 : ∀ {p q : Str}, IsQuot p → RepOf p q (lineOut author ls l ++ pEnd) (lineOut author ls l ++ pEnd) := fun h => line_body_rep h ha ho hn
  have hm : ∀ r, ¬ c!"&gt; " <+: lineOut author ls l ++ pEnd ++ r := by
    intro r hp
    obtain ⟨l', e⟩ := line_quote hp
    exact hq l' e
  have hc : '\r' ∉ lineOut author ls l ++ pEnd := by
    rw [List.mem_append, not_or]
    exact ⟨line_cr ha ho, by decide⟩
  have hN := line_occ ha ho hn hb
  rw [List.append_assoc]
  generalize lineOut author ls l ++ pEnd = body at *
  rcases hs with rfl | rfl
  · rw [pOpen_ind]
    refine ⟨⟨_, para_miss (p := quotInd) rfl rfl (by decide) (by decide) (h1 (.inl rfl)) hm, ?_⟩, ?_, ?_⟩
    · exact RepOf.append (RepOf.lit (by decide)) (h1 (.inr rfl))
    · exact NoOcc.append (NoOcc.lit (by decide)) hN
    · rw [List.mem_append, not_or]
      exact ⟨by decide, hc⟩
  · rw [pOpen_body]
    refine ⟨⟨_, RepOf.append (RepOf.lit (by decide)) (h1 (.inl rfl)), ?_⟩, ?_, ?_⟩
    · exact para_miss (p := quotBody) rfl rfl (by decide) (by decide) (h1 (.inr rfl)) hm
    · exact NoOcc.append (NoOcc.lit (by decide)) hN
    · rw [List.mem_append, not_or]
      exact ⟨by decide, hc⟩

theorem Quot.quoted {st : Str} (hs : st = indStyle ∨ st = bodyStyle) (ha : AuthorOk author) {l : List Piece} (ho : ∀ x ∈ l, x.Ok ls) (hn : Piece.nl ∉ l)
    (hb : Neighbours l) :
    Quot (pOpen st ++ lineOut author ls (.ch '>' :: .ch ' ' :: l) ++ pEnd) (pOpen c!"Quotations" ++ lineOut author ls l ++ pEnd) := by
  have h1 : ∀ {p q : Str}, IsQuot p → RepOf p q (lineOut author ls l ++ pEnd) (lineOut author ls l ++ pEnd) := fun h => line_body_rep h ha ho hn
  have hc : '\r' ∉ lineOut author ls l ++ pEnd := by
    rw [List.mem_append, not_or]
    exact ⟨line_cr ha ho, by decide⟩
  have hN := line_occ ha ho hn hb
  have e : lineOut author ls (.ch '>' :: .ch ' ' :: l) ++ pEnd = c!"&gt; " ++ (lineOut author ls l ++ pEnd) := by
    rw [lineOut_cons, lineOut_cons, out_ch, out_ch]
    generalize lineOut author ls l = x
    rfl
  rw [List.append_assoc, List.append_assoc, e]
  generalize lineOut author ls l ++ pEnd = body at *
  have e3 : c!"<text:p text:style-name=" ++ quotOut = pOpen c!"Quotations" := rfl
  rcases hs with rfl | rfl
  · rw [pOpen_ind]
    refine ⟨⟨_, para_hit (p := quotInd) (q := quotOut) rfl (by decide) (h1 (.inl rfl)), ?_⟩, ?_, ?_⟩
    · rw [e3]
      exact RepOf.append (RepOf.lit (by decide)) (h1 (.inr rfl))
    · exact NoOcc.append (NoOcc.lit (by decide)) hN
    · rw [List.mem_append, not_or]
      exact ⟨by decide, hc⟩
  · rw [pOpen_body]
    refine ⟨⟨c!"<text:p text:style-name=" ++ c!"\"Text_20_body\">" ++ (c!"&gt; " ++ body), ?_, ?_⟩, ?_, ?_⟩
    · refine RepOf.append (RepOf.lit (by decide)) (RepOf.append (RepOf.lit (by decide)) (h1 (.inl rfl)))
    · rw [← e3]
      exact para_hit (p := quotBody) (q := quotOut) rfl (by decide) (h1 (.inr rfl))
    · exact NoOcc.append (NoOcc.lit (by decide)) hN
    · rw [List.mem_append, not_or]
      exact ⟨by decide, hc⟩

theorem Quot.para (ha : AuthorOk author) {q : Para} (hs : q.style = indStyle ∨ q.style = bodyStyle) (hem : q.empty = true → q.line = [] ∧ q.style = indStyle)
    (ho : ∀ x ∈ q.line, x.Ok ls) (hn : Piece.nl ∉ q.line) (hb : Neighbours q.line) : Quot (paraText author ls q) (quotedText author ls q) := by
  unfold quotedText
  by_cases he : q.empty = true
  · rw [if_pos he]
    unfold paraText
    rw [if_pos he, (hem he).2]
    exact Quot.lit (by decide)
  · rw [if_neg he]
    split
    · rename_i l e
      unfold paraText
      rw [if_neg he, e]
      rw [e] at ho hn hb
      exact Quot.quoted hs ha (fun x hx => ho x (by simp [hx])) (fun hm => hn (by simp [hm])) (Neighbours.tail (Neighbours.tail hb))
    · rename_i hne
      unfold paraText
      rw [if_neg he]
      exact Quot.unquoted hs ha ho hn hb (fun l' e => hne l' e)

end Verif
