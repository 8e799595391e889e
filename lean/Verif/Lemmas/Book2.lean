/-
The paragraphs of a converted text in the exported document (C56), and which of them become quotations.
-/
import Verif.Lemmas.Book1
import Verif.Lemmas.Para2

namespace Verif.Book
open Spec Re

variable {ls : List Str}

/-- The text of a line. -/
def lineOut (ls : List Str) (l : List Piece) : Str := (rawStage ls).flat (l.map some)


/-- The text of a paragraph. -/
def paraText (ls : List Str) (q : Para) : Str :=
  if q.empty then c!"<text:p text:style-name=\"" ++ q.style ++ c!"\" />" else pOpen q.style ++ lineOut ls q.line ++ pEnd


theorem lineOut_cons (p : Piece) (l : List Piece) : lineOut ls (p :: l) = (rawStage ls).out (some p) ++ lineOut ls l := rfl

/-- The text is made of its paragraphs. -/
theorem paras_text (ls : List Str) (st : Str) (prs : List (Option Piece)) :
    ∃ l qs, paras st prs = ⟨st, false, l⟩ :: qs ∧
      (rawStage ls).flat prs ++ pEnd = lineOut ls l ++ pEnd ++ qs.flatMap (fun q => '\n' :: paraText ls q) := by
  induction prs generalizing st with
  | nil => exact ⟨[], [], rfl, rfl⟩
  | cons p prs ih =>
    match p with
    | none =>
      obtain ⟨l, qs, h1, h2⟩ := ih bodyStyle
      refine ⟨[], ⟨indStyle, true, []⟩ :: paras bodyStyle prs, rfl, ?_⟩
      rw [flat_cons, List.append_assoc, h2, h1]
      show nl2Out ++ _ = _
      rw [List.flatMap_cons, List.flatMap_cons]
      show nl2Out ++ _ = pEnd ++ (('\n' :: (c!"<text:p text:style-name=\"" ++ indStyle ++ c!"\" />")) ++ ('\n' :: (pOpen bodyStyle ++ lineOut ls l ++ pEnd) ++ _))
      generalize lineOut ls l = x
      rw [show nl2Out = pEnd ++ ('\n' :: (c!"<text:p text:style-name=\"" ++ indStyle ++ c!"\" />")) ++ '\n' :: pOpen bodyStyle from rfl]
      simp only [List.append_assoc, List.cons_append]
    | some .nl =>
      obtain ⟨l, qs, h1, h2⟩ := ih indStyle
      refine ⟨[], paras indStyle prs, rfl, ?_⟩
      rw [flat_cons, List.append_assoc, h2, h1]
      show nlOut ++ _ = _
      rw [List.flatMap_cons]
      show nlOut ++ _ = pEnd ++ ('\n' :: (pOpen indStyle ++ lineOut ls l ++ pEnd) ++ _)
      generalize lineOut ls l = x
      rw [show nlOut = pEnd ++ '\n' :: pOpen indStyle from rfl]
      simp only [List.append_assoc, List.cons_append]
    | some (.ch c) =>
      obtain ⟨l, qs, h1, h2⟩ := ih st
      refine ⟨.ch c :: l, qs, by rw [paras_other (by simp), h1], ?_⟩
      rw [flat_cons, List.append_assoc, h2, lineOut_cons, List.append_assoc, List.append_assoc, List.append_assoc]
    | some (.op c) =>
      obtain ⟨l, qs, h1, h2⟩ := ih st
      refine ⟨.op c :: l, qs, by rw [paras_other (by simp), h1], ?_⟩
      rw [flat_cons, List.append_assoc, h2, lineOut_cons, List.append_assoc, List.append_assoc, List.append_assoc]
    | some (.cl c) =>
      obtain ⟨l, qs, h1, h2⟩ := ih st
      refine ⟨.cl c :: l, qs, by rw [paras_other (by simp), h1], ?_⟩
      rw [flat_cons, List.append_assoc, h2, lineOut_cons, List.append_assoc, List.append_assoc, List.append_assoc]
    | some (.note c) =>
      obtain ⟨l, qs, h1, h2⟩ := ih st
      refine ⟨.note c :: l, qs, by rw [paras_other (by simp), h1], ?_⟩
      rw [flat_cons, List.append_assoc, h2, lineOut_cons, List.append_assoc, List.append_assoc, List.append_assoc]


def quotedText (ls : List Str) (q : Para) : Str :=
  if q.empty then paraText ls q
  else match q.line with
    | .ch '>' :: .ch ' ' :: l => pOpen c!"Quotations" ++ lineOut ls l ++ pEnd
    | _ => paraText ls q


/-- A line without its beginning has no quotation marks. -/
theorem line_rep {p q : Str} (h : IsQuot p) {l : List Piece} (ho : ∀ x ∈ l, x.Ok ls) (hn : Piece.nl ∉ l) :
    RepOf p q (lineOut ls l) (lineOut ls l) := by
  induction l with
  | nil => exact RepOf.nil _ _
  | cons x l ih =>
    rw [lineOut_cons]
    refine RepOf.append ?_ (ih (fun y hy => ho y (by simp [hy])) (fun hm => hn (by simp [hm])))
    cases x with
    | nl => exact absurd (by simp) hn
    | ch c => exact h.text (esc_no_quote c)
    | op t =>
      show RepOf p q (opText ls t) (opText ls t)
      rcases opText_cases (ls := ls) (ho (.op t) (by simp)) with e | e | ⟨i, e⟩
      · rw [e]; exact h.lit (by decide) (by decide)
      · rw [e]; exact h.lit (by decide) (by decide)
      · rw [e]; exact langSpan_rep h i
    | cl t => exact h.text (s := spanEnd) (by decide)
    | note s =>
      show RepOf p q (c!"/*" ++ s.flatMap escChar ++ c!"*/") _
      exact ((h.text (s := c!"/*") (by decide)).append (h.text (escs_no_quote s))).append (h.text (by decide))

/-- A line that begins with a quotation mark. -/
theorem line_quote {l : List Piece} {r : Str} (h : c!"&gt; " <+: lineOut ls l ++ pEnd ++ r) :
    ∃ l', l = .ch '>' :: .ch ' ' :: l' := by
  have hop : ∀ t, ∃ z, opText ls t = '<' :: z ∨ opText ls t = '[' :: z := by
    intro t
    unfold opText
    split
    · exact ⟨_, .inl rfl⟩
    split
    · exact ⟨_, .inl rfl⟩
    have : ∀ i rs, ∃ z, langOp i rs t = '<' :: z ∨ langOp i rs t = '[' :: z := by
      intro i rs
      induction rs generalizing i with
      | nil => exact ⟨_, .inr rfl⟩
      | cons l rs ih =>
        unfold langOp
        split
        · exact ⟨_, .inl rfl⟩
        · exact ih _
    exact this _ _
  have head : ∀ {l : List Piece} {d : Char} {z : Str}, d ≠ '<' → d ≠ '[' → d ≠ '/' → d :: z = lineOut ls l ++ pEnd ++ r →
      ∃ c l' z', l = .ch c :: l' ∧ escChar c = d :: z' := by
    intro l d z hd hd2 hd3 e
    cases l with
    | nil => injection e with e; exact absurd e hd
    | cons x l =>
      rw [lineOut_cons] at e
      cases x with
      | nl => injection e with e; exact absurd e hd
      | op t =>
        obtain ⟨z', hz | hz⟩ := hop t
        · replace e : d :: z = opText ls t ++ lineOut ls l ++ pEnd ++ r := e
          rw [hz] at e; injection e with e; exact absurd e hd
        · replace e : d :: z = opText ls t ++ lineOut ls l ++ pEnd ++ r := e
          rw [hz] at e; injection e with e; exact absurd e hd2
      | cl t => injection e with e; exact absurd e hd
      | note t => injection e with e; exact absurd e hd3
      | ch c =>
        obtain ⟨x, y, e2, _⟩ := escChar_head c
        refine ⟨c, l, y, rfl, ?_⟩
        rw [out_ch, e2] at e
        have e : d = x := by injection e
        rw [e2, e]
  obtain ⟨z, hz⟩ := h
  obtain ⟨c, l', z', hl, e⟩ := head (d := '&') (by decide) (by decide) (by decide) hz
  subst hl
  have hc : c = '>' := by
    rw [lineOut_cons, out_ch] at hz
    clear head hop
    unfold escChar at hz
    repeat' split at hz
    all_goals first
      | assumption
      | (exact absurd hz (by intro e; injection e with _ e; injection e with e; revert e; decide))
      | (simp only [List.cons_append, List.cons.injEq] at hz; exact absurd hz.1.symm ‹_›)
  subst hc
  have hz : ' ' :: z = lineOut ls l' ++ pEnd ++ r := by
    rw [lineOut_cons, out_ch] at hz
    have : c!"&gt;" ++ (' ' :: z) = c!"&gt;" ++ (lineOut ls l' ++ pEnd ++ r) := by
      rw [List.append_assoc, List.append_assoc] at hz
      rw [List.append_assoc]
      exact hz
    exact List.append_cancel_left this
  obtain ⟨c, l'', z'', hl, e⟩ := head (by decide) (by decide) (by decide) hz
  subst hl
  refine ⟨l'', ?_⟩
  unfold escChar at e
  repeat' split at e
  all_goals first
    | (injection e with e; exact absurd e (by decide))
    | (injection e with e; rw [e])

theorem line_occ {l : List Piece} (ho : ∀ x ∈ l, x.Ok ls) (hn : Piece.nl ∉ l) (hb : Neighbours l) :
    NoOcc quotNote (lineOut ls l ++ pEnd) := by
  induction l with
  | nil => exact NoOcc.lit (s := pEnd) (by decide)
  | cons x l ih =>
    have ih := ih (fun y hy => ho y (by simp [hy])) (fun hm => hn (by simp [hm])) (Neighbours.tail hb)
    rw [lineOut_cons, List.append_assoc]
    cases x with
    | nl => exact absurd (by simp) hn
    | ch c => exact NoOcc.append (NoOcc.skip (esc_no_lt c)) ih
    | op t =>
      refine NoOcc.append ?_ ih
      show NoOcc quotNote (opText ls t)
      rcases opText_cases (ls := ls) (ho (.op t) (by simp)) with e | e | ⟨i, e⟩
      · rw [e]; exact NoOcc.lit (by decide)
      · rw [e]; exact NoOcc.lit (by decide)
      · rw [e]; exact langSpan_occ i
    | cl t => exact NoOcc.append (a := spanEnd) (NoOcc.lit (by decide)) ih
    | note s =>
      show NoOcc quotNote (c!"/*" ++ s.flatMap escChar ++ c!"*/" ++ (lineOut ls l ++ pEnd))
      exact NoOcc.append (NoOcc.append (NoOcc.append (NoOcc.lit (by decide)) (NoOcc.skip (escs_no_lt s))) (NoOcc.lit (by decide))) ih

theorem line_cr {l : List Piece} (ho : ∀ x ∈ l, x.Ok ls) : '\r' ∉ lineOut ls l := by
  induction l with
  | nil => show '\r' ∉ ([] : Str); simp
  | cons x l ih =>
    rw [lineOut_cons, List.mem_append, not_or]
    refine ⟨?_, ih (fun y hy => ho y (by simp [hy]))⟩
    have hx := ho x (by simp)
    cases x with
    | nl => show '\r' ∉ nlOut; decide
    | ch c => exact not_mem_esc (by decide) hx.2.2
    | op t =>
      show '\r' ∉ opText ls t
      rcases opText_cases (ls := ls) hx with e | e | ⟨i, e⟩
      · rw [e]; decide
      · rw [e]; decide
      · rw [e]; exact langSpan_cr i
    | cl t => show '\r' ∉ spanEnd; decide
    | note s =>
      show '\r' ∉ c!"/*" ++ s.flatMap escChar ++ c!"*/"
      simp only [List.mem_append, not_or]
      exact ⟨⟨by decide, escs_cr (fun hm => (hx.1 _ hm).2.2.1 rfl)⟩, by decide⟩


theorem line_body_rep {p q : Str} (h : IsQuot p) {l : List Piece} (ho : ∀ x ∈ l, x.Ok ls) (hn : Piece.nl ∉ l) :
    RepOf p q (lineOut ls l ++ pEnd) (lineOut ls l ++ pEnd) := (line_rep h ho hn).append (h.text (by decide))

theorem quot_unquoted {st : Str} (hs : st = indStyle ∨ st = bodyStyle) {l : List Piece} (ho : ∀ x ∈ l, x.Ok ls) (hn : Piece.nl ∉ l)
    (hb : Neighbours l) (hq : ∀ l', l ≠ .ch '>' :: .ch ' ' :: l') :
    Quot (pOpen st ++ lineOut ls l ++ pEnd) (pOpen st ++ lineOut ls l ++ pEnd) := by
  have h1 : ∀ {p q : Str}, IsQuot p → RepOf p q (lineOut ls l ++ pEnd) (lineOut ls l ++ pEnd) := fun h => line_body_rep h ho hn
  have hm : ∀ r, ¬ c!"&gt; " <+: lineOut ls l ++ pEnd ++ r := by
    intro r hp
    obtain ⟨l', e⟩ := line_quote hp
    exact hq l' e
  have hc : '\r' ∉ lineOut ls l ++ pEnd := by
    rw [List.mem_append, not_or]
    exact ⟨line_cr ho, by decide⟩
  have hN := line_occ ho hn hb
  rw [List.append_assoc]
  generalize lineOut ls l ++ pEnd = body at *
  rcases hs with rfl | rfl
  · rw [pOpen_ind]
    refine ⟨⟨_, para_miss (p := quotInd) rfl rfl (by decide) (by decide) (h1 (.inl rfl)) hm, ?_⟩, ?_, ?_⟩
    · exact RepOf.append (RepOf.lit (by decide)) (h1 (.inr rfl))
    · exact NoOcc.append (NoOcc.lit (by decide)) hN
    · rw [List.mem_append, not_or]
      exact ⟨by decide, hc⟩
  · rw [pOpen_body]
    refine ⟨⟨_, RepOf.append (RepOf.lit (by decide)) (h1 (.inl rfl)), ?_⟩, ?_, ?_⟩
    · exact para_miss (p := quotBody) rfl rfl (by decide) (by decide) (h1 (.inr rfl)) hm
    · exact NoOcc.append (NoOcc.lit (by decide)) hN
    · rw [List.mem_append, not_or]
      exact ⟨by decide, hc⟩

theorem quot_quoted {st : Str} (hs : st = indStyle ∨ st = bodyStyle) {l : List Piece} (ho : ∀ x ∈ l, x.Ok ls) (hn : Piece.nl ∉ l)
    (hb : Neighbours l) :
    Quot (pOpen st ++ lineOut ls (.ch '>' :: .ch ' ' :: l) ++ pEnd) (pOpen c!"Quotations" ++ lineOut ls l ++ pEnd) := by
  have h1 : ∀ {p q : Str}, IsQuot p → RepOf p q (lineOut ls l ++ pEnd) (lineOut ls l ++ pEnd) := fun h => line_body_rep h ho hn
  have hc : '\r' ∉ lineOut ls l ++ pEnd := by
    rw [List.mem_append, not_or]
    exact ⟨line_cr ho, by decide⟩
  have hN := line_occ ho hn hb
  have e : lineOut ls (.ch '>' :: .ch ' ' :: l) ++ pEnd = c!"&gt; " ++ (lineOut ls l ++ pEnd) := by
    rw [lineOut_cons, lineOut_cons, out_ch, out_ch]
    generalize lineOut ls l = x
    rfl
  rw [List.append_assoc, List.append_assoc, e]
  generalize lineOut ls l ++ pEnd = body at *
  have e3 : c!"<text:p text:style-name=" ++ quotOut = pOpen c!"Quotations" := rfl
  rcases hs with rfl | rfl
  · rw [pOpen_ind]
    refine ⟨⟨_, para_hit (p := quotInd) (q := quotOut) rfl (by decide) (h1 (.inl rfl)), ?_⟩, ?_, ?_⟩
    · rw [e3]
      exact RepOf.append (RepOf.lit (by decide)) (h1 (.inr rfl))
    · exact NoOcc.append (NoOcc.lit (by decide)) hN
    · rw [List.mem_append, not_or]
      exact ⟨by decide, hc⟩
  · rw [pOpen_body]
    refine ⟨⟨c!"<text:p text:style-name=" ++ c!"\"Text_20_body\">" ++ (c!"&gt; " ++ body), ?_, ?_⟩, ?_, ?_⟩
    · refine RepOf.append (RepOf.lit (by decide)) (RepOf.append (RepOf.lit (by decide)) (h1 (.inl rfl)))
    · rw [← e3]
      exact para_hit (p := quotBody) (q := quotOut) rfl (by decide) (h1 (.inr rfl))
    · exact NoOcc.append (NoOcc.lit (by decide)) hN
    · rw [List.mem_append, not_or]
      exact ⟨by decide, hc⟩

theorem quot_para {q : Para} (hs : q.style = indStyle ∨ q.style = bodyStyle) (hem : q.empty = true → q.line = [] ∧ q.style = indStyle)
    (ho : ∀ x ∈ q.line, x.Ok ls) (hn : Piece.nl ∉ q.line) (hb : Neighbours q.line) : Quot (paraText ls q) (quotedText ls q) := by
  unfold quotedText
  by_cases he : q.empty = true
  · rw [if_pos he]
    unfold paraText
    rw [if_pos he, (hem he).2]
    exact Quot.lit (by decide)
  · rw [if_neg he]
    split
    · rename_i l e
      unfold paraText
      rw [if_neg he, e]
      rw [e] at ho hn hb
      exact quot_quoted hs (fun x hx => ho x (by simp [hx])) (fun hm => hn (by simp [hm])) (Neighbours.tail (Neighbours.tail hb))
    · rename_i hne
      unfold paraText
      rw [if_neg he]
      exact quot_unquoted hs ho hn hb (fun l' e => hne l' e)

end Verif.Book
