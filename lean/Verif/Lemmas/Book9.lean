/-
Parts of the exported document and the passages they become (C56).
-/
import Verif.Lemmas.Book8

namespace Verif.Book
open Spec Re

variable {ls : List Str} {author : Option Str}

theorem passagesAll_append (a b : List XNode) : passagesAll (a ++ b) = passagesAll a ++ passagesAll b := by
  induction a with
  | nil => rfl
  | cons k a ih => simp only [List.cons_append, passagesAll, ih, List.append_assoc]

theorem passagesAll_textNode (acc : Str) : passagesAll (textNode acc) = [] := by
  unfold textNode
  split <;> rfl

/-- A piece of a document: it consists of these passages. -/
def Pas (s : Str) (ps : List Passage) : Prop := '\r' ∉ s ∧ ∀ acc, ∃ ns acc', Renders s acc ns acc' ∧ passagesAll ns = ps

theorem Pas.nil : Pas [] [] := ⟨by simp, fun acc => ⟨[], acc, Renders.nil acc, rfl⟩⟩

theorem Pas.append {s1 s2 : Str} {p1 p2 : List Passage} (h1 : Pas s1 p1) (h2 : Pas s2 p2) : Pas (s1 ++ s2) (p1 ++ p2) := by
  refine ⟨by rw [List.mem_append]; exact fun h => h.elim h1.1 h2.1, ?_⟩
  intro acc
  obtain ⟨n1, a1, r1, e1⟩ := h1.2 acc
  obtain ⟨n2, a2, r2, e2⟩ := h2.2 a1
  exact ⟨n1 ++ n2, a2, r1.append r2, by rw [passagesAll_append, e1, e2]⟩

theorem Pas.blank {s : Str} (h : s.all plainChar = true) : Pas s [] := by
  refine ⟨fun hc => absurd (List.all_eq_true.1 h _ hc) (by decide), fun acc => ⟨[], s.reverse ++ acc, Renders.plain h acc, rfl⟩⟩

/-- A paragraph or heading. -/
theorem Pas.elem {start stop t style body a2 : Str} {as : Dict Str} {sh : List Str → List Shown} (ht : t = c!"text:p" ∨ t = c!"text:h")
    (hs : as.get? c!"text:style-name" = some style) (hc : '\r' ∉ start ++ stop) (x1 : saxRun .lt start = (.text [], [.start t as]))
    (hb : Show ls body sh) (x3 : saxRun .lt stop = (.text a2, [.stop t])) : Pas ('<' :: start ++ (body ++ '<' :: stop)) [⟨style, sh []⟩] := by
  refine ⟨?_, ?_⟩
  · simp only [List.mem_append, List.mem_cons, not_or] at hc ⊢
    exact ⟨⟨by decide, hc.1⟩, hb.1, by decide, hc.2⟩
  · intro acc
    obtain ⟨ks, a1, hr, h1⟩ := hb.2 []
    refine ⟨_, a2, Renders.elem (a0 := acc) x1 hr x3, ?_⟩
    rw [passagesAll_append, passagesAll_textNode]
    show [] ++ (passages (.elem t as (ks ++ textNode a1)) ++ []) = _
    rw [List.nil_append, List.append_nil]
    unfold passages
    have h0 := h1 []
    have e0 : stk ls [] = [] := rfl
    rw [e0] at h0
    rw [if_pos ht, hs, shownAll_append, shownAll_textNode, h0]
    rfl

/-- An empty paragraph. -/
theorem Pas.empty {tag a1 style : Str} {as : Dict Str} (hc : '\r' ∉ tag) (hs : as.get? c!"text:style-name" = some style) (h : saxRun .lt tag = (.text a1, [.start c!"text:p" as, .stop c!"text:p"])) :
    Pas ('<' :: tag) [⟨style, []⟩] := by
  refine ⟨by simp only [List.mem_cons, not_or]; exact ⟨by decide, hc⟩, fun acc => ⟨_, a1, Renders.empty (a0 := acc) h, ?_⟩⟩
  rw [passagesAll_append, passagesAll_textNode]
  show [] ++ (passages (.elem c!"text:p" as []) ++ []) = _
  unfold passages
  rw [if_pos (.inl rfl), hs]
  rfl

/-! ### Numbers -/

/-- The number of notes. -/
def notesIn : List Passage → Nat
  | [] => 0
  | p :: r => noteCount p.shown + notesIn r

theorem notesIn_append (a b : List Passage) : notesIn (a ++ b) = notesIn a + notesIn b := by
  induction a with
  | nil => simp [notesIn]
  | cons x a ih => simp only [List.cons_append, notesIn, ih]; omega

theorem numberNotes_append (k : Nat) (a b : List Passage) : numberNotes k (a ++ b) = numberNotes k a ++ numberNotes (k + notesIn a) b := by
  induction a generalizing k with
  | nil => rfl
  | cons x a ih =>
    simp only [List.cons_append, numberNotes, notesIn, ih]
    rw [show k + noteCount x.shown + notesIn a = k + (noteCount x.shown + notesIn a) by omega]

theorem plain_numbers (k : Nat) (t : Str) : numberShown k (plainShown t) = plainShown t ∧ noteCount (plainShown t) = 0 := by
  induction t with
  | nil => exact ⟨rfl, rfl⟩
  | cons c t ih =>
    refine ⟨congrArg (_ :: ·) ih.1, ?_⟩
    have := ih.2
    unfold noteCount plainShown at *
    rw [List.map_cons, List.countP_cons, this]
    simp

/-! ### Parts of the document -/

/-- A part of the document becomes the passages `ps`. -/
def Piec (author : Option Str) (s : Str) (ps : List Passage) : Prop :=
  ∃ s1, Quot s s1 ∧ ∀ k, ∃ s2, Noted author k s1 s2 (k + notesIn ps) ∧ Back s2 ∧ Pas s2 (numberNotes k ps)

theorem Piec.nil : Piec author [] [] := ⟨[], Quot.nil, fun k => ⟨[], Noted.calm k (NoBegin.nil _), Back.nil, Pas.nil⟩⟩

theorem Piec.append {a b : Str} {p q : List Passage} (h1 : Piec author a p) (h2 : Piec author b q) : Piec author (a ++ b) (p ++ q) := by
  obtain ⟨a1, qa, ha⟩ := h1
  obtain ⟨b1, qb, hb⟩ := h2
  refine ⟨a1 ++ b1, qa.append qb, ?_⟩
  intro k
  obtain ⟨a2, na, ba, pa⟩ := ha k
  obtain ⟨b2, nb, bb, pb⟩ := hb (k + notesIn p)
  refine ⟨a2 ++ b2, ?_, ba.append bb, ?_⟩
  · rw [notesIn_append, ← Nat.add_assoc]
    exact na.append nb
  · rw [numberNotes_append]
    exact pa.append pb

theorem Piec.flat {α : Type} {f : α → Str} {g : α → List Passage} {l : List α} (h : ∀ x ∈ l, Piec author (f x) (g x)) : Piec author (l.flatMap f) (l.flatMap g) := by
  induction l with
  | nil => exact Piec.nil
  | cons x l ih =>
    rw [List.flatMap_cons, List.flatMap_cons]
    exact (h x (by simp)).append (ih (fun y hy => h y (by simp [hy])))

/-- Text between the passages. -/
theorem Piec.blank {s : Str} (hq : quotLit s = true) (hp : s.all plainChar = true) (hn : noStart c!"/*" s = true) (hh : s.head? ≠ some 'r') (ha : '@' ∉ s) (hr : ¬ c!"\nr" <:+: s) : Piec author s [] :=
  ⟨s, Quot.lit hq, fun k => ⟨s, Noted.calm k (NoBegin.lit hn), Back.lit hh ha hr, Pas.blank hp⟩⟩

/-- A title. -/
theorem Piec.heading {op e en style t : Str} {as : Dict Str} (ht : Carriable t) (hnl : '\n' ∉ t) (hm : NoMarks t) (he : e = c!"text:p" ∨ e = c!"text:h") (hs : as.get? c!"text:style-name" = some style)
    (hq1 : quotLit ('<' :: op) = true) (hq2 : quotLit ('<' :: en) = true) (hn1 : noStart c!"/*" ('<' :: op) = true) (hn2 : noStart c!"/*" en = true)
    (hl1 : '@' ∉ op ∧ '\n' ∉ op) (hl2 : '@' ∉ en ∧ ¬ c!"\nr" <:+: en ∧ en.head? ≠ some 'r')
    (x1 : saxRun .lt op = (.text [], [.start e as])) {a2 : Str} (x2 : saxRun .lt en = (.text a2, [.stop e])) :
    Piec author ('<' :: op ++ (t.flatMap escChar ++ '<' :: en)) [⟨style, plainShown t⟩] := by
  refine ⟨'<' :: op ++ (t.flatMap escChar ++ '<' :: en), ?_, ?_⟩
  · exact (Quot.lit hq1).append ((Quot.text (escs_no_quote t) (escs_no_lt t) (escs_cr (fun hm => (ht _ hm).2 rfl))).append (Quot.lit hq2))
  · intro k
    have e1 : '<' :: op ++ (t.flatMap escChar ++ '<' :: en) = ('<' :: op ++ (t.flatMap escChar ++ ['<'])) ++ en := by simp
    have hcr : '\r' ∉ op ++ en := by
      have h1 : '\r' ∉ '<' :: op := by
        simp only [quotLit, Bool.and_eq_true, Bool.not_eq_true', decide_eq_false_iff_not] at hq1
        exact hq1.2
      have h2 : '\r' ∉ '<' :: en := by
        simp only [quotLit, Bool.and_eq_true, Bool.not_eq_true', decide_eq_false_iff_not] at hq2
        exact hq2.2
      simp only [List.mem_append, List.mem_cons, not_or] at h1 h2 ⊢
      exact ⟨h1.2, h2.2⟩
    refine ⟨'<' :: op ++ (t.flatMap escChar ++ '<' :: en), ?_, ?_, ?_⟩
    · have hc : notesIn [⟨style, plainShown t⟩] = 0 := by
        unfold notesIn notesIn
        rw [(plain_numbers 0 t).2]
      rw [hc, Nat.add_zero, e1]
      refine Noted.calm k (NoBegin.append (NoBegin.append (NoBegin.lit hn1) ?_) (NoBegin.lit hn2))
      exact esc_begin (.inr rfl) (by decide) (by decide) hm.1
    · rw [e1]
      refine Back.append ?_ (Back.lit hl2.2.2 hl2.1 hl2.2.1)
      refine Back.inline (by simp) ?_ ?_ ?_
      · simp only [List.mem_append, List.mem_cons, not_or]
        exact ⟨⟨by decide, hl1.2⟩, escs_break (.inl rfl) hnl, by decide, by simp⟩
      · exact NoBegin.append (NoBegin.of_not_mem (by simp only [List.mem_cons, not_or]; exact ⟨by decide, hl1.1⟩)) (esc_begin (.inl rfl) (by decide) (by decide) hm.2.2)
      · exact NoBegin.append (NoBegin.of_not_mem (by simp only [List.mem_cons, not_or]; exact ⟨by decide, hl1.1⟩)) (esc_begin (.inl rfl) (by decide) (by decide) hm.2.1)
    · have := Pas.elem he hs hcr x1 (Show.esc (ls := []) ht) x2
      have e2 : numberNotes k [⟨style, plainShown t⟩] = [⟨style, plainShown t⟩] := by
        unfold numberNotes numberNotes
        rw [(plain_numbers k t).1]
      rw [e2]
      exact this

/-! ### Lines -/

/-- The beginnings of paragraphs. -/
theorem pOpen_ok {st : Str} (hs : st = indStyle ∨ st = bodyStyle ∨ st = c!"Quotations") : (pOpen st).head? = some '<' ∧ '@' ∉ pOpen st ∧ '\n' ∉ pOpen st ∧ noStart c!"/*" (pOpen st) = true ∧
    ∃ z, pOpen st = '<' :: z ∧ '\r' ∉ z ∧ saxRun .lt z = (.text [], [.start c!"text:p" [(c!"text:style-name", st)]]) := by
  rcases hs with rfl | rfl | rfl
  · exact ⟨by decide, by decide, by decide, by decide, c!"text:p text:style-name=\"First_20_line_20_indent\">", rfl, by decide, by decide +kernel⟩
  · exact ⟨by decide, by decide, by decide, by decide, c!"text:p text:style-name=\"Text_20_body\">", rfl, by decide, by decide +kernel⟩
  · exact ⟨by decide, by decide, by decide, by decide, c!"text:p text:style-name=\"Quotations\">", rfl, by decide, by decide +kernel⟩

/-- Lines that can be exported. -/
structure LineFits (ls : List Str) (l : List Piece) : Prop where
  ok : ∀ x ∈ l, x.Ok ls
  line : Piece.nl ∉ l
  neighbours : Neighbours l
  nested : spans 0 l = some 0
  n : Unbroken c!"@n@" l
  r : Unbroken c!"@r@" l

/-- A line after the marking of quotations. -/
theorem line_piece (ha : AuthorOk author) (hA : '@' ∉ pyStr author) {l : List Piece} (h : LineFits ls l) {st : Str} (hs : st = indStyle ∨ st = bodyStyle ∨ st = c!"Quotations") (k : Nat) :
    ∃ s2, Noted author k (pOpen st ++ lineOut ls l ++ pEnd) s2 (k + notesIn [⟨st, shownLine ls (pyStr author) [] l⟩]) ∧ Back s2 ∧
      Pas s2 (numberNotes k [⟨st, shownLine ls (pyStr author) [] l⟩]) := by
  obtain ⟨h1, h2, h3, h4, z, hz, hzr, hx⟩ := pOpen_ok hs
  refine ⟨pOpen st ++ (lineFin author ls k l ++ pEnd), ?_, line_back ha hA h.ok h.line h.n h.r ⟨h1, h2, h3⟩ k, ?_⟩
  · have e : notesIn [⟨st, shownLine ls (pyStr author) [] l⟩] = lineNotes l := by
      unfold notesIn notesIn
      simp only [noteCount_line, Nat.add_zero]
    rw [e, List.append_assoc]
    exact (Noted.calm k (NoBegin.lit h4)).append (line_noted ha h.ok h.line h.neighbours k)
  · rw [hz]
    have := Pas.elem (ls := ls) (style := st) (stop := c!"/text:p>") (a2 := []) (.inl rfl) (by simp [Dict.get?]) (by
      rw [List.mem_append, not_or]
      exact ⟨hzr, by decide⟩) hx (line_show ha l.length (Nat.le_refl _) h.ok h.line h.nested k) (by decide +kernel)
    exact this

theorem LineFits.unquoted {l : List Piece} (h : LineFits ls (.ch '>' :: .ch ' ' :: l)) : LineFits ls l := by
  refine ⟨fun x hx => h.ok x (by simp [hx]), fun hm => h.line (by simp [hm]), ?_, h.nested, h.n.tail.tail, h.r.tail.tail⟩
  have hn := h.neighbours.2
  cases l with
  | nil => trivial
  | cons y l => exact hn.2

/-- A paragraph. -/
theorem Piec.para (ha : AuthorOk author) (hA : '@' ∉ pyStr author) {q : Para} (hs : q.style = indStyle ∨ q.style = bodyStyle) (hem : q.empty = true → q.line = [] ∧ q.style = indStyle)
    (h : LineFits ls q.line) : Piec author (paraText ls q) [linePassage ls (pyStr author) q.style [] q.line] := by
  refine ⟨quotedText ls q, quot_para hs hem h.ok h.line h.neighbours, ?_⟩
  intro k
  by_cases he : q.empty = true
  · obtain ⟨e1, e2⟩ := hem he
    have hq : quotedText ls q = c!"<text:p text:style-name=\"First_20_line_20_indent\" />" := by
      unfold quotedText paraText
      rw [if_pos he, if_pos he, e2]
      rfl
    have hp : linePassage ls (pyStr author) q.style [] q.line = ⟨indStyle, []⟩ := by
      rw [e1, e2]
      rfl
    rw [hq, hp]
    refine ⟨c!"<text:p text:style-name=\"First_20_line_20_indent\" />", Noted.calm k (NoBegin.lit (by decide)), Back.lit (by decide) (by decide) ?_, ?_⟩
    · intro hi
      exact absurd (hi.subset (by simp : '\n' ∈ c!"\nr")) (by decide)
    · exact Pas.empty (as := [(c!"text:style-name", indStyle)]) (a1 := []) (by decide) (by simp [Dict.get?]) (by decide +kernel)
  · have hpt : paraText ls q = pOpen q.style ++ lineOut ls q.line ++ pEnd := by unfold paraText; rw [if_neg he]
    by_cases hquo : ∃ l, q.line = .ch '>' :: .ch ' ' :: l
    · obtain ⟨l, hl⟩ := hquo
      have hq : quotedText ls q = pOpen c!"Quotations" ++ lineOut ls l ++ pEnd := by
        unfold quotedText
        rw [if_neg he, hl]
        rfl
      have hp : linePassage ls (pyStr author) q.style [] q.line = ⟨c!"Quotations", shownLine ls (pyStr author) [] l⟩ := by
        unfold linePassage
        rw [if_pos (c := [] = [] ∧ [Piece.ch '>', .ch ' '] <+: q.line) ⟨rfl, ⟨l, hl.symm⟩⟩, hl]
        rfl
      rw [hq, hp]
      rw [hl] at h
      exact line_piece ha hA h.unquoted (.inr (.inr rfl)) k
    · have hq : quotedText ls q = pOpen q.style ++ lineOut ls q.line ++ pEnd := by
        unfold quotedText
        rw [if_neg he, hpt]
        split
        · rename_i l hl
          exact absurd ⟨l, hl⟩ hquo
        · rfl
      have hp : linePassage ls (pyStr author) q.style [] q.line = ⟨q.style, shownLine ls (pyStr author) [] q.line⟩ := by
        unfold linePassage
        rw [if_neg]
        rintro ⟨_, l, hl⟩
        exact hquo ⟨l, hl.symm⟩
      rw [hq, hp]
      exact line_piece ha hA h (by rcases hs with h | h; exact .inl h; exact .inr (.inl h)) k

end Verif.Book
