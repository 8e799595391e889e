/-
Well-formedness of exported documents: parts that open and close their elements.
-/
import Verif.Lemmas.Balance3
import Verif.Lemmas.ReadAll

namespace Verif
open Spec Re Template

variable {ls : List Str} {author : Option Str}

/-! ### Open elements -/

theorem nest_append (st : List Str) (x y : List Ev) : nest st (x ++ y) = (nest st x).bind (fun s => nest s y) := by
  induction x generalizing st with
  | nil => rfl
  | cons e x ih =>
    rw [List.cons_append]
    cases e with
    | start t as => simp only [nest]; exact ih _
    | chars s => simp only [nest]; exact ih _
    | stop t =>
      cases st with
      | nil => rfl
      | cons u st =>
        simp only [nest]
        split
        · exact ih _
        · rfl

theorem nest_pend (st : List Str) (acc : Str) : nest st (saxPend acc) = some st := by
  unfold saxPend
  split <;> rfl

/-- The text is lexically correct, and if the elements `a` are open before it, the elements `a'` are open after it; it closes no
others. -/
def Bal (s : Str) (a a' : List Str) : Prop := ∀ acc, ∃ acc' evs, saxRun (.text acc) s = (.text acc', evs) ∧ nest a evs = some a'

theorem Bal.nil (a : List Str) : Bal [] a a := fun acc => ⟨acc, [], rfl, rfl⟩

theorem Bal.append {s1 s2 : Str} {a b c : List Str} (h1 : Bal s1 a b) (h2 : Bal s2 b c) : Bal (s1 ++ s2) a c := by
  intro acc
  obtain ⟨acc1, e1, x1, n1⟩ := h1 acc
  obtain ⟨acc2, e2, x2, n2⟩ := h2 acc1
  exact ⟨acc2, e1 ++ e2, saxRun_comp x1 x2, by rw [nest_append, n1]; exact n2⟩

theorem Bal.plain {s : Str} (h : s.all plainChar = true) (a : List Str) : Bal s a a := fun acc => ⟨_, [], saxRun_plain h acc, rfl⟩

theorem Bal.esc {s : Str} (h : Carriable s) (a : List Str) : Bal (s.flatMap escChar) a a := fun acc => ⟨_, [], saxRun_esc h acc, rfl⟩

theorem Bal.tag {t acc' : Str} {evs : List Ev} {a a' : List Str} (h : saxRun .lt t = (.text acc', evs)) (hn : nest a evs = some a') : Bal ('<' :: t) a a' := by
  intro acc
  refine ⟨acc', saxPend acc ++ evs, by rw [saxRun_lt, h], ?_⟩
  rw [nest_append, nest_pend]
  exact hn

/-- More elements may be open. -/
theorem nest_more {evs : List Ev} {a a' : List Str} (b : List Str) (h : nest a evs = some a') : nest (a ++ b) evs = some (a' ++ b) := by
  induction evs generalizing a with
  | nil => cases h; rfl
  | cons e evs ih =>
    cases e with
    | start t as => exact ih (a := t :: a) h
    | chars s => exact ih (a := a) (by simpa only [nest] using h)
    | stop t =>
      cases a with
      | nil => cases h
      | cons u a =>
        simp only [nest, List.cons_append] at h ⊢
        split at h
        · next e => rw [if_pos e]; exact ih h
        · cases h

theorem Bal.more {s : Str} {a a' : List Str} (h : Bal s a a') (b : List Str) : Bal s (a ++ b) (a' ++ b) := by
  intro acc
  obtain ⟨acc', evs, x, n⟩ := h acc
  exact ⟨acc', evs, x, nest_more b n⟩

/-- A text that opens and closes its elements. -/
def Even (s : Str) : Prop := Bal s [] []

theorem Even.nil : Even [] := Bal.nil []
theorem Even.append {s1 s2 : Str} (h1 : Even s1) (h2 : Even s2) : Even (s1 ++ s2) := Bal.append h1 h2

theorem Even.flat {α : Type} {f : α → Str} {l : List α} (h : ∀ x ∈ l, Even (f x)) : Even (l.flatMap f) := by
  induction l with
  | nil => exact Even.nil
  | cons x l ih =>
    rw [List.flatMap_cons]
    exact (h x (by simp)).append (ih (fun y hy => h y (by simp [hy])))

/-- An element. -/
theorem Even.elem {op en mid : Str} {t : Str} (h1 : Bal op [] [t]) (h2 : Even mid) (h3 : Bal en [t] []) : Even (op ++ (mid ++ en)) :=
  Bal.append h1 (Bal.append (h2.more [t]) h3)

/-! ### Lines -/

theorem span_open {t : Str} (ht : t ∈ formats ls) (a : List Str) : Bal (opText ls t) a (c!"text:span" :: a) := by
  rcases opText_cases ht with e | e | ⟨i, e⟩
  · rw [e]
    exact Bal.tag (t := c!"text:span text:style-name=\"Emphasis\">") (acc' := []) (evs := [.start c!"text:span" [(c!"text:style-name", c!"Emphasis")]]) (by decide +kernel) rfl
  · rw [e]
    exact Bal.tag (t := c!"text:span text:style-name=\"Strong_20_Emphasis\">") (acc' := []) (evs := [.start c!"text:span" [(c!"text:style-name", c!"Strong_20_Emphasis")]]) (by decide +kernel) rfl
  · rw [e]
    obtain ⟨z, e2, x⟩ := langSpan_sax i
    rw [e2]
    exact Bal.tag x rfl

theorem span_close (a : List Str) : Bal spanEnd (c!"text:span" :: a) a :=
  Bal.tag (t := c!"/text:span>") (acc' := []) (evs := [.stop c!"text:span"]) (by decide +kernel) (by simp [nest])

theorem note_even (ha : AuthorOk author) {s : Str} (hs : Carriable s) (a : List Str) : Bal (noteStart author ++ s.flatMap escChar ++ noteEnd) a a := by
  obtain ⟨t, e, x⟩ := note_sax ha hs
  rw [e]
  refine Bal.tag x ?_
  rw [nest_append, nest_append, nest_append, nest_append]
  simp [nest, nest_pend]

/-- A line that opens and closes its spans. -/
theorem line_bal (ha : AuthorOk author) {l : List Piece} (ho : ∀ p ∈ l, p.Ok ls) (hn : Piece.nl ∉ l) {d e : Nat} (hs : spans d l = some e) (a : List Str) :
    Bal (lineOut author ls l) (List.replicate d c!"text:span" ++ a) (List.replicate e c!"text:span" ++ a) := by
  induction l generalizing d with
  | nil =>
    cases hs
    exact Bal.nil _
  | cons p l ih =>
    rw [lineOut_cons]
    have ih := fun d => @ih (fun p hp => ho p (by simp [hp])) (fun hm => hn (by simp [hm])) d
    have hp := ho p (by simp)
    cases p with
    | nl => exact absurd (by simp) hn
    | op t => exact Bal.append (span_open hp _) (ih (d + 1) hs)
    | cl t =>
      unfold spans at hs
      split at hs
      · cases hs
      · obtain ⟨d, rfl⟩ := Nat.exists_eq_succ_of_ne_zero (by assumption)
        exact Bal.append (span_close _) (ih d hs)
    | ch c =>
      refine Bal.append (b := List.replicate d c!"text:span" ++ a) ?_ (ih d hs)
      show Bal (escChar c) _ _
      have := Bal.esc (s := [c]) (by intro x hx; rw [List.mem_singleton.1 hx]; exact ⟨hp.1, hp.2.2⟩) (List.replicate d c!"text:span" ++ a)
      simpa using this
    | note s =>
      refine Bal.append (b := List.replicate d c!"text:span" ++ a) ?_ (ih d hs)
      exact note_even ha (fun c hc => ⟨(hp.1 c hc).1, (hp.1 c hc).2.2.1⟩) _

theorem line_even (ha : AuthorOk author) {l : List Piece} (ho : ∀ p ∈ l, p.Ok ls) (hn : Piece.nl ∉ l) (hs : spans 0 l = some 0) : Even (lineOut author ls l) :=
  line_bal ha ho hn hs []

/-! ### Paragraphs -/

theorem p_open {st : Str} (h : st.all plainAttr = true) : Bal (pOpen st) [] [c!"text:p"] := by
  obtain ⟨t, e, x⟩ := pOpen_sax h
  rw [e]
  exact Bal.tag x rfl

theorem p_close : Bal pEnd [c!"text:p"] [] := Bal.tag (t := c!"/text:p>") (acc' := []) (evs := [.stop c!"text:p"]) (by decide +kernel) (by simp [nest])

theorem para_even (ha : AuthorOk author) {q : Para} (hs : q.style = indStyle ∨ q.style = bodyStyle) (hem : q.empty = true → q.line = [] ∧ q.style = indStyle)
    (ho : ∀ x ∈ q.line, x.Ok ls) (hn : Piece.nl ∉ q.line) (hsp : spans 0 q.line = some 0) : Even (quotedText author ls q) := by
  unfold quotedText
  by_cases he : q.empty = true
  · rw [if_pos he]
    unfold paraText
    rw [if_pos he, (hem he).2]
    exact Bal.tag (t := c!"text:p text:style-name=\"First_20_line_20_indent\" />") (acc' := []) (evs := [.start c!"text:p" [(c!"text:style-name", c!"First_20_line_20_indent")], .stop c!"text:p"])
      (by decide +kernel) (by simp [nest])
  · rw [if_neg he]
    have key : ∀ (st : Str) (l : List Piece), st.all plainAttr = true → (∀ x ∈ l, x.Ok ls) → Piece.nl ∉ l → spans 0 l = some 0 → Even (pOpen st ++ lineOut author ls l ++ pEnd) := by
      intro st l h1 h2 h3 h4
      rw [List.append_assoc]
      exact Even.elem (p_open h1) (line_even ha h2 h3 h4) p_close
    split
    · next l e =>
      rw [e] at ho hn hsp
      exact key _ _ (by decide) (fun x hx => ho x (by simp [hx])) (fun hm => hn (by simp [hm])) hsp
    · unfold paraText
      rw [if_neg he]
      refine key _ _ ?_ ho hn hsp
      rcases hs with e | e <;> rw [e] <;> decide

/-- The same for the text before the quotations are marked. -/
def EvenPart (s : Str) : Prop := ∃ s', Quot s s' ∧ Even s'

theorem EvenPart.nil : EvenPart [] := ⟨[], Quot.nil, Even.nil⟩

theorem EvenPart.append {s1 s2 : Str} (h1 : EvenPart s1) (h2 : EvenPart s2) : EvenPart (s1 ++ s2) := by
  obtain ⟨a, qa, ha⟩ := h1
  obtain ⟨b, qb, hb⟩ := h2
  exact ⟨a ++ b, qa.append qb, ha.append hb⟩

theorem spans_lines {ps : List Piece} {d : Nat} (h : spans d ps = some 0) : ∀ l r, pieceLines ps = l :: r → spans d l = some 0 ∧ ∀ x ∈ r, spans 0 x = some 0 := by
  induction ps generalizing d with
  | nil =>
    intro l r e
    simp only [pieceLines, List.cons.injEq] at e
    rw [← e.1, ← e.2]
    exact ⟨h, fun x hx => by cases hx⟩
  | cons p ps ih =>
    intro l r e
    by_cases hp : p = .nl
    · subst hp
      rw [pieceLines_nl] at e
      injection e with e1 e2
      unfold spans at h
      split at h
      · next hd =>
        subst hd
        obtain ⟨l', r', e3⟩ : ∃ l' r', pieceLines ps = l' :: r' := by
          cases hl : pieceLines ps with
          | nil => exact absurd hl (pieceLines_ne ps)
          | cons a b => exact ⟨a, b, rfl⟩
        obtain ⟨h1, h2⟩ := ih h l' r' e3
        rw [← e1, ← e2, e3]
        refine ⟨rfl, fun x hx => ?_⟩
        rcases List.mem_cons.1 hx with rfl | hx
        · exact h1
        · exact h2 x hx
      · cases h
    · obtain ⟨l', r', e1, e2⟩ := pieceLines_cons hp ps
      rw [e2] at e
      injection e with e3 e4
      subst e3 e4
      cases p with
      | nl => exact absurd rfl hp
      | op t => exact ih (d := d + 1) h l' r' e1
      | cl t =>
        unfold spans at h
        split at h
        · cases h
        · next hd =>
          obtain ⟨h1, h2⟩ := ih h l' r' e1
          refine ⟨?_, h2⟩
          rw [spans, if_neg hd]
          exact h1
      | ch c => exact ih (d := d) h l' r' e1
      | note c => exact ih (d := d) h l' r' e1

theorem spans_line {ps : List Piece} (h : spans 0 ps = some 0) : ∀ l ∈ pieceLines ps, spans 0 l = some 0 := by
  intro l hl
  cases hp : pieceLines ps with
  | nil => exact absurd hp (pieceLines_ne ps)
  | cons a b =>
    obtain ⟨h1, h2⟩ := spans_lines h a b hp
    rw [hp] at hl
    rcases List.mem_cons.1 hl with rfl | hl
    · exact h1
    · exact h2 l hl

/-- The conversion of a text that can be mended. -/
theorem formattedConvert_mendable (hL : ∀ l ∈ ls, LangCode l) (hf : (formats ls).Nodup) (ha : AuthorOk author) {ps : List Piece} (h : Mendables ls ps) :
    ∃ qs, formattedConvert (spanReplacements ++ commentReplacements author) ls (some (rawText ps)) false = (finalStage author ls).flat (pairs qs) ∧
      (∀ p ∈ qs, p.Ok ls) ∧ Neighbours qs ∧ spans 0 qs = some 0 := by
  obtain ⟨qs, e, h1, h2, h3⟩ := balanceText_pieces hL hf h
  have := convert_layout hL ha h1 h2
  by_cases e0 : rawText ps = []
  · rw [e0]
    exact ⟨[], rfl, (fun p hp => by cases hp), trivial, rfl⟩
  · refine ⟨qs, ?_, h1, h2, h3⟩
    unfold formattedConvert
    split
    · rename_i e; cases e
    · rename_i e'; injection e' with e'; exact absurd e' e0
    · rename_i t _ e'
      injection e' with e'
      subst e'
      simp only [Bool.false_eq_true, if_false]
      rw [e]
      exact this

theorem paragraphs_even (hL : ∀ l ∈ ls, LangCode l) (hf : (formats ls).Nodup) (hA : AuthorOk author) {ps : List Piece} (hm : Mendables ls ps) {st : Str}
    (hs : st = indStyle ∨ st = bodyStyle) :
    EvenPart (pOpen st ++ formattedConvert (spanReplacements ++ commentReplacements author) ls (some (rawText ps)) false ++ pEnd) := by
  obtain ⟨qs0, e, h1, h2, h3⟩ := formattedConvert_mendable hL hf hA hm
  rw [e]
  obtain ⟨l, qs, g1, g2⟩ := paras_text author ls st (pairs qs0)
  have hst := paras_styles hs (pairs qs0)
  have key : ∀ q ∈ paras st (pairs qs0), q.line ∈ pieceLines qs0 := by
    intro q hq
    rw [← paras_lines st qs0]
    exact List.mem_map_of_mem hq
  have hok : ∀ q ∈ paras st (pairs qs0), ∀ x ∈ q.line, x.Ok ls := fun q hq x hx => h1 x ((pieceLines_infix (key q hq)).subset hx)
  have hnl : ∀ q ∈ paras st (pairs qs0), Piece.nl ∉ q.line := fun q hq => pieceLines_no_nl (key q hq)
  have hq1 : ∀ q ∈ paras st (pairs qs0), Quot (paraText author ls q) (quotedText author ls q) := fun q hq =>
    Quot.para hA (hst q hq).1 (hst q hq).2 (hok q hq) (hnl q hq) (Neighbours.infix h2 (pieceLines_infix (key q hq)))
  have hq2 : ∀ q ∈ paras st (pairs qs0), Even (quotedText author ls q) := fun q hq =>
    para_even hA (hst q hq).1 (hst q hq).2 (hok q hq) (hnl q hq) (spans_line h3 _ (key q hq))
  have e1 : pOpen st ++ (finalStage author ls).flat (pairs qs0) ++ pEnd = paraText author ls ⟨st, false, l⟩ ++ qs.flatMap (fun q => '\n' :: paraText author ls q) := by
    rw [List.append_assoc, g2]
    show _ = (pOpen st ++ lineOut author ls l ++ pEnd) ++ _
    simp only [List.append_assoc]
  rw [g1] at hq1 hq2
  rw [e1]
  refine ⟨quotedText author ls ⟨st, false, l⟩ ++ qs.flatMap (fun q => '\n' :: quotedText author ls q), ?_, ?_⟩
  · refine (hq1 _ (by simp)).append (Quot.flat (fun q hq => ?_))
    exact Quot.append (a := ['\n']) (a' := ['\n']) (Quot.lit (by decide)) (hq1 q (by simp [hq]))
  · refine (hq2 ⟨st, false, l⟩ (by simp)).append (Even.flat (fun q hq => ?_))
    exact Even.append (s1 := ['\n']) (Bal.plain (by decide) _) (hq2 q (by simp [hq]))

end Verif
