/-
Comments, footnotes and endnotes in a line (C56).
-/
import Verif.Lemmas.Book3

namespace Verif.Book
open Spec Re

variable {ls : List Str} {author : Option Str}

theorem escChar_other {c d : Char} {z : Str} (h : escChar c = d :: z) (hd : d ≠ '&') : c = d ∧ z = [] := by
  unfold escChar at h
  repeat' split at h
  all_goals first
    | (injection h with h1 h2; exact absurd h1.symm hd)
    | (injection h with h1 h2; exact ⟨h1, h2.symm⟩)

theorem esc_prefix {p : Str} (hp : '&' ∉ p) : ∀ {s : Str}, p <+: s.flatMap escChar → p <+: s := by
  induction p with
  | nil => intro s _; exact List.nil_prefix
  | cons d p ih =>
    intro s h
    cases s with
    | nil => obtain ⟨w, hw⟩ := h; cases hw
    | cons c s =>
      rw [List.flatMap_cons] at h
      obtain ⟨x, y, e2, _⟩ := escChar_head c
      have hd : d ≠ '&' := fun e => hp (by simp [e])
      rw [e2] at h
      obtain ⟨w, hw⟩ := h
      injection hw with h1 hw
      subst h1
      obtain ⟨rfl, rfl⟩ := escChar_other e2 hd
      have : p <+: s := ih (fun hm => hp (by simp [hm])) ⟨w, hw⟩
      exact List.prefix_cons_inj _ |>.2 this

/-- A comment that is no footnote or endnote. -/
theorem noteMatch_other {u r : Str} (h : ∀ c ∈ u, c ≠ '*') (hs : u.head? ≠ some ' ') (hf : ¬ c!"@fn " <+: u) (he : ¬ c!"@en " <+: u) :
    noteMatch (c!"/*" ++ u ++ (c!"*/" ++ r)) = none := by
  have h0 : noteMatch (c!"/*" ++ u ++ (c!"*/" ++ r)) = noteMatch ('/' :: '*' :: (u ++ '*' :: '/' :: r)) := by simp
  rw [h0]
  unfold noteMatch
  rw [if_pos (by rfl)]
  match u, h, hs, hf, he with
  | [], _, _, _, _ => rfl
  | [a], h, hs, hf, he =>
    have : a ≠ ' ' := fun e => hs (by rw [e]; rfl)
    simp only [List.drop, List.cons_append, List.nil_append, List.dropWhile_cons, this, decide_false, Bool.false_eq_true, if_false]
    split
    · rename_i heq
      injection heq with _ heq
      injection heq with _ heq
      injection heq with heq _
      exact absurd heq (by decide)
    · rfl
  | [a, b], h, hs, hf, he =>
    have : a ≠ ' ' := fun e => hs (by rw [e]; rfl)
    simp only [List.drop, List.cons_append, List.nil_append, List.dropWhile_cons, this, decide_false, Bool.false_eq_true, if_false]
    split
    · rename_i heq
      injection heq with _ heq
      injection heq with _ heq
      injection heq with heq _
      exact absurd heq (by decide)
    · rfl
  | [a, b, c], h, hs, hf, he =>
    have : a ≠ ' ' := fun e => hs (by rw [e]; rfl)
    simp only [List.drop, List.cons_append, List.nil_append, List.dropWhile_cons, this, decide_false, Bool.false_eq_true, if_false]
    split
    · rename_i heq
      injection heq with _ heq
      injection heq with _ heq
      injection heq with _ heq
      split
      · rw [← heq]
        have e1 : List.takeWhile (fun x => decide (x = '*')) ('*' :: '/' :: r) = ['*'] := by
          rw [List.takeWhile_cons]; simp
        rw [e1]
        rfl
      · rfl
    · rfl
  | a :: b :: c :: d :: u, h, hs, hf, he =>
    have : a ≠ ' ' := fun e => hs (by rw [e]; rfl)
    have hd : d ≠ '*' := h d (by simp)
    simp only [List.drop, List.cons_append, List.nil_append, List.dropWhile_cons, this, decide_false, Bool.false_eq_true, if_false]
    split
    · rename_i heq
      injection heq with e1 heq
      injection heq with e2 heq
      injection heq with e3 heq
      split
      · rename_i hfe
        rw [← heq]
        have e4 : List.takeWhile (fun x => decide (x = '*')) (d :: (u ++ '*' :: '/' :: r)) = [] := by
          rw [List.takeWhile_cons]; simp [hd]
        rw [e4]
        simp only [List.length_nil, List.drop_zero]
        split
        · rename_i h4
          injection h4 with h4 _
          subst e1 e3 h4 e2
          rcases hfe with e | e
          · exact absurd ⟨u, by rw [e]; rfl⟩ he
          · exact absurd ⟨u, by rw [e]; rfl⟩ hf
        · rfl
      · rfl
    · rfl

theorem isNote_false {s : Str} (h : isNote s = false) : ¬ c!"@fn " <+: s ∧ ¬ c!"@en " <+: s := by
  unfold isNote at h
  rw [Bool.or_eq_false_iff, decide_eq_false_iff_not, decide_eq_false_iff_not] at h
  exact h

theorem isNote_true {s : Str} (h : isNote s = true) : ∃ e u, (e = 'f' ∨ e = 'e') ∧ s = c!"@" ++ [e] ++ c!"n " ++ u := by
  unfold isNote at h
  rw [Bool.or_eq_true, decide_eq_true_eq, decide_eq_true_eq] at h
  rcases h with ⟨u, hu⟩ | ⟨u, hu⟩
  · exact ⟨'f', u, .inl rfl, hu.symm⟩
  · exact ⟨'e', u, .inr rfl, hu.symm⟩

theorem strip_head {s : Str} (h : Str.strip s = s) : s.head? ≠ some ' ' := by
  intro hh
  cases s with
  | nil => cases hh
  | cons c s =>
    injection hh with hc
    subst hc
    have h1 : Str.rstripBy Str.isWs (Str.lstripBy Str.isWs s) = ' ' :: s := h
    obtain ⟨t, ht, _⟩ := Str.rstripBy_prefix Str.isWs (Str.lstripBy Str.isWs s)
    rw [h1] at ht
    have h2 : (Str.lstripBy Str.isWs s).length ≤ s.length := (List.dropWhile_sublist _).length_le
    rw [ht] at h2
    simp at h2
    omega

theorem strip_esc_head {s : Str} (h : Str.strip s = s) : (s.flatMap escChar).head? ≠ some ' ' := by
  intro hh
  cases s with
  | nil => cases hh
  | cons c s =>
    rw [List.flatMap_cons] at hh
    obtain ⟨x, y, e2, _⟩ := escChar_head c
    rw [e2] at hh
    injection hh with hh
    have hx : x = ' ' := hh
    rw [hx] at e2
    exact strip_head h (by rw [(escChar_other e2 (by decide)).1]; rfl)

theorem out_note (s : Str) : (rawStage ls).out (some (.note s)) = c!"/*" ++ s.flatMap escChar ++ c!"*/" := rfl

theorem escChar_slash {c : Char} (h : c ≠ '/') : '/' ∉ escChar c := by
  unfold escChar
  repeat' split
  all_goals first
    | decide
    | (intro hm; rw [List.mem_singleton] at hm; exact h hm.symm)

/-- Characters before something that does not begin with a star. -/
theorem begin_ch {c : Char} {x : Str} (h : c = '/' → ∀ w, x ≠ '*' :: w) {st : NoteState} : go1 st (escChar c ++ x) = escChar c ++ go1 st x := by
  by_cases hc : c = '/'
  · subst hc
    show go1 st ('/' :: x) = '/' :: go1 st x
    refine go_miss noteM_b st (noteM_none ?_)
    rintro ⟨w, hw⟩
    injection hw with _ hw
    exact h rfl _ hw.symm
  · exact go1_calm (NoBegin.of_not_mem (escChar_slash hc)) st x

theorem begin_ch2 {c : Char} {x : Str} (h : c = '/' → ∀ w, x ≠ '*' :: w) : go2 author (escChar c ++ x) = escChar c ++ go2 author x := by
  by_cases hc : c = '/'
  · subst hc
    show go2 author ('/' :: x) = '/' :: go2 author x
    refine go_miss annM_b () (annM_none ?_)
    rintro ⟨w, hw⟩
    injection hw with _ hw
    exact h rfl _ hw.symm
  · exact go2_calm author (NoBegin.of_not_mem (escChar_slash hc)) x

theorem number_no {c : Char} (h : c.isDigit = false) {i : Nat} : c ∉ Str.ofNat i := by
  intro hm
  rw [Str.isDigit_of_mem_ofNat hm] at h
  cases h

theorem op_begin {t : Str} (ht : t ∈ formats ls) : NoBegin c!"/*" (opText ls t) := by
  rcases opText_cases (ls := ls) ht with e | e | ⟨i, e⟩
  · rw [e]; exact NoBegin.lit (by decide)
  · rw [e]; exact NoBegin.lit (by decide)
  · rw [e]
    refine NoBegin.of_not_mem ?_
    intro hm
    simp only [langSpan, List.mem_append] at hm
    rcases hm with (hm | hm) | hm
    · exact absurd hm (by decide)
    · exact number_no (by decide) hm
    · exact absurd hm (by decide)

theorem noteText_begin {k : Nat} {s : Str} (h : NoteOk s) : NoBegin c!"/*" (noteText k s) := by
  have hd : '/' ∉ Str.ofNat (k + 1) := fun hm => number_no (by decide) hm
  have he : '/' ∉ (s.drop 4).flatMap escChar := fun hm => (NoteOk.esc (s := s.drop 4) (fun c hc => h c (List.mem_of_mem_drop hc)) _ hm).2.2 rfl
  unfold noteText
  have hl : ∀ a b : Str, noStart c!"/*" a = true → noStart c!"/*" b = true → NoBegin c!"/*" (if c!"@fn " <+: s then a else b) := by
    intro a b ha hb
    split
    · exact NoBegin.lit ha
    · exact NoBegin.lit hb
  refine NoBegin.append (NoBegin.append (NoBegin.append (NoBegin.append (NoBegin.append (NoBegin.append (NoBegin.append (NoBegin.append (NoBegin.append (NoBegin.append ?_ ?_) ?_) ?_) ?_) ?_) ?_) ?_) ?_) ?_) ?_
  · exact NoBegin.lit (by decide)
  · exact NoBegin.of_not_mem hd
  · exact NoBegin.lit (by decide)
  · exact hl _ _ (by decide) (by decide)
  · exact NoBegin.lit (by decide)
  · exact NoBegin.of_not_mem hd
  · exact NoBegin.lit (by decide)
  · exact hl _ _ (by decide) (by decide)
  · exact NoBegin.lit (by decide)
  · exact NoBegin.of_not_mem he
  · exact NoBegin.lit (by decide)

/-- The first substitution. -/
theorem go1_line {l : List Piece} (ho : ∀ x ∈ l, x.Ok ls) (hn : Piece.nl ∉ l) (hb : Neighbours l) (k : Nat) (r : Str) :
    go1 (k, k) (lineOut ls l ++ pEnd ++ r) = lineMid ls k l ++ pEnd ++ go1 (k + lineNotes l, k + lineNotes l) r := by
  induction l generalizing k with
  | nil =>
    show go1 (k, k) (pEnd ++ r) = pEnd ++ _
    exact go1_calm (NoBegin.lit (by decide)) _ r
  | cons x l ih =>
    have ho' : ∀ y ∈ l, y.Ok ls := fun y hy => ho y (by simp [hy])
    have hb' : Neighbours l := by
      cases l with
      | nil => trivial
      | cons y l => exact hb.2
    have ih := ih ho' (fun hm => hn (by simp [hm])) hb'
    rw [lineOut_cons, List.append_assoc, List.append_assoc]
    have ih : ∀ k, go1 (k, k) (lineOut ls l ++ (pEnd ++ r)) = lineMid ls k l ++ pEnd ++ go1 (k + lineNotes l, k + lineNotes l) r := by
      intro k
      rw [← List.append_assoc]
      exact ih k
    cases x with
    | nl => exact absurd (by simp) hn
    | ch c =>
      rw [lineMid_cons (by simp), lineNotes_cons (by simp), out_ch, begin_ch, ih, List.append_assoc, List.append_assoc, List.append_assoc]
      rintro rfl w hw
      rw [← List.append_assoc] at hw
      obtain ⟨l', rfl⟩ := lineOut_star ho' hw
      exact absurd hb.1 (by decide)
    | op t =>
      rw [lineMid_cons (by simp), lineNotes_cons (by simp)]
      show go1 (k, k) (opText ls t ++ _) = opText ls t ++ _ ++ _ ++ _
      rw [go1_calm (op_begin (ho (.op t) (by simp))), ih, List.append_assoc, List.append_assoc, List.append_assoc]
    | cl t =>
      rw [lineMid_cons (by simp), lineNotes_cons (by simp)]
      show go1 (k, k) (spanEnd ++ _) = spanEnd ++ _ ++ _ ++ _
      rw [go1_calm (NoBegin.lit (by decide)), ih, List.append_assoc, List.append_assoc, List.append_assoc]
    | note s =>
      have hs := ho (.note s) (by simp)
      have hsk : NoteOk s := hs.1
      rw [out_note]
      unfold lineMid lineNotes
      by_cases hi : isNote s = true
      · rw [if_pos hi, if_pos hi]
        obtain ⟨e, u, he, rfl⟩ := isNote_true hi
        have hu : NoteOk u := fun c hc => hsk c (by simp [hc])
        have e1 : (c!"@" ++ [e] ++ c!"n " ++ u).flatMap escChar = c!"@" ++ [e] ++ c!"n " ++ u.flatMap escChar := by
          rcases he with rfl | rfl <;> rfl
        rw [e1]
        have hm := noteMatch_note he (u := u.flatMap escChar) (fun c hc => ⟨(hu.esc c hc).1, (hu.esc c hc).2.1⟩) (lineOut ls l ++ (pEnd ++ r))
        have e2 : c!"/*" ++ (c!"@" ++ [e] ++ c!"n " ++ u.flatMap escChar) ++ c!"*/" ++ (lineOut ls l ++ (pEnd ++ r)) =
            '/' :: ((c!"*@" ++ [e] ++ c!"n " ++ u.flatMap escChar ++ c!"*/") ++ (lineOut ls l ++ (pEnd ++ r))) := by simp
        rw [e2]
        unfold go1
        rw [go_hit noteM_b]
        · have e3 : '/' :: (c!"*@" ++ [e] ++ c!"n " ++ u.flatMap escChar ++ c!"*/") = c!"/*@" ++ [e] ++ c!"n " ++ u.flatMap escChar ++ c!"*/" := rfl
          rw [e3, replaceNote_note k he hu]
          have e4 : k + (1 + lineNotes l) = k + 1 + lineNotes l := by omega
          rw [e4]
          have := ih (k + 1)
          unfold go1 at this
          simp only
          rw [this]
          simp only [List.append_assoc]
        · have e5 : '/' :: ((c!"*@" ++ [e] ++ c!"n " ++ u.flatMap escChar ++ c!"*/") ++ (lineOut ls l ++ (pEnd ++ r))) =
              c!"/*@" ++ [e] ++ c!"n " ++ u.flatMap escChar ++ (c!"*/" ++ (lineOut ls l ++ (pEnd ++ r))) := by simp
          rw [e5]
          unfold noteM
          rw [hm]
          simp
      · have hi' : isNote s = false := by cases h : isNote s with | true => exact absurd h hi | false => rfl
        rw [if_neg hi, if_neg hi]
        obtain ⟨hf, he⟩ := isNote_false hi'
        have hm := noteMatch_other (r := lineOut ls l ++ (pEnd ++ r)) (fun c hc => (hsk.esc c hc).1) (strip_esc_head hs.2)
          (fun h => hf (esc_prefix (by decide) h)) (fun h => he (esc_prefix (by decide) h))
        have e2 : c!"/*" ++ s.flatMap escChar ++ c!"*/" ++ (lineOut ls l ++ (pEnd ++ r)) = '/' :: ('*' :: (s.flatMap escChar ++ c!"*/") ++ (lineOut ls l ++ (pEnd ++ r))) := by simp
        have e3 : c!"/*" ++ s.flatMap escChar ++ (c!"*/" ++ (lineOut ls l ++ (pEnd ++ r))) = '/' :: ('*' :: (s.flatMap escChar ++ c!"*/") ++ (lineOut ls l ++ (pEnd ++ r))) := by simp
        rw [e3] at hm
        rw [e2]
        have h1 : noteM true ('/' :: ('*' :: (s.flatMap escChar ++ c!"*/") ++ (lineOut ls l ++ (pEnd ++ r)))) = none := by
          unfold noteM; rw [hm]; rfl
        unfold go1
        rw [go_miss noteM_b _ h1]
        have h2 : NoBegin c!"/*" ('*' :: (s.flatMap escChar ++ c!"*")) := by
          refine NoBegin.of_not_mem ?_
          intro h
          simp only [List.mem_cons, List.mem_append, List.not_mem_nil, or_false] at h
          rcases h with h | h | h
          · exact absurd h (by decide)
          · exact (hsk.esc _ h).2.2 rfl
          · exact absurd h (by decide)
        have e4 : '*' :: (s.flatMap escChar ++ c!"*/") ++ (lineOut ls l ++ (pEnd ++ r)) = ('*' :: (s.flatMap escChar ++ c!"*")) ++ (escChar '/' ++ (lineOut ls l ++ (pEnd ++ r))) := by
          show _ = ('*' :: (s.flatMap escChar ++ c!"*")) ++ (['/'] ++ (lineOut ls l ++ (pEnd ++ r)))
          simp
        rw [e4]
        have h3 := go1_calm h2 (k, k) (escChar '/' ++ (lineOut ls l ++ (pEnd ++ r)))
        unfold go1 at h3
        rw [h3]
        have h4 : go1 (k, k) (escChar '/' ++ (lineOut ls l ++ (pEnd ++ r))) = escChar '/' ++ go1 (k, k) (lineOut ls l ++ (pEnd ++ r)) := by
          refine begin_ch ?_
          rintro - w hw
          rw [← List.append_assoc] at hw
          obtain ⟨l', rfl⟩ := lineOut_star ho' hw
          have h1 : mayFollow (Piece.note s) (.ch '*') = true := hb.1
          cases h1
        unfold go1 at h4
        rw [h4]
        have := ih k
        unfold go1 at this
        rw [this]
        show '/' :: ('*' :: (s.flatMap escChar ++ c!"*") ++ (['/'] ++ _)) = _
        rw [Nat.zero_add]
        simp only [List.append_assoc, List.cons_append, List.nil_append]

/-- The second substitution. -/
theorem go2_line (author : Option Str) {l : List Piece} (ho : ∀ x ∈ l, x.Ok ls) (hn : Piece.nl ∉ l) (hb : Neighbours l) (k : Nat) (r : Str) :
    go2 author (lineMid ls k l ++ pEnd ++ r) = lineFin author ls k l ++ pEnd ++ go2 author r := by
  induction l generalizing k with
  | nil =>
    show go2 author (pEnd ++ r) = pEnd ++ _
    exact go2_calm author (NoBegin.lit (by decide)) r
  | cons x l ih =>
    have ho' : ∀ y ∈ l, y.Ok ls := fun y hy => ho y (by simp [hy])
    have hb' : Neighbours l := by
      cases l with
      | nil => trivial
      | cons y l => exact hb.2
    have ih := ih ho' (fun hm => hn (by simp [hm])) hb'
    have ih : ∀ k, go2 author (lineMid ls k l ++ (pEnd ++ r)) = lineFin author ls k l ++ pEnd ++ go2 author r := by
      intro k
      rw [← List.append_assoc]
      exact ih k
    cases x with
    | nl => exact absurd (by simp) hn
    | ch c =>
      rw [lineMid_cons (by simp), lineFin_cons (by simp), out_ch, List.append_assoc, List.append_assoc, begin_ch2, ih, List.append_assoc, List.append_assoc, List.append_assoc]
      rintro rfl w hw
      rw [← List.append_assoc] at hw
      obtain ⟨l', rfl⟩ := lineMid_star ho' hw
      exact absurd hb.1 (by decide)
    | op t =>
      rw [lineMid_cons (by simp), lineFin_cons (by simp), List.append_assoc, List.append_assoc]
      show go2 author (opText ls t ++ _) = opText ls t ++ _ ++ _ ++ _
      rw [go2_calm author (op_begin (ho (.op t) (by simp))), ih, List.append_assoc, List.append_assoc, List.append_assoc]
    | cl t =>
      rw [lineMid_cons (by simp), lineFin_cons (by simp), List.append_assoc, List.append_assoc]
      show go2 author (spanEnd ++ _) = spanEnd ++ _ ++ _ ++ _
      rw [go2_calm author (NoBegin.lit (by decide)), ih, List.append_assoc, List.append_assoc, List.append_assoc]
    | note s =>
      have hs := ho (.note s) (by simp)
      have hsk : NoteOk s := hs.1
      unfold lineMid lineFin
      by_cases hi : isNote s = true
      · rw [if_pos hi, if_pos hi, List.append_assoc, List.append_assoc]
        rw [go2_calm author (noteText_begin hsk), ih, List.append_assoc, List.append_assoc, List.append_assoc]
      · rw [if_neg hi, if_neg hi, List.append_assoc, List.append_assoc]
        have e2 : c!"/*" ++ s.flatMap escChar ++ c!"*/" ++ (lineMid ls k l ++ (pEnd ++ r)) = '/' :: (('*' :: (s.flatMap escChar ++ c!"*/")) ++ (lineMid ls k l ++ (pEnd ++ r))) := by simp
        rw [e2]
        unfold go2
        rw [go_hit annM_b]
        · have := ih k
          unfold go2 at this
          have e3 : (annF author () ('/' :: '*' :: (s.flatMap escChar ++ c!"*/"))).2 = noteStart author ++ s.flatMap escChar ++ noteEnd := by
            unfold annF
            have : List.take ((('/' : Char) :: '*' :: (s.flatMap escChar ++ c!"*/")).length - 4) (List.drop 2 (('/' : Char) :: '*' :: (s.flatMap escChar ++ c!"*/"))) = s.flatMap escChar := by
              simp only [List.drop, List.length_cons, List.length_append, List.length_nil]
              rw [show (s.flatMap escChar).length + (0 + 1 + 1) + 1 + 1 - 4 = (s.flatMap escChar).length by omega]
              exact List.take_left' rfl
            simp only
            rw [this]
            unfold noteStart noteEnd
            simp only [List.append_assoc]
          rw [e3, this]
          simp only [List.append_assoc]
        · have e5 : '/' :: (('*' :: (s.flatMap escChar ++ c!"*/")) ++ (lineMid ls k l ++ (pEnd ++ r))) = c!"/*" ++ (s.flatMap escChar ++ (c!"*/" ++ (lineMid ls k l ++ (pEnd ++ r)))) := by simp
          rw [e5]
          unfold annM between0
          rw [if_pos (by rfl)]
          have e6 : List.drop (c!"/*").length (c!"/*" ++ (s.flatMap escChar ++ (c!"*/" ++ (lineMid ls k l ++ (pEnd ++ r))))) = s.flatMap escChar ++ (c!"*/" ++ (lineMid ls k l ++ (pEnd ++ r))) := rfl
          rw [e6, lazyTo_text (fun c hc => ⟨(hsk.esc c hc).1, (hsk.esc c hc).2.1⟩)]
          simp

end Verif.Book
