/-
Reading the paragraphs of a scene and the parts between the scenes.
-/
import Verif.Lemmas.ReadLine2

namespace Verif
open Spec Re

variable {ls : List Str} {author : Option Str} {type : Nat} {r0 : Rd}

/-! ### Paragraphs -/

/-- Paragraphs of a scene: they add `out`. -/
def ReadsP (type : Nat) (r0 : Rd) (ls : List Str) (s out : Str) (K : Str → Prop) : Prop :=
  ∀ cm acc L langs, (∀ l ∈ langs, l ∈ ls) → ∃ cm' acc' L' langs', Kept ls K langs langs' ∧
    Fed (manuscriptReader type) s acc (idleP ls cm) (rdAt r0 L [] langs) acc' (idleP ls cm') (rdAt r0 L' [] langs') ∧
    L'.flatten = L.flatten ++ out

theorem ReadsP.nil : ReadsP type r0 ls [] [] NoLang := fun cm acc L langs hl => ⟨cm, acc, L, langs, Kept.same hl, Fed.nil _ _ _ _, by simp⟩

theorem ReadsP.append {K K1 K2 : Str → Prop} {s1 s2 o1 o2 : Str} (h1 : ReadsP type r0 ls s1 o1 K1) (h2 : ReadsP type r0 ls s2 o2 K2) (hK : ∀ x, K x → K1 x ∨ K2 x) :
    ReadsP type r0 ls (s1 ++ s2) (o1 ++ o2) K := by
  intro cm acc L langs hl
  obtain ⟨cm1, a1, L1, langs1, hl1, f1, e1⟩ := h1 cm acc L langs hl
  obtain ⟨cm2, a2, L2, langs2, hl2, f2, e2⟩ := h2 cm1 a1 L1 langs1 hl1.1
  exact ⟨cm2, a2, L2, langs2, Kept.trans hK hl1 hl2, f1.append f2, by rw [e2, e1, List.append_assoc]⟩

/-- Character data between paragraphs are ignored. -/
theorem idle_pend {h : Reader} (cm : Str) (acc : Str) (r : Rd) : Goes h (idleP ls cm) r (saxPend acc) (idleP ls cm) r := Goes.pend0 r (fun _ => rfl)

theorem ReadsP.blank {s : Str} (hs : s.all plainChar = true) : ReadsP type r0 ls s [] NoLang := by
  intro cm acc L langs hl
  exact ⟨cm, _, L, langs, Kept.same hl, Fed.plain hs acc _ _, by simp⟩

theorem start_p (h0 : InScene r0) (L : List Str) (lang : Str) (langs : List Str) :
    manuscriptReader type (rdAt r0 L lang langs) (.start c!"p" []) = .ok (rdAt r0 L lang langs) := by
  show msStart type _ _ _ = _
  have e1 : (rdAt r0 L lang langs).scId.isSome = true := h0.scene
  unfold msStart
  show (if (rdAt r0 L lang langs).scId.isSome = true then _ else _) = _
  rw [if_pos e1]
  rfl

theorem start_quote (h0 : InScene r0) (L : List Str) (lang : Str) (langs : List Str) :
    manuscriptReader type (rdAt r0 L lang langs) (.start c!"blockquote" []) = .ok (rdAt r0 (L ++ [c!"> "]) lang langs) := by
  show msStart type _ _ _ = _
  have e1 : (rdAt r0 L lang langs).scId.isSome = true := h0.scene
  unfold msStart
  show (if (rdAt r0 L lang langs).scId.isSome = true then _ else _) = _
  rw [if_pos e1]
  rfl

theorem stop_p (h0 : InScene r0) (L : List Str) (langs : List Str) {t : Str} (ht : t = c!"p" ∨ t = c!"blockquote") :
    manuscriptReader type (rdAt r0 L [] langs) (.stop t) = .ok (rdAt r0 (L ++ [c!"\n"]) [] langs) := by
  obtain ⟨id, e⟩ := scene_at h0 L [] langs
  show msStop _ _ = _
  unfold msStop
  rw [e]
  simp only [if_pos ht]
  rw [stopLanguage_none]
  rfl

theorem pOpen_sax {st : Str} (h : st.all plainAttr = true) : ∃ t, pOpen st = '<' :: t ∧
    saxRun .lt t = (.text [], [.start c!"text:p" [(c!"text:style-name", st)]]) := by
  refine ⟨c!"text:p text:style-name=\"" ++ (st ++ c!"\">"), ?_, ?_⟩
  · unfold pOpen
    simp only [List.append_assoc, List.cons_append, List.nil_append]
  · have h1 : saxRun .lt c!"text:p text:style-name=\"" = (.val c!"text:p".reverse [] c!"text:style-name".reverse '"' [], []) := by decide +kernel
    have h3 : ∀ v : Str, saxRun (.val c!"text:p".reverse [] c!"text:style-name".reverse '"' (v.reverse ++ [])) c!"\">" =
        (.text [], [.start c!"text:p" [(c!"text:style-name", v)]]) := by
      intro v
      rw [List.append_nil]
      have e : (List.reverse v).reverse = v := List.reverse_reverse v
      show (Sx.text [], [Ev.start _ [(_, v.reverse.reverse)]]) = _
      rw [e]
      rfl
    rw [saxRun_comp h1 (saxRun_comp (saxRun_valPlain h _ _ _ _) (h3 _))]
    rfl

theorem step_p {st : Str} (hs : st = indStyle ∨ st = bodyStyle) (cm : Str) :
    (idleP ls cm).step (.start c!"text:p" [(c!"text:style-name", st)]) = .ok (lineP ls cm false [], [.start c!"p" []]) := by
  have e : (langTags 1 ls).get? st = none := by
    rcases hs with rfl | rfl
    · exact langTags_none (ne_langTag (by decide) (by decide)) 1 ls
    · exact langTags_none (ne_langTag (by decide) (by decide)) 1 ls
  show OdtP.startElement (idleP ls cm) c!"text:p" [(c!"text:style-name", st)] = _
  unfold OdtP.startElement
  have e3 : (Dict.get? [(c!"text:style-name", st)] c!"text:style-name").getD [] = st := rfl
  rw [if_pos rfl]
  simp only [e3]
  have e4 : OdtP.startParagraph (idleP ls cm) st = .ok (lineP ls cm false [], [.start c!"p" []]) := by
    unfold OdtP.startParagraph
    have e5 : (idleP ls cm).languageTags.get? st = none := e
    rw [e5]
    rcases hs with rfl | rfl <;> rfl
  rw [e4]
  rcases hs with rfl | rfl <;> rfl

theorem step_quote (cm : Str) :
    (idleP ls cm).step (.start c!"text:p" [(c!"text:style-name", c!"Quotations")]) = .ok (lineP ls cm true [], [.start c!"blockquote" []]) := by
  have e : (langTags 1 ls).get? c!"Quotations" = none := langTags_none (ne_langTag (by decide) (by decide)) 1 ls
  show OdtP.startElement (idleP ls cm) c!"text:p" [(c!"text:style-name", c!"Quotations")] = _
  unfold OdtP.startElement
  have e3 : (Dict.get? [(c!"text:style-name", c!"Quotations")] c!"text:style-name").getD [] = c!"Quotations" := rfl
  rw [if_pos rfl]
  simp only [e3]
  have e4 : OdtP.startParagraph (idleP ls cm) c!"Quotations" = .ok (lineP ls cm true [], [.start c!"blockquote" []]) := by
    unfold OdtP.startParagraph
    have e5 : (idleP ls cm).languageTags.get? c!"Quotations" = none := e
    rw [e5]
    rfl
  rw [e4]
  rfl

/-- A paragraph with its text. -/
theorem ReadsP.line (h0 : InScene r0) (hL : NoBlankLang ls) (hA : AuthorOk author) {l : List Piece} (ho : ∀ p ∈ l, p.Ok ls) (hn : Piece.nl ∉ l)
    (hop : openAfter [] l = some []) (hr : ∀ s ∈ textRuns [] l, s = [] ∨ ∃ c ∈ s, Str.isWs c = false) {st : Str} {q : Bool} {pre : List Str} {tag : Str}
    (ht : tag = if q then c!"blockquote" else c!"p") (hst : st.all plainAttr = true)
    (hstep : ∀ cm, (idleP ls cm).step (.start c!"text:p" [(c!"text:style-name", st)]) = .ok (lineP ls cm q [], [.start tag []]))
    (hread : ∀ L langs, manuscriptReader type (rdAt r0 L [] langs) (.start tag []) = .ok (rdAt r0 (L ++ pre) [] langs)) :
    ReadsP type r0 ls (pOpen st ++ lineOut author ls l ++ pEnd) (pre.flatten ++ rawText l ++ c!"\n") (begun l) := by
  intro cm acc L langs hl
  obtain ⟨t, e1, x1⟩ := pOpen_sax hst
  have f1 : Fed (manuscriptReader type) (pOpen st) acc (idleP ls cm) (rdAt r0 L [] langs) [] (lineP ls cm q []) (rdAt r0 (L ++ pre) [] langs) := by
    rw [e1]
    exact Fed.tag x1 (idle_pend cm acc _) (Goes.one1 (hstep cm) (hread L langs))
  obtain ⟨acc', out, h1, h2, h3⟩ := read_line (type := type) (q := q) h0 hL hA ho hn (st := []) (st' := []) trivial (by simp) hop (acc := []) hr
  obtain ⟨cm2, L2, langs2, hl2, f2, e2⟩ := h1 cm (L ++ pre) langs hl
  obtain ⟨L3, g3, e3⟩ := pend_line (type := type) (ls := ls) (q := q) (cm := cm2) (st := []) (L := L2) (lang := []) (langs := langs2) h0 h2
  have f4 : Fed (manuscriptReader type) pEnd acc' (lineP ls cm2 q []) (rdAt r0 L2 (langOf []) langs2) [] (idleP ls cm2) (rdAt r0 (L3 ++ [c!"\n"]) [] langs2) := by
    show Fed _ (c!"</text:p>") _ _ _ _ _ _
    refine Fed.tag (evs := [.stop c!"text:p"]) (by decide +kernel) g3 (Goes.one1 (c := .stop tag) ?_ (stop_p h0 L3 langs2 ?_))
    · subst ht
      cases q <;> rfl
    · subst ht
      cases q
      · exact .inl rfl
      · exact .inr rfl
  refine ⟨cm2, [], L3 ++ [c!"\n"], langs2, hl2, (f1.append f2).append f4, ?_⟩
  rw [List.flatten_append, e3, e2, List.flatten_append, List.append_assoc, List.append_assoc, List.append_assoc, ← List.append_assoc out, h3]
  simp only [List.reverse_nil, List.nil_append, List.flatten_cons, List.flatten_nil, List.append_nil, List.append_assoc]

theorem unquoted_cases (l : List Piece) : (∃ l', l = .ch '>' :: .ch ' ' :: l' ∧ unquoted l = l') ∨ ((∀ l', l ≠ .ch '>' :: .ch ' ' :: l') ∧ unquoted l = l) := by
  unfold unquoted
  split
  · exact .inl ⟨_, rfl, rfl⟩
  · rename_i h
    exact .inr ⟨h, rfl⟩

theorem quotedText_plain {st : Str} {l : List Piece} (hq : ∀ l', l ≠ .ch '>' :: .ch ' ' :: l') :
    quotedText author ls ⟨st, false, l⟩ = pOpen st ++ lineOut author ls l ++ pEnd := by
  unfold quotedText
  rw [if_neg (by simp)]
  split
  · exact absurd ‹_› (hq _)
  · rfl

/-- A paragraph as it is written. -/
theorem ReadsP.para (h0 : InScene r0) (hL : NoBlankLang ls) (hA : AuthorOk author) {p : Para} (hs : p.style = indStyle ∨ p.style = bodyStyle)
    (he : p.empty = true → p.line = [] ∧ p.style = indStyle) (ho : ∀ x ∈ p.line, x.Ok ls) (hn : Piece.nl ∉ p.line) (hop : openAfter [] p.line = some [])
    (hr : ∀ s ∈ textRuns [] (unquoted p.line), s = [] ∨ ∃ c ∈ s, Str.isWs c = false) :
    ReadsP type r0 ls (quotedText author ls p) (rawText p.line ++ c!"\n") (begun p.line) := by
  obtain ⟨st, em, l⟩ := p
  simp only at hs he ho hn hop hr
  cases em with
  | true =>
    obtain ⟨rfl, rfl⟩ := he rfl
    show ReadsP type r0 ls (c!"<text:p text:style-name=\"First_20_line_20_indent\" />") c!"\n" _
    intro cm acc L langs hl
    refine ⟨cm, [], L ++ [c!"\n"], langs, ⟨hl, fun l h => h.elim id (fun h => by cases h)⟩, ?_, by simp⟩
    refine Fed.tag (evs := [.start c!"text:p" [(c!"text:style-name", indStyle)], .stop c!"text:p"]) (by decide +kernel) (idle_pend cm acc _) ?_
    exact Goes.append (a := [_]) (Goes.one1 (step_p (.inl rfl) cm) (start_p h0 L [] langs)) (Goes.one1 (c := .stop c!"p") rfl (stop_p h0 L langs (.inl rfl)))
  | false =>
    rcases unquoted_cases l with ⟨l', rfl, e⟩ | ⟨hq, e⟩
    · rw [e] at hr
      show ReadsP type r0 ls (pOpen c!"Quotations" ++ lineOut author ls l' ++ pEnd) _ _
      have hop' : openAfter [] l' = some [] := hop
      have hb : begun (.ch '>' :: .ch ' ' :: l') = begun l' := by funext x; simp [begun]
      rw [hb]
      exact ReadsP.line (l := l') (st := c!"Quotations") (pre := [c!"> "]) (tag := c!"blockquote") h0 hL hA (fun x hx => ho x (by simp [hx]))
        (fun hm => hn (by simp [hm])) hop' hr (q := true) rfl (by decide) step_quote (fun L langs => start_quote h0 L [] langs)
    · rw [e] at hr
      have h1 : ReadsP type r0 ls (pOpen st ++ lineOut author ls l ++ pEnd) (([] : List Str).flatten ++ rawText l ++ c!"\n") (begun l) := by
        refine ReadsP.line h0 hL hA ho hn hop hr (q := false) (pre := []) rfl ?_ (step_p hs) (fun L langs => ?_)
        · rcases hs with rfl | rfl <;> decide
        · rw [List.append_nil]
          exact start_p h0 L [] langs
      rw [quotedText_plain hq]
      simpa using h1

end Verif
