/-
The header of a proof reading document, and the whole document.
-/
import Verif.Lemmas.Proof6

namespace Verif.Proof
open Spec Re Template

variable {ls : List Str} {author : Option Str} {h : Reader}

theorem proofHeader_eq (ls : List Str) : proofHeader ls = odtHeadStart ++ (proofStyles ls ++ odtHeadEnd) := by
  have e : segs odtHeadTemplate = odtHeadStart.map Seg.lit ++ (Seg.var c!"automaticStyles" c!"$automaticStyles" :: odtHeadEnd.map Seg.lit) := by
    set_option maxRecDepth 100000 in decide +kernel
  unfold proofHeader subst
  rw [e]
  simp only [List.flatMap_append, List.flatMap_cons, render_lits]
  rfl

theorem join_lines (l : List Str) (a z : Str) : Str.join c!"\n" (a :: l ++ [z]) = a ++ (l.flatMap (fun s => '\n' :: s) ++ '\n' :: z) := by
  induction l generalizing a with
  | nil => simp [Str.join]
  | cons b l ih =>
    have : Str.join c!"\n" (a :: (b :: l) ++ [z]) = a ++ c!"\n" ++ Str.join c!"\n" (b :: l ++ [z]) := rfl
    rw [this, ih]
    simp

theorem proofStyles_eq (ls : List Str) : proofStyles ls = c!"<office:automatic-styles>" ++ ((languageStyles 1 ls).flatMap (fun s => '\n' :: s) ++
    (('\n' :: italicStyle (ls.length + 1)) ++ (('\n' :: boldStyle (ls.length + 2)) ++ c!"\n </office:automatic-styles>"))) := by
  unfold proofStyles
  have := join_lines (languageStyles 1 ls ++ [italicStyle (ls.length + 1), boldStyle (ls.length + 2)]) c!"<office:automatic-styles>" c!" </office:automatic-styles>"
  rw [List.cons_append, List.append_assoc] at this
  rw [List.cons_append]
  refine this.trans ?_
  rw [List.flatMap_append, List.append_assoc]
  simp only [List.flatMap_cons, List.flatMap_nil, List.append_nil, List.append_assoc, List.cons_append, List.nil_append]

/-- Within a style; the names of the styles for emphasis found so far. -/
def styleP (ls em st : List Str) (s : Option Str) : OdtP := { emTags := em, strongTags := st, languageTags := langTags 1 ls, style := s }

theorem style_pend (em st : List Str) (s : Option Str) (acc : Str) (r : Rd) : Goes h (styleP ls em st s) r (saxPend acc) (styleP ls em st s) r :=
  Goes.pend0 r (fun _ => rfl)

theorem step_style (em st : List Str) {s : Str} :
    (styleP ls em st none).step (.start c!"style:style" [(c!"style:name", s), (c!"style:family", c!"text")]) = .ok (styleP ls em st (some s), []) := rfl

/-- A style in the header. -/
theorem Fed.styleWith {props : Str} {evs : List Ev} {em st em' st' : List Str} (i : Nat) (acc : Str) (r : Rd)
    (x : saxRun .lt props = (.text [], evs)) (g : Goes h (styleP ls em st (some (c!"T" ++ Str.ofNat i))) r evs (styleP ls em' st' none) r) :
    Fed h (c!"\n  " ++ (('<' :: (c!"style:style style:name=\"T" ++ (Str.ofNat i ++ c!"\" style:family=\"text\">\n   "))) ++ ('<' :: props))) acc (styleP ls em st none) r [] (styleP ls em' st' none) r := by
  refine (Fed.plain (by decide) acc _ _).append (Fed.append (a1 := c!"   \n") (p1 := styleP ls em st (some (c!"T" ++ Str.ofNat i))) (r1 := r) ?_ ?_)
  · refine ⟨saxPend (c!"\n  ".reverse ++ acc) ++ [.start c!"style:style" [(c!"style:name", c!"T" ++ Str.ofNat i), (c!"style:family", c!"text")]], ?_, ?_⟩
    · rw [saxRun_lt, styleOpen_sax _ (digits_plain (digits_ofNat _)).1]
    · exact (style_pend em st none _ r).append (Goes.one0 r (step_style em st))
  · exact Fed.tag x (style_pend em st _ _ r) g

theorem Fed.italic (i : Nat) (em st : List Str) (acc : Str) (r : Rd) :
    Fed h ('\n' :: italicStyle i) acc (styleP ls em st none) r [] (styleP ls (em ++ [c!"T" ++ Str.ofNat i]) st none) r := by
  have e : '\n' :: italicStyle i = c!"\n  " ++ (('<' :: (c!"style:style style:name=\"T" ++ (Str.ofNat i ++ c!"\" style:family=\"text\">\n   "))) ++
      ('<' :: c!"style:text-properties fo:font-style=\"italic\" style:font-style-asian=\"italic\" style:font-style-complex=\"italic\"/>\n  </style:style>")) := by
    unfold italicStyle
    generalize Str.ofNat i = k
    show c!"\n  <style:style style:name=\"T" ++ (k ++ _) = c!"\n  <style:style style:name=\"T" ++ (k ++ c!"\" style:family=\"text\">\n   " ++ _)
    rw [List.append_assoc k]
    rfl
  rw [e]
  refine Fed.styleWith i acc r (evs := [.start c!"style:text-properties" [(c!"fo:font-style", c!"italic"), (c!"style:font-style-asian", c!"italic"), (c!"style:font-style-complex", c!"italic")],
    .stop c!"style:text-properties", .chars c!"\n  ", .stop c!"style:style"]) (by decide +kernel) ⟨[], rfl, rfl⟩

theorem Fed.bold (i : Nat) (em st : List Str) (acc : Str) (r : Rd) :
    Fed h ('\n' :: boldStyle i) acc (styleP ls em st none) r [] (styleP ls em (st ++ [c!"T" ++ Str.ofNat i]) none) r := by
  have e : '\n' :: boldStyle i = c!"\n  " ++ (('<' :: (c!"style:style style:name=\"T" ++ (Str.ofNat i ++ c!"\" style:family=\"text\">\n   "))) ++
      ('<' :: c!"style:text-properties fo:font-weight=\"bold\" style:font-weight-asian=\"bold\" style:font-weight-complex=\"bold\"/>\n  </style:style>")) := by
    unfold boldStyle
    generalize Str.ofNat i = k
    show c!"\n  <style:style style:name=\"T" ++ (k ++ _) = c!"\n  <style:style style:name=\"T" ++ (k ++ c!"\" style:family=\"text\">\n   " ++ _)
    rw [List.append_assoc k]
    rfl
  rw [e]
  refine Fed.styleWith i acc r (evs := [.start c!"style:text-properties" [(c!"fo:font-weight", c!"bold"), (c!"style:font-weight-asian", c!"bold"), (c!"style:font-weight-complex", c!"bold")],
    .stop c!"style:text-properties", .chars c!"\n  ", .stop c!"style:style"]) (by decide +kernel) ⟨[], rfl, rfl⟩

theorem Fed.header (hL : ∀ l ∈ ls, LangCode l) (r : Rd) : ∃ acc, Fed h (proofHeader ls) [] {} r acc (idleP ls []) r := by
  rw [proofHeader_eq, proofStyles_eq]
  have he : Fed h odtHeadEnd [] (idleP ls []) r c!"\n\n" (idleP ls []) r := by
    refine ⟨[.chars c!"\n ", .start c!"office:body" [], .chars c!"\n  ", .start c!"office:text" [(c!"text:use-soft-page-breaks", c!"true")]], by decide +kernel, ⟨[], rfl, rfl⟩⟩
  obtain ⟨acc', h2⟩ := Verif.Fed.styles (h := h) ls hL [] [] r
  refine ⟨_, (Verif.Fed.headStart r).append (Fed.append (a1 := []) (p1 := idleP ls []) (r1 := r) ?_ he)⟩
  have h3 : Fed h ('\n' :: italicStyle (ls.length + 1)) acc' (Verif.idleP ([] ++ ls) []) r [] (styleP ls [c!"Emphasis", c!"T" ++ Str.ofNat (ls.length + 1)] [c!"Strong_20_Emphasis"] none) r :=
    Fed.italic (ls.length + 1) [c!"Emphasis"] [c!"Strong_20_Emphasis"] acc' r
  have h4 : Fed h ('\n' :: boldStyle (ls.length + 2)) [] (styleP ls [c!"Emphasis", c!"T" ++ Str.ofNat (ls.length + 1)] [c!"Strong_20_Emphasis"] none) r [] (idleP ls []) r :=
    Fed.bold (ls.length + 2) _ [c!"Strong_20_Emphasis"] [] r
  refine Fed.append (a1 := []) (p1 := Verif.idleP [] []) (r1 := r) ?_ (Fed.append h2 (h3.append (h4.append ?_)))
  · exact ⟨[.chars c!"\n ", .start c!"office:automatic-styles" []], by decide +kernel, ⟨[], rfl, rfl⟩⟩
  · refine (Fed.plain (t := c!"\n ") (by decide) _ _ _).append ?_
    refine Fed.tag (t := c!"/office:automatic-styles>") (evs := [.stop c!"office:automatic-styles"]) (by decide +kernel) (idle_pend [] _ r) ?_
    exact ⟨[], rfl, rfl⟩

end Verif.Proof
