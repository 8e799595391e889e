/-
The tree of the exported document (C56).
-/
import Verif.Lemmas.Book13

namespace Verif.Book
open Spec Re Template

variable {ls : List Str} {author : Option Str}

/-! ### Styles in trees -/

mutual
/-- The node contains a style. -/
def styled : XNode → Bool
  | .elem t _ ks => decide (t = c!"style:style") || styledAll ks
  | .text _ => false
/-- One of the nodes contains a style. -/
def styledAll : List XNode → Bool
  | [] => false
  | k :: ks => styled k || styledAll ks
end

mutual
theorem styleLanguage_none (name : Str) : (k : XNode) → styled k = false → styleLanguage name k = none
  | .elem t as ks, h => by
    simp only [styled, Bool.or_eq_false_iff, decide_eq_false_iff_not] at h
    unfold styleLanguage
    rw [if_neg (fun hh => h.1 hh.1)]
    exact styleLanguageAll_none name ks h.2
  | .text _, _ => rfl
theorem styleLanguageAll_none (name : Str) : (ks : List XNode) → styledAll ks = false → styleLanguageAll name ks = none
  | [], _ => rfl
  | k :: ks, h => by
    simp only [styledAll, Bool.or_eq_false_iff] at h
    unfold styleLanguageAll
    rw [styleLanguage_none name k h.1, styleLanguageAll_none name ks h.2]
    rfl
end

theorem styleLanguageAll_append (name : Str) (a b : List XNode) : styleLanguageAll name (a ++ b) = (styleLanguageAll name a).orElse (fun _ => styleLanguageAll name b) := by
  induction a with
  | nil => rfl
  | cons k a ih =>
    show (styleLanguage name k).orElse (fun _ => styleLanguageAll name (a ++ b)) = ((styleLanguage name k).orElse (fun _ => styleLanguageAll name a)).orElse _
    rw [ih]
    cases styleLanguage name k <;> rfl

theorem styleLanguageAll_textNode (name acc : Str) : styleLanguageAll name (textNode acc) = none := by
  unfold textNode
  split <;> rfl

/-! ### The styles of the languages -/

/-- The style of a language. -/
def styleNode (i : Nat) (a b : Str) : XNode :=
  .elem c!"style:style" [(c!"style:name", c!"T" ++ Str.ofNat i), (c!"style:family", c!"text")] [.text c!"\n   ", .elem c!"style:text-properties" (langAttrs a b) [], .text c!"\n  "]

theorem styleNode_language (i : Nat) (a b name : Str) : styleLanguage name (styleNode i a b) = if languageStyleName i = name then some (a, b) else none := by
  unfold styleNode
  rw [styleLanguage]
  by_cases h : languageStyleName i = name
  · rw [if_pos h, if_pos ⟨rfl, by rw [← h]; rfl⟩]
    rfl
  · rw [if_neg h, if_neg (fun hh => h (Option.some.inj hh.2))]
    rfl

theorem style_renders {l a b : Str} (h : languageParts l = (a, b)) (ha : ∀ c ∈ a, c.isAlphanum = true) (hb : ∀ c ∈ b, c.isAlphanum = true) (i : Nat) (acc : Str) :
    Renders ('\n' :: languageStyle i l) acc (textNode (c!"  \n" ++ acc) ++ [styleNode i a b]) [] := by
  have ha : a.all plainAttr = true := List.all_eq_true.2 (fun c hc => alnum_plain (ha c hc))
  have hb : b.all plainAttr = true := List.all_eq_true.2 (fun c hc => alnum_plain (hb c hc))
  have e : '\n' :: languageStyle i l = c!"\n  " ++ (('<' :: (c!"style:style style:name=\"T" ++ (Str.ofNat i ++ c!"\" style:family=\"text\">\n   "))) ++
      ('<' :: (c!"style:text-properties fo:language=\"" ++ (a ++ (c!"\" fo:country=\"" ++ (b ++ (c!"\" style:language-asian=\"" ++ (a ++ (c!"\" style:country-asian=\"" ++
      (b ++ (c!"\" style:language-complex=\"" ++ (a ++ (c!"\" style:country-complex=\"" ++ (b ++ c!"\"/>\n  </style:style>")))))))))))))) := by
    unfold languageStyle
    rw [h]
    simp only [List.flatten_cons, List.flatten_nil, List.append_nil]
    generalize Str.ofNat i = i
    show '\n' :: (c!"  <style:style style:name=\"T" ++ (i ++ (c!"\" style:family=\"text\">\n   <style:text-properties fo:language=\"" ++ _))) = _
    have e2 : ∀ x y z w : Str, x ++ (y ++ z) ++ w = x ++ (y ++ (z ++ w)) := by intro x y z w; simp
    show _ = c!"\n  <" ++ (c!"style:style style:name=\"T" ++ (i ++ c!"\" style:family=\"text\">\n   ") ++ _)
    rw [e2]
    rfl
  rw [e]
  have x1 : saxRun (.text (c!"\n  ".reverse ++ acc)) ('<' :: (c!"style:style style:name=\"T" ++ (Str.ofNat i ++ c!"\" style:family=\"text\">\n   "))) =
      (.text c!"   \n", saxPend (c!"\n  ".reverse ++ acc) ++ [.start c!"style:style" [(c!"style:name", c!"T" ++ Str.ofNat i), (c!"style:family", c!"text")]]) := by
    rw [saxRun_lt, styleOpen_sax _ (digits_plain (digits_ofNat _)).1]
  have x2 := saxRun_lt c!"   \n" (c!"style:text-properties fo:language=\"" ++ (a ++ (c!"\" fo:country=\"" ++ (b ++ (c!"\" style:language-asian=\"" ++ (a ++ (c!"\" style:country-asian=\"" ++
      (b ++ (c!"\" style:language-complex=\"" ++ (a ++ (c!"\" style:country-complex=\"" ++ (b ++ c!"\"/>\n  </style:style>"))))))))))))
  rw [props_sax ha hb] at x2
  unfold Renders
  rw [saxRun_comp (saxRun_plain (by decide) acc) (saxRun_comp x1 x2), nodesEvs_append, nodesEvs_textNode]
  show (Sx.text [], [] ++ (saxPend (c!"  \n" ++ acc) ++ _ ++ _)) = _
  rw [List.nil_append, List.append_assoc]
  rfl

theorem name_inj {i j : Nat} (h : languageStyleName i = languageStyleName j) : i = j := Str.ofNat_injective (List.append_cancel_left h)

theorem styles_render (hL : ∀ l ∈ ls, LangCode l) : ∀ (i : Nat) (acc : Str), ∃ ns acc', Renders ((languageStyles i ls).flatMap (fun s => '\n' :: s)) acc ns acc' ∧ passagesAll ns = [] ∧
    (∀ j, j < i → styleLanguageAll (languageStyleName j) ns = none) ∧
    ∀ l ∈ ls, ∃ a b, l = a ++ c!"-" ++ b ∧ styleLanguageAll (languageStyleName (i + ls.idxOf l)) ns = some (a, b) := by
  induction ls with
  | nil => intro i acc; exact ⟨[], acc, Renders.nil acc, rfl, fun _ _ => rfl, by intro l hl; cases hl⟩
  | cons l ls ih =>
    intro i acc
    obtain ⟨a, b, h1, h2, h3, h4, h5, h6⟩ := languageParts_code (hL l (by simp))
    obtain ⟨ns, acc', r, p0, pj, pl⟩ := ih (fun x hx => hL x (by simp [hx])) (i + 1) []
    have hr := (style_renders h1 h5 h6 i acc).append r
    have hone : ∀ name, styleLanguageAll name ((textNode (c!"  \n" ++ acc) ++ [styleNode i a b]) ++ ns) = if languageStyleName i = name then some (a, b) else styleLanguageAll name ns := by
      intro name
      rw [styleLanguageAll_append, styleLanguageAll_append, styleLanguageAll_textNode]
      show ((styleLanguage name (styleNode i a b)).orElse (fun _ => none)).orElse _ = _
      rw [styleNode_language]
      split <;> rfl
    refine ⟨(textNode (c!"  \n" ++ acc) ++ [styleNode i a b]) ++ ns, acc', ?_, ?_, ?_, ?_⟩
    · unfold languageStyles
      rw [List.flatMap_cons]
      exact hr
    · rw [passagesAll_append, passagesAll_append, passagesAll_textNode, p0]
      rfl
    · intro j hj
      rw [hone, if_neg, pj j (by omega)]
      intro h
      have := name_inj h
      omega
    · intro x hx
      rw [List.idxOf_cons]
      by_cases hxl : l = x
      · subst hxl
        refine ⟨a, b, h2, ?_⟩
        simp only [beq_self_eq_true, cond_true, Nat.add_zero]
        rw [hone, if_pos rfl]
      · have hx' : x ∈ ls := by
          rcases List.mem_cons.1 hx with h | h
          · exact absurd h.symm hxl
          · exact h
        obtain ⟨a', b', e1, e2⟩ := pl x hx'
        refine ⟨a', b', e1, ?_⟩
        have hb : (l == x) = false := by simpa using hxl
        rw [hb, cond_false, hone, if_neg, ← Nat.add_assoc, Nat.add_right_comm]
        · exact e2
        · intro h
          have := name_inj h
          omega

theorem automatic_renders (hL : ∀ l ∈ ls, LangCode l) (acc : Str) : ∃ ns acc', Renders (automaticStyles ls) acc ns acc' ∧ passagesAll ns = [] ∧
    ∀ l ∈ ls, ∃ a b, l = a ++ c!"-" ++ b ∧ styleLanguageAll (languageStyleName (position ls l)) ns = some (a, b) := by
  by_cases hne : ls = []
  · subst hne
    refine ⟨_, _, Renders.empty (t := c!"office:automatic-styles") (as := []) (tag := c!"office:automatic-styles/>") (a0 := acc) (a1 := []) (by decide +kernel), ?_, by intro l hl; cases hl⟩
    rw [passagesAll_append, passagesAll_textNode]
    rfl
  · rw [automaticStyles_eq hne]
    obtain ⟨ns, acc', r, p0, _, pl⟩ := styles_render hL 1 []
    have r1 := r.append (Renders.plain (s := c!"\n ") (by decide) acc')
    have r2 := Renders.elem (a0 := acc) (start := c!"office:automatic-styles>") (stop := c!"/office:automatic-styles>") (a2 := []) (t := c!"office:automatic-styles") (as := []) (by decide +kernel) r1 (by decide +kernel)
    have e : c!"<office:automatic-styles>" ++ ((languageStyles 1 ls).flatMap (fun s => '\n' :: s) ++ c!"\n </office:automatic-styles>") =
          '<' :: c!"office:automatic-styles>" ++ ((languageStyles 1 ls).flatMap (fun s => '\n' :: s) ++ c!"\n " ++ '<' :: c!"/office:automatic-styles>") := by
      generalize (languageStyles 1 ls).flatMap (fun s => '\n' :: s) = m
      rw [List.append_assoc]
      rfl
    rw [← e] at r2
    refine ⟨_, _, r2, ?_, ?_⟩
    · rw [passagesAll_append, passagesAll_textNode]
      show [] ++ (passages (.elem c!"office:automatic-styles" [] _) ++ []) = _
      rw [passages, if_neg (by decide), passagesAll_append, passagesAll_append, passagesAll_textNode, p0]
      rfl
    · intro l hl
      obtain ⟨a, b, e1, e2⟩ := pl l hl
      refine ⟨a, b, e1, ?_⟩
      rw [styleLanguageAll_append, styleLanguageAll_textNode]
      show (styleLanguage _ (.elem c!"office:automatic-styles" [] _)).orElse (fun _ => none) = _
      rw [styleLanguage, if_neg (fun h => absurd h.1 (by decide)), styleLanguageAll_append, styleLanguageAll_append]
      unfold position
      rw [Nat.add_comm, e2]
      rfl

/-! ### The body -/

theorem body_renders {s : Str} {ps : List Passage} (h : Pas s ps) (acc : Str) : ∃ ns acc', Renders (odtHeadEnd ++ (s ++ bodyEnd)) acc ns acc' ∧ passagesAll ns = ps := by
  obtain ⟨ks, a1, r, hp⟩ := h.2 c!"\n\n"
  have r1 := (Renders.plain (s := c!"\n\n") (by decide) []).append (r.append (Renders.plain (s := c!"  ") (by decide) a1))
  have r2 := Renders.elem (a0 := c!"\n  ".reverse) (start := c!"office:text text:use-soft-page-breaks=\"true\">") (stop := c!"/office:text>") (a2 := []) (t := c!"office:text")
    (as := [(c!"text:use-soft-page-breaks", c!"true")]) (by decide +kernel) r1 (by decide +kernel)
  have r3 := (Renders.plain (s := c!"\n  ") (by decide) []).append (r2.append (Renders.plain (s := c!"\n ") (by decide) []))
  have r4 := Renders.elem (a0 := c!"\n ".reverse ++ acc) (start := c!"office:body>") (stop := c!"/office:body>\n") (a2 := c!"\n") (t := c!"office:body") (as := []) (by decide +kernel) r3 (by decide +kernel)
  have r5 := (Renders.plain (s := c!"\n ") (by decide) acc).append r4
  have e : odtHeadEnd ++ (s ++ bodyEnd) = c!"\n " ++ ('<' :: c!"office:body>" ++ ((c!"\n  " ++ (('<' :: c!"office:text text:use-soft-page-breaks=\"true\">" ++ ((c!"\n\n" ++ (s ++ c!"  ")) ++ '<' :: c!"/office:text>")) ++ c!"\n ")) ++
      '<' :: c!"/office:body>\n")) := by
    have e1 : odtHeadEnd = c!"\n <office:body>\n  <office:text text:use-soft-page-breaks=\"true\">\n\n" := rfl
    rw [e1]
    simp only [List.append_assoc, List.cons_append, List.nil_append]
    rfl
  rw [← e] at r5
  refine ⟨_, _, r5, ?_⟩
  rw [passagesAll_append, passagesAll_append, passagesAll_textNode]
  show [] ++ ([] ++ (passages (.elem c!"office:body" [] _) ++ [])) = _
  rw [passages, if_neg (by decide), passagesAll_append, passagesAll_append, passagesAll_append, passagesAll_append, passagesAll_textNode, passagesAll_textNode]
  show ([] ++ ((([] ++ (passages (.elem c!"office:text" _ _) ++ [])) ++ [])) ++ []) ++ [] = _
  rw [passages, if_neg (by decide), passagesAll_append, passagesAll_append, passagesAll_append, passagesAll_textNode, hp]
  show ([] ++ ((([] ++ ((([] ++ (ps ++ [])) ++ []) ++ [])) ++ [])) ++ []) ++ [] = _
  simp

/-! ### The document -/

set_option maxRecDepth 100000 in
theorem headStart_seen : (XBld.run {} (saxRun (.text []) odtHeadStart).2).map (fun b => (b.frames.map (fun f => (f.tag, passagesAll f.kids.reverse, styledAll f.kids.reverse)), b.root.isNone)) =
    some ([(c!"office:document-content", [], false)], true) := by
  decide +kernel

/-- The tree of a document. -/
theorem document_tree {s acc : Str} {ns : List XNode} (h : Renders s c!" \n" ns acc) (hr : '\r' ∉ odtHeadStart ++ (s ++ c!"</office:document-content>\n")) :
    ∃ as ks, parseDoc (odtHeadStart ++ (s ++ c!"</office:document-content>\n")) = some (.elem c!"office:document-content" as (ks ++ (ns ++ textNode acc))) ∧ passagesAll ks = [] ∧ styledAll ks = false := by
  have h1 : saxRun (.text []) odtHeadStart = (.text c!" \n", (saxRun (.text []) odtHeadStart).2) := Prod.ext headStart_sax rfl
  have h3 : saxRun (.text acc) c!"</office:document-content>\n" = (.text c!"\n", saxPend acc ++ [.stop c!"office:document-content"]) := by
    show saxRun _ ('<' :: c!"/office:document-content>\n") = _
    rw [saxRun_lt]
    have : saxRun .lt c!"/office:document-content>\n" = (.text c!"\n", [.stop c!"office:document-content"]) := by decide +kernel
    rw [this]
  have hall := saxRun_comp h1 (saxRun_comp h h3)
  have hev : saxEvents (odtHeadStart ++ (s ++ c!"</office:document-content>\n")) =
      some (((saxRun (.text []) odtHeadStart).2 ++ (nodesEvs ns ++ (saxPend acc ++ [.stop c!"office:document-content"]))) ++ saxPend c!"\n") := by
    unfold saxEvents
    rw [normEol_id hr, hall]
  have ht := headStart_seen
  cases hb : XBld.run {} (saxRun (.text []) odtHeadStart).2 with
  | none => rw [hb] at ht; cases ht
  | some b =>
    rw [hb] at ht
    simp only [Option.map_some, Option.some.injEq, Prod.mk.injEq] at ht
    obtain ⟨fs, root⟩ := b
    obtain ⟨f1, f2⟩ := ht
    simp only at f1 f2
    cases fs with
    | nil => cases f1
    | cons g gs =>
      simp only [List.map_cons, List.cons.injEq, List.map_eq_nil_iff, Prod.mk.injEq] at f1
      obtain ⟨⟨f1, f3, f4⟩, rfl⟩ := f1
      have hroot : root = none := by simpa using f2
      subst hroot
      refine ⟨g.attrs, g.kids.reverse, ?_, f3, f4⟩
      have e0 : nodesEvs ns ++ (saxPend acc ++ [.stop c!"office:document-content"]) = nodesEvs (ns ++ textNode acc) ++ [.stop c!"office:document-content"] := by
        rw [nodesEvs_append, nodesEvs_textNode, List.append_assoc]
      unfold parseDoc
      rw [hev]
      simp only [Option.bind_some]
      rw [XBld_run_append, XBld_run_append, hb, Option.bind_some, e0, run_nodes]
      have e1 : ∀ f : XFrame, f.tag = c!"office:document-content" → XBld.run ⟨[f], none⟩ [.stop c!"office:document-content"] = some ⟨[], some (.elem f.tag f.attrs f.kids.reverse)⟩ := by
        intro f hf
        simp only [XBld.run, XBld.step]
        rw [if_pos hf]
        rfl
      rw [e1 { g with kids := (ns ++ textNode acc).reverse ++ g.kids } f1]
      have e2 : ∀ (t : Str) (as : Dict Str) (ks : List XNode), (XBld.run ⟨[], some (.elem t as ks)⟩ (saxPend c!"\n")) = some ⟨[], some (.elem t as ks)⟩ := by
        intro t as ks
        rfl
      simp only [Option.bind_some]
      rw [e2, List.reverse_append, List.reverse_reverse, f1]

end Verif.Book
