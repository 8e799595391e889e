/-
Paragraphs of a document, piece by piece (for C55).
-/
import Verif.Lemmas.XrefDoc
import Verif.Props.C49_Sheets

namespace Verif
open Spec Template

theorem textsIn_append (a b : List XNode) : textsIn (a ++ b) = textsIn a ++ textsIn b := by
  induction a with
  | nil => rfl
  | cons k a ih => simp only [List.cons_append, textsIn, ih, List.append_assoc]

theorem linksInAll_append (a b : List XNode) : linksInAll (a ++ b) = linksInAll a ++ linksInAll b := by
  induction a with
  | nil => rfl
  | cons k a ih => simp only [List.cons_append, linksInAll, ih, List.append_assoc]

theorem paragraphsAll_append (a b : List XNode) : paragraphsAll (a ++ b) = paragraphsAll a ++ paragraphsAll b := by
  induction a with
  | nil => rfl
  | cons k a ih => simp only [List.cons_append, paragraphsAll, ih, List.append_assoc]

theorem textsIn_textNode (acc : Str) : textsIn (textNode acc) = acc.reverse ∧ linksInAll (textNode acc) = [] ∧ paragraphsAll (textNode acc) = [] := by
  unfold textNode
  split
  · rename_i h; subst h; exact ⟨rfl, rfl, rfl⟩
  · refine ⟨?_, rfl, rfl⟩
    show acc.reverse ++ [] = _
    rw [List.append_nil]

/-- A piece of the content of a paragraph: it shows `t` and has the links `ls`. -/
def Inl (s t : Str) (ls : List Str) : Prop :=
  '\r' ∉ s ∧ ∀ acc, ∃ ns acc', Renders s acc ns acc' ∧ textsIn ns ++ acc'.reverse = acc.reverse ++ t ∧ linksInAll ns = ls

theorem Inl.append {s1 s2 t1 t2 : Str} {l1 l2 : List Str} (h1 : Inl s1 t1 l1) (h2 : Inl s2 t2 l2) : Inl (s1 ++ s2) (t1 ++ t2) (l1 ++ l2) := by
  refine ⟨by rw [List.mem_append]; exact fun h => h.elim h1.1 h2.1, ?_⟩
  intro acc
  obtain ⟨n1, a1, r1, e1, k1⟩ := h1.2 acc
  obtain ⟨n2, a2, r2, e2, k2⟩ := h2.2 a1
  refine ⟨n1 ++ n2, a2, r1.append r2, ?_, ?_⟩
  · rw [textsIn_append, List.append_assoc, e2, ← List.append_assoc, e1, List.append_assoc]
  · rw [linksInAll_append, k1, k2]

theorem Inl.lit {s : Str} (h : s.all plainChar = true) : Inl s s [] := by
  refine ⟨?_, fun acc => ⟨[], s.reverse ++ acc, Renders.plain h acc, ?_, rfl⟩⟩
  · intro hc
    have := List.all_eq_true.1 h _ hc
    exact absurd this (by decide)
  · show [] ++ _ = _
    rw [List.nil_append, List.reverse_append, List.reverse_reverse]

theorem Inl.esc {t : Str} (h : Carriable t) : Inl (t.flatMap escChar) t [] := by
  refine ⟨esc_cr h, fun acc => ⟨[], t.reverse ++ acc, saxRun_esc h acc, ?_, rfl⟩⟩
  show [] ++ _ = _
  rw [List.nil_append, List.reverse_append, List.reverse_reverse]

/-- A piece of an attribute. -/
def Val (raw v : Str) : Prop := '\r' ∉ raw ∧ ∀ n as a acc, saxRun (.val n as a '"' acc) raw = (.val n as a '"' (v.reverse ++ acc), [])

theorem Val.append {r1 r2 v1 v2 : Str} (h1 : Val r1 v1) (h2 : Val r2 v2) : Val (r1 ++ r2) (v1 ++ v2) := by
  refine ⟨by rw [List.mem_append]; exact fun h => h.elim h1.1 h2.1, ?_⟩
  intro n as a acc
  have := saxRun_comp (h1.2 n as a acc) (h2.2 n as a _)
  rw [this, List.reverse_append, List.append_assoc]
  rfl

theorem Val.lit {s : Str} (h : s.all plainAttr = true) : Val s s := by
  refine ⟨?_, fun n as a acc => saxRun_valPlain h n as a acc⟩
  intro hc
  have := List.all_eq_true.1 h _ hc
  exact absurd this (by decide)

theorem Val.esc {t : Str} (h : ∀ c ∈ t, xmlLegal c = true ∧ c ≠ '\r' ∧ c ≠ '\n' ∧ c ≠ '\t') : Val (t.flatMap escChar) t := by
  refine ⟨esc_cr (fun c hc => ⟨(h c hc).1, (h c hc).2.1⟩), fun n as a acc => saxRun_valEsc ?_ n as a acc⟩
  intro c hc
  obtain ⟨h1, h2, h3, h4⟩ := h c hc
  refine ⟨h1, ?_⟩
  unfold xmlBlank
  simp [h3, h4]

theorem plainId_all {t : Str} (h : PlainId t) : t.all plainAttr = true := by
  rw [List.all_eq_true]
  intro c hc
  obtain ⟨h1, h2, h3, h4, h5, h6⟩ := h c hc
  unfold plainAttr
  simp [h1, h2, h3, h4, h5, h6]

/-- A link. -/
theorem Inl.link {raw url body t : Str} (hv : Val raw url) (hb : Inl body t []) :
    Inl (c!"<text:a xlink:href=\"" ++ (raw ++ (c!"\">" ++ (body ++ c!"</text:a>")))) t [url] := by
  refine ⟨?_, ?_⟩
  · simp only [List.mem_append, not_or]
    exact ⟨by decide, hv.1, by decide, hb.1, by decide⟩
  · intro acc
    obtain ⟨ks, a1, hr, h1, h2⟩ := hb.2 []
    have x1 : saxRun .lt (c!"text:a xlink:href=\"" ++ (raw ++ c!"\">")) = (.text [], [.start c!"text:a" [(c!"xlink:href", url)]]) := by
      have y1 : saxRun .lt c!"text:a xlink:href=\"" = (.val c!"a:txet" [] c!"ferh:knilx" '"' [], []) := by decide +kernel
      have y2 := hv.2 c!"a:txet" [] c!"ferh:knilx" []
      have y3 : saxRun (.val c!"a:txet" [] c!"ferh:knilx" '"' (url.reverse ++ [])) c!"\">" = (.text [], [.start c!"text:a" [(c!"xlink:href", url)]]) := by
        rw [List.append_nil]
        have : saxRun (.val c!"a:txet" [] c!"ferh:knilx" '"' url.reverse) c!"\">" =
            (.text [], [.start c!"text:a" [(c!"xlink:href", url.reverse.reverse)]]) := rfl
        rw [this, List.reverse_reverse]
      exact saxRun_comp y1 (saxRun_comp y2 y3)
    have x3 : saxRun .lt c!"/text:a>" = (.text [], [.stop c!"text:a"]) := by decide +kernel
    have := Renders.elem (a0 := acc) x1 hr x3
    refine ⟨textNode acc ++ [.elem c!"text:a" [(c!"xlink:href", url)] (ks ++ textNode a1)], [], ?_, ?_, ?_⟩
    · have e : c!"<text:a xlink:href=\"" ++ (raw ++ (c!"\">" ++ (body ++ c!"</text:a>"))) =
          '<' :: (c!"text:a xlink:href=\"" ++ (raw ++ c!"\">")) ++ (body ++ '<' :: c!"/text:a>") := by
        simp only [List.cons_append, List.append_assoc, List.nil_append]
      rw [e]
      exact this
    · rw [textsIn_append, (textsIn_textNode acc).1, List.reverse_nil, List.append_nil]
      congr 1
      show textsIn (ks ++ textNode a1) ++ [] = _
      rw [List.append_nil, textsIn_append, (textsIn_textNode a1).1, h1]
      rfl
    · rw [linksInAll_append, (textsIn_textNode acc).2.1]
      show [] ++ (((if c!"text:a" = c!"text:a" then [url] else []) ++ linksInAll (ks ++ textNode a1)) ++ []) = _
      rw [if_pos rfl, linksInAll_append, h2, (textsIn_textNode a1).2.1]
      rfl

/-- A piece of a document: it consists of these paragraphs. -/
def Pars (s : Str) (ps : List Paragraph) : Prop := '\r' ∉ s ∧ ∀ acc, ∃ ns acc', Renders s acc ns acc' ∧ paragraphsAll ns = ps

theorem Pars.nil : Pars [] [] := ⟨by simp, fun acc => ⟨[], acc, Renders.nil acc, rfl⟩⟩

theorem Pars.append {s1 s2 : Str} {p1 p2 : List Paragraph} (h1 : Pars s1 p1) (h2 : Pars s2 p2) : Pars (s1 ++ s2) (p1 ++ p2) := by
  refine ⟨by rw [List.mem_append]; exact fun h => h.elim h1.1 h2.1, ?_⟩
  intro acc
  obtain ⟨n1, a1, r1, e1⟩ := h1.2 acc
  obtain ⟨n2, a2, r2, e2⟩ := h2.2 a1
  exact ⟨n1 ++ n2, a2, r1.append r2, by rw [paragraphsAll_append, e1, e2]⟩

/-- A paragraph or heading. -/
theorem Pars.elem {start stop t style body text a2 : Str} {as : Dict Str} {ls : List Str} (ht : t = c!"text:p" ∨ t = c!"text:h")
    (hs : as.get? c!"text:style-name" = some style) (hc : '\r' ∉ start ++ stop) (x1 : saxRun .lt start = (.text [], [.start t as]))
    (hb : Inl body text ls) (x3 : saxRun .lt stop = (.text a2, [.stop t])) : Pars ('<' :: start ++ (body ++ '<' :: stop)) [⟨style, text, ls⟩] := by
  refine ⟨?_, ?_⟩
  · simp only [List.mem_append, List.mem_cons, not_or] at hc ⊢
    exact ⟨⟨by decide, hc.1⟩, hb.1, by decide, hc.2⟩
  · intro acc
    obtain ⟨ks, a1, hr, h1, h2⟩ := hb.2 []
    refine ⟨_, a2, Renders.elem (a0 := acc) x1 hr x3, ?_⟩
    rw [paragraphsAll_append, (textsIn_textNode acc).2.2]
    show [] ++ (paragraphs (.elem t as (ks ++ textNode a1)) ++ []) = _
    rw [List.nil_append, List.append_nil]
    unfold paragraphs
    rw [if_pos ht, hs, textsIn_append, (textsIn_textNode a1).1, h1, linksInAll_append, h2, (textsIn_textNode a1).2.1, List.append_nil]
    rfl

/-- A paragraph with one of the styles of the document. -/
theorem Pars.p {style body text : Str} {ls : List Str} (hs : style = c!"Title" ∨ style = c!"Subtitle" ∨ style = c!"Text_20_body" ∨ style = c!"scene_20_mark" ∨
      style = c!"scene_20_mark_20_notes" ∨ style = c!"scene_20_mark_20_todo" ∨ style = c!"scene_20_mark_20_unused") (hb : Inl body text ls) :
    Pars (c!"<text:p text:style-name=\"" ++ style ++ c!"\">" ++ (body ++ c!"</text:p>\n")) [⟨style, text, ls⟩] := by
  have key : ∀ start, c!"<text:p text:style-name=\"" ++ style ++ c!"\">" = '<' :: start → '\r' ∉ start →
      saxRun .lt start = (.text [], [.start c!"text:p" [(c!"text:style-name", style)]]) →
      Pars (c!"<text:p text:style-name=\"" ++ style ++ c!"\">" ++ (body ++ c!"</text:p>\n")) [⟨style, text, ls⟩] := by
    intro start e hc hx
    rw [e]
    refine Pars.elem (.inl rfl) (by simp [Dict.get?]) ?_ hx hb (a2 := c!"\n") (stop := c!"/text:p>\n") (by decide +kernel)
    rw [List.mem_append, not_or]
    exact ⟨hc, by decide⟩
  rcases hs with rfl | rfl | rfl | rfl | rfl | rfl | rfl <;> exact key _ rfl (by decide) (by decide +kernel)

/-- A heading. -/
theorem Pars.h2 {body text : Str} {ls : List Str} (hb : Inl body text ls) :
    Pars (c!"<text:h text:style-name=\"Heading_20_2\" text:outline-level=\"2\">" ++ (body ++ c!"</text:h>\n")) [⟨c!"Heading_20_2", text, ls⟩] :=
  Pars.elem (start := c!"text:h text:style-name=\"Heading_20_2\" text:outline-level=\"2\">") (stop := c!"/text:h>\n") (a2 := c!"\n") (t := c!"text:h")
    (as := [(c!"text:style-name", c!"Heading_20_2"), (c!"text:outline-level", c!"2")]) (.inr rfl) (by decide) (by decide) (by decide +kernel) hb (by decide +kernel)

/-! ### The document around them -/

/-- What can be seen of the state of the tree builder. -/
def seen (b : XBld) : List (Str × List Paragraph) × Bool := (b.frames.map (fun f => (f.tag, paragraphsAll f.kids.reverse)), b.root.isNone)

set_option maxRecDepth 100000 in
theorem header_sax : ∃ a, (saxRun (.text []) (formattedHeader [])).1 = .text a := by
  have h : (match (saxRun (.text []) (formattedHeader [])).1 with | .text _ => true | _ => false) = true := by decide +kernel
  cases e : (saxRun (.text []) (formattedHeader [])).1 with
  | text a => exact ⟨a, rfl⟩
  | _ => rw [e] at h; cases h

set_option maxRecDepth 100000 in
theorem header_tree : (XBld.run {} (saxRun (.text []) (formattedHeader [])).2).map seen =
    some ([(c!"office:text", []), (c!"office:body", []), (c!"office:document-content", [])], true) := by decide +kernel

set_option maxRecDepth 100000 in
/-- The end of a document. -/
theorem footer_sax (acc : Str) : saxRun (.text acc) contentFooter = (.text c!"\n", [.chars (acc.reverse ++ c!"  "), .stop c!"office:text", .chars c!"\n ", .stop c!"office:body",
    .chars c!"\n", .stop c!"office:document-content"]) := by
  have h1 : saxRun (.text acc) c!"  " = (.text (' ' :: ' ' :: acc), []) := rfl
  have h2 : saxRun (.text (' ' :: ' ' :: acc)) c!"</office:text>\n </office:body>\n</office:document-content>\n" = (.text c!"\n", [.chars (acc.reverse ++ c!"  "), .stop c!"office:text",
      .chars c!"\n ", .stop c!"office:body", .chars c!"\n", .stop c!"office:document-content"]) := by
    show saxRun _ ('<' :: c!"/office:text>\n </office:body>\n</office:document-content>\n") = _
    rw [saxRun_lt]
    have : saxRun .lt c!"/office:text>\n </office:body>\n</office:document-content>\n" = (.text c!"\n", [.stop c!"office:text",
      .chars c!"\n ", .stop c!"office:body", .chars c!"\n", .stop c!"office:document-content"]) := by decide +kernel
    rw [this]
    unfold saxPend
    simp
  have e : contentFooter = c!"  " ++ c!"</office:text>\n </office:body>\n</office:document-content>\n" := by decide +kernel
  rw [e]
  exact saxRun_comp h1 h2

/-- A document with these paragraphs between its beginning and its end is well-formed and has these paragraphs. -/
theorem document_paragraphs_aux {H F body : Str} {ps : List Paragraph} (h : Pars body ps) (hs : ∃ a, (saxRun (.text []) H).1 = .text a)
    (ht : (XBld.run {} (saxRun (.text []) H).2).map seen = some ([(c!"office:text", []), (c!"office:body", []), (c!"office:document-content", [])], true))
    (hc1 : '\r' ∉ H) (hc2 : '\r' ∉ F)
    (hF : ∀ acc, saxRun (.text acc) F = (.text c!"\n", [.chars (acc.reverse ++ c!"  "), .stop c!"office:text", .chars c!"\n ", .stop c!"office:body",
      .chars c!"\n", .stop c!"office:document-content"])) :
    ∃ root, parseDoc (H ++ (body ++ F)) = some root ∧ paragraphs root = ps := by
  obtain ⟨a, ha⟩ := hs
  have h1 : saxRun (.text []) H = (.text a, (saxRun (.text []) H).2) := Prod.ext ha rfl
  obtain ⟨ns, acc, hr, hp⟩ := h.2 a
  have hall := saxRun_comp h1 (saxRun_comp hr (hF acc))
  have hcr : '\r' ∉ H ++ (body ++ F) := by
    simp only [List.mem_append, not_or]
    exact ⟨hc1, h.1, hc2⟩
  cases hb : XBld.run {} (saxRun (.text []) H).2 with
  | none => rw [hb] at ht; cases ht
  | some b =>
    rw [hb] at ht
    obtain ⟨fs, root⟩ := b
    simp only [Option.map_some, Option.some.injEq, seen, Prod.mk.injEq] at ht
    obtain ⟨f1, f2⟩ := ht
    have hfs : ∃ x y z, fs = [x, y, z] := by
      have hl := congrArg List.length f1
      simp only [List.length_map, List.length_cons, List.length_nil] at hl
      rcases fs with _ | ⟨x, _ | ⟨y, _ | ⟨z, _ | ⟨w, fs⟩⟩⟩⟩
      · simp at hl
      · simp at hl
      · simp at hl
      · exact ⟨x, y, z, rfl⟩
      · simp at hl
    obtain ⟨x, y, z, rfl⟩ := hfs
    · simp only [List.map_cons, List.map_nil, List.cons.injEq, Prod.mk.injEq, and_true] at f1
      obtain ⟨⟨x1, x2⟩, ⟨y1, y2⟩, z1, z2⟩ := f1
      have hroot : root = none := by simpa using f2
      subst hroot
      obtain ⟨xt, xa, xk⟩ := x
      obtain ⟨yt, ya, yk⟩ := y
      obtain ⟨zt, za, zk⟩ := z
      simp only at x1 x2 y1 y2 z1 z2
      subst x1 y1 z1
      have e1 := run_nodes ns ⟨c!"office:text", xa, xk⟩ [⟨c!"office:body", ya, yk⟩, ⟨c!"office:document-content", za, zk⟩] none
        [.chars (acc.reverse ++ c!"  "), .stop c!"office:text", .chars c!"\n ", .stop c!"office:body", .chars c!"\n", .stop c!"office:document-content"]
      have hev : saxEvents (H ++ (body ++ F)) = some (((saxRun (.text []) H).2 ++ (nodesEvs ns ++
          [.chars (acc.reverse ++ c!"  "), .stop c!"office:text", .chars c!"\n ", .stop c!"office:body", .chars c!"\n", .stop c!"office:document-content"])) ++ [.chars c!"\n"]) := by
        unfold saxEvents
        rw [normEol_id hcr, hall]
        rfl
      refine ⟨.elem c!"office:document-content" za (.text c!"\n" :: .elem c!"office:body" ya (.text c!"\n " :: .elem c!"office:text" xa
        (.text (acc.reverse ++ c!"  ") :: (ns.reverse ++ xk)).reverse :: yk).reverse :: zk).reverse, ?_, ?_⟩
      · unfold parseDoc
        rw [hev]
        simp only [Option.bind_some]
        rw [XBld_run_append, XBld_run_append, hb, Option.bind_some, e1]
        rfl
      · simp only [paragraphs, List.reverse_cons, List.append_assoc, paragraphsAll_append, paragraphsAll, List.reverse_append, List.reverse_reverse, x2, y2, z2, hp, List.append_nil, List.nil_append]
        simp

/-- See `document_paragraphs_aux`. -/
theorem document_paragraphs {body : Str} {ps : List Paragraph} (h : Pars body ps) :
    ∃ root, parseDoc (formattedHeader [] ++ (body ++ contentFooter)) = some root ∧ paragraphs root = ps :=
  document_paragraphs_aux h header_sax header_tree head_cr (by decide) footer_sax

end Verif
