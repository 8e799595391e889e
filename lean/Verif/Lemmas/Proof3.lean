/-
Reading the scenes and headings of a proof reading document.
-/
import Verif.Lemmas.Proof2
import Verif.Spec.Proof
import Verif.Lemmas.ReadManuscript

namespace Verif.Proof
open Spec Re

variable {ls : List Str} {author : Option Str} {r0 : Rd}

/-! ### Runs of characters -/

theorem run_infix (l : List Piece) (acc : Str) {s : Str} (h : s ∈ textRuns acc l) : s <:+: acc ++ rawText l := by
  induction l generalizing acc with
  | nil =>
    simp only [textRuns, List.mem_singleton] at h
    subst h
    exact (List.prefix_append _ _).isInfix
  | cons p l ih =>
    rw [rawText_cons]
    have other : (∀ c, p ≠ .ch c) → textRuns acc (p :: l) = acc :: textRuns [] l := by
      intro hp
      cases p <;> first | rfl | exact absurd rfl (hp _)
    by_cases hc : ∃ c, p = .ch c
    · obtain ⟨c, rfl⟩ := hc
      have := ih (acc ++ [c]) h
      simpa [Piece.raw, List.append_assoc] using this
    · rw [other (fun c e => hc ⟨c, e⟩)] at h
      rcases List.mem_cons.1 h with rfl | h
      · exact (List.prefix_append _ _).isInfix
      · have := ih [] h
        rw [List.nil_append] at this
        exact this.trans (List.IsSuffix.isInfix ⟨acc ++ p.raw, by simp⟩)

theorem runs_only_cls (cs : List Str) {s : Str} (h : s ∈ textRuns [] (cs.map Piece.cl)) : s = [] := by
  induction cs with
  | nil => simpa [textRuns] using h
  | cons c cs ih =>
    rcases List.mem_cons.1 (show s ∈ [] :: textRuns [] (cs.map Piece.cl) from h) with h | h
    · exact h
    · exact ih h

theorem runs_cls (cs : List Str) (l : List Piece) (acc : Str) {s : Str} (h : s ∈ textRuns acc (l ++ cs.map Piece.cl)) : s = [] ∨ s ∈ textRuns acc l := by
  induction l generalizing acc with
  | nil =>
    cases cs with
    | nil => exact .inr h
    | cons c cs =>
      have h : s ∈ acc :: textRuns [] (cs.map Piece.cl) := h
      rcases List.mem_cons.1 h with rfl | h
      · exact .inr (by simp [textRuns])
      · exact .inl (runs_only_cls _ h)
  | cons p l ih =>
    cases p with
    | ch c => exact ih _ h
    | _ =>
      rcases List.mem_cons.1 (show s ∈ acc :: textRuns [] (l ++ cs.map Piece.cl) from h) with rfl | h
      · exact .inr (by simp [textRuns])
      · rcases ih [] h with h | h
        · exact .inl h
        · exact .inr (List.mem_cons_of_mem _ h)

theorem runs_ops (os : List Str) (l : List Piece) {s : Str} (h : s ∈ textRuns [] (os.map Piece.op ++ l)) : s = [] ∨ s ∈ textRuns [] l := by
  induction os with
  | nil => exact .inr h
  | cons o os ih =>
    rcases List.mem_cons.1 (show s ∈ [] :: textRuns [] (os.map Piece.op ++ l) from h) with rfl | h
    · exact .inl rfl
    · exact ih h

theorem runs_spread {ps : List (List Piece)} {st : List Str} {l : List Piece} (hl : l ∈ spreadLines st ps) {s : Str} (h : s ∈ textRuns [] l) :
    s = [] ∨ ∃ m ∈ ps, s ∈ textRuns [] m := by
  induction ps generalizing st with
  | nil => cases hl
  | cons m ps ih =>
    rcases List.mem_cons.1 (show l ∈ _ :: _ from hl) with rfl | hl
    · rw [List.append_assoc] at h
      rcases runs_ops _ _ h with h | h
      · exact .inl h
      · rcases runs_cls _ _ _ h with h | h
        · exact .inl h
        · exact .inr ⟨m, by simp, h⟩
    · rcases ih hl with h | ⟨m', hm, h⟩
      · exact .inl h
      · exact .inr ⟨m', by simp [hm], h⟩

theorem NoMark.infix {s t : Str} (h : NoMark t) (hs : s <:+: t) : NoMark s := ⟨fun k => h.1 (k.trans hs), fun k => h.2 (k.trans hs)⟩

theorem NoMark.nil : NoMark [] := by
  constructor <;> (intro h; have := h.length_le; simp at this)

theorem NoMark.of_not_mem {s : Str} (h : '[' ∉ s) : NoMark s := ⟨fun k => h (k.subset (by simp)), fun k => h (k.subset (by simp))⟩

/-! ### The text of a scene -/

/-- A paragraph in the document. -/
def paraText (author : Option Str) (ls : List Str) (q : Para) : Str :=
  if q.empty then c!"<text:p text:style-name=\"" ++ q.style ++ c!"\" />" else pOpen q.style ++ lineOut author ls q.line ++ pEnd

/-- The text is made of its paragraphs. -/
theorem paras_text (author : Option Str) (ls : List Str) (st : Str) (prs : List (Option Piece)) :
    ∃ l qs, paras st prs = ⟨st, false, l⟩ :: qs ∧
      (finalStage author ls).flat prs ++ pEnd = lineOut author ls l ++ pEnd ++ qs.flatMap (fun q => '\n' :: paraText author ls q) := by
  induction prs generalizing st with
  | nil => exact ⟨[], [], rfl, rfl⟩
  | cons p prs ih =>
    match p with
    | none =>
      obtain ⟨l, qs, h1, h2⟩ := ih bodyStyle
      refine ⟨[], ⟨indStyle, true, []⟩ :: paras bodyStyle prs, rfl, ?_⟩
      rw [flat_cons, List.append_assoc, h2, h1]
      show nl2Out ++ _ = _
      rw [List.flatMap_cons, List.flatMap_cons]
      show nl2Out ++ _ = pEnd ++ (('\n' :: (c!"<text:p text:style-name=\"" ++ indStyle ++ c!"\" />")) ++ ('\n' :: (pOpen bodyStyle ++ lineOut author ls l ++ pEnd) ++ _))
      generalize lineOut author ls l = x
      rw [show nl2Out = pEnd ++ ('\n' :: (c!"<text:p text:style-name=\"" ++ indStyle ++ c!"\" />")) ++ '\n' :: pOpen bodyStyle from rfl]
      simp only [List.append_assoc, List.cons_append]
    | some .nl =>
      obtain ⟨l, qs, h1, h2⟩ := ih indStyle
      refine ⟨[], paras indStyle prs, rfl, ?_⟩
      rw [flat_cons, List.append_assoc, h2, h1]
      show nlOut ++ _ = _
      rw [List.flatMap_cons]
      show nlOut ++ _ = pEnd ++ ('\n' :: (pOpen indStyle ++ lineOut author ls l ++ pEnd) ++ _)
      generalize lineOut author ls l = x
      rw [show nlOut = pEnd ++ '\n' :: pOpen indStyle from rfl]
      simp only [List.append_assoc, List.cons_append]
    | some (.ch c) =>
      obtain ⟨l, qs, h1, h2⟩ := ih st
      refine ⟨.ch c :: l, qs, by rw [paras_other (by simp), h1], ?_⟩
      rw [flat_cons, List.append_assoc, h2, lineOut_cons, List.append_assoc, List.append_assoc, List.append_assoc]
    | some (.op c) =>
      obtain ⟨l, qs, h1, h2⟩ := ih st
      refine ⟨.op c :: l, qs, by rw [paras_other (by simp), h1], ?_⟩
      rw [flat_cons, List.append_assoc, h2, lineOut_cons, List.append_assoc, List.append_assoc, List.append_assoc]
    | some (.cl c) =>
      obtain ⟨l, qs, h1, h2⟩ := ih st
      refine ⟨.cl c :: l, qs, by rw [paras_other (by simp), h1], ?_⟩
      rw [flat_cons, List.append_assoc, h2, lineOut_cons, List.append_assoc, List.append_assoc, List.append_assoc]
    | some (.note c) =>
      obtain ⟨l, qs, h1, h2⟩ := ih st
      refine ⟨.note c :: l, qs, by rw [paras_other (by simp), h1], ?_⟩
      rw [flat_cons, List.append_assoc, h2, lineOut_cons, List.append_assoc, List.append_assoc, List.append_assoc]

theorem ReadsP.flat {α : Type} {f g : α → Str} {K : α → Str → Prop} {l : List α} (h : ∀ x ∈ l, ReadsP r0 ls (f x) (g x) (K x)) :
    ReadsP r0 ls (l.flatMap f) (l.flatMap g) (fun y => ∃ x ∈ l, K x y) := by
  induction l with
  | nil =>
    have e : (fun y => ∃ x ∈ ([] : List α), K x y) = NoLang := by funext y; simp [NoLang]
    rw [e]
    exact ReadsP.nil
  | cons x l ih =>
    rw [List.flatMap_cons, List.flatMap_cons]
    refine (h x (by simp)).append (ih (fun y hy => h y (by simp [hy]))) ?_
    rintro y ⟨z, hz, hy⟩
    rcases List.mem_cons.1 hz with rfl | hz
    · exact .inl hy
    · exact .inr ⟨z, hz, hy⟩


/-- A paragraph as it is written. -/
theorem ReadsP.para (h0 : InScene r0) (hL : NoBlankLang ls) (hA : AuthorOk author) {p : Para} (hs : p.style = indStyle ∨ p.style = bodyStyle)
    (he : p.empty = true → p.line = [] ∧ p.style = indStyle) (ho : ∀ x ∈ p.line, x.Ok ls) (hn : Piece.nl ∉ p.line) (hop : openAfter [] p.line = some [])
    (hr : ∀ s ∈ textRuns [] p.line, NoMark s) :
    ReadsP r0 ls (paraText author ls p) (rawText p.line ++ c!"\n") (begun p.line) := by
  obtain ⟨st, em, l⟩ := p
  simp only at hs he ho hn hop hr
  cases em with
  | true =>
    obtain ⟨rfl, rfl⟩ := he rfl
    show ReadsP r0 ls (c!"<text:p text:style-name=\"First_20_line_20_indent\" />") c!"\n" _
    intro cm acc L langs hl
    refine ⟨cm, [], L ++ [c!"\n"], langs, ⟨hl, fun l h => h.elim id (fun h => by cases h)⟩, ?_, by simp⟩
    refine Fed.tag (evs := [.start c!"text:p" [(c!"text:style-name", indStyle)], .stop c!"text:p"]) (by decide +kernel) (idle_pend cm acc _) ?_
    exact Goes.append (a := [_]) (Goes.one1 (step_p (by decide) cm) (start_p L [] langs)) (Goes.one1 (c := .stop c!"p") rfl (stop_p L langs))
  | false =>
    exact ReadsP.line h0 hL hA ho hn hop hr (st := st) (by rcases hs with rfl | rfl <;> decide)

/-- Writing and reading the paragraphs of a text. -/
theorem scene_paragraphs (h0 : InScene r0) {n : Novel} (hls : n.languages.getD [] = ls) (hL : ∀ l ∈ ls, LangCode l) (hd : (formats ls).Nodup) (hA : AuthorOk n.authorName)
    {ps0 : List Piece} (hF : Flowing ls ps0) (hM : NoMark (rawText ps0)) :
    ReadsP r0 ls (pOpen bodyStyle ++ proofConvert n (some (rawText ps0)) false ++ pEnd) (rawText (spreadText ps0) ++ c!"\n") (begun ps0) := by
  obtain ⟨hN, _, hlines⟩ := spread_nested hF
  have hbeg : ∀ x, begun ps0 x → begun (spreadText ps0) x := fun x h => spread_mem hF h
  obtain ⟨ps, hps⟩ : ∃ ps, ps = spreadText ps0 := ⟨_, rfl⟩
  have hruns : ∀ l ∈ pieceLines ps, ∀ s ∈ textRuns [] l, NoMark s := by
    rw [hps, hlines]
    intro l hl s hs
    rcases runs_spread hl hs with rfl | ⟨m, hm, h⟩
    · exact NoMark.nil
    · have h1 := run_infix m [] h
      rw [List.nil_append] at h1
      exact hM.infix (h1.trans (rawText_infix (pieceLines_infix hm)))
  have hL' : NoBlankLang ls := by
    intro l hl e
    obtain ⟨a, b, e2, _⟩ := hL l hl
    rw [e] at e2
    simp at e2
  rw [convert_flow hls hL hd hA hF]
  rw [← hps] at hN hbeg ⊢
  obtain ⟨l, qs, h1, h2⟩ := paras_text n.authorName ls bodyStyle (pairs ps)
  have hst := paras_styles (st := bodyStyle) (.inr rfl) (pairs ps)
  have key : ∀ q ∈ paras bodyStyle (pairs ps), q.line ∈ pieceLines ps := by
    intro q hq
    rw [← paras_lines bodyStyle ps]
    exact List.mem_map_of_mem hq
  have hok : ∀ q ∈ paras bodyStyle (pairs ps), ∀ x ∈ q.line, x.Ok ls := fun q hq x hx => hN.ok x ((pieceLines_infix (key q hq)).subset hx)
  have hnl : ∀ q ∈ paras bodyStyle (pairs ps), Piece.nl ∉ q.line := fun q hq => pieceLines_no_nl (key q hq)
  have hq2 : ∀ q ∈ paras bodyStyle (pairs ps), ReadsP r0 ls (paraText n.authorName ls q) (rawText q.line ++ c!"\n") (begun q.line) := fun q hq =>
    ReadsP.para h0 hL' hA (hst q hq).1 (hst q hq).2 (hok q hq) (hnl q hq) (hN.lines _ (key q hq)) (hruns _ (key q hq))
  have e1 : pOpen bodyStyle ++ (finalStage n.authorName ls).flat (pairs ps) ++ pEnd = paraText n.authorName ls ⟨bodyStyle, false, l⟩ ++ qs.flatMap (fun q => '\n' :: paraText n.authorName ls q) := by
    rw [List.append_assoc, h2]
    show _ = (pOpen bodyStyle ++ lineOut n.authorName ls l ++ pEnd) ++ _
    simp only [List.append_assoc]
  have e2 : rawText ps ++ c!"\n" = (rawText l ++ c!"\n") ++ qs.flatMap (fun q => rawText q.line ++ c!"\n") := by
    have h3 := paras_lines bodyStyle ps
    rw [h1] at h3
    rw [rawText_lines, ← joinLines _ (by simp [pieceLines_ne]), ← h3]
    simp only [List.map_cons, List.map_map, List.flatMap_cons, List.flatMap_map, Function.comp_apply]
  rw [h1] at hq2
  rw [e1, e2]
  refine (hq2 ⟨bodyStyle, false, l⟩ (by simp)).append (ReadsP.flat (K := fun q => begun q.line) (fun q hq => ?_)) ?_
  · exact ReadsP.append (s1 := ['\n']) (o1 := []) (ReadsP.blank (by decide)) (hq2 q (by simp [hq])) (fun x h => .inr h)
  · intro x hx
    have hx := hbeg x hx
    obtain ⟨m, hm, hxm⟩ : ∃ m ∈ pieceLines ps, Piece.op (c!"lang=" ++ x) ∈ m := pieceLines_cover hx (by simp)
    rw [← paras_lines bodyStyle ps, h1] at hm
    simp only [List.map_cons, List.mem_cons, List.mem_map] at hm
    rcases hm with rfl | ⟨q, hq, rfl⟩
    · exact .inl hxm
    · exact .inr ⟨q, hq, hxm⟩

/-! ### What is stored -/

theorem replace_nl (s : Str) {p : Str} (q : Str) : Str.replace ('\n' :: s) ('[' :: p) q = '\n' :: Str.replace s ('[' :: p) q := by
  unfold Str.replace
  exact Str.replaceGo_of_not_mem (a := ['\n']) (by decide)

theorem cleanup_nl (tags : List Str) (s : Str) : Rd.cleanupTags tags ('\n' :: s) = '\n' :: Rd.cleanupTags tags s := by
  induction tags generalizing s with
  | nil => rfl
  | cons t ts ih =>
    unfold Rd.cleanupTags
    simp only [List.append_assoc, List.cons_append]
    rw [replace_nl, replace_nl, replace_nl, ih]

/-- The text that is stored at the end of a scene. -/
theorem stored_text (hL : ∀ l ∈ ls, LangCode l) {ps : List Piece} (hF : Flowing ls ps) (hh : ∀ c r, rawText ps = c :: r → Str.isWs c = false) {r : Rd} {langs : List Str}
    (hr : r.novel.languages = some langs) (hl : ∀ l ∈ langs, l ∈ ls) (hb : ∀ l, begun ps l → l ∈ langs) :
    Str.strip (r.cleanupScene (c!"\n" ++ (rawText (spreadText ps) ++ c!"\n"))) = rawText ps := by
  have h1 := Verif.stored_text hL hF hr hl hb
  unfold Rd.cleanupScene at h1 ⊢
  rw [hr] at h1 ⊢
  show Str.strip (Rd.cleanupTags (c!"i" :: c!"b" :: langs.map (fun l => c!"lang=" ++ l)) ('\n' :: (rawText (spreadText ps) ++ c!"\n"))) = _
  have h1 : Str.rstrip (Rd.cleanupTags (c!"i" :: c!"b" :: langs.map (fun l => c!"lang=" ++ l)) (rawText (spreadText ps) ++ c!"\n")) = rawText ps := h1
  rw [cleanup_nl]
  rw [cleanup_spread hL hF hl hb] at h1 ⊢
  unfold Str.strip Str.stripBy
  have e : Str.lstripBy Str.isWs ('\n' :: (rawText ps ++ c!"\n")) = Str.lstripBy Str.isWs (rawText ps ++ c!"\n") := rfl
  rw [e]
  cases ht : rawText ps with
  | nil => rfl
  | cons c r =>
    have e2 : Str.lstripBy Str.isWs (c :: r ++ c!"\n") = c :: r ++ c!"\n" := by
      unfold Str.lstripBy
      rw [List.cons_append, List.dropWhile_cons, hh c r ht]
      rfl
    rw [e2, ← ht]
    exact h1

end Verif.Proof
