/-
Well-formedness of the documents for proof reading.
-/
import Verif.Lemmas.NestDoc
import Verif.Spec.NotesWritable
import Verif.Props.C54_Proof

namespace Verif.Proof
open Spec Re Template

variable {ls : List Str} {author : Option Str}

/-- A text without carriage returns that opens and closes its elements. -/
def Nests (s : Str) : Prop := '\r' ∉ s ∧ Even s

theorem Nests.nil : Nests [] := ⟨by simp, Even.nil⟩

theorem Nests.append {s1 s2 : Str} (h1 : Nests s1) (h2 : Nests s2) : Nests (s1 ++ s2) :=
  ⟨by rw [List.mem_append, not_or]; exact ⟨h1.1, h2.1⟩, h1.2.append h2.2⟩

/-! ### Lines and paragraphs -/

theorem opens_span {t : Str} (ht : t ∈ formats ls) (a : List Str) : Bal (opText ls t) a (c!"text:span" :: a) := by
  have key : ∀ i, Bal (langSpan i) a (c!"text:span" :: a) := by
    intro i
    obtain ⟨z, e2, x⟩ := langSpan_sax i
    rw [e2]
    exact Bal.tag x rfl
  unfold opText
  split
  · exact key _
  · split
    · exact key _
    · rename_i h1 h2
      have hn := opText_no ht
      have key2 : ∀ (i : Nat) (rs : List Str), langOp i rs t = openTag t ∨ ∃ j, langOp i rs t = langSpan j := by
        intro i rs
        induction rs generalizing i with
        | nil => exact .inl rfl
        | cons l r ih =>
          unfold langOp
          split
          · exact .inr ⟨_, rfl⟩
          · exact ih _
      rcases key2 1 ls with h | ⟨j, h⟩
      · unfold opText at hn
        rw [if_neg h1, if_neg h2, h] at hn
        exact absurd (by simp [openTag]) hn
      · rw [h]
        exact key j

theorem line_nested (ha : AuthorOk author) {l : List Piece} (ho : ∀ p ∈ l, p.Ok ls) (hn : Piece.nl ∉ l) {d e : Nat} (hs : spans d l = some e) (a : List Str) :
    Bal (lineOut author ls l) (List.replicate d c!"text:span" ++ a) (List.replicate e c!"text:span" ++ a) := by
  induction l generalizing d with
  | nil =>
    cases hs
    exact Bal.nil _
  | cons p l ih =>
    rw [lineOut_cons]
    have ih := fun d => @ih (fun p hp => ho p (by simp [hp])) (fun hm => hn (by simp [hm])) d
    have hp := ho p (by simp)
    cases p with
    | nl => exact absurd (by simp) hn
    | op t => exact Bal.append (opens_span hp _) (ih (d + 1) hs)
    | cl t =>
      unfold spans at hs
      split at hs
      · cases hs
      · obtain ⟨d, rfl⟩ := Nat.exists_eq_succ_of_ne_zero (by assumption)
        exact Bal.append (span_close _) (ih d hs)
    | ch c =>
      refine Bal.append (b := List.replicate d c!"text:span" ++ a) ?_ (ih d hs)
      show Bal (escChar c) _ _
      have := Bal.esc (s := [c]) (by intro x hx; rw [List.mem_singleton.1 hx]; exact ⟨hp.1, hp.2.2⟩) (List.replicate d c!"text:span" ++ a)
      simpa using this
    | note s =>
      refine Bal.append (b := List.replicate d c!"text:span" ++ a) ?_ (ih d hs)
      exact note_even ha (fun c hc => ⟨(hp.1 c hc).1, (hp.1 c hc).2.2.1⟩) _

theorem para_nested (ha : AuthorOk author) {q : Para} (hs : q.style = indStyle ∨ q.style = bodyStyle) (hem : q.empty = true → q.line = [] ∧ q.style = indStyle)
    (ho : ∀ x ∈ q.line, x.Ok ls) (hn : Piece.nl ∉ q.line) (hsp : spans 0 q.line = some 0) : Even (paraText author ls q) := by
  unfold paraText
  split
  · rename_i he
    rw [(hem he).2]
    exact Bal.tag (t := c!"text:p text:style-name=\"First_20_line_20_indent\" />") (acc' := []) (evs := [.start c!"text:p" [(c!"text:style-name", c!"First_20_line_20_indent")], .stop c!"text:p"])
      (by decide +kernel) (by simp [nest])
  · rw [List.append_assoc]
    refine Even.elem (p_open ?_) (line_nested ha ho hn hsp []) p_close
    rcases hs with e | e <;> rw [e] <;> decide

/-- The conversion of a text that can be mended. -/
theorem proofConvert_mendable {n : Novel} (hls : n.languages.getD [] = ls) (hL : ∀ l ∈ ls, LangCode l) (hf : (formats ls).Nodup) (ha : AuthorOk n.authorName) {ps : List Piece} (h : Mendables ls ps) :
    ∃ qs, proofConvert n (some (rawText ps)) false = (finalStage n.authorName ls).flat (pairs qs) ∧ (∀ p ∈ qs, p.Ok ls) ∧ spans 0 qs = some 0 := by
  obtain ⟨qs, e, h1, h2, h3⟩ := balanceText_pieces hL hf h
  have := convert_layout hL ha h1 h2
  by_cases e0 : rawText ps = []
  · rw [e0]
    exact ⟨[], rfl, (fun p hp => by cases hp), rfl⟩
  · refine ⟨qs, ?_, h1, h3⟩
    unfold proofConvert
    split
    · rename_i e; cases e
    · rename_i e'; injection e' with e'; exact absurd e' e0
    · rename_i t _ e'
      injection e' with e'
      subst e'
      rw [hls, e]
      exact this

theorem text_nested {n : Novel} (hls : n.languages.getD [] = ls) (hL : ∀ l ∈ ls, LangCode l) (hf : (formats ls).Nodup) (hA : AuthorOk n.authorName) {ps : List Piece} (hm : Mendables ls ps) :
    Nests (pOpen bodyStyle ++ proofConvert n (some (rawText ps)) false ++ pEnd) := by
  obtain ⟨qs0, e, h1, h3⟩ := proofConvert_mendable hls hL hf hA hm
  rw [e]
  constructor
  · simp only [List.mem_append, not_or]
    exact ⟨⟨by decide, final_cr hA hL h1⟩, by decide⟩
  obtain ⟨l, qs, g1, g2⟩ := paras_text n.authorName ls bodyStyle (pairs qs0)
  have hst := paras_styles (st := bodyStyle) (.inr rfl) (pairs qs0)
  have key : ∀ q ∈ paras bodyStyle (pairs qs0), q.line ∈ pieceLines qs0 := by
    intro q hq
    rw [← paras_lines bodyStyle qs0]
    exact List.mem_map_of_mem hq
  have hok : ∀ q ∈ paras bodyStyle (pairs qs0), ∀ x ∈ q.line, x.Ok ls := fun q hq x hx => h1 x ((pieceLines_infix (key q hq)).subset hx)
  have hnl : ∀ q ∈ paras bodyStyle (pairs qs0), Piece.nl ∉ q.line := fun q hq => pieceLines_no_nl (key q hq)
  have hq2 : ∀ q ∈ paras bodyStyle (pairs qs0), Even (paraText n.authorName ls q) := fun q hq =>
    para_nested hA (hst q hq).1 (hst q hq).2 (hok q hq) (hnl q hq) (spans_line h3 _ (key q hq))
  have e1 : pOpen bodyStyle ++ (finalStage n.authorName ls).flat (pairs qs0) ++ pEnd = paraText n.authorName ls ⟨bodyStyle, false, l⟩ ++ qs.flatMap (fun q => '\n' :: paraText n.authorName ls q) := by
    rw [List.append_assoc, g2]
    show _ = (pOpen bodyStyle ++ lineOut n.authorName ls l ++ pEnd) ++ _
    simp only [List.append_assoc]
  rw [g1] at hq2
  rw [e1]
  refine (hq2 ⟨bodyStyle, false, l⟩ (by simp)).append (Even.flat (fun q hq => ?_))
  exact Even.append (s1 := ['\n']) (Bal.plain (by decide) _) (hq2 q (by simp [hq]))

/-! ### Headings, markers, scenes, chapters -/

theorem heading_nested {op e en : Str} {as : Dict Str} {t : Str} (ht : PlainTitle t) (hq1 : '\r' ∉ '<' :: op) (hq2 : '\r' ∉ '<' :: en)
    (x1 : saxRun .lt op = (.text [], [.start e as])) (x2 : ∃ acc, saxRun .lt en = (.text acc, [.stop e])) :
    Nests ('<' :: op ++ (t.flatMap escChar ++ '<' :: en)) := by
  refine ⟨title_cr hq1 ht hq2, ?_⟩
  obtain ⟨a2, x2⟩ := x2
  exact Even.elem (t := e) (Bal.tag x1 rfl) (Bal.esc ht.carriable _) (Bal.tag x2 (by simp [nest]))

theorem h1_nested {t : Str} (ht : PlainTitle t) : Nests (h1Open ++ (t.flatMap escChar ++ hEnd)) :=
  heading_nested (op := c!"text:h text:style-name=\"Heading_20_1\" text:outline-level=\"1\">") (en := c!"/text:h>\n") (e := c!"text:h") (as := [(c!"text:style-name", c!"Heading_20_1"), (c!"text:outline-level", c!"1")]) ht
    (by decide) (by decide) (by decide +kernel) ⟨c!"\n", by decide +kernel⟩

theorem h2_nested {t : Str} (ht : PlainTitle t) : Nests (h2Open ++ (t.flatMap escChar ++ hEnd)) :=
  heading_nested (op := c!"text:h text:style-name=\"Heading_20_2\" text:outline-level=\"2\">") (en := c!"/text:h>\n") (e := c!"text:h") (as := [(c!"text:style-name", c!"Heading_20_2"), (c!"text:outline-level", c!"2")]) ht
    (by decide) (by decide) (by decide +kernel) ⟨c!"\n", by decide +kernel⟩

theorem h3_nested {t : Str} (ht : PlainTitle t) : Nests (h3Open ++ (t.flatMap escChar ++ hEnd)) :=
  heading_nested (op := c!"text:h text:style-name=\"Heading_20_3\" text:outline-level=\"3\">") (en := c!"/text:h>\n") (e := c!"text:h") (as := [(c!"text:style-name", c!"Heading_20_3"), (c!"text:outline-level", c!"3")]) ht
    (by decide) (by decide) (by decide +kernel) ⟨c!"\n", by decide +kernel⟩

theorem title_nested {t : Str} (ht : PlainTitle t) : Nests (c!"<text:p text:style-name=\"Title\">" ++ (t.flatMap escChar ++ c!"</text:p>\n")) :=
  heading_nested (op := c!"text:p text:style-name=\"Title\">") (en := c!"/text:p>\n") (e := c!"text:p") (as := [(c!"text:style-name", c!"Title")]) ht
    (by decide) (by decide) (by decide +kernel) ⟨c!"\n", by decide +kernel⟩

theorem subtitle_nested {t : Str} (ht : PlainTitle t) : Nests (c!"<text:p text:style-name=\"Subtitle\">" ++ (t.flatMap escChar ++ c!"</text:p>\n")) :=
  heading_nested (op := c!"text:p text:style-name=\"Subtitle\">") (en := c!"/text:p>\n") (e := c!"text:p") (as := [(c!"text:style-name", c!"Subtitle")]) ht
    (by decide) (by decide) (by decide +kernel) ⟨c!"\n", by decide +kernel⟩

theorem mark_nested {s : Str} (hs : s.all plainChar = true) : Nests (markOpen ++ (s ++ markEnd)) := by
  constructor
  · simp only [List.mem_append, not_or]
    refine ⟨by decide, ?_, by decide⟩
    intro h
    have := List.all_eq_true.1 hs _ h
    revert this
    decide
  · exact Even.elem (t := c!"text:p")
      (Bal.tag (t := c!"text:p text:style-name=\"scene_20_mark\">") (acc' := []) (evs := [.start c!"text:p" [(c!"text:style-name", c!"scene_20_mark")]]) (by decide +kernel) rfl)
      (Bal.plain hs _) (Bal.tag (t := c!"/text:p>\n") (acc' := c!"\n") (evs := [.stop c!"text:p"]) (by decide +kernel) (by simp [nest]))

theorem scene_nested (e : DocEnv) {n : Novel} (hn : Exportable n) (hls : n.languages.getD [] = ls) (hL : ∀ l ∈ ls, LangCode l) (hf : (formats ls).Nodup) (hA : AuthorOk n.authorName)
    {p : Str × Scene} (hp : n.scenes.get? p.1 = some p.2) (hmem : p.1 ∈ narrative n) (hid : NumId p.1) (ht : ∀ t, p.2.title = some t → PlainTitle t)
    (htext : ∃ ps, p.2.sceneContent.getD [] = rawText ps ∧ Mendables ls ps) (before : List (Str × Scene)) (first : Bool) :
    Nests (Spec.sceneText (odtProof e) n before first p).flatten := by
  obtain ⟨ps, hps, hN⟩ := htext
  obtain ⟨m, hm, h1, h2, h3⟩ := sceneMapping_values e hn hmem hp (before ++ [p]).length (total (·.wordCount) (before ++ [p])) (total (·.letterCount) (before ++ [p]))
  obtain ⟨t', ht1, ht2⟩ := convert_title hls hL hA ht true
  have h3' : m.get? c!"SceneContent" = some (proofConvert n (some (rawText ps)) false) := by
    rw [h3, ← hps]
    cases hsc : p.2.sceneContent with
    | none => rfl
    | some t => rfl
  rw [ht1] at h1
  have key : Nests (subst proofTemplates.scene m) := by
    rw [subst_scene h1 h2 h3']
    refine (h3_nested ht2).append ((mark_nested ?_).append ((text_nested hls hL hf hA hN).append (Nests.append (s1 := c!"\n") ⟨by decide, Bal.plain (by decide) _⟩ (mark_nested (by decide)))))
    rw [List.all_append, List.all_append, NumId.plain hid]
    decide
  unfold Spec.sceneText
  simp only [hm, filled]
  have e1 : (odtProof e).appendedScene = [] := rfl
  have e2 : (odtProof e).sceneDivider = [] := rfl
  have e3 : (odtProof e).scene = proofTemplates.scene := rfl
  rw [e1, e2, e3]
  rw [List.flatten_append]
  refine Nests.append ?_ ?_
  · split
    · exact Nests.nil
    · exact Nests.nil
  · rw [List.flatten_cons, List.flatten_nil, List.append_nil]
    split
    · rename_i h; simp at h
    · exact key

/-- What is needed for a scene. -/
def SceneFine (ls : List Str) (p : Str × Scene) : Prop :=
  NumId p.1 ∧ (∀ t, p.2.title = some t → PlainTitle t) ∧ ∃ ps, p.2.sceneContent.getD [] = rawText ps ∧ Mendables ls ps

theorem scenes_nested (e : DocEnv) {n : Novel} (hn : Exportable n) (hls : n.languages.getD [] = ls) (hL : ∀ l ∈ ls, LangCode l) (hf : (formats ls).Nodup) (hA : AuthorOk n.authorName)
    (l : List (Str × Scene)) (hp : ∀ p ∈ l, n.scenes.get? p.1 = some p.2 ∧ p.1 ∈ narrative n ∧ SceneFine ls p) (before : List (Str × Scene)) (first : Bool) :
    Nests (Spec.scenesText (odtProof e) n before first l).flatten := by
  induction l generalizing before first with
  | nil => exact Nests.nil
  | cons p l ih =>
    unfold Spec.scenesText
    rw [List.flatten_append]
    obtain ⟨h1, h2, h3, h4, h5⟩ := hp p (by simp)
    exact (scene_nested e hn hls hL hf hA h1 h2 h3 h4 h5 before first).append (ih (fun q hq => hp q (by simp [hq])) _ _)

theorem chapter_nested (e : DocEnv) {n : Novel} (hn : Exportable n) (hls : n.languages.getD [] = ls) (hL : ∀ l ∈ ls, LangCode l) (hf : (formats ls).Nodup) (hA : AuthorOk n.authorName)
    {id : Str} {ch : Chapter} (hid : id ∈ n.srtChapters) (hch : n.chapters.get? id = some ch)
    (hsh : chapterShown n ch = true) (hc : ∀ t, ch.title = some t → PlainTitle t) (hp : ∀ p ∈ exportedIn n ch, SceneFine ls p) (before : List Str) :
    Nests (Spec.chapterText (odtProof e) n before id).flatten := by
  unfold Spec.chapterText
  rw [hch]
  simp only
  rw [if_pos hsh]
  obtain ⟨m, t', e1, e2, e3⟩ := chapterMapping_values e hls hL hA hch hc
    (if isPart (odtProof e).toTemplates ch = true then 0 else (numberedChapters (odtProof e).toTemplates n before).length + 1)
  rw [e1]
  simp only [filled]
  have p2 : Nests (subst (if isPart (odtProof e).toTemplates ch = true then (odtProof e).part else (odtProof e).chapter) m) := by
    split
    · rw [show (odtProof e).part = proofTemplates.part from rfl, subst_part e2]
      exact h1_nested e3
    · rw [show (odtProof e).chapter = proofTemplates.chapter from rfl, subst_chapter e2]
      exact h2_nested e3
  have hmem : ∀ p ∈ exportedIn n ch, n.scenes.get? p.1 = some p.2 ∧ p.1 ∈ narrative n := by
    intro p hp
    refine ⟨exportedIn_mem hp, ?_⟩
    unfold exportedIn at hp
    rw [List.mem_filter, List.mem_filterMap] at hp
    obtain ⟨⟨i, hi, h2⟩, _⟩ := hp
    cases hs : n.scenes.get? i with
    | none => rw [hs] at h2; cases h2
    | some s =>
      rw [hs] at h2
      cases h2
      unfold narrative
      rw [List.mem_flatMap]
      exact ⟨id, hid, by unfold scenesOf; rw [hch]; exact hi⟩
  have p3 := scenes_nested e hn hls hL hf hA (exportedIn n ch) (fun p hq => ⟨(hmem p hq).1, (hmem p hq).2, hp p hq⟩) (exported n before) true
  have e6 : (if (odtProof e).chapterEnd = [] then [] else [subst (odtProof e).chapterEnd m]) = [] := rfl
  rw [e6, List.flatten_append, List.flatten_append, List.flatten_cons, List.flatten_nil, List.append_nil, List.append_nil]
  exact p2.append p3

theorem chapters_nested (e : DocEnv) {n : Novel} (hn : Exportable n) (hls : n.languages.getD [] = ls) (hL : ∀ l ∈ ls, LangCode l) (hf : (formats ls).Nodup) (hA : AuthorOk n.authorName)
    (ids : List Str) (hids : ∀ id ∈ ids, id ∈ n.srtChapters)
    (hch : ∀ id ∈ ids, ∀ ch, n.chapters.get? id = some ch → chapterShown n ch = true → (∀ t, ch.title = some t → PlainTitle t) ∧ ∀ p ∈ exportedIn n ch, SceneFine ls p) (before : List Str) :
    Nests (Spec.manuscript (odtProof e) n before ids).flatten := by
  induction ids generalizing before with
  | nil => exact Nests.nil
  | cons id ids ih =>
    unfold Spec.manuscript
    rw [List.flatten_append]
    obtain ⟨ch, hc⟩ := hn.chapters id (hids id (by simp))
    refine Nests.append ?_ (ih (fun i hi => hids i (by simp [hi])) (fun i hi => hch i (by simp [hi])) _)
    by_cases hsh : chapterShown n ch = true
    · obtain ⟨h1, h3⟩ := hch id (by simp) ch hc hsh
      exact chapter_nested e hn hls hL hf hA (hids id (by simp)) hc hsh h1 h3 before
    · have : Spec.chapterText (odtProof e) n before id = [] := by
        unfold Spec.chapterText
        rw [hc]
        simp only
        rw [if_neg hsh]
      rw [this]
      exact Nests.nil

/-! ### The header -/

theorem styleWith_even {props : Str} (i : Nat) {evs : List Ev} {acc : Str} (x : saxRun .lt props = (.text acc, evs)) (hn : nest [c!"style:style"] evs = some []) :
    Even (c!"\n  " ++ (('<' :: (c!"style:style style:name=\"T" ++ (Str.ofNat i ++ c!"\" style:family=\"text\">\n   "))) ++ ('<' :: props))) := by
  refine Bal.append (b := []) (Bal.plain (by decide) _) (Bal.append (b := [c!"style:style"]) ?_ ?_)
  · exact Bal.tag (styleOpen_sax _ (digits_plain (digits_ofNat _)).1) rfl
  · exact Bal.tag x hn

theorem italic_even (i : Nat) : Even ('\n' :: italicStyle i) := by
  have e : '\n' :: italicStyle i = c!"\n  " ++ (('<' :: (c!"style:style style:name=\"T" ++ (Str.ofNat i ++ c!"\" style:family=\"text\">\n   "))) ++
      ('<' :: c!"style:text-properties fo:font-style=\"italic\" style:font-style-asian=\"italic\" style:font-style-complex=\"italic\"/>\n  </style:style>")) := by
    unfold italicStyle
    generalize Str.ofNat i = k
    show c!"\n  <style:style style:name=\"T" ++ (k ++ _) = c!"\n  <style:style style:name=\"T" ++ (k ++ c!"\" style:family=\"text\">\n   " ++ _)
    rw [List.append_assoc k]
    rfl
  rw [e]
  exact styleWith_even i (acc := []) (evs := [.start c!"style:text-properties" [(c!"fo:font-style", c!"italic"), (c!"style:font-style-asian", c!"italic"), (c!"style:font-style-complex", c!"italic")],
    .stop c!"style:text-properties", .chars c!"\n  ", .stop c!"style:style"]) (by decide +kernel) (by simp [nest])

theorem bold_even (i : Nat) : Even ('\n' :: boldStyle i) := by
  have e : '\n' :: boldStyle i = c!"\n  " ++ (('<' :: (c!"style:style style:name=\"T" ++ (Str.ofNat i ++ c!"\" style:family=\"text\">\n   "))) ++
      ('<' :: c!"style:text-properties fo:font-weight=\"bold\" style:font-weight-asian=\"bold\" style:font-weight-complex=\"bold\"/>\n  </style:style>")) := by
    unfold boldStyle
    generalize Str.ofNat i = k
    show c!"\n  <style:style style:name=\"T" ++ (k ++ _) = c!"\n  <style:style style:name=\"T" ++ (k ++ c!"\" style:family=\"text\">\n   " ++ _)
    rw [List.append_assoc k]
    rfl
  rw [e]
  exact styleWith_even i (acc := []) (evs := [.start c!"style:text-properties" [(c!"fo:font-weight", c!"bold"), (c!"style:font-weight-asian", c!"bold"), (c!"style:font-weight-complex", c!"bold")],
    .stop c!"style:text-properties", .chars c!"\n  ", .stop c!"style:style"]) (by decide +kernel) (by simp [nest])

theorem proofStyles_even (hL : ∀ l ∈ ls, LangCode l) : Even (proofStyles ls) := by
  rw [proofStyles_eq, ← List.append_assoc (List.flatMap _ _), ← List.append_assoc ((List.flatMap _ _) ++ _)]
  refine Even.elem (t := c!"office:automatic-styles") (Bal.tag (t := c!"office:automatic-styles>") (acc' := []) (evs := [.start c!"office:automatic-styles" []]) (by decide +kernel) rfl)
    (((styles_even hL 1).append (italic_even _)).append (bold_even _)) ?_
  exact Bal.append (s1 := c!"\n ") (Bal.plain (by decide) _) (Bal.tag (t := c!"/office:automatic-styles>") (acc' := []) (evs := [.stop c!"office:automatic-styles"]) (by decide +kernel) (by simp [nest]))

/-! ### The document -/

theorem proof_parses (name path : Str) {n : Novel} (hn : Exportable n) (hi : Inherits n) (hw : ProofWritable n) :
    ∃ text, proofText (odtProof (proofEnv name path)) n = .ok text ∧ (parseDoc text).isSome = true := by
  obtain ⟨e, he⟩ : ∃ e, e = proofEnv name path := ⟨_, rfl⟩
  obtain ⟨ls, hls⟩ : ∃ ls, n.languages.getD [] = ls := ⟨_, rfl⟩
  have hL : ∀ l ∈ ls, LangCode l := by rw [← hls]; exact hw.languages
  have hd : (formats ls).Nodup := formats_nodup (by rw [← hls]; exact hw.distinct)
  obtain ⟨t1, ht1, ht2⟩ := convert_title hls hL hw.author hw.title true
  obtain ⟨a1, ha1, ha2⟩ := convert_title hls hL hw.author (author_plain hw.author) true
  obtain ⟨chs, hchs⟩ := getChapters_total hn (proof_total e hn)
  have hchs' : chs = Spec.manuscript (odtProof e) n [] n.srtChapters := getChapters_spec (proof_templates e) hi hchs
  have hh : ∃ hm, (odtProof e).headerMapping n = .ok hm ∧ hm.get? c!"ContentHeader" = some (proofHeader ls) ∧ hm.get? c!"Title" = some (t1.flatMap escChar) ∧
      hm.get? c!"AuthorName" = some (a1.flatMap escChar) := by
    refine ⟨_, rfl, ?_, ?_, ?_⟩
    · rw [Dict.get?_set_self, he, hls]
      rfl
    · rw [get?_set_other (by decide), ← ht1]
      rfl
    · rw [get?_set_other (by decide), ← ha1]
      rfl
  obtain ⟨hm, hm0, hm1, hm2, hm3⟩ := hh
  have htext : proofText (odtProof e) n = .ok ([subst titleTemplate hm] ++ chs ++ [contentFooter]).flatten := by
    unfold proofText getFileHeader
    rw [hm0, hchs]
    rfl
  rw [subst_title hm1 hm2 hm3] at htext
  obtain ⟨body, hbody⟩ : ∃ b, b = ((c!"<text:p text:style-name=\"Title\">" ++ (t1.flatMap escChar ++ c!"</text:p>\n")) ++ (c!"<text:p text:style-name=\"Subtitle\">" ++ (a1.flatMap escChar ++ c!"</text:p>\n"))) ++
        chs.flatten := ⟨_, rfl⟩
  have etext : ([proofHeader ls ++ ((c!"<text:p text:style-name=\"Title\">" ++ (t1.flatMap escChar ++ c!"</text:p>\n")) ++ (c!"<text:p text:style-name=\"Subtitle\">" ++ (a1.flatMap escChar ++ c!"</text:p>\n")))] ++ chs ++
      [contentFooter]).flatten = proofHeader ls ++ (body ++ contentFooter) := by
    rw [hbody, List.flatten_append, List.flatten_append, List.flatten_cons, List.flatten_nil, List.append_nil, List.flatten_cons, List.flatten_nil, List.append_nil]
    simp only [List.append_assoc]
  rw [etext] at htext
  have hb : Nests body := by
    rw [hbody]
    refine ((title_nested ht2).append (subtitle_nested ha2)).append ?_
    rw [hchs']
    refine chapters_nested e hn hls hL hd hw.author n.srtChapters (fun id h => h) ?_ []
    intro id hid ch hch hsh
    refine ⟨hw.chapters id hid ch hch hsh, ?_⟩
    intro p hp
    have hpe : p ∈ exported n n.srtChapters := by
      unfold exported
      rw [List.mem_flatMap]
      exact ⟨id, hid, by rw [hch]; exact hp⟩
    exact ⟨hw.numbers p hpe, hw.titles p hpe, by rw [← hls]; exact hw.texts p hpe⟩
  refine ⟨_, by rw [← he]; exact htext, ?_⟩
  have e2 : proofHeader ls ++ (body ++ contentFooter) = odtHeadStart ++ ((proofStyles ls ++ (odtHeadEnd ++ (body ++ bodyEnd))) ++ c!"</office:document-content>\n") := by
    have : contentFooter = bodyEnd ++ c!"</office:document-content>\n" := rfl
    rw [this, proofHeader_eq]
    generalize c!"</office:document-content>\n" = z
    simp only [List.append_assoc]
  have hcr : '\r' ∉ proofHeader ls ++ (body ++ contentFooter) := by
    simp only [List.mem_append, not_or]
    exact ⟨header_cr hL, hb.1, by decide⟩
  rw [e2] at hcr ⊢
  exact document_parses ((proofStyles_even hL).append (body_even hb.2)) hcr

end Verif.Proof
