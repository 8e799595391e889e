/-
The conversion of texts for the exported document (C56): comments are left for later.
-/
import Verif.Lemmas.Proof1
import Verif.Spec.Book

namespace Verif.Book
open Spec Re

variable {ls : List Str}

/-- The result of the conversion: comments are not yet converted. -/
def rawStage (ls : List Str) : Stage := ⟨nlOut, nl2Out, opText ls, fun _ => spanEnd, c!"/*", c!"*/"⟩

theorem convert_pieces (hl : ∀ l ∈ ls, LangCode l) {ps : List Piece} (h : ∀ p ∈ ps, p.Ok ls)
    (hn : Neighbours ps) :
    replaceAll (xmlReplacements ++ spanReplacements ++ langReplacements 1 ls) (rawText ps) =
      (rawStage ls).flat (pairs ps) := by
  have ho : ∀ p, some p ∈ pairs ps → p.Ok ls := fun p hp => h p (mem_pairs hp)
  have hno := neighO_pairs hn
  have hi : c!"i" ∈ formats ls := by simp [formats]
  have hb : c!"b" ∈ formats ls := by simp [formats]
  rw [replaceAll_append, replaceAll_append, replaceAll_xml, stage0_flat hl h]
  show replaceAll (langReplacements 1 ls) (replaceAll ((c!"\n\n", nl2Text) :: (c!"\n", nlText) :: (c!"\r", c!"\n") :: (openTag c!"i", emSpan) ::
    (closeTag c!"i", spanEnd) :: (openTag c!"b", strongSpan) :: (closeTag c!"b", spanEnd) :: []) _) = _
  simp only [replaceAll_cons]
  obtain ⟨k1, r1⟩ := rep_nl2 hl h
  have r1 : Rep c!"\n\n" nl2Text (stage0.flat (pairs ps)) (stage1.flat (pairs ps)) k1 := r1
  rw [r1.replace (by decide)]
  -- line breaks
  have hchars : ∀ d : Char, (d = '\n' ∨ d = '\r') → ∀ p, some p ∈ pairs ps → ∀ c ∈ (match p with | .ch c => [c] | .note s => s | _ => []), c ≠ d := by
    intro d hd p hp c hc
    have hp := ho p hp
    cases p with
    | ch e =>
      simp only [List.mem_singleton] at hc
      subst hc
      rcases hd with rfl | rfl
      · exact hp.2.1
      · exact hp.2.2
    | note s =>
      rcases hd with rfl | rfl
      · exact (hp.1 c hc).2.1
      · exact (hp.1 c hc).2.2.1
    | _ => cases hc
  rw [replace_char nlText (by decide) _ (hchars '\n' (.inl rfl)), replace_char c!"\n" (by decide) _ (hchars '\r' (.inr rfl))]
  have e1 : (Stage.map (Stage.map stage1 fun s => Str.replace s ['\n'] nlText) fun s => Str.replace s ['\r'] c!"\n").flat (pairs ps) =
      (lineStage openTag closeTag c!"/*" c!"*/").flat (pairs ps) := by
    apply flat_congr
    intro p hp
    have keep : ∀ s : Str, '\n' ∉ s → '\r' ∉ s → Str.replace (Str.replace s ['\n'] nlText) ['\r'] c!"\n" = s := by
      intro s h1 h2
      have hid : ∀ (d : Char) (q s : Str), d ∉ s → Str.replace s [d] q = s := by
        intro d q s hs
        rw [replace_single]
        induction s with
        | nil => rfl
        | cons c s ih =>
          rw [List.flatMap_cons, if_neg (fun e => hs (by simp [e])), ih]
          · rfl
          · exact fun h => hs (by simp [h])
      rw [hid _ _ _ h1, hid _ _ _ h2]
    match p with
    | none => rw [map2_none]; exact nl2_done
    | some (.ch c) => rw [out_ch, out_ch]
    | some .nl => rw [map2_nl]; exact nl_done
    | some (.note s) =>
      have k1 := keep c!"/*" (by decide) (by decide)
      have k2 := keep c!"*/" (by decide) (by decide)
      rw [map2_note]
      show Str.replace (Str.replace c!"/*" ['\n'] nlText) ['\r'] c!"\n" ++ _ ++ Str.replace (Str.replace c!"*/" ['\n'] nlText) ['\r'] c!"\n" = c!"/*" ++ _ ++ c!"*/"
      rw [k1, k2]
    | some (.op t) =>
      exact keep _ (tag_no_nl hl (ho _ hp) (d := '\n') rfl (by decide) (by decide) (by decide) (by decide) (by decide)).1
        (tag_no_nl hl (ho _ hp) (d := '\r') rfl (by decide) (by decide) (by decide) (by decide) (by decide)).1
    | some (.cl t) =>
      exact keep _ (tag_no_nl hl (ho _ hp) (d := '\n') rfl (by decide) (by decide) (by decide) (by decide) (by decide)).2
        (tag_no_nl hl (ho _ hp) (d := '\r') rfl (by decide) (by decide) (by decide) (by decide) (by decide)).2
  rw [e1]
  -- emphasis
  have ne1 : ∀ u, (if u = c!"i" ∧ openTag u = openTag u then emSpan else openTag u) = op1 u := by
    intro u
    unfold op1
    simp only [and_true]
  have ne2 : ∀ u, op2 u = if u = c!"b" ∧ op1 u = openTag u then strongSpan else op1 u := by
    intro u
    unfold op1 op2
    by_cases h1 : u = c!"i"
    · rw [if_pos h1, if_pos h1, if_neg]
      rintro ⟨h2, _⟩
      rw [h1] at h2
      exact absurd h2 (by decide)
    · rw [if_neg h1, if_neg h1]
      simp only [and_true]
  have nc1 : ∀ u, cl1 u = if u = c!"i" ∧ closeTag u = closeTag u then spanEnd else closeTag u := by
    intro u
    unfold cl1
    simp only [and_true]
  have nc2 : ∀ u, cl2 u = if u = c!"b" ∧ cl1 u = closeTag u then spanEnd else cl1 u := by
    intro u
    unfold cl1 cl2
    by_cases h1 : u = c!"i"
    · rw [if_pos h1, if_pos h1, if_neg]
      rintro ⟨h2, _⟩
      rw [h1] at h2
      exact absurd h2 (by decide)
    · rw [if_neg h1, if_neg h1]
      simp only [and_true]
  rw [replace_open (τ := lineStage op1 closeTag c!"/*" c!"*/") hl (lineStage_tags (fun _ => .inl rfl) (fun _ => .inl rfl) (by decide) (by decide)) hi
      emSpan ho hno rfl rfl (fun u _ => (ne1 u).symm) (fun _ _ => rfl) rfl rfl,
    replace_close (τ := lineStage op1 cl1 c!"/*" c!"*/") hl (lineStage_tags op1_cases (fun _ => .inl rfl) (by decide) (by decide)) hi
      spanEnd ho hno rfl rfl (fun _ _ => rfl) (fun u _ => nc1 u) rfl rfl,
    replace_open (τ := lineStage op2 cl1 c!"/*" c!"*/") hl (lineStage_tags op1_cases cl1_cases (by decide) (by decide)) hb
      strongSpan ho hno rfl rfl (fun u _ => ne2 u) (fun _ _ => rfl) rfl rfl,
    replace_close (τ := lineStage op2 cl2 c!"/*" c!"*/") hl (lineStage_tags op2_cases cl1_cases (by decide) (by decide)) hb
      spanEnd ho hno rfl rfl (fun _ _ => rfl) (fun u _ => nc2 u) rfl rfl]
  -- languages
  show replaceAll (langReplacements 1 ls) ((lineStage op2 cl2 c!"/*" c!"*/").flat (pairs ps)) = _
  refine replace_langs hl (lineStage_tags op2_cases cl2_cases (by decide) (by decide)) ho hno 1 ls (fun _ h => h) rfl rfl ?_ ?_ rfl rfl
  · intro u hu
    show opText ls u = if op2 u = openTag u then langOp 1 ls u else op2 u
    unfold opText op2
    by_cases h1 : u = c!"i"
    · subst h1
      rfl
    · by_cases h2 : u = c!"b"
      · subst h2
        rfl
      · rw [if_neg h1, if_neg h2, if_neg h1, if_neg h2, if_pos rfl]
  · intro u hu
    show spanEnd = if cl2 u = closeTag u then (if u ∈ ls.map (fun l => c!"lang=" ++ l) then spanEnd else closeTag u) else cl2 u
    unfold cl2
    by_cases h1 : u = c!"i"
    · subst h1
      rfl
    · by_cases h2 : u = c!"b"
      · subst h2
        rfl
      · rw [if_neg h1, if_neg h2, if_pos rfl, if_pos]
        simp only [formats, List.mem_cons] at hu
        rcases hu with hu | hu | hu
        · exact absurd hu h1
        · exact absurd hu h2
        · exact hu


theorem convert_layout (hl : ∀ l ∈ ls, LangCode l) {ps : List Piece} (h : ∀ p ∈ ps, p.Ok ls) (hn : Neighbours ps) :
    sub layoutTag [] (replaceAll (xmlReplacements ++ spanReplacements ++ langReplacements 1 ls) (rawText ps)) = (rawStage ls).flat (pairs ps) := by
  rw [convert_pieces hl h hn]
  have ho : ∀ p, some p ∈ pairs ps → p.Ok ls := fun p hp => h p (mem_pairs hp)
  exact layout_id (ls := ls) (by decide : '[' ∉ nlOut) (by decide : '[' ∉ nl2Out) (by decide : '[' ∉ c!"/*") (by decide : '[' ∉ c!"*/")
    (fun t ht => opText_no (ho _ ht)) (fun t ht => (by decide : '[' ∉ spanEnd)) ho (neighO_pairs hn) _

theorem replace_none {s p : Str} (q : Str) (h : ¬ p <:+: s) : Str.replace s p q = s := by
  rw [Str.replace_of_not_contains]
  rw [contains_false_iff]
  exact h

theorem subGo_none {m : Matcher} {rep s : Str} (h : ∀ b t, t <:+ s → m b t = none) (b : Bool) : subGo m rep b 0 s = s := by
  induction s generalizing b with
  | nil => rfl
  | cons c s ih =>
    unfold subGo
    rw [h b _ (List.suffix_refl _)]
    simp only
    rw [ih (fun b t ht => h b t (ht.trans (List.suffix_cons _ _)))]

theorem sub_code {op close t : Str} (h : ¬ op <:+: t) : sub (between1 op close) [] t = t := by
  refine subGo_none ?_ _
  intro b u hu
  unfold between1
  rw [if_neg]
  intro hp
  exact h ((List.isPrefixOf_iff_prefix.1 hp).isInfix.trans hu.isInfix)

/-- Nothing is removed. -/
theorem removeInlineCode_id {t : Str} (h : NoCode t) : removeInlineCode (some t) = t := by
  unfold removeInlineCode
  split
  · rename_i e; cases e
  · rename_i e; exact (Option.some.inj e).symm
  · rename_i t' _ e
    have e := Option.some.inj e
    subst e
    rw [replace_none _ h.1]
    have h2 := h.2
    generalize [c!"HTM", c!"TEX", c!"RTF", c!"epub", c!"mobi", c!"rtfimg"] = codes at h2
    induction codes with
    | nil => rfl
    | cons code codes ih =>
      rw [List.foldl_cons, sub_code (h2 code List.mem_cons_self)]
      exact ih (fun c hc => h2 c (List.mem_cons_of_mem _ hc))

/-- The conversion of a text. -/
theorem convert_flow {n : Novel} (hls : n.languages.getD [] = ls) (hl : ∀ l ∈ ls, LangCode l) (hd : (formats ls).Nodup)
    {content : Option Str} {ps : List Piece} (h : BookText ls content ps) :
    odtExportConvert n content false = (rawStage ls).flat (pairs (spreadText ps)) := by
  obtain ⟨hN, ht, _⟩ := spread_nested h.flowing
  have key := convert_layout hl hN.ok hN.neighbours
  have e0 : removeInlineCode content = rawText ps := by
    rw [← h.text]
    cases content with
    | none => rfl
    | some t => exact removeInlineCode_id h.code
  unfold odtExportConvert
  rw [if_neg (by decide), e0, hls]
  by_cases e : rawText ps = []
  · rw [e, rawText_eq_nil e, show spreadText [] = [] from rfl]
    rfl
  · unfold formattedConvert
    split
    · rename_i e; cases e
    · rename_i e'; exact absurd (Option.some.inj e') e
    · rename_i t _ e'
      have e' := Option.some.inj e'
      subst e'
      rw [if_neg (by decide), balanceText_flow hl hd h.flowing, ht]
      exact key

end Verif.Book
