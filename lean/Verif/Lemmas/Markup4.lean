/-
The conversion of a formatted text for a document: all steps together.
-/
import Verif.Lemmas.Markup3

namespace Verif
open Spec

variable {ls : List Str}

/-- The stages after the line breaks. -/
def lineStage (op cl : Str → Str) (no nc : Str) : Stage := ⟨nlOut, nl2Out, op, cl, no, nc⟩

/-- `[i]` replaced, etc. -/
def op1 (t : Str) : Str := if t = c!"i" then emSpan else openTag t
/-- See `op1`. -/
def op2 (t : Str) : Str := if t = c!"i" then emSpan else if t = c!"b" then strongSpan else openTag t
/-- See `op1`. -/
def cl1 (t : Str) : Str := if t = c!"i" then spanEnd else closeTag t
/-- See `op1`. -/
def cl2 (t : Str) : Str := if t = c!"i" then spanEnd else if t = c!"b" then spanEnd else closeTag t

theorem op1_cases (t : Str) : op1 t = openTag t ∨ '[' ∉ op1 t := by
  unfold op1
  split
  · exact .inr (by decide)
  · exact .inl rfl
theorem op2_cases (t : Str) : op2 t = openTag t ∨ '[' ∉ op2 t := by
  unfold op2
  split
  · exact .inr (by decide)
  split
  · exact .inr (by decide)
  · exact .inl rfl
theorem cl1_cases (t : Str) : cl1 t = closeTag t ∨ '[' ∉ cl1 t := by
  unfold cl1
  split
  · exact .inr (by decide)
  · exact .inl rfl
theorem cl2_cases (t : Str) : cl2 t = closeTag t ∨ '[' ∉ cl2 t := by
  unfold cl2
  split
  · exact .inr (by decide)
  split
  · exact .inr (by decide)
  · exact .inl rfl

theorem lineStage_tags {op cl : Str → Str} {no nc : Str} (h1 : ∀ t, op t = openTag t ∨ '[' ∉ op t) (h2 : ∀ t, cl t = closeTag t ∨ '[' ∉ cl t)
    (h3 : '[' ∉ no) (h4 : '[' ∉ nc) : TagStage ls (lineStage op cl no nc) :=
  ⟨(by decide : '[' ∉ nlOut), (by decide : '[' ∉ nl2Out), h3, h4, fun t _ => h1 t, fun t _ => h2 t⟩

theorem openTag_getLast (t : Str) : (openTag t).getLast? = some ']' := by
  rw [openTag, List.getLast?_append]; rfl
theorem closeTag_getLast (t : Str) : (closeTag t).getLast? = some ']' := by
  rw [closeTag, List.getLast?_append]; rfl

theorem lineStage_notes (hl : ∀ l ∈ ls, LangCode l) (no nc : Str) : NoteStage (ls := ls) (lineStage op2 cl2 no nc) := by
  have hop : ∀ t ∈ formats ls, '*' ∉ op2 t := by
    intro t ht
    unfold op2
    split
    · decide
    split
    · decide
    · exact (tag_no_nl hl ht (d := '*') rfl (by decide) (by decide) (by decide) (by decide) (by decide)).1
  have hcl : ∀ t ∈ formats ls, '*' ∉ cl2 t := by
    intro t ht
    unfold cl2
    split
    · decide
    split
    · decide
    · exact (tag_no_nl hl ht (d := '*') rfl (by decide) (by decide) (by decide) (by decide) (by decide)).2
  have hdo : ∀ t, ∃ c r, op2 t = c :: r ∧ c ≠ '*' ∧ c ≠ '/' := by
    intro t
    unfold op2
    split
    · exact ⟨_, _, rfl, by decide, by decide⟩
    split
    · exact ⟨_, _, rfl, by decide, by decide⟩
    · exact ⟨_, _, rfl, by decide, by decide⟩
  have hdc : ∀ t, ∃ c r, cl2 t = c :: r ∧ c ≠ '*' ∧ c ≠ '/' := by
    intro t
    unfold cl2
    split
    · exact ⟨_, _, rfl, by decide, by decide⟩
    split
    · exact ⟨_, _, rfl, by decide, by decide⟩
    · exact ⟨_, _, rfl, by decide, by decide⟩
  have hlo : ∀ t, (op2 t).getLast? ≠ some '/' := by
    intro t
    unfold op2
    split
    · decide
    split
    · decide
    · rw [openTag_getLast]; decide
  have hlc : ∀ t, (cl2 t).getLast? ≠ some '/' := by
    intro t
    unfold cl2
    split
    · decide
    split
    · decide
    · rw [closeTag_getLast]; decide
  refine ⟨⟨(by decide : '*' ∉ nlOut), (by decide : '*' ∉ nl2Out), ?_⟩, ?_, ?_⟩
  · rintro p ⟨t, rfl | rfl⟩ hp
    · exact hop t hp
    · exact hcl t hp
  · intro p hp h1 h2
    match p with
    | none => exact ⟨'<', _, rfl, by decide, by decide⟩
    | some .nl => exact ⟨'<', _, rfl, by decide, by decide⟩
    | some (.ch c) => exact absurd rfl (h1 c)
    | some (.note s) => exact absurd rfl (h2 s)
    | some (.op t) => exact hdo t
    | some (.cl t) => exact hdc t
  · intro p hp h1 h2
    match p with
    | none => show nl2Out.getLast? ≠ _; decide
    | some .nl => show nlOut.getLast? ≠ _; decide
    | some (.ch c) => exact absurd rfl (h1 c)
    | some (.note s) => exact absurd rfl (h2 s)
    | some (.op t) => exact hlo t
    | some (.cl t) => exact hlc t

theorem noteStart_no {author : Option Str} (h : AuthorOk author) : '[' ∉ noteStart author ∧ '*' ∉ noteStart author := by
  unfold noteStart
  simp only [List.mem_append, not_or]
  refine ⟨⟨⟨by decide, ?_⟩, by decide⟩, ⟨⟨by decide, ?_⟩, by decide⟩⟩
  · intro hm
    exact (h _ hm).2 (by decide)
  · intro hm
    exact (h _ hm).2 (by decide)

theorem replaceAll_cons (a b : Str) (r : List (Str × Str)) (t : Str) : replaceAll ((a, b) :: r) t = replaceAll r (Str.replace t a b) := rfl

/-- The double line breaks replaced. -/
def stage1 : Stage := ⟨c!"\n", nl2Text, openTag, closeTag, c!"/*", c!"*/"⟩

set_option maxRecDepth 10000 in
theorem nl2_done : Str.replace (Str.replace nl2Text ['\n'] nlText) ['\r'] c!"\n" = nl2Out := by decide
set_option maxRecDepth 10000 in
theorem nl_done : Str.replace (Str.replace c!"\n" ['\n'] nlText) ['\r'] c!"\n" = nlOut := by decide

theorem map2_none (σ : Stage) (f g : Str → Str) : ((σ.map f).map g).out none = g (f σ.nl2) := rfl
theorem map2_nl (σ : Stage) (f g : Str → Str) : ((σ.map f).map g).out (some .nl) = g (f σ.nl) := rfl
theorem map2_note (σ : Stage) (f g : Str → Str) (s : Str) :
    ((σ.map f).map g).out (some (.note s)) = g (f σ.no) ++ s.flatMap escChar ++ g (f σ.nc) := rfl

theorem out_ch (σ : Stage) (c : Char) : σ.out (some (.ch c)) = escChar c := rfl

/-- All replacements. -/
theorem convert_pieces (hl : ∀ l ∈ ls, LangCode l) {author : Option Str} (ha : AuthorOk author) {ps : List Piece} (h : ∀ p ∈ ps, p.Ok ls)
    (hn : Neighbours ps) :
    replaceAll (xmlReplacements ++ (spanReplacements ++ commentReplacements author) ++ langReplacements 1 ls) (rawText ps) =
      (finalStage author ls).flat (pairs ps) := by
  have ho : ∀ p, some p ∈ pairs ps → p.Ok ls := fun p hp => h p (mem_pairs hp)
  have hno := neighO_pairs hn
  have hi : c!"i" ∈ formats ls := by simp [formats]
  have hb : c!"b" ∈ formats ls := by simp [formats]
  rw [replaceAll_append, replaceAll_append, replaceAll_xml, stage0_flat hl h]
  show replaceAll (langReplacements 1 ls) (replaceAll ((c!"\n\n", nl2Text) :: (c!"\n", nlText) :: (c!"\r", c!"\n") :: (openTag c!"i", emSpan) ::
    (closeTag c!"i", spanEnd) :: (openTag c!"b", strongSpan) :: (closeTag c!"b", spanEnd) :: (c!"/*", noteStart author) :: (c!"*/", noteEnd) :: []) _) = _
  simp only [replaceAll_cons]
  obtain ⟨k1, r1⟩ := rep_nl2 hl h
  have r1 : Rep c!"\n\n" nl2Text (stage0.flat (pairs ps)) (stage1.flat (pairs ps)) k1 := r1
  rw [r1.replace (by decide)]
  -- line breaks
  have hchars : ∀ d : Char, (d = '\n' ∨ d = '\r') → ∀ p, some p ∈ pairs ps → ∀ c ∈ (match p with | .ch c => [c] | .note s => s | _ => []), c ≠ d := by
    intro d hd p hp c hc
    have hp := ho p hp
    cases p with
    | ch e =>
      simp only [List.mem_singleton] at hc
      subst hc
      rcases hd with rfl | rfl
      · exact hp.2.1
      · exact hp.2.2
    | note s =>
      rcases hd with rfl | rfl
      · exact (hp.1 c hc).2.1
      · exact (hp.1 c hc).2.2.1
    | _ => cases hc
  rw [replace_char nlText (by decide) _ (hchars '\n' (.inl rfl)), replace_char c!"\n" (by decide) _ (hchars '\r' (.inr rfl))]
  have e1 : (Stage.map (Stage.map stage1 fun s => Str.replace s ['\n'] nlText) fun s => Str.replace s ['\r'] c!"\n").flat (pairs ps) =
      (lineStage openTag closeTag c!"/*" c!"*/").flat (pairs ps) := by
    apply flat_congr
    intro p hp
    have keep : ∀ s : Str, '\n' ∉ s → '\r' ∉ s → Str.replace (Str.replace s ['\n'] nlText) ['\r'] c!"\n" = s := by
      intro s h1 h2
      have hid : ∀ (d : Char) (q s : Str), d ∉ s → Str.replace s [d] q = s := by
        intro d q s hs
        rw [replace_single]
        induction s with
        | nil => rfl
        | cons c s ih =>
          rw [List.flatMap_cons, if_neg (fun e => hs (by simp [e])), ih]
          · rfl
          · exact fun h => hs (by simp [h])
      rw [hid _ _ _ h1, hid _ _ _ h2]
    match p with
    | none => rw [map2_none]; exact nl2_done
    | some (.ch c) => rw [out_ch, out_ch]
    | some .nl => rw [map2_nl]; exact nl_done
    | some (.note s) =>
      have k1 := keep c!"/*" (by decide) (by decide)
      have k2 := keep c!"*/" (by decide) (by decide)
      rw [map2_note]
      show Str.replace (Str.replace c!"/*" ['\n'] nlText) ['\r'] c!"\n" ++ _ ++ Str.replace (Str.replace c!"*/" ['\n'] nlText) ['\r'] c!"\n" = c!"/*" ++ _ ++ c!"*/"
      rw [k1, k2]
    | some (.op t) =>
      exact keep _ (tag_no_nl hl (ho _ hp) (d := '\n') rfl (by decide) (by decide) (by decide) (by decide) (by decide)).1
        (tag_no_nl hl (ho _ hp) (d := '\r') rfl (by decide) (by decide) (by decide) (by decide) (by decide)).1
    | some (.cl t) =>
      exact keep _ (tag_no_nl hl (ho _ hp) (d := '\n') rfl (by decide) (by decide) (by decide) (by decide) (by decide)).2
        (tag_no_nl hl (ho _ hp) (d := '\r') rfl (by decide) (by decide) (by decide) (by decide) (by decide)).2
  rw [e1]
  -- emphasis
  have ne1 : ∀ u, (if u = c!"i" ∧ openTag u = openTag u then emSpan else openTag u) = op1 u := by
    intro u
    unfold op1
    simp only [and_true]
  have ne2 : ∀ u, op2 u = if u = c!"b" ∧ op1 u = openTag u then strongSpan else op1 u := by
    intro u
    unfold op1 op2
    by_cases h1 : u = c!"i"
    · rw [if_pos h1, if_pos h1, if_neg]
      rintro ⟨h2, _⟩
      rw [h1] at h2
      exact absurd h2 (by decide)
    · rw [if_neg h1, if_neg h1]
      simp only [and_true]
  have nc1 : ∀ u, cl1 u = if u = c!"i" ∧ closeTag u = closeTag u then spanEnd else closeTag u := by
    intro u
    unfold cl1
    simp only [and_true]
  have nc2 : ∀ u, cl2 u = if u = c!"b" ∧ cl1 u = closeTag u then spanEnd else cl1 u := by
    intro u
    unfold cl1 cl2
    by_cases h1 : u = c!"i"
    · rw [if_pos h1, if_pos h1, if_neg]
      rintro ⟨h2, _⟩
      rw [h1] at h2
      exact absurd h2 (by decide)
    · rw [if_neg h1, if_neg h1]
      simp only [and_true]
  rw [replace_open (τ := lineStage op1 closeTag c!"/*" c!"*/") hl (lineStage_tags (fun _ => .inl rfl) (fun _ => .inl rfl) (by decide) (by decide)) hi
      emSpan ho hno rfl rfl (fun u _ => (ne1 u).symm) (fun _ _ => rfl) rfl rfl,
    replace_close (τ := lineStage op1 cl1 c!"/*" c!"*/") hl (lineStage_tags op1_cases (fun _ => .inl rfl) (by decide) (by decide)) hi
      spanEnd ho hno rfl rfl (fun _ _ => rfl) (fun u _ => nc1 u) rfl rfl,
    replace_open (τ := lineStage op2 cl1 c!"/*" c!"*/") hl (lineStage_tags op1_cases cl1_cases (by decide) (by decide)) hb
      strongSpan ho hno rfl rfl (fun u _ => ne2 u) (fun _ _ => rfl) rfl rfl,
    replace_close (τ := lineStage op2 cl2 c!"/*" c!"*/") hl (lineStage_tags op2_cases cl1_cases (by decide) (by decide)) hb
      spanEnd ho hno rfl rfl (fun _ _ => rfl) (fun u _ => nc2 u) rfl rfl]
  -- comments
  obtain ⟨k2, r2⟩ := rep_no (q := noteStart author) (lineStage_notes hl c!"/*" c!"*/") rfl rfl ho hno
  rw [r2.replace (by decide)]
  obtain ⟨k3, r3⟩ := rep_nc (σ := lineStage op2 cl2 (noteStart author) c!"*/") (q := noteEnd) (lineStage_notes hl _ c!"*/") (noteStart_no ha).2
    ⟨'<', _, rfl, by decide⟩ rfl ho hno
  show replaceAll _ (replaceAll [] (Str.replace ((lineStage op2 cl2 (noteStart author) c!"*/").flat (pairs ps)) _ _)) = _
  rw [r3.replace (by decide)]
  -- languages
  show replaceAll (langReplacements 1 ls) ((lineStage op2 cl2 (noteStart author) noteEnd).flat (pairs ps)) = _
  refine replace_langs hl (lineStage_tags op2_cases cl2_cases (noteStart_no ha).1 (by decide)) ho hno 1 ls (fun _ h => h) rfl rfl ?_ ?_ rfl rfl
  · intro u hu
    show opText ls u = if op2 u = openTag u then langOp 1 ls u else op2 u
    unfold opText op2
    by_cases h1 : u = c!"i"
    · subst h1
      rfl
    · by_cases h2 : u = c!"b"
      · subst h2
        rfl
      · rw [if_neg h1, if_neg h2, if_neg h1, if_neg h2, if_pos rfl]
  · intro u hu
    show spanEnd = if cl2 u = closeTag u then (if u ∈ ls.map (fun l => c!"lang=" ++ l) then spanEnd else closeTag u) else cl2 u
    unfold cl2
    by_cases h1 : u = c!"i"
    · subst h1
      rfl
    · by_cases h2 : u = c!"b"
      · subst h2
        rfl
      · rw [if_neg h1, if_neg h2, if_pos rfl, if_pos]
        simp only [formats, List.mem_cons] at hu
        rcases hu with hu | hu | hu
        · exact absurd hu h1
        · exact absurd hu h2
        · exact hu

end Verif
