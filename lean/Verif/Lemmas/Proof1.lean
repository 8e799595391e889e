/-
The conversion of a text for the proof reading document.
-/
import Verif.Model.OdtProof
import Verif.Lemmas.ReadScene

namespace Verif.Proof
open Spec Re

variable {ls : List Str} {author : Option Str}

/-- The line breaks replaced. -/
theorem convert_lines (hl : ∀ l ∈ ls, LangCode l) {ps : List Piece} (h : ∀ p ∈ ps, p.Ok ls) :
    Str.replace (Str.replace (Str.replace (stage0.flat (pairs ps)) c!"\n\n" nl2Text) c!"\n" nlText) c!"\r" c!"\n" =
      (lineStage openTag closeTag c!"/*" c!"*/").flat (pairs ps) := by
  have ho : ∀ p, some p ∈ pairs ps → p.Ok ls := fun p hp => h p (mem_pairs hp)
  obtain ⟨k1, r1⟩ := rep_nl2 hl h
  have r1 : Rep c!"\n\n" nl2Text (stage0.flat (pairs ps)) (stage1.flat (pairs ps)) k1 := r1
  rw [r1.replace (by decide)]
  -- line breaks
  have hchars : ∀ d : Char, (d = '\n' ∨ d = '\r') → ∀ p, some p ∈ pairs ps → ∀ c ∈ (match p with | .ch c => [c] | .note s => s | _ => []), c ≠ d := by
    intro d hd p hp c hc
    have hp := ho p hp
    cases p with
    | ch e =>
      simp only [List.mem_singleton] at hc
      subst hc
      rcases hd with rfl | rfl
      · exact hp.2.1
      · exact hp.2.2
    | note s =>
      rcases hd with rfl | rfl
      · exact (hp.1 c hc).2.1
      · exact (hp.1 c hc).2.2.1
    | _ => cases hc
  rw [replace_char nlText (by decide) _ (hchars '\n' (.inl rfl)), replace_char c!"\n" (by decide) _ (hchars '\r' (.inr rfl))]
  have e1 : (Stage.map (Stage.map stage1 fun s => Str.replace s ['\n'] nlText) fun s => Str.replace s ['\r'] c!"\n").flat (pairs ps) =
      (lineStage openTag closeTag c!"/*" c!"*/").flat (pairs ps) := by
    apply flat_congr
    intro p hp
    have keep : ∀ s : Str, '\n' ∉ s → '\r' ∉ s → Str.replace (Str.replace s ['\n'] nlText) ['\r'] c!"\n" = s := by
      intro s h1 h2
      have hid : ∀ (d : Char) (q s : Str), d ∉ s → Str.replace s [d] q = s := by
        intro d q s hs
        rw [replace_single]
        induction s with
        | nil => rfl
        | cons c s ih =>
          rw [List.flatMap_cons, if_neg (fun e => hs (by simp [e])), ih]
          · rfl
          · exact fun h => hs (by simp [h])
      rw [hid _ _ _ h1, hid _ _ _ h2]
    match p with
    | none => rw [map2_none]; exact nl2_done
    | some (.ch c) => rw [out_ch, out_ch]
    | some .nl => rw [map2_nl]; exact nl_done
    | some (.note s) =>
      have k1 := keep c!"/*" (by decide) (by decide)
      have k2 := keep c!"*/" (by decide) (by decide)
      rw [map2_note]
      show Str.replace (Str.replace c!"/*" ['\n'] nlText) ['\r'] c!"\n" ++ _ ++ Str.replace (Str.replace c!"*/" ['\n'] nlText) ['\r'] c!"\n" = c!"/*" ++ _ ++ c!"*/"
      rw [k1, k2]
    | some (.op t) =>
      exact keep _ (tag_no_nl hl (ho _ hp) (d := '\n') rfl (by decide) (by decide) (by decide) (by decide) (by decide)).1
        (tag_no_nl hl (ho _ hp) (d := '\r') rfl (by decide) (by decide) (by decide) (by decide) (by decide)).1
    | some (.cl t) =>
      exact keep _ (tag_no_nl hl (ho _ hp) (d := '\n') rfl (by decide) (by decide) (by decide) (by decide) (by decide)).2
        (tag_no_nl hl (ho _ hp) (d := '\r') rfl (by decide) (by decide) (by decide) (by decide) (by decide)).2
  exact e1

/-- The beginning of a formatting. -/
def opText (ls : List Str) (t : Str) : Str :=
  if t = c!"i" then langSpan (ls.length + 1) else if t = c!"b" then langSpan (ls.length + 2) else langOp 1 ls t

/-- The finished text. -/
def finalStage (author : Option Str) (ls : List Str) : Stage := ⟨nlOut, nl2Out, opText ls, fun _ => spanEnd, noteStart author, noteEnd⟩

/-- The marks of emphasis are still there when the comments are replaced. -/
theorem notes_stage (hl : ∀ l ∈ ls, LangCode l) (no nc : Str) : NoteStage (ls := ls) (lineStage openTag cl2 no nc) := by
  have k := lineStage_notes hl no nc
  refine ⟨⟨k.star.1, k.star.2.1, ?_⟩, ?_, ?_⟩
  · rintro p ⟨t, rfl | rfl⟩ hp
    · exact (tag_no_nl hl hp (d := '*') rfl (by decide) (by decide) (by decide) (by decide) (by decide)).1
    · exact k.star.2.2 _ ⟨t, .inr rfl⟩ hp
  · intro p hp h1 h2
    match p with
    | none => exact k.head none hp h1 h2
    | some .nl => exact k.head _ hp h1 h2
    | some (.ch c) => exact absurd rfl (h1 c)
    | some (.note s) => exact absurd rfl (h2 s)
    | some (.op t) => exact ⟨'[', _, rfl, by decide, by decide⟩
    | some (.cl t) => exact k.head _ hp h1 h2
  · intro p hp h1 h2
    match p with
    | none => exact k.last none hp h1 h2
    | some .nl => exact k.last _ hp h1 h2
    | some (.ch c) => exact absurd rfl (h1 c)
    | some (.note s) => exact absurd rfl (h2 s)
    | some (.op t) => show (openTag t).getLast? ≠ _; rw [openTag_getLast]; decide
    | some (.cl t) => exact k.last _ hp h1 h2

theorem langOp_cases (i : Nat) (rs : List Str) (t : Str) : langOp i rs t = openTag t ∨ '[' ∉ langOp i rs t := by
  induction rs generalizing i with
  | nil => exact .inl rfl
  | cons l r ih =>
    unfold langOp
    split
    · exact .inr (langSpan_no i)
    · exact ih (i + 1)

theorem langOp_other (i : Nat) (rs : List Str) {t : Str} (h : ∀ l : Str, t ≠ c!"lang=" ++ l) : langOp i rs t = openTag t := by
  induction rs generalizing i with
  | nil => rfl
  | cons l r ih =>
    unfold langOp
    rw [if_neg (h l)]
    exact ih (i + 1)

/-- With the italic style. -/
def op3 (ls : List Str) (t : Str) : Str := if t = c!"i" then langSpan (ls.length + 1) else langOp 1 ls t

theorem op3_cases (t : Str) : op3 ls t = openTag t ∨ '[' ∉ op3 ls t := by
  unfold op3
  split
  · exact .inr (langSpan_no _)
  · exact langOp_cases 1 ls t

/-- All replacements. -/
theorem convert_pieces (hl : ∀ l ∈ ls, LangCode l) (ha : AuthorOk author) {ps : List Piece} (h : ∀ p ∈ ps, p.Ok ls) (hn : Neighbours ps) :
    replaceAll (xmlReplacements ++ proofReplacements author ls) (rawText ps) = (finalStage author ls).flat (pairs ps) := by
  have ho : ∀ p, some p ∈ pairs ps → p.Ok ls := fun p hp => h p (mem_pairs hp)
  have hno := neighO_pairs hn
  have hi : c!"i" ∈ formats ls := by simp [formats]
  have hb : c!"b" ∈ formats ls := by simp [formats]
  rw [replaceAll_append, replaceAll_xml, stage0_flat hl h]
  unfold proofReplacements
  rw [replaceAll_append, replaceAll_append]
  show replaceAll [(openTag c!"i", langSpan (ls.length + 1)), (openTag c!"b", langSpan (ls.length + 2))] (replaceAll (langReplacements 1 ls)
    (replaceAll ((c!"\n\n", nl2Text) :: (c!"\n", nlText) :: (c!"\r", c!"\n") ::
      (closeTag c!"i", spanEnd) :: (closeTag c!"b", spanEnd) :: (c!"/*", noteStart author) :: (c!"*/", noteEnd) :: []) _)) = _
  simp only [replaceAll_cons]
  rw [convert_lines hl h]
  have nc1 : ∀ u, cl1 u = if u = c!"i" ∧ closeTag u = closeTag u then spanEnd else closeTag u := by
    intro u
    unfold cl1
    simp only [and_true]
  have nc2 : ∀ u, cl2 u = if u = c!"b" ∧ cl1 u = closeTag u then spanEnd else cl1 u := by
    intro u
    unfold cl1 cl2
    by_cases h1 : u = c!"i"
    · rw [if_pos h1, if_pos h1, if_neg]
      rintro ⟨h2, _⟩
      rw [h1] at h2
      exact absurd h2 (by decide)
    · rw [if_neg h1, if_neg h1]
      simp only [and_true]
  rw [replace_close (τ := lineStage openTag cl1 c!"/*" c!"*/") hl (lineStage_tags (fun _ => .inl rfl) (fun _ => .inl rfl) (by decide) (by decide)) hi
      spanEnd ho hno rfl rfl (fun _ _ => rfl) (fun u _ => nc1 u) rfl rfl,
    replace_close (τ := lineStage openTag cl2 c!"/*" c!"*/") hl (lineStage_tags (fun _ => .inl rfl) cl1_cases (by decide) (by decide)) hb
      spanEnd ho hno rfl rfl (fun _ _ => rfl) (fun u _ => nc2 u) rfl rfl]
  obtain ⟨k2, r2⟩ := rep_no (q := noteStart author) (notes_stage hl c!"/*" c!"*/") rfl rfl ho hno
  rw [r2.replace (by decide)]
  obtain ⟨k3, r3⟩ := rep_nc (σ := lineStage openTag cl2 (noteStart author) c!"*/") (q := noteEnd) (notes_stage hl _ c!"*/") (noteStart_no ha).2
    ⟨'<', _, rfl, by decide⟩ rfl ho hno
  show replaceAll [] (Str.replace (Str.replace (replaceAll (langReplacements 1 ls) (replaceAll []
    (Str.replace ((lineStage openTag cl2 (noteStart author) c!"*/").flat (pairs ps)) _ _))) _ _) _ _) = _
  rw [r3.replace (by decide)]
  have e1 : replaceAll (langReplacements 1 ls) ((lineStage openTag cl2 (noteStart author) noteEnd).flat (pairs ps)) =
      (lineStage (langOp 1 ls) (fun _ => spanEnd) (noteStart author) noteEnd).flat (pairs ps) := by
    refine replace_langs hl (lineStage_tags (fun _ => .inl rfl) cl2_cases (noteStart_no ha).1 (by decide)) ho hno 1 ls (fun _ h => h) rfl rfl ?_ ?_ rfl rfl
    · intro u hu
      show langOp 1 ls u = if openTag u = openTag u then langOp 1 ls u else openTag u
      rw [if_pos rfl]
    · intro u hu
      show spanEnd = if cl2 u = closeTag u then (if u ∈ ls.map (fun l => c!"lang=" ++ l) then spanEnd else closeTag u) else cl2 u
      unfold cl2
      by_cases h1 : u = c!"i"
      · subst h1
        rfl
      · by_cases h2 : u = c!"b"
        · subst h2
          rfl
        · rw [if_neg h1, if_neg h2, if_pos rfl, if_pos]
          simp only [formats, List.mem_cons] at hu
          rcases hu with hu | hu | hu
          · exact absurd hu h1
          · exact absurd hu h2
          · exact hu
  show replaceAll [] (Str.replace (Str.replace (replaceAll (langReplacements 1 ls) ((lineStage openTag cl2 (noteStart author) noteEnd).flat (pairs ps))) _ _) _ _) = _
  rw [e1]
  have hi' : langOp 1 ls c!"i" = openTag c!"i" := langOp_other 1 ls (fun l => by simp)
  have hb' : langOp 1 ls c!"b" = openTag c!"b" := langOp_other 1 ls (fun l => by simp)
  rw [replace_open (τ := lineStage (op3 ls) (fun _ => spanEnd) (noteStart author) noteEnd) hl
      (lineStage_tags (langOp_cases 1 ls) (fun _ => .inr (by decide)) (noteStart_no ha).1 (by decide)) hi _ ho hno rfl rfl ?_ (fun _ _ => rfl) rfl rfl,
    replace_open (τ := finalStage author ls) hl
      (lineStage_tags op3_cases (fun _ => .inr (by decide)) (noteStart_no ha).1 (by decide)) hb _ ho hno rfl rfl ?_ (fun _ _ => rfl) rfl rfl]
  · rfl
  · intro u _
    show opText ls u = if u = c!"b" ∧ op3 ls u = openTag u then langSpan (ls.length + 2) else op3 ls u
    unfold opText op3
    by_cases h1 : u = c!"i"
    · rw [if_pos h1, if_pos h1, if_neg]
      rintro ⟨h2, _⟩
      rw [h1] at h2
      exact absurd h2 (by decide)
    · by_cases h2 : u = c!"b"
      · subst h2
        rw [if_neg h1, if_pos rfl, if_neg h1, if_pos ⟨rfl, hb'⟩]
      · rw [if_neg h1, if_neg h2, if_neg h1, if_neg (fun h => h2 h.1)]
  · intro u _
    show op3 ls u = if u = c!"i" ∧ langOp 1 ls u = openTag u then langSpan (ls.length + 1) else langOp 1 ls u
    unfold op3
    by_cases h1 : u = c!"i"
    · subst h1
      rw [if_pos rfl, if_pos ⟨rfl, hi'⟩]
    · rw [if_neg h1, if_neg (fun h => h1 h.1)]

theorem opText_no {t : Str} (ht : t ∈ formats ls) : '[' ∉ opText ls t := by
  unfold opText
  split
  · exact langSpan_no _
  · rename_i h1
    split
    · exact langSpan_no _
    · rename_i h2
      have := Verif.opText_no (ls := ls) ht
      unfold Verif.opText at this
      rw [if_neg h1, if_neg h2] at this
      exact this

theorem convert_layout (hl : ∀ l ∈ ls, LangCode l) (ha : AuthorOk author) {ps : List Piece} (h : ∀ p ∈ ps, p.Ok ls) (hn : Neighbours ps) :
    sub layoutTag [] (replaceAll (xmlReplacements ++ proofReplacements author ls) (rawText ps)) = (finalStage author ls).flat (pairs ps) := by
  rw [convert_pieces hl ha h hn]
  have ho : ∀ p, some p ∈ pairs ps → p.Ok ls := fun p hp => h p (mem_pairs hp)
  exact layout_id (ls := ls) (by decide : '[' ∉ nlOut) (by decide : '[' ∉ nl2Out) (noteStart_no ha).1 (by decide : '[' ∉ noteEnd)
    (fun t ht => opText_no (ho _ ht)) (fun t ht => (by decide : '[' ∉ spanEnd)) ho (neighO_pairs hn) _

/-- The conversion of a text. -/
theorem convert_flow {n : Novel} (hls : n.languages.getD [] = ls) (hl : ∀ l ∈ ls, LangCode l) (hd : (formats ls).Nodup) (ha : AuthorOk n.authorName)
    {ps : List Piece} (h : Flowing ls ps) (q : Bool) :
    proofConvert n (some (rawText ps)) q = (finalStage n.authorName ls).flat (pairs (spreadText ps)) := by
  obtain ⟨hN, ht, _⟩ := spread_nested h
  have := convert_layout hl ha hN.ok hN.neighbours
  by_cases e : rawText ps = []
  · rw [e, rawText_eq_nil e, show spreadText [] = [] from rfl]
    rfl
  · unfold proofConvert
    split
    · rename_i e; cases e
    · rename_i e'; exact absurd (Option.some.inj e') e
    · rename_i t _ e'
      have e' := Option.some.inj e'
      subst e'
      rw [hls, balanceText_flow hl hd h, ht]
      exact this

end Verif.Proof
