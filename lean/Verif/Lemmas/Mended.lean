/-
Texts of scenes that have to be mended (C56, C31).
-/
import Verif.Lemmas.Letters
import Verif.Lemmas.Nest
import Verif.Lemmas.Book15

namespace Verif.Book
open Spec Re Template

variable {ls : List Str} {author : Option Str}

theorem blank_of {x : Piece} (h : BlankPiece x) : Blank x := by
  rcases h with rfl | ⟨c, rfl, hc⟩
  · trivial
  · exact hc

theorem rawText_nil {ps : List Piece} (h : rawText ps = []) : ps = [] := by
  cases ps with
  | nil => rfl
  | cons p ps =>
    have h : p.raw ++ rawText ps = [] := h
    rw [List.append_eq_nil_iff] at h
    cases p <;> cases h.1

/-- A line that closes its spans leaves no formatting open. -/
theorem open_none {l : List Piece} (hn : Piece.nl ∉ l) (h : spans 0 l = some 0) : openLeft [] l = [] := by
  unfold openLeft
  cases e : openAfter [] l with
  | none => rfl
  | some r =>
    have := spans_of_open (st := []) hn e
    rw [List.length_nil, h] at this
    exact List.length_eq_zero_iff.1 (Option.some.inj this).symm

/-- No formatting is open at the beginning of a line. -/
theorem linesPassages_closed {au : Str} {Ls : List (List Piece)} (h : ∀ l ∈ Ls, openLeft [] l = []) {styles : List Str} (hs : styles.length = Ls.length) :
    linesPassages ls au styles [] Ls = (styles.zip Ls).map (fun p => linePassage ls au p.1 [] p.2) := by
  induction Ls generalizing styles with
  | nil => rw [List.length_eq_zero_iff.1 hs]; rfl
  | cons l Ls ih =>
    cases styles with
    | nil => cases hs
    | cons s styles =>
      rw [linesPassages, h l (by simp), List.tail_cons, ih (fun x hx => h x (by simp [hx])) (by simpa using hs)]
      rfl

/-- Letters in the running text. -/
theorem chars_unformatted {w : Str} {l : List Piece} (h : w.map Piece.ch <:+: l) : w.map Piece.ch <:+: unformatted l := by
  obtain ⟨a, b, rfl⟩ := h
  rw [unformatted_append, unformatted_append]
  refine ⟨unformatted a, unformatted b, ?_⟩
  congr 2
  unfold unformatted
  refine (List.filter_eq_self.2 ?_).symm
  intro x hx
  obtain ⟨c, _, rfl⟩ := List.mem_map.1 hx
  rfl

theorem letters_unbroken {w : Str} {ps l : List Piece} (h : ¬ w <:+: rawText (unformatted ps)) (hl : unformatted l <:+: unformatted ps) : Unbroken w l := by
  constructor
  · intro hx
    have h3 := rawText_infix ((chars_unformatted hx).trans hl)
    rw [rawText_chars] at h3
    exact h h3
  · intro s hs hx
    have hs : Piece.note s ∈ unformatted l := List.mem_filter.2 ⟨hs, rfl⟩
    obtain ⟨x, y, e⟩ := List.append_of_mem hs
    refine h (hx.trans (List.IsInfix.trans ?_ (rawText_infix hl)))
    rw [e]
    refine ⟨rawText x ++ c!"/*", c!"*/" ++ rawText y, ?_⟩
    unfold rawText
    rw [List.flatMap_append, List.flatMap_cons]
    simp only [Piece.raw, List.append_assoc]

theorem unformatted_infix {a b : List Piece} (h : a <:+: b) : unformatted a <:+: unformatted b := by
  obtain ⟨x, y, rfl⟩ := h
  rw [unformatted_append, unformatted_append]
  exact ⟨_, _, rfl⟩

/-- The conversion of a text that can be mended. -/
theorem convert_mended {n : Novel} (hls : n.languages.getD [] = ls) (hl : ∀ l ∈ ls, LangCode l) (hd : (formats ls).Nodup)
    {content : Option Str} {ps : List Piece} (h : MendedText ls content ps) :
    ∃ qs, odtExportConvert n content false = (rawStage ls).flat (pairs qs) ∧ (∀ l ∈ pieceLines qs, LineFits ls l) ∧ Mended ps qs := by
  obtain ⟨qs, e, h1, h2, h3, w, h4, h5⟩ := balanceText_letters hl hd h.mendable
  have key := convert_layout hl h1 h2
  have e0 : removeInlineCode content = rawText ps := by
    rw [← h.text]
    cases content with
    | none => rfl
    | some t => exact removeInlineCode_id h.code
  have hfit : ∀ l ∈ pieceLines qs, LineFits ls l := by
    intro l hm
    have hi := pieceLines_infix hm
    have hu := (unformatted_infix hi).trans (List.prefix_append (unformatted qs) w).isInfix
    rw [← h4] at hu
    exact {
      ok := fun x hx => h1 x (hi.subset hx)
      line := pieceLines_no_nl hm
      neighbours := Neighbours.infix h2 hi
      nested := spans_line h3 l hm
      n := letters_unbroken h.breaks.1 hu
      r := letters_unbroken h.breaks.2 hu }
  by_cases e1 : rawText ps = []
  · have eps := rawText_nil e1
    subst eps
    refine ⟨[], ?_, ?_, ⟨[], rfl, by simp⟩, fun l hm => by rw [List.mem_singleton.1 hm]; rfl⟩
    · unfold odtExportConvert
      rw [if_neg (by decide), e0, hls, e1]
      rfl
    · intro l hm
      rw [List.mem_singleton.1 hm]
      exact ⟨by simp, by simp, trivial, rfl, ⟨by decide, by simp⟩, ⟨by decide, by simp⟩⟩
  · refine ⟨qs, ?_, hfit, ⟨w, h4, fun x hx => blank_of (h5 x hx)⟩, fun l hm => open_none (hfit l hm).line (hfit l hm).nested⟩
    unfold odtExportConvert
    rw [if_neg (by decide), e0, hls]
    unfold formattedConvert
    split
    · rename_i e; cases e
    · rename_i e'; exact absurd (Option.some.inj e') e1
    · rename_i t _ e'
      have e' := Option.some.inj e'
      subst e'
      rw [if_neg (by decide), e]
      exact key

/-- The text of a scene. -/
theorem text_mended {n : Novel} (hl : ∀ l ∈ n.languages.getD [], LangCode l) (hd : (formats (n.languages.getD [])).Nodup) (ha : AuthorOk n.authorName) (hA : '@' ∉ pyStr n.authorName)
    {content : Option Str} {ps : List Piece} (h : MendedText (n.languages.getD []) content ps) : ∃ qs, TextShown n content qs ∧ Mended ps qs ∧
      ∀ x ∈ qs, x.Ok (n.languages.getD []) := by
  obtain ⟨qs0, e0, hL, hm⟩ := convert_mended rfl hl hd h
  refine ⟨qs0, ?_, hm, fun x hx => ?_⟩
  rotate_left
  · by_cases hnl : x = .nl
    · subst hnl; trivial
    · obtain ⟨l, h1, h2⟩ := pieceLines_cover hx hnl
      exact (hL l h1).ok x h2
  intro st hst
  generalize n.languages.getD [] = ls at *
  rw [e0]
  obtain ⟨l, qs, e1, e2⟩ := paras_text ls st (pairs qs0)
  rw [List.append_assoc, e2]
  have hst' := paras_styles hst (pairs qs0)
  have hfit : ∀ q ∈ paras st (pairs qs0), Piec n.authorName (paraText ls q) [linePassage ls (pyStr n.authorName) q.style [] q.line] := by
    intro q hq
    refine Piec.para ha hA (hst' q hq).1 (hst' q hq).2 (hL _ ?_)
    rw [← paras_lines st]
    exact List.mem_map_of_mem hq
  have e3 : pOpen st ++ (lineOut ls l ++ pEnd ++ qs.flatMap (fun q => '\n' :: paraText ls q)) = paraText ls ⟨st, false, l⟩ ++ qs.flatMap (fun q => '\n' :: paraText ls q) := by
    rw [← List.append_assoc, ← List.append_assoc]
    rfl
  rw [e3]
  have e4 : textPassages ls (pyStr n.authorName) st qs0 = (paras st (pairs qs0)).flatMap (fun q => [linePassage ls (pyStr n.authorName) q.style [] q.line]) := by
    unfold textPassages
    rw [linesPassages_closed hm.lines (by rw [← paras_lineStyles _ qs0 (Nat.le_refl _), ← paras_lines st, List.length_map, List.length_map]), ← paras_lineStyles _ qs0 (Nat.le_refl _), ← paras_lines st, ← zip_paras, List.map_map, flatMap_single]
    rfl
  rw [e4, e1, List.flatMap_cons]
  refine (hfit _ (by rw [e1]; simp)).append ?_
  refine Piec.flat ?_
  intro q hq
  have := (Piec.blank (author := n.authorName) (s := c!"\n") (by decide) (by decide) (by decide) (by decide) (by decide) (by decide)).append (hfit q (by rw [e1]; simp [hq]))
  exact this

theorem exported_get {n : Novel} {ids : List Str} {p : Str × Scene} (h : p ∈ exported n ids) : n.scenes.get? p.1 = some p.2 := by
  unfold exported at h
  rw [List.mem_flatMap] at h
  obtain ⟨id, _, h⟩ := h
  cases hc : n.chapters.get? id with
  | none => rw [hc] at h; cases h
  | some ch => rw [hc] at h; exact exportedIn_mem h

/-- The texts of the exported scenes. -/
theorem texts_mended {n : Novel} {marks : Str → List Piece} (hw : ExportWritable n marks) :
    ∃ marks' : Str → List Piece, ∀ p ∈ exported n n.srtChapters, TextShown n p.2.sceneContent (marks' p.1) ∧ Mended (marks p.1) (marks' p.1) ∧
      ∀ x ∈ marks' p.1, x.Ok (n.languages.getD []) := by
  have hd := formats_nodup hw.distinct
  have key : ∀ id : Str, ∃ qs, ∀ s, (id, s) ∈ exported n n.srtChapters → TextShown n s.sceneContent qs ∧ Mended (marks id) qs ∧
      ∀ x ∈ qs, x.Ok (n.languages.getD []) := by
    intro id
    by_cases h : ∃ s, (id, s) ∈ exported n n.srtChapters
    · obtain ⟨s, hs⟩ := h
      obtain ⟨qs, h1, h2, h3⟩ := text_mended hw.languages hd hw.author.1 hw.author.2 (hw.texts _ hs)
      refine ⟨qs, ?_⟩
      intro s' hs'
      have e : s' = s := by
        have g1 := exported_get hs
        have g2 := exported_get hs'
        rw [g1] at g2
        exact (Option.some.inj g2).symm
      rw [e]
      exact ⟨h1, h2, h3⟩
    · exact ⟨[], fun s hs => absurd ⟨s, hs⟩ h⟩
  exact ⟨fun id => Classical.choose (key id), fun p hp => Classical.choose_spec (key p.1) p.2 hp⟩

end Verif.Book
