/-
The styles a book uses.
-/
import Verif.Spec.Book

namespace Verif
open Spec

/-- The paragraph styles of a book. -/
def bookStyles : List Str :=
  [c!"Title", c!"Subtitle", c!"Heading_20_1", c!"Heading_20_2", c!"Heading_20_4", c!"Text_20_body", c!"First_20_line_20_indent", c!"Quotations"]

/-- The style of a character is one of the two formattings or one of the languages. -/
def StyleKnown (languages : List Str) (s : Str) : Prop := s = c!"Emphasis" ∨ s = c!"Strong_20_Emphasis" ∨ ∃ l ∈ languages, s = languageStyleName (position languages l)

/-- What the passage shows is in known styles. -/
def ShownKnown (languages : List Str) (l : List Shown) : Prop := ∀ c S, Shown.ch c S ∈ l → ∀ s ∈ S, StyleKnown languages s

theorem numberShown_mem (c : Char) (S : List Str) : ∀ (l : List Shown) (k : Nat), Shown.ch c S ∈ numberShown k l → Shown.ch c S ∈ l := by
  intro l
  induction l with
  | nil => intro k h; exact h
  | cons x l ih =>
    intro k h
    cases x with
    | ch d T =>
      rw [numberShown, List.mem_cons] at h
      · rcases h with h | h
        · rw [h]; simp
        · exact List.mem_cons_of_mem _ (ih k h)
      · intro a b d e h; cases h
    | comment a b =>
      rw [numberShown, List.mem_cons] at h
      · rcases h with h | h
        · cases h
        · exact List.mem_cons_of_mem _ (ih k h)
      · intro a b d e h; cases h
    | note a b d e =>
      rw [numberShown, List.mem_cons] at h
      rcases h with h | h
      · cases h
      · exact List.mem_cons_of_mem _ (ih (k + 1) h)

theorem numberNotes_mem {p : Passage} : ∀ (l : List Passage) (k : Nat), p ∈ numberNotes k l → ∃ q ∈ l, q.style = p.style ∧ ∀ c S, Shown.ch c S ∈ p.shown → Shown.ch c S ∈ q.shown := by
  intro l
  induction l with
  | nil => intro k h; cases h
  | cons x l ih =>
    intro k h
    rw [numberNotes, List.mem_cons] at h
    rcases h with rfl | h
    · exact ⟨x, by simp, rfl, fun c S hS => numberShown_mem c S _ _ hS⟩
    · obtain ⟨q, hq, h1, h2⟩ := ih _ h
      exact ⟨q, List.mem_cons_of_mem _ hq, h1, h2⟩

theorem plainShown_known (ls : List Str) (t : Str) : ShownKnown ls (plainShown t) := by
  intro c S h s hs
  unfold plainShown at h
  obtain ⟨d, _, e⟩ := List.mem_map.mp h
  injection e with _ e
  subst e
  cases hs

theorem formatStyle_known {ls : List Str} {t : Str} (h : t ∈ formats ls) : StyleKnown ls (formatStyle ls t) := by
  unfold formatStyle
  by_cases h1 : t = c!"i"
  · rw [if_pos h1]; exact Or.inl rfl
  · rw [if_neg h1]
    by_cases h2 : t = c!"b"
    · rw [if_pos h2]; exact Or.inr (Or.inl rfl)
    · rw [if_neg h2]
      simp only [formats, List.mem_cons, h1, h2, false_or] at h
      obtain ⟨l, hl, rfl⟩ := List.mem_map.mp h
      exact Or.inr (Or.inr ⟨l, hl, rfl⟩)

theorem shownLine_known {ls : List Str} (author : Str) : ∀ (l : List Piece) (st : List Str), (∀ t ∈ st, t ∈ formats ls) → (∀ p ∈ l, p.Ok ls) → ShownKnown ls (shownLine ls author st l) := by
  intro l
  induction l with
  | nil => intro st _ _ c S h; cases h
  | cons p l ih =>
    intro st hst hl c S h s hs
    have hl' : ∀ p ∈ l, p.Ok ls := fun q hq => hl q (List.mem_cons_of_mem _ hq)
    cases p with
    | ch d =>
      rw [shownLine, List.mem_cons] at h
      rcases h with h | h
      · injection h with _ h
        subst h
        obtain ⟨t, ht, rfl⟩ := List.mem_map.mp hs
        exact formatStyle_known (hst t (by simpa using ht))
      · exact ih st hst hl' c S h s hs
    | op t =>
      rw [shownLine] at h
      refine ih _ ?_ hl' c S h s hs
      intro x hx
      rcases List.mem_cons.mp hx with rfl | hx
      · exact hl (Piece.op x) (by simp)
      · exact hst x hx
    | cl t =>
      rw [shownLine] at h
      exact ih _ (fun x hx => hst x (List.mem_of_mem_tail hx)) hl' c S h s hs
    | note t =>
      rw [shownLine, List.mem_cons] at h
      rcases h with h | h
      · unfold shownNote at h
        split at h
        · cases h
        · split at h <;> cases h
      · exact ih st hst hl' c S h s hs
    | nl =>
      rw [shownLine] at h
      exact ih st hst hl' c S h s hs

theorem openAfter_formats {ls : List Str} : ∀ (l : List Piece) (st st' : List Str), (∀ t ∈ st, t ∈ formats ls) → (∀ p ∈ l, p.Ok ls) → openAfter st l = some st' → ∀ t ∈ st', t ∈ formats ls := by
  intro l
  induction l with
  | nil => intro st st' hst _ h; cases h; exact hst
  | cons p l ih =>
    intro st st' hst hl h
    have hl' : ∀ p ∈ l, p.Ok ls := fun q hq => hl q (List.mem_cons_of_mem _ hq)
    cases p with
    | op t =>
      rw [openAfter] at h
      split at h
      · cases h
      · refine ih _ st' ?_ hl' h
        intro x hx
        rcases List.mem_cons.mp hx with rfl | hx
        · exact hl (Piece.op x) (by simp)
        · exact hst x hx
    | cl t =>
      cases st with
      | nil => rw [openAfter] at h; cases h
      | cons u st =>
        rw [openAfter] at h
        split at h
        · exact ih _ st' (fun x hx => hst x (List.mem_cons_of_mem _ hx)) hl' h
        · cases h
    | _ =>
      rw [openAfter] at h
      · exact ih st st' hst hl' h
      all_goals (intros; rename_i e; cases e)

theorem openLeft_formats {ls st : List Str} {l : List Piece} (hst : ∀ t ∈ st, t ∈ formats ls) (hl : ∀ p ∈ l, p.Ok ls) : ∀ t ∈ openLeft st l, t ∈ formats ls := by
  unfold openLeft
  cases h : openAfter st l with
  | none => intro t ht; cases ht
  | some st' => exact openAfter_formats l st st' hst hl h

/-- A passage of a book. -/
def PassageKnown (ls : List Str) (p : Passage) : Prop := p.style ∈ bookStyles ∧ ShownKnown ls p.shown

theorem linesPassages_known {ls : List Str} (author : Str) : ∀ (lines : List (List Piece)) (styles st : List Str), lines.length ≤ styles.length → (∀ s ∈ styles, s ∈ bookStyles) →
    (∀ t ∈ st, t ∈ formats ls) → (∀ l ∈ lines, ∀ p ∈ l, p.Ok ls) → ∀ p ∈ linesPassages ls author styles st lines, PassageKnown ls p := by
  intro lines
  induction lines with
  | nil => intro _ _ _ _ _ _ p h; cases h
  | cons l lines ih =>
    intro styles st hlen hs hst hl p h
    rw [linesPassages, List.mem_cons] at h
    cases styles with
    | nil => simp at hlen
    | cons s styles =>
      rcases h with rfl | h
      · unfold linePassage
        have hok := hl l (by simp)
        split
        · exact ⟨(by show c!"Quotations" ∈ bookStyles; decide), shownLine_known author _ _ (by simp) (fun q hq => hok q (List.mem_of_mem_drop hq))⟩
        · exact ⟨hs s (by simp), shownLine_known author _ _ hst hok⟩
      · refine ih styles _ (by simpa using hlen) (fun x hx => hs x (List.mem_cons_of_mem _ hx)) (openLeft_formats hst (hl l (by simp)))
          (fun x hx => hl x (List.mem_cons_of_mem _ hx)) p h

theorem lineStyles_spec : ∀ (lines : List (List Piece)) (s : Str), s ∈ bookStyles → (lineStyles s lines).length = lines.length ∧ ∀ x ∈ lineStyles s lines, x ∈ bookStyles
  | [], s, _ => ⟨rfl, by intro x h; cases h⟩
  | [_], s, hs => ⟨rfl, by intro x h; rw [lineStyles, List.mem_singleton] at h; rw [h]; exact hs⟩
  | _ :: [] :: m :: r, s, hs => by
    obtain ⟨h1, h2⟩ := lineStyles_spec (m :: r) bodyText (by decide)
    rw [lineStyles]
    refine ⟨by simp [h1], ?_⟩
    intro x hx
    simp only [List.mem_cons] at hx
    rcases hx with rfl | rfl | hx
    · exact hs
    · decide
    · exact h2 x hx
  | _ :: [[]], s, hs => ⟨rfl, by
      intro x h
      have : lineStyles s [‹List Piece›, []] = [s, indented] := rfl
      rw [this] at h
      simp only [List.mem_cons, List.not_mem_nil, or_false] at h
      rcases h with rfl | rfl
      · exact hs
      · decide⟩
  | _ :: (p :: q) :: r, s, hs => by
    obtain ⟨h1, h2⟩ := lineStyles_spec ((p :: q) :: r) indented (by decide)
    rw [lineStyles]
    · refine ⟨by simp [h1], ?_⟩
      intro x hx
      rcases List.mem_cons.mp hx with rfl | hx
      · exact hs
      · exact h2 x hx
    · intro _ _ h; cases h

theorem pieceLines_mem : ∀ (ps : List Piece), ∀ l ∈ pieceLines ps, ∀ p ∈ l, p ∈ ps := by
  intro ps
  induction ps with
  | nil => intro l hl p hp; simp [pieceLines] at hl; subst hl; cases hp
  | cons x ps ih =>
    intro l hl p hp
    by_cases hx : x = .nl
    · subst hx
      rw [pieceLines, List.mem_cons] at hl
      rcases hl with rfl | hl
      · cases hp
      · exact List.mem_cons_of_mem _ (ih l hl p hp)
    · rw [pieceLines] at hl
      · cases e : pieceLines ps with
        | nil =>
          rw [e] at hl
          simp only [List.mem_singleton] at hl
          subst hl
          rw [List.mem_singleton] at hp
          rw [hp]; simp
        | cons m ms =>
          rw [e] at hl ih
          simp only [List.mem_cons] at hl
          rcases hl with rfl | hl
          · rcases List.mem_cons.mp hp with rfl | hp
            · simp
            · exact List.mem_cons_of_mem _ (ih m (by simp) p hp)
          · exact List.mem_cons_of_mem _ (ih l (by simp [hl]) p hp)
      · exact hx

theorem textPassages_known {ls : List Str} (author : Str) {first : Str} (hf : first ∈ bookStyles) {ps : List Piece} (hp : ∀ p ∈ ps, p.Ok ls) :
    ∀ p ∈ textPassages ls author first ps, PassageKnown ls p := by
  obtain ⟨h1, h2⟩ := lineStyles_spec (pieceLines ps) first hf
  exact linesPassages_known author _ _ [] (by omega) h2 (by intro t ht; cases ht) (fun l hl p hq => hp p (pieceLines_mem ps l hl p hq))

theorem scenesPassages_known {n : Novel} {marks : Str → List Piece} : ∀ (l : List (Str × Scene)) (first : Bool), (∀ q ∈ l, ∀ p ∈ marks q.1, p.Ok (n.languages.getD [])) →
    ∀ p ∈ scenesPassages n marks first l, PassageKnown (n.languages.getD []) p := by
  intro l
  induction l with
  | nil => intro _ _ p h; cases h
  | cons q l ih =>
    intro first hl p h
    rw [scenesPassages, List.mem_append] at h
    rcases h with h | h
    · unfold scenePassages at h
      rw [List.mem_append] at h
      rcases h with h | h
      · split at h
        · cases h
        · rw [List.mem_singleton] at h
          rw [h]
          exact ⟨by decide, plainShown_known _ _⟩
      · refine textPassages_known _ ?_ (hl q (by simp)) p h
        split <;> decide
    · exact ih false (fun x hx => hl x (List.mem_cons_of_mem _ hx)) p h

/-- The styles of a book. -/
theorem book_known {n : Novel} {marks : Str → List Piece} (h : ∀ q ∈ exported n n.srtChapters, ∀ p ∈ marks q.1, p.Ok (n.languages.getD [])) :
    ∀ p ∈ book n marks, PassageKnown (n.languages.getD []) p := by
  intro p hp
  unfold book at hp
  obtain ⟨q, hq, h1, h2⟩ := numberNotes_mem _ _ hp
  suffices hk : PassageKnown (n.languages.getD []) q from ⟨h1 ▸ hk.1, fun c S hS => hk.2 c S (h2 c S hS)⟩
  simp only [List.mem_append, List.mem_cons, List.not_mem_nil, or_false] at hq
  rcases hq with (rfl | rfl) | hq
  · exact ⟨(by show c!"Title" ∈ bookStyles; decide), plainShown_known _ _⟩
  · exact ⟨(by show c!"Subtitle" ∈ bookStyles; decide), plainShown_known _ _⟩
  · obtain ⟨id, hid, hq⟩ := List.mem_flatMap.mp hq
    unfold chapterPassages at hq
    cases hch : n.chapters.get? id with
    | none => rw [hch] at hq; cases hq
    | some ch =>
      rw [hch] at hq
      simp only [] at hq
      split at hq
      · rcases List.mem_cons.mp hq with rfl | hq
        · refine ⟨?_, plainShown_known _ _⟩
          simp only []
          split <;> decide
        · refine scenesPassages_known _ _ ?_ q hq
          intro x hx
          refine h x (List.mem_flatMap.mpr ⟨id, hid, ?_⟩)
          rw [hch]
          exact hx
      · cases hq

end Verif
