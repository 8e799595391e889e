/-
The conversion of a formatted text for a document: no layout marks are left to remove; a text whose formattings end in their lines is left
alone by the balancing.
-/
import Verif.Lemmas.Markup4

namespace Verif
open Spec Re

variable {ls : List Str}

/-! ### Layout marks -/

theorem layout_skip (b : Bool) (a s : Str) (ha : '[' ∉ a) : ∃ b', subGo layoutTag [] b 0 (a ++ s) = a ++ subGo layoutTag [] b' 0 s := by
  induction a generalizing b with
  | nil => exact ⟨b, rfl⟩
  | cons c a ih =>
    obtain ⟨b', h⟩ := ih (c = '\n') (fun h => ha (by simp [h]))
    refine ⟨b', ?_⟩
    have hm : layoutTag b (c :: (a ++ s)) = none := by
      unfold layoutTag
      split
      · rename_i e
        injection e with e _
        exact absurd (by simp [e]) ha
      · rfl
    rw [List.cons_append, List.cons_append, ← h]
    simp only [subGo, hm]

theorem layout_bracket (b : Bool) {s : Str} (h : ∀ c r, s = c :: r → c ∉ c!"/h|crsu") : layoutTag b ('[' :: s) = none := by
  cases s with
  | nil => rfl
  | cons c r =>
    have hc := h c r rfl
    have h1 : c ≠ '/' := by rintro rfl; exact hc (by decide)
    have h2 : c ∉ c!"h|crsu" := fun hm => hc (by simp only [List.mem_cons] at hm ⊢; exact .inr hm)
    unfold layoutTag
    simp only [List.dropWhile, h1, decide_false]
    rw [if_neg h2]

theorem layout_id {σ : Stage} (h1 : '[' ∉ σ.nl) (h2 : '[' ∉ σ.nl2) (h3 : '[' ∉ σ.no) (h4 : '[' ∉ σ.nc) {ps : List (Option Piece)}
    (h5 : ∀ t, some (.op t) ∈ ps → '[' ∉ σ.op t) (h6 : ∀ t, some (.cl t) ∈ ps → '[' ∉ σ.cl t)
    (ho : ∀ p, some p ∈ ps → p.Ok ls) (hn : NeighO ps) (b : Bool) : subGo layoutTag [] b 0 (σ.flat ps) = σ.flat ps := by
  induction ps generalizing b with
  | nil => rfl
  | cons p ps ih =>
    have ih := fun b => ih (fun t ht => h5 t (by simp [ht])) (fun t ht => h6 t (by simp [ht])) (fun p hp => ho p (by simp [hp])) hn.tail b
    rw [flat_cons]
    have skip : '[' ∉ σ.out p → subGo layoutTag [] b 0 (σ.out p ++ σ.flat ps) = σ.out p ++ σ.flat ps := by
      intro hp
      obtain ⟨b', e⟩ := layout_skip b (σ.out p) (σ.flat ps) hp
      rw [e, ih]
    match p with
    | none => exact skip h2
    | some .nl => exact skip h1
    | some (.op t) => exact skip (h5 t (by simp))
    | some (.cl t) => exact skip (h6 t (by simp))
    | some (.note s) =>
      refine skip ?_
      show '[' ∉ σ.no ++ s.flatMap escChar ++ σ.nc
      simp only [List.mem_append, not_or]
      refine ⟨⟨h3, not_mem_escs (by decide) ?_⟩, h4⟩
      intro hm
      exact ((ho (.note s) (by simp)).1 _ hm).2.2.2.1 rfl
    | some (.ch c) =>
      by_cases hc : c = '['
      · subst hc
        show subGo layoutTag [] b 0 ('[' :: σ.flat ps) = '[' :: σ.flat ps
        have hm : layoutTag b ('[' :: σ.flat ps) = none := by
          apply layout_bracket
          intro c r e
          cases ps with
          | nil => cases e
          | cons q ps =>
            obtain ⟨d, hd, hd2⟩ := follow_bracket hn.1
            obtain ⟨x, y, e2, hx⟩ := escChar_head d
            have : q = some (.ch d) := by
              cases q with
              | none => cases hd
              | some q => exact congrArg some hd
            subst this
            rw [flat_cons, out_ch, e2, List.cons_append] at e
            have e : x = c := by injection e
            subst e
            rcases hx with rfl | rfl
            · intro hm
              apply hd2
              simp only [List.mem_cons] at hm ⊢
              rcases hm with h | h
              · exact .inr (.inr (.inr (.inl h)))
              · exact .inr (.inr (.inr (.inr h)))
            · decide
        simp only [subGo, hm, ih]
      · exact skip (not_mem_esc (by decide) (Ne.symm (Ne.symm hc)))

theorem langSpan_no (i : Nat) : '[' ∉ langSpan i := by
  unfold langSpan
  simp only [List.mem_append, not_or]
  refine ⟨⟨by decide, ?_⟩, by decide⟩
  intro hm
  have := Str.isDigit_of_mem_ofNat hm
  revert this; decide

theorem langOp_eq (i : Nat) {rs : List Str} {l : Str} (h : l ∈ rs) : ∃ j, i ≤ j ∧ j < i + rs.length ∧ langOp i rs (c!"lang=" ++ l) = langSpan j ∧ rs[j - i]? = some l := by
  induction rs generalizing i with
  | nil => cases h
  | cons m rs ih =>
    unfold langOp
    by_cases e : c!"lang=" ++ l = c!"lang=" ++ m
    · refine ⟨i, Nat.le_refl _, by simp, by rw [if_pos e], ?_⟩
      have : l = m := List.append_cancel_left e
      simp [this]
    · rw [if_neg e]
      have : l ∈ rs := by
        rcases List.mem_cons.1 h with rfl | h
        · exact absurd rfl e
        · exact h
      obtain ⟨j, h1, h2, h3, h4⟩ := ih (i + 1) this
      refine ⟨j, by omega, by simp; omega, h3, ?_⟩
      rw [show j - i = (j - (i + 1)) + 1 by omega, List.getElem?_cons_succ]
      exact h4

theorem opText_no {t : Str} (ht : t ∈ formats ls) : '[' ∉ opText ls t := by
  unfold opText
  split
  · decide
  split
  · decide
  simp only [formats, List.mem_cons, List.mem_map] at ht
  rcases ht with h | h | ⟨l, hm, rfl⟩
  · exact absurd h ‹_›
  · exact absurd h ‹_›
  · obtain ⟨j, _, _, e, _⟩ := langOp_eq 1 hm
    rw [e]
    exact langSpan_no j

/-- The conversion of the text without the balancing. -/
theorem convert_layout (hl : ∀ l ∈ ls, LangCode l) {author : Option Str} (ha : AuthorOk author) {ps : List Piece} (h : ∀ p ∈ ps, p.Ok ls)
    (hn : Neighbours ps) :
    sub layoutTag [] (replaceAll (xmlReplacements ++ (spanReplacements ++ commentReplacements author) ++ langReplacements 1 ls) (rawText ps)) =
      (finalStage author ls).flat (pairs ps) := by
  rw [convert_pieces hl ha h hn]
  have ho : ∀ p, some p ∈ pairs ps → p.Ok ls := fun p hp => h p (mem_pairs hp)
  exact layout_id (ls := ls) (by decide : '[' ∉ nlOut) (by decide : '[' ∉ nl2Out) (noteStart_no ha).1 (by decide : '[' ∉ noteEnd)
    (fun t ht => opText_no (ho _ ht)) (fun t ht => (by decide : '[' ∉ spanEnd)) ho (neighO_pairs hn) _

end Verif
