/-
Titles, headings and scenes of a proof reading document.
-/
import Verif.Lemmas.Proof3
import Verif.Lemmas.ReadAll

namespace Verif.Proof
open Spec Re Template

variable {ls : List Str} {author : Option Str} {r0 : Rd}

/-! ### Titles -/

theorem raw_chars (t : Str) : rawText (t.map Piece.ch) = t := by
  induction t with
  | nil => rfl
  | cons c t ih => rw [List.map_cons, rawText_cons, ih]; rfl

theorem pairs_chars (t : Str) : pairs (t.map Piece.ch) = t.map (fun c => some (Piece.ch c)) := by
  induction t with
  | nil => rfl
  | cons c t ih =>
    rw [List.map_cons, List.map_cons, ← ih]
    cases t <;> rfl

theorem flat_chars (σ : Stage) (t : Str) : σ.flat (t.map (fun c => some (Piece.ch c))) = t.flatMap escChar := by
  induction t with
  | nil => rfl
  | cons c t ih => rw [List.map_cons, flat_cons, ih, List.flatMap_cons]; rfl

theorem open_chars (t : Str) : openAfter [] (t.map Piece.ch) = some [] := by
  induction t with
  | nil => rfl
  | cons c t ih => exact ih

theorem neighbours_chars {t : Str} (h : PlainTitle t) : Neighbours (t.map Piece.ch) := by
  obtain ⟨h0, h1, h2, h3⟩ := h
  clear h0 h3
  induction t with
  | nil => trivial
  | cons x t ih =>
    cases t with
    | nil => trivial
    | cons y t =>
      refine ⟨?_, ih (fun c hc k => h1 c hc (k.trans (List.suffix_cons _ _).isInfix)) ⟨fun k => h2.1 (k.trans (List.suffix_cons _ _).isInfix), fun k => h2.2 (k.trans (List.suffix_cons _ _).isInfix)⟩⟩
      have k : [x, y] <:+: x :: y :: t := ⟨[], t, rfl⟩
      show mayFollow (.ch x) (.ch y) = true
      unfold mayFollow
      split
      · rename_i c e1 e2
        have e1 := Piece.ch.inj e1
        have e2 := Piece.ch.inj e2
        subst e1 e2
        rw [Bool.not_eq_true', decide_eq_false_iff_not]
        exact fun hc => h1 _ hc k
      · rename_i e1 e2
        exact absurd rfl (e2 y)
      · rename_i e1 e2
        have e1 := Piece.ch.inj e1
        have e2 := Piece.ch.inj e2
        subst e1 e2
        exact absurd k h2.1
      · rename_i e1 e2
        have e1 := Piece.ch.inj e1
        have e2 := Piece.ch.inj e2
        subst e1 e2
        exact absurd k h2.2
      · rename_i e1 _; cases e1
      · rename_i e1 _; cases e1
      · rfl

theorem _root_.Verif.Spec.PlainTitle.prefix {s t : Str} (h : PlainTitle t) (hs : s <+: t) : PlainTitle s :=
  ⟨fun c hc => h.legal c (hs.subset hc), fun c hc k => h.plain c hc (k.trans hs.isInfix), ⟨fun k => h.noted.1 (k.trans hs.isInfix), fun k => h.noted.2 (k.trans hs.isInfix)⟩,
    fun k => h.unmarked (k.trans hs.isInfix)⟩

theorem _root_.Verif.Spec.PlainTitle.noMark {t : Str} (h : PlainTitle t) : NoMark t :=
  ⟨h.unmarked, fun k => h.plain '/' (by decide) (List.IsInfix.trans ⟨[], c!"ScID", rfl⟩ k)⟩

theorem _root_.Verif.Spec.PlainTitle.carriable {t : Str} (h : PlainTitle t) : Carriable t := fun c hc => ⟨(h.legal c hc).1, (h.legal c hc).2.2⟩

/-- The conversion of a title. -/
theorem convert_title {n : Novel} (hls : n.languages.getD [] = ls) (hL : ∀ l ∈ ls, LangCode l) (hA : AuthorOk n.authorName) {o : Option Str} (ho : ∀ t, o = some t → PlainTitle t) (q : Bool) :
    ∃ t', proofConvert n o q = t'.flatMap escChar ∧ PlainTitle t' := by
  have hnil : PlainTitle [] :=
    ⟨fun c h => (by cases h), fun c _ k => (by simpa using k.length_le), ⟨fun k => (by simpa using k.length_le), fun k => (by simpa using k.length_le)⟩, fun k => (by simpa using k.length_le)⟩
  match o, ho with
  | none, _ => exact ⟨[], rfl, hnil⟩
  | some [], _ => exact ⟨[], rfl, hnil⟩
  | some (c :: t), ho =>
    have ht := ho _ rfl
    generalize hw : c :: t = w at ht
    have e0 : proofConvert n (some w) q = Re.sub layoutTag [] (replaceAll (xmlReplacements ++ proofReplacements n.authorName ls) (balanceText (markupTags ls) w)) := by
      rw [← hw, ← hls]; rfl
    have hok : ∀ (s : Str), PlainTitle s → ∀ p ∈ s.map Piece.ch, p.Ok ls := by
      intro s hs p hp
      obtain ⟨c, hc, rfl⟩ := List.mem_map.1 hp
      exact hs.legal c hc
    have hN : Nested ls (w.map Piece.ch) := by
      refine ⟨hok w ht, neighbours_chars ht, ?_⟩
      rw [pieceLines_line (fun h => by obtain ⟨c, _, e⟩ := List.mem_map.1 h; cases e)]
      intro l hl
      rw [List.mem_singleton.1 hl]
      exact open_chars w
    have hb := balanceText_id hL hN (by
      intro t ht' k
      rw [raw_chars] at k
      have k2 : c!"[" ++ t <:+: w := by
        refine List.IsInfix.trans ?_ k
        exact ⟨[], c!"]" ++ (Piece.cl t).raw, by simp [Piece.raw]⟩
      have : ∃ c u, c ∈ c!"ibl/h|crsu" ∧ t = c :: u := by
        unfold formats at ht'
        rcases List.mem_cons.1 ht' with rfl | h
        · exact ⟨'i', [], by decide, rfl⟩
        rcases List.mem_cons.1 h with rfl | h
        · exact ⟨'b', [], by decide, rfl⟩
        obtain ⟨l, _, rfl⟩ := List.mem_map.1 h
        exact ⟨'l', c!"ang=" ++ l, by decide, rfl⟩
      obtain ⟨c, u, hc, rfl⟩ := this
      exact ht.plain c hc (List.IsInfix.trans ⟨[], u, rfl⟩ k2))
    rw [raw_chars] at hb
    obtain ⟨w', hw'⟩ : ∃ w', w' = Str.rstrip w := ⟨_, rfl⟩
    have hp : w' <+: w := by rw [hw']; obtain ⟨u, hu, _⟩ := Str.rstripBy_prefix Str.isWs w; exact ⟨u, hu.symm⟩
    have ht' := ht.prefix hp
    refine ⟨w', ?_, ht'⟩
    rw [e0, hb, ← hw']
    have := convert_layout hL hA (hok w' ht') (neighbours_chars ht')
    rw [raw_chars] at this
    rw [this, pairs_chars, flat_chars]

theorem author_plain (h : AuthorOk author) : ∀ t, author = some t → PlainTitle t := by
  rintro t rfl
  have h : ∀ c ∈ t, xmlLegal c = true ∧ c ∉ c!"<>&[*\r\n" := h
  have no : ∀ c, c ∈ c!"<>&[*\r\n" → c ∉ t := fun c h1 h2 => (h c h2).2 h1
  refine ⟨fun c hc => ⟨(h c hc).1, ?_, ?_⟩, fun c _ k => no '[' (by decide) (k.subset (by simp)), ⟨fun k => no '*' (by decide) (k.subset (by simp)), fun k => no '*' (by decide) (k.subset (by simp))⟩,
    fun k => no '[' (by decide) (k.subset (by simp))⟩
  · rintro rfl; exact no _ (by decide) hc
  · rintro rfl; exact no _ (by decide) hc

end Verif.Proof
