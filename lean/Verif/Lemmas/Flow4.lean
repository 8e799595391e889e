/-
Formattings over line breaks (C43, C48): texts in normal form, and conditions that can be computed.
-/
import Verif.Lemmas.Flow3

namespace Verif
open Spec

variable {ls : List Str}

theorem openAfter_nl (st : List Str) (r : List Piece) : openAfter st (.nl :: r) = openAfter st r := by
  cases st <;> rfl

theorem lines_open {ps : List Piece} (h : ∀ l ∈ pieceLines ps, openAfter [] l = some []) : openAfter [] ps = some [] := by
  rw [← broken_pieceLines ps]
  revert h
  generalize pieceLines ps = Ls
  intro h
  induction Ls with
  | nil => rfl
  | cons m Ls ih =>
    cases Ls with
    | nil => exact h m (by simp)
    | cons m' r =>
      rw [brokenLines_cons, openAfter_append (h m (by simp)), openAfter_nl]
      exact ih (fun l hl => h l (by simp [hl]))

theorem pieceLines_before (a b : List Piece) : ∃ r, pieceLines (a ++ .nl :: b) = pieceLines a ++ r := by
  induction a with
  | nil => exact ⟨pieceLines b, rfl⟩
  | cons p a ih =>
    obtain ⟨r, e⟩ := ih
    refine ⟨r, ?_⟩
    cases hp : pieceLines a with
    | nil => exact absurd hp (pieceLines_ne a)
    | cons l Ls =>
      rw [hp] at e
      cases p with
      | nl => simp only [List.cons_append, pieceLines, hp, e]
      | _ => simp only [List.cons_append, pieceLines, hp, e]

theorem spreadLines_closed {Ls : List (List Piece)} (h : ∀ l ∈ Ls, openAfter [] l = some []) : spreadLines [] Ls = Ls := by
  induction Ls with
  | nil => rfl
  | cons l Ls ih =>
    have e : openLeft [] l = [] := by unfold openLeft; rw [h l (by simp)]; rfl
    have e2 : spreadLines [] (l :: Ls) = (([] : List Str).reverse.map Piece.op ++ l ++ (openLeft [] l).map Piece.cl) :: spreadLines (openLeft [] l) Ls := rfl
    rw [e2, e, ih (fun m hm => h m (by simp [hm]))]
    simp

/-- Texts in normal form, in which every formatting ends in the line in which it begins, can be carried. -/
theorem Normal.flowing {ps : List Piece} (h : Normal ls ps) : Flowing ls ps := by
  have hs := spreadLines_closed h.lines
  have raw2 : ∀ x y : Piece, rawText [x, y] = x.raw ++ y.raw := by intro x y; simp [rawText]
  refine ⟨h.ok, h.neighbours, lines_open h.lines, ?_, ?_, ?_, ?_, h.tidy⟩
  · intro a b e
    left
    obtain ⟨r, e2⟩ := pieceLines_before a b
    have : openAfter [] a = some [] := lines_open (fun l hl => h.lines l (by rw [e, e2]; simp [hl]))
    unfold openLeft
    rw [this]
    rfl
  · rw [hs]
    intro l hl t hi
    have hi2 := hi.trans (pieceLines_infix hl)
    have ht : t ∈ formats ls := h.ok (.op t) (hi2.subset (by simp))
    have := rawText_infix hi2
    rw [raw2] at this
    exact h.used t ht this
  · intro t
    refine ⟨?_, ?_, ?_⟩
    · intro hi
      have ht : t ∈ formats ls := h.ok (.op t) (hi.subset (by simp))
      have := rawText_infix hi
      rw [raw2] at this
      exact (h.joined t ht).1 this
    · intro hi
      have ht : t ∈ formats ls := h.ok (.op t) (hi.subset (by simp))
      have := rawText_infix hi
      exact (h.joined t ht).2.1 (by simpa [rawText, Piece.raw] using this)
    · intro hi
      have ht : t ∈ formats ls := h.ok (.op t) (hi.subset (by simp))
      have := rawText_infix hi
      exact (h.joined t ht).2.2 (by simpa [rawText, Piece.raw] using this)
  · rw [hs]
    exact h.runs

/-- The formatting of a mark. -/
def Piece.tag : Piece → Str
  | .op t => t
  | .cl t => t
  | _ => []

/-- A condition that can be computed. -/
def flows (ps : List Piece) : Bool :=
  decide (openAfter [] ps = some []) &&
  (List.range ps.length).all (fun k => decide (ps[k]? ≠ some .nl) || decide (openLeft [] (ps.take k) = []) ||
    (decide ((openLeft [] (ps.take k)).length = 1) && !((c!"&gt; ").map Piece.ch).isPrefixOf (ps.drop (k + 1)))) &&
  (spreadLines [] (pieceLines ps)).all (fun l => l.all (fun p => decide (¬ [Piece.op (Piece.tag p), .cl (Piece.tag p)] <:+: l))) &&
  ps.all (fun p => decide (¬ [Piece.cl (Piece.tag p), .op (Piece.tag p)] <:+: ps ∧ ¬ [Piece.cl (Piece.tag p), .nl, .op (Piece.tag p)] <:+: ps ∧
    ¬ [Piece.cl (Piece.tag p), .nl, .ch '>', .ch ' ', .op (Piece.tag p)] <:+: ps)) &&
  (spreadLines [] (pieceLines ps)).all (fun l => (textRuns [] (unquoted l)).all (fun s => decide (s = []) || s.any (fun c => !Str.isWs c)))

theorem flowing_of {ps : List Piece} (ho : ∀ p ∈ ps, p.Ok ls) (hn : Neighbours ps) (ht : Str.rstrip (rawText ps) = rawText ps) (h : flows ps = true) : Flowing ls ps := by
  simp only [flows, Bool.and_eq_true, decide_eq_true_eq, List.all_eq_true] at h
  obtain ⟨⟨⟨⟨h1, h2⟩, h3⟩, h4⟩, h5⟩ := h
  refine ⟨ho, hn, h1, ?_, ?_, ?_, ?_, ht⟩
  · intro a b e
    have := h2 a.length (by rw [List.mem_range, e]; simp)
    have e1 : ps[a.length]? = some .nl := by rw [e]; simp
    have e2 : ps.take a.length = a := by rw [e]; simp
    have e3 : ps.drop (a.length + 1) = b := by rw [e]; simp
    rw [e1, e2, e3] at this
    simp only [ne_eq, not_true_eq_false, decide_false, Bool.false_or, Bool.or_eq_true, decide_eq_true_eq, Bool.and_eq_true] at this
    rcases this with h | ⟨h, h'⟩
    · exact .inl h
    · obtain ⟨t, et⟩ := List.length_eq_one_iff.1 h
      refine .inr ⟨t, et, ?_⟩
      intro hp
      rw [← List.isPrefixOf_iff_prefix] at hp
      rw [hp] at h'
      cases h'
  · intro l hl t hi
    have := h3 l hl (.op t) (hi.subset (by simp))
    exact this hi
  · intro t
    refine ⟨fun hi => ?_, fun hi => ?_, fun hi => ?_⟩
    · exact (h4 (.op t) (hi.subset (by simp))).1 hi
    · exact (h4 (.op t) (hi.subset (by simp))).2.1 hi
    · exact (h4 (.op t) (hi.subset (by simp))).2.2 hi
  · intro l hl s hs
    have := h5 l hl s hs
    simp only [Bool.or_eq_true, decide_eq_true_eq, List.any_eq_true] at this
    rcases this with h | ⟨c, hc, h⟩
    · exact .inl h
    · exact .inr ⟨c, hc, by simpa using h⟩

end Verif
