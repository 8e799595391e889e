/-
The balancing of formattings keeps the letters.
-/
import Verif.Lemmas.Balance3
import Verif.Spec.NotesWritable

namespace Verif
open Spec Re

variable {ls : List Str}

theorem unformatted_append (a b : List Piece) : unformatted (a ++ b) = unformatted a ++ unformatted b := List.filter_append ..

theorem unformatted_ops (t : Str) (k : Nat) : unformatted (List.replicate k (.op t)) = [] := by
  unfold unformatted
  rw [List.filter_eq_nil_iff]
  intro p hp
  rw [List.eq_of_mem_replicate hp]
  exact Bool.false_ne_true

theorem unformatted_cls (t : Str) (k : Nat) : unformatted (List.replicate k (.cl t)) = [] := by
  unfold unformatted
  rw [List.filter_eq_nil_iff]
  intro p hp
  rw [List.eq_of_mem_replicate hp]
  exact Bool.false_ne_true

theorem unformatted_op (t : Str) (l : List Piece) : unformatted (.op t :: l) = unformatted l := rfl
theorem unformatted_cl (t : Str) (l : List Piece) : unformatted (.cl t :: l) = unformatted l := rfl

theorem unformatted_dropPairs (t : Str) (l : List Piece) : unformatted (dropPairs t l) = unformatted l := by
  fun_induction dropPairs t l with
  | case1 => rfl
  | case2 u v r h ih => exact ih
  | case3 u v r h ih =>
    show unformatted ([Piece.op u, .cl v] ++ dropPairs t r) = unformatted ([Piece.op u, .cl v] ++ r)
    rw [unformatted_append, unformatted_append, ih]
  | case4 p r h ih =>
    show unformatted ([p] ++ dropPairs t r) = unformatted ([p] ++ r)
    rw [unformatted_append, unformatted_append, ih]

theorem unformatted_step (t : Str) (o : Bool) (l : List Piece) : unformatted (stepLine t o l) = unformatted l := by
  unfold stepLine
  rw [unformatted_dropPairs, unformatted_append, unformatted_append, unformatted_ops, unformatted_cls, List.nil_append, List.append_nil]

theorem unformatted_even (o : Str → Bool) (ts : List Str) (l : List Piece) : unformatted (evenLine o ts l) = unformatted l := by
  unfold evenLine
  induction ts generalizing l with
  | nil => rfl
  | cons t ts ih => rw [List.foldl_cons, ih, unformatted_step]

theorem balanceLines_letters (hl : ∀ l ∈ ls, LangCode l) (hf : (formats ls).Nodup) {Ls : List (List Piece)} (o : Str → Bool)
    (h : ∀ l ∈ Ls, LineOk ls l) (hp : ∀ l ∈ Ls, ∀ t ∈ formats ls, NoPair t l) (hm : ∀ t ∈ formats ls, MendableLines t (o t) Ls) :
    ∃ Ms : List (List Piece), balanceLines (formats ls) ((formats ls).map o) (Ls.map rawText) = Ms.map rawText ∧ Ms.map unformatted = Ls.map unformatted ∧
      ∀ m ∈ Ms, LineOk ls m ∧ spans 0 m = some 0 := by
  induction Ls generalizing o with
  | nil => exact ⟨[], rfl, rfl, fun m hm => by cases hm⟩
  | cons l Ls ih =>
    obtain ⟨e, hk⟩ := balanceLine_pieces hl o hf (fun _ h => h) (h l (by simp)) (hp l (by simp))
    obtain ⟨Ms, e2, hlet, hms⟩ := ih (fun t => openLater t (o t) l) (fun x hx => h x (by simp [hx])) (fun x hx => hp x (by simp [hx])) (fun t ht => (hm t ht).2)
    refine ⟨evenLine o (formats ls) l :: Ms, ?_, by rw [List.map_cons, List.map_cons, unformatted_even, hlet], ?_⟩
    · rw [List.map_cons, balanceLines, e]
      simp only
      rw [e2, List.map_cons]
    · intro m hmm
      rcases List.mem_cons.1 hmm with rfl | hmm
      · exact ⟨hk, spans_even hf hk (evenLine_even o hf (fun t ht => evens_of_mendable (hm t ht).1))⟩
      · exact hms m hmm

theorem unformatted_broken (Ls : List (List Piece)) : unformatted (brokenLines Ls) = brokenLines (Ls.map unformatted) := by
  induction Ls with
  | nil => rfl
  | cons l Ls ih =>
    cases Ls with
    | nil => rfl
    | cons m Ls =>
      show unformatted (l ++ .nl :: brokenLines (m :: Ls)) = unformatted l ++ .nl :: brokenLines ((m :: Ls).map unformatted)
      rw [unformatted_append, ← ih]
      rfl

theorem brokenLines_pieces (ps : List Piece) : brokenLines (pieceLines ps) = ps := by
  induction ps with
  | nil => rfl
  | cons p ps ih =>
    by_cases hp : p = .nl
    · subst hp
      rw [pieceLines_nl]
      cases h : pieceLines ps with
      | nil => exact absurd h (pieceLines_ne ps)
      | cons a b =>
        rw [h] at ih
        show [] ++ .nl :: brokenLines (a :: b) = _
        rw [ih]
        rfl
    · obtain ⟨l, r, e1, e2⟩ := pieceLines_cons hp ps
      rw [e2]
      rw [e1] at ih
      cases r with
      | nil => exact congrArg (p :: ·) ih
      | cons a b => exact congrArg (p :: ·) ih

/-- The balanced text and its letters. -/
theorem balanceText_letters (hl : ∀ l ∈ ls, LangCode l) (hf : (formats ls).Nodup) {ps : List Piece} (h : Mendables ls ps) :
    ∃ qs, balanceText (markupTags ls) (rawText ps) = rawText qs ∧ (∀ p ∈ qs, p.Ok ls) ∧ Neighbours qs ∧ spans 0 qs = some 0 ∧ ∃ w, unformatted ps = unformatted qs ++ w ∧ ∀ x ∈ w, BlankPiece x := by
  have hlines : ∀ l ∈ pieceLines ps, LineOk ls l := by
    intro l hm
    have hi := pieceLines_infix hm
    refine ⟨fun p hp => h.ok p (hi.subset hp), Neighbours.infix h.neighbours hi, pieceLines_no_nl hm, ?_, fun hg => h.plain (hg.trans hi)⟩
    exact line_last h.neighbours h.ending l hm
  have hpairs : ∀ l ∈ pieceLines ps, ∀ t ∈ formats ls, NoPair t l := fun l hm t ht hp => h.used t ht (hp.trans (pieceLines_infix hm))
  obtain ⟨Ms, e, hlet, hms⟩ := balanceLines_letters hl hf (fun _ => false) hlines hpairs h.lines
  obtain ⟨h1, h2, h3⟩ := brokenLines_ok hms
  obtain ⟨a, w, ea, er, hw⟩ := rstrip_pieces _ (brokenLines Ms) rfl
  refine ⟨a, ?_, ?_, ?_, ?_, ?_⟩
  · unfold balanceText
    rw [show markupTags ls = formats ls from rfl, rawText_split hl h.ok, e, ← rawText_brokenLines, er]
  · intro p hp
    exact h1 p (by rw [ea]; simp [hp])
  · rw [ea] at h2
    exact Neighbours.append_left h2
  · rw [ea, spans_append] at h3
    cases hs : spans 0 a with
    | none => rw [hs] at h3; cases h3
    | some d => rw [hs] at h3; rw [spans_blank hw h3]
  · have e1 : unformatted (brokenLines Ms) = unformatted ps := by
      rw [unformatted_broken, hlet, ← unformatted_broken, brokenLines_pieces]
    refine ⟨w, ?_, hw⟩
    rw [← e1, ea, unformatted_append]
    congr 1
    unfold unformatted
    refine List.filter_eq_self.2 ?_
    intro x hx
    rcases hw x hx with rfl | ⟨c, rfl, _⟩ <;> rfl

end Verif
