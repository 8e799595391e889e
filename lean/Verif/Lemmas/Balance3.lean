/-
Formattings that reach across line breaks: the balanced text.
-/
import Verif.Lemmas.Balance2
import Verif.Lemmas.Ini

namespace Verif
open Spec Re

variable {ls : List Str}

/-! ### All lines -/

theorem balanceLines_pieces (hl : ∀ l ∈ ls, LangCode l) (hf : (formats ls).Nodup) {Ls : List (List Piece)} (o : Str → Bool)
    (h : ∀ l ∈ Ls, LineOk ls l) (hp : ∀ l ∈ Ls, ∀ t ∈ formats ls, NoPair t l) (hm : ∀ t ∈ formats ls, MendableLines t (o t) Ls) :
    ∃ Ms : List (List Piece), balanceLines (formats ls) ((formats ls).map o) (Ls.map rawText) = Ms.map rawText ∧ Ms.length = Ls.length ∧
      ∀ m ∈ Ms, LineOk ls m ∧ spans 0 m = some 0 := by
  induction Ls generalizing o with
  | nil => exact ⟨[], rfl, rfl, fun m hm => by cases hm⟩
  | cons l Ls ih =>
    obtain ⟨e, hk⟩ := balanceLine_pieces hl o hf (fun _ h => h) (h l (by simp)) (hp l (by simp))
    obtain ⟨Ms, e2, hlen, hms⟩ := ih (fun t => openLater t (o t) l) (fun x hx => h x (by simp [hx])) (fun x hx => hp x (by simp [hx])) (fun t ht => (hm t ht).2)
    refine ⟨evenLine o (formats ls) l :: Ms, ?_, by simp [hlen], ?_⟩
    · rw [List.map_cons, balanceLines, e]
      simp only
      rw [e2, List.map_cons]
    · intro m hmm
      rcases List.mem_cons.1 hmm with rfl | hmm
      · exact ⟨hk, spans_even hf hk (evenLine_even o hf (fun t ht => evens_of_mendable (hm t ht).1))⟩
      · exact hms m hmm

/-! ### Joining the lines -/

/-- Lines with line breaks between them. -/
def brokenLines : List (List Piece) → List Piece
  | [] => []
  | [l] => l
  | l :: ls => l ++ .nl :: brokenLines ls

theorem rawText_brokenLines (Ls : List (List Piece)) : rawText (brokenLines Ls) = Str.join c!"\n" (Ls.map rawText) := by
  induction Ls with
  | nil => rfl
  | cons l Ls ih =>
    cases Ls with
    | nil => rfl
    | cons m Ls =>
      show rawText (l ++ .nl :: brokenLines (m :: Ls)) = _
      rw [rawText_append, rawText_cons, ih, show (l :: m :: Ls).map rawText = rawText l :: (m :: Ls).map rawText from rfl]
      show _ = rawText l ++ c!"\n" ++ Str.join c!"\n" ((m :: Ls).map rawText)
      rw [List.append_assoc]
      rfl

theorem spans_append {a w : List Piece} {d : Nat} : spans d (a ++ w) = (spans d a).bind (fun e => spans e w) := by
  fun_induction spans d a with
  | case1 => rfl
  | case2 d t r ih => exact ih
  | case3 t r => rfl
  | case4 d t r hd ih => rw [List.cons_append, spans, if_neg hd]; exact ih
  | case5 r ih => exact ih
  | case6 d r hd => rw [List.cons_append, spans, if_neg hd]; rfl
  | case7 d p r h1 h2 h3 ih =>
    cases p with
    | op t => exact absurd rfl (h1 t)
    | cl t => exact absurd rfl (h2 t)
    | nl => exact absurd rfl h3
    | ch c => exact ih
    | note c => exact ih

theorem spans_append_nl {l r : List Piece} {d : Nat} (h : spans d l = some 0) : spans d (l ++ .nl :: r) = spans 0 r := by
  rw [spans_append, h, Option.bind_some, spans, if_pos rfl]

theorem mayBreak {x : Piece} (hx : x ≠ .ch '[') : mayFollow x .nl = true := by
  cases x with
  | ch c =>
    have hc : c ≠ '[' := fun e => hx (by rw [e])
    unfold mayFollow
    split <;> simp_all
  | _ => rfl

theorem Neighbours.nl {r : List Piece} (h : Neighbours r) : Neighbours (.nl :: r) := by
  cases r with
  | nil => trivial
  | cons p l => exact ⟨rfl, h⟩

theorem Neighbours.joined {l r : List Piece} (h : Neighbours l) (hl : l.getLast? ≠ some (.ch '[')) (hr : Neighbours r) : Neighbours (l ++ .nl :: r) := by
  induction l with
  | nil => exact Neighbours.nl hr
  | cons p l ih =>
    cases l with
    | nil => exact ⟨mayBreak (fun e => hl (by rw [e]; rfl)), Neighbours.nl hr⟩
    | cons q l => exact ⟨h.1, ih h.2 (by rw [List.getLast?_cons_cons] at hl; exact hl)⟩

theorem brokenLines_ok {Ms : List (List Piece)} (h : ∀ m ∈ Ms, LineOk ls m ∧ spans 0 m = some 0) :
    (∀ p ∈ brokenLines Ms, p.Ok ls) ∧ Neighbours (brokenLines Ms) ∧ spans 0 (brokenLines Ms) = some 0 := by
  induction Ms with
  | nil => exact ⟨(fun p hp => by cases hp), trivial, rfl⟩
  | cons l Ms ih =>
    obtain ⟨h1, h2⟩ := h l (by simp)
    cases Ms with
    | nil => exact ⟨h1.ok, h1.neighbours, h2⟩
    | cons m Ms =>
      obtain ⟨i1, i2, i3⟩ := ih (fun x hx => h x (by simp [hx]))
      show (∀ p ∈ l ++ .nl :: brokenLines (m :: Ms), p.Ok ls) ∧ Neighbours (l ++ .nl :: brokenLines (m :: Ms)) ∧ spans 0 (l ++ .nl :: brokenLines (m :: Ms)) = some 0
      refine ⟨?_, Neighbours.joined h1.neighbours h1.last i2, by rw [spans_append_nl h2, i3]⟩
      intro p hp
      rcases List.mem_append.1 hp with hp | hp
      · exact h1.ok p hp
      · rcases List.mem_cons.1 hp with rfl | hp
        · trivial
        · exact i1 p hp

/-! ### Blanks at the end -/

/-- A blank or a line break. -/
def BlankPiece (p : Piece) : Prop := p = .nl ∨ ∃ c, p = .ch c ∧ Str.isWs c = true

theorem raw_last {p : Piece} (h : ¬ BlankPiece p) : ∃ a c, p.raw = a ++ [c] ∧ Str.isWs c = false := by
  cases p with
  | nl => exact absurd (.inl rfl) h
  | ch c =>
    refine ⟨[], c, rfl, ?_⟩
    cases hc : Str.isWs c with
    | false => rfl
    | true => exact absurd (.inr ⟨c, rfl, hc⟩) h
  | op t => exact ⟨'[' :: t, ']', rfl, by decide⟩
  | cl t => exact ⟨'[' :: '/' :: t, ']', rfl, by decide⟩
  | note s => exact ⟨c!"/*" ++ s ++ c!"*", '/', by simp [Piece.raw], by decide⟩

theorem rstrip_pieces (n : Nat) : ∀ qs : List Piece, qs.length = n → ∃ a w, qs = a ++ w ∧ Str.rstrip (rawText qs) = rawText a ∧ ∀ p ∈ w, BlankPiece p := by
  induction n with
  | zero =>
    intro qs h
    rw [List.length_eq_zero_iff.1 h]
    exact ⟨[], [], rfl, rfl, fun p hp => by cases hp⟩
  | succ n ih =>
    intro qs h
    rcases List.eq_nil_or_concat qs with rfl | ⟨qs', p, rfl⟩
    · simp at h
    · rw [List.concat_eq_append] at h ⊢
      by_cases hp : BlankPiece p
      · obtain ⟨a, w, e, hr, hw⟩ := ih qs' (by simpa using h)
        refine ⟨a, w ++ [p], by rw [e, List.append_assoc], ?_, ?_⟩
        · rw [rawText_append, rstrip_append_ws, hr]
          intro c hc
          rcases hp with rfl | ⟨d, rfl, hd⟩
          · simp [rawText, Piece.raw] at hc
            rw [hc]
            decide
          · simp [rawText, Piece.raw] at hc
            rw [hc]
            exact hd
        · intro q hq
          rcases List.mem_append.1 hq with hq | hq
          · exact hw q hq
          · rw [List.mem_singleton.1 hq]; exact hp
      · refine ⟨qs' ++ [p], [], by simp, ?_, fun p hp => by cases hp⟩
        obtain ⟨a, c, e, hc⟩ := raw_last hp
        rw [rawText_append, show rawText [p] = p.raw from by simp [rawText], e, ← List.append_assoc]
        unfold Str.rstrip
        rw [Str.rstripBy_append_single, hc]
        rfl

theorem spans_blank {w : List Piece} (h : ∀ p ∈ w, BlankPiece p) {d : Nat} (hd : spans d w = some 0) : d = 0 := by
  induction w with
  | nil => simpa [spans] using hd
  | cons p w ih =>
    rcases h p (by simp) with rfl | ⟨c, rfl, _⟩
    · unfold spans at hd
      split at hd
      · assumption
      · cases hd
    · unfold spans at hd
      exact ih (fun q hq => h q (by simp [hq])) hd

theorem line_last {ps : List Piece} (hn : Neighbours ps) (he : ps.getLast? ≠ some (.ch '[')) : ∀ l ∈ pieceLines ps, l.getLast? ≠ some (.ch '[') := by
  induction ps with
  | nil =>
    intro l hl
    simp only [pieceLines, List.mem_singleton] at hl
    rw [hl]
    simp
  | cons p r ih =>
    have hr : r.getLast? ≠ some (.ch '[') := by
      cases r with
      | nil => simp
      | cons q r => rw [List.getLast?_cons_cons] at he; exact he
    have ih := ih (Neighbours.tail hn) hr
    by_cases hp : p = .nl
    · subst hp
      rw [pieceLines_nl]
      intro l hl
      rcases List.mem_cons.1 hl with rfl | hl
      · simp
      · exact ih l hl
    · obtain ⟨l0, L, e1, e2⟩ := pieceLines_cons hp r
      rw [e2]
      rw [e1] at ih
      intro l hl
      rcases List.mem_cons.1 hl with rfl | hl
      · cases l0 with
        | cons x l0 => rw [List.getLast?_cons_cons]; exact ih _ (by simp)
        | nil =>
          intro e
          have e : p = .ch '[' := by simpa using e
          subst e
          cases r with
          | nil => exact he rfl
          | cons q r =>
            by_cases hq : q = .nl
            · subst hq
              exact absurd hn.1 (by simp [mayFollow])
            · obtain ⟨l1, L1, e3, e4⟩ := pieceLines_cons hq r
              rw [e4] at e1
              injection e1 with e1
              cases e1
      · exact ih l (by simp [hl])

/-- The balanced text. -/
theorem balanceText_pieces (hl : ∀ l ∈ ls, LangCode l) (hf : (formats ls).Nodup) {ps : List Piece} (h : Mendables ls ps) :
    ∃ qs, balanceText (markupTags ls) (rawText ps) = rawText qs ∧ (∀ p ∈ qs, p.Ok ls) ∧ Neighbours qs ∧ spans 0 qs = some 0 := by
  have hlines : ∀ l ∈ pieceLines ps, LineOk ls l := by
    intro l hm
    have hi := pieceLines_infix hm
    refine ⟨fun p hp => h.ok p (hi.subset hp), Neighbours.infix h.neighbours hi, pieceLines_no_nl hm, ?_, fun hg => h.plain (hg.trans hi)⟩
    exact line_last h.neighbours h.ending l hm
  have hpairs : ∀ l ∈ pieceLines ps, ∀ t ∈ formats ls, NoPair t l := fun l hm t ht hp => h.used t ht (hp.trans (pieceLines_infix hm))
  obtain ⟨Ms, e, hlen, hms⟩ := balanceLines_pieces hl hf (fun _ => false) hlines hpairs h.lines
  obtain ⟨h1, h2, h3⟩ := brokenLines_ok hms
  obtain ⟨a, w, ea, er, hw⟩ := rstrip_pieces _ (brokenLines Ms) rfl
  refine ⟨a, ?_, ?_, ?_, ?_⟩
  · unfold balanceText
    rw [show markupTags ls = formats ls from rfl, rawText_split hl h.ok, e, ← rawText_brokenLines, er]
  · intro p hp
    exact h1 p (by rw [ea]; simp [hp])
  · rw [ea] at h2
    exact Neighbours.append_left h2
  · rw [ea, spans_append] at h3
    cases hs : spans 0 a with
    | none => rw [hs] at h3; cases h3
    | some d => rw [hs] at h3; rw [spans_blank hw h3]

end Verif
