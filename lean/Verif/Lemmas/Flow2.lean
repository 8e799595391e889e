/-
Formattings that reach over line breaks: the text with every formatting begun and ended in its line is properly nested.
-/
import Verif.Lemmas.Flow

namespace Verif
open Spec Re

variable {ls : List Str}

theorem brokenLines_cons (l m : List Piece) (r : List (List Piece)) : brokenLines (l :: m :: r) = l ++ .nl :: brokenLines (m :: r) := rfl

theorem pieceLines_line {l : List Piece} (h : Piece.nl ∉ l) : pieceLines l = [l] := by
  induction l with
  | nil => rfl
  | cons p l ih =>
    obtain ⟨a, b, h1, h2⟩ := pieceLines_cons (p := p) (fun e => h (by simp [e])) l
    rw [ih (fun hm => h (by simp [hm]))] at h1
    cases h1
    exact h2

theorem pieceLines_break {l : List Piece} (h : Piece.nl ∉ l) (r : List Piece) : pieceLines (l ++ .nl :: r) = l :: pieceLines r := by
  induction l with
  | nil => exact pieceLines_nl r
  | cons p l ih =>
    obtain ⟨a, b, h1, h2⟩ := pieceLines_cons (p := p) (fun e => h (by simp [e])) (l ++ .nl :: r)
    rw [ih (fun hm => h (by simp [hm]))] at h1
    cases h1
    exact h2

theorem pieceLines_broken {Ms : List (List Piece)} (hne : Ms ≠ []) (h : ∀ m ∈ Ms, Piece.nl ∉ m) : pieceLines (brokenLines Ms) = Ms := by
  induction Ms with
  | nil => exact absurd rfl hne
  | cons l Ms ih =>
    cases Ms with
    | nil => exact pieceLines_line (h l (by simp))
    | cons m r =>
      rw [brokenLines_cons, pieceLines_break (h l (by simp)), ih (by simp) (fun x hx => h x (by simp [hx]))]

theorem broken_pieceLines (ps : List Piece) : brokenLines (pieceLines ps) = ps := by
  induction ps with
  | nil => rfl
  | cons p ps ih =>
    by_cases hp : p = .nl
    · subst hp
      rw [pieceLines_nl]
      cases hl : pieceLines ps with
      | nil => exact absurd hl (pieceLines_ne ps)
      | cons m r =>
        rw [brokenLines_cons, ← hl, ih]
        rfl
    · obtain ⟨l, r, h1, h2⟩ := pieceLines_cons hp ps
      rw [h2]
      rw [h1] at ih
      cases r with
      | nil => exact congrArg (p :: ·) ih
      | cons m r => exact congrArg (p :: ·) ih

theorem openAfter_append {st st' : List Str} {a : List Piece} (h : openAfter st a = some st') (b : List Piece) : openAfter st (a ++ b) = openAfter st' b := by
  induction a generalizing st with
  | nil =>
    cases h
    rfl
  | cons p a ih =>
    obtain ⟨st1, h1⟩ := openAfter_first h
    rw [List.cons_append, h1]
    rw [h1] at h
    exact ih h

theorem openAfter_ops {st : List Str} (h : Few st) : openAfter [] (st.reverse.map Piece.op) = some st := by
  rcases h with rfl | ⟨t, rfl⟩
  · rfl
  · show openAfter [] [Piece.op t] = some [t]
    simp [openAfter]

theorem openAfter_cls {st : List Str} (h : Few st) : openAfter st (st.map Piece.cl) = some [] := by
  rcases h with rfl | ⟨t, rfl⟩
  · rfl
  · show openAfter [t] [Piece.cl t] = some []
    simp [openAfter]

/-- The lines of the text: each is a line of its own. -/
theorem spread_lines {Ls : List (List Piece)} : ∀ {st : List Str}, Few st → (∀ t ∈ st, t ∈ formats ls) →
    FlowLines st Ls → (∀ l ∈ Ls, (∀ p ∈ l, p.Ok ls) ∧ Neighbours l ∧ Piece.nl ∉ l) →
    (∀ m ∈ spreadLines st Ls, (∀ p ∈ m, p.Ok ls) ∧ Piece.nl ∉ m ∧ openAfter [] m = some []) ∧ Neighbours (brokenLines (spreadLines st Ls)) ∧
    (spreadLines st Ls).length = Ls.length := by
  induction Ls with
  | nil =>
    intro st _ _ _ _
    exact ⟨fun m hm => by simp [spreadLines] at hm, trivial, rfl⟩
  | cons l Ls ih =>
    intro st hs hk hfl ho
    obtain ⟨h1, h2, h3⟩ := ho l (by simp)
    have core : ∀ st', openAfter st l = some st' → Few st' → (st' ≠ [] → l.getLast? ≠ some (.ch '[')) →
        ((∀ p ∈ st.reverse.map Piece.op ++ l ++ st'.map Piece.cl, p.Ok ls) ∧ Piece.nl ∉ st.reverse.map Piece.op ++ l ++ st'.map Piece.cl ∧
          openAfter [] (st.reverse.map Piece.op ++ l ++ st'.map Piece.cl) = some []) ∧ Neighbours (st.reverse.map Piece.op ++ l ++ st'.map Piece.cl) ∧
          (l.getLast? ≠ some (.ch '[') → (st.reverse.map Piece.op ++ l ++ st'.map Piece.cl).getLast? ≠ some (.ch '[')) := by
      intro st' ha hs' hla
      have hk' := openAfter_known ha hk h1
      refine ⟨⟨?_, ?_, ?_⟩, ?_, ?_⟩
      · intro p hp
        simp only [List.mem_append, List.mem_map] at hp
        rcases hp with (⟨t, ht, rfl⟩ | hp) | ⟨t, ht, rfl⟩
        · exact hk t (List.mem_reverse.1 ht)
        · exact h1 p hp
        · exact hk' t ht
      · simp [h3]
      · rw [List.append_assoc, openAfter_append (openAfter_ops hs), openAfter_append ha, openAfter_cls hs']
      · rw [List.append_assoc]
        have hn1 : Neighbours (l ++ st'.map Piece.cl) := by
          rcases hs' with e | ⟨u, e⟩
          · rw [e]; simpa using h2
          · rw [e]
            exact Neighbours.close h2 (hla (by rw [e]; simp))
        rcases hs with e | ⟨u, e⟩
        · rw [e]; exact hn1
        · rw [e]; exact Neighbours.op hn1
      · intro hl
        rcases hs' with e | ⟨u, e⟩
        · rw [e, List.map_nil, List.append_nil]
          rcases hs with e' | ⟨v, e'⟩
          · rw [e']; exact hl
          · rw [e']; exact last_ops v 1 hl
        · rw [e]
          simp
    cases Ls with
    | nil =>
      obtain ⟨c1, c2, _⟩ := core [] hfl (.inl rfl) (fun h => absurd rfl h)
      have e : spreadLines st [l] = [st.reverse.map Piece.op ++ l ++ ([] : List Str).map Piece.cl] := by
        have : openLeft st l = [] := by unfold openLeft; rw [hfl]; rfl
        simp only [spreadLines, this]
      rw [e]
      refine ⟨?_, c2, rfl⟩
      intro m hm
      rw [List.mem_singleton.1 hm]
      exact c1
    | cons m r =>
      obtain ⟨g0, st', g1, g2, g3⟩ := hfl
      have hs' : Few st' := by
        rcases g2 with h | ⟨t, h, _⟩
        · exact .inl h
        · exact .inr ⟨t, h⟩
      obtain ⟨c1, c2, c3⟩ := core st' g1 hs' (fun _ => g0)
      obtain ⟨i1, i2, i3⟩ := ih hs' (openAfter_known g1 hk h1) g3 (fun x hx => ho x (by simp [hx]))
      have e : spreadLines st (l :: m :: r) = (st.reverse.map Piece.op ++ l ++ st'.map Piece.cl) :: spreadLines st' (m :: r) := by
        have : openLeft st l = st' := by unfold openLeft; rw [g1]; rfl
        rw [spreadLines, this]
      rw [e]
      refine ⟨?_, ?_, by rw [List.length_cons, i3]; rfl⟩
      · intro x hx
        rcases List.mem_cons.1 hx with rfl | hx
        · exact c1
        · exact i1 x hx
      · exact Neighbours.joined c2 (c3 g0) i2

/-- The last line stays at the end. -/
theorem spread_ending {Ls : List (List Piece)} : ∀ {st : List Str}, FlowLines st Ls → Ls ≠ [] →
    ∃ a b w, brokenLines Ls = a ++ w ∧ brokenLines (spreadLines st Ls) = b ++ w ∧ (w = [] → a = [] ∨ ∃ a', a = a' ++ [.nl]) ∧ (a = [] → st = [] → b = []) := by
  induction Ls with
  | nil => intro st _ h; exact absurd rfl h
  | cons l Ls ih =>
    intro st hfl _
    cases Ls with
    | nil =>
      have : openLeft st l = [] := by unfold openLeft; rw [show openAfter st l = some [] from hfl]; rfl
      refine ⟨[], st.reverse.map Piece.op, l, rfl, ?_, fun _ => .inl rfl, ?_⟩
      · simp only [spreadLines, this, brokenLines, List.map_nil, List.append_nil]
      · intro _ e; rw [e]; rfl
    | cons m r =>
      obtain ⟨g0, st', g1, g2, g3⟩ := hfl
      obtain ⟨a, b, w, h1, h2, h3, _⟩ := ih g3 (by simp)
      have e : spreadLines st (l :: m :: r) = (st.reverse.map Piece.op ++ l ++ st'.map Piece.cl) :: spreadLines st' (m :: r) := by
        have : openLeft st l = st' := by unfold openLeft; rw [g1]; rfl
        rw [spreadLines, this]
      refine ⟨l ++ .nl :: a, (st.reverse.map Piece.op ++ l ++ st'.map Piece.cl) ++ .nl :: b, w, ?_, ?_, ?_, ?_⟩
      · rw [brokenLines_cons, h1]; simp
      · rw [e]
        have e2 : spreadLines st' (m :: r) = (st'.reverse.map Piece.op ++ m ++ (openLeft st' m).map Piece.cl) :: spreadLines (openLeft st' m) r := rfl
        rw [e2, brokenLines_cons, ← e2, h2]
        simp [List.append_assoc]
      · intro hw
        rcases h3 hw with ha | ⟨a', ha⟩
        · exact .inr ⟨l, by rw [ha]⟩
        · exact .inr ⟨l ++ .nl :: a', by rw [ha]; simp⟩
      · intro ha
        simp at ha

theorem rstrip_fixed {s : Str} : Str.rstrip s = s ↔ ∀ c, s.getLast? = some c → Str.isWs c = false := by
  unfold Str.rstrip
  rw [Str.rstripBy_eq_self_iff]

/-- What is needed of the spread text. -/
theorem spread_nested {ps : List Piece} (h : Flowing ls ps) :
    Nested ls (spreadText ps) ∧ Str.rstrip (rawText (spreadText ps)) = rawText (spreadText ps) ∧ pieceLines (spreadText ps) = spreadLines [] (pieceLines ps) := by
  have hF := flowLines_of h.neighbours h.nested h.breaks
  obtain ⟨s1, s2, s3⟩ := spread_lines (ls := ls) (Ls := pieceLines ps) (st := []) (.inl rfl) (by simp) hF
    (fun l hm => ⟨fun p hp => h.ok p ((pieceLines_infix hm).subset hp), h.neighbours.infix (pieceLines_infix hm), pieceLines_no_nl hm⟩)
  have hne : spreadLines [] (pieceLines ps) ≠ [] := by
    intro e
    rw [e] at s3
    exact pieceLines_ne ps (List.length_eq_zero_iff.1 s3.symm)
  have hp : pieceLines (spreadText ps) = spreadLines [] (pieceLines ps) := pieceLines_broken hne (fun m hm => (s1 m hm).2.1)
  refine ⟨⟨?_, s2, ?_⟩, ?_, hp⟩
  · intro p hm
    by_cases e : p = .nl
    · subst e; trivial
    · have : ∃ l ∈ pieceLines (spreadText ps), p ∈ l := by
        generalize spreadText ps = qs at hm
        induction qs with
        | nil => cases hm
        | cons q qs ih =>
          by_cases hq : q = .nl
          · subst hq
            rw [pieceLines_nl]
            rcases List.mem_cons.1 hm with rfl | hm
            · exact absurd rfl e
            · obtain ⟨l, hl, hpl⟩ := ih hm
              exact ⟨l, by simp [hl], hpl⟩
          · obtain ⟨l, r, e1, e2⟩ := pieceLines_cons hq qs
            rw [e2]
            rcases List.mem_cons.1 hm with rfl | hm
            · exact ⟨p :: l, by simp, by simp⟩
            · obtain ⟨l', hl, hpl⟩ := ih hm
              rw [e1] at hl
              rcases List.mem_cons.1 hl with rfl | hl
              · exact ⟨q :: l', by simp, by simp [hpl]⟩
              · exact ⟨l', by simp [hl], hpl⟩
      obtain ⟨l, hl, hpl⟩ := this
      rw [hp] at hl
      exact (s1 l hl).1 p hpl
  · intro l hl
    rw [hp] at hl
    exact (s1 l hl).2.2
  · obtain ⟨a, b, w, e1, e2, e3, e4⟩ := spread_ending hF (pieceLines_ne ps)
    rw [broken_pieceLines] at e1
    have ht := rstrip_fixed.1 h.tidy
    rw [rstrip_fixed]
    rw [e1, rawText_append] at ht
    show ∀ c, (rawText (brokenLines (spreadLines [] (pieceLines ps)))).getLast? = some c → _
    rw [e2, rawText_append]
    by_cases hw : w = []
    · rcases e3 hw with ha | ⟨a', ha⟩
      · rw [e4 ha rfl, hw]
        intro c hc
        cases hc
      · exfalso
        have := ht '\n' (by rw [hw, ha, rawText_append]; simp [rawText, Piece.raw])
        revert this
        decide
    · intro c hc
      refine ht c ?_
      have hne : rawText w ≠ [] := fun e => hw (rawText_eq_nil e)
      obtain ⟨v, d, hv⟩ : ∃ v d, rawText w = v ++ [d] := ⟨_, _, (List.dropLast_concat_getLast hne).symm⟩
      rw [hv, ← List.append_assoc, List.getLast?_concat] at hc ⊢
      exact hc

end Verif
