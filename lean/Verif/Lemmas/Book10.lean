/-
The text of a scene in the exported document (C56).
-/
import Verif.Lemmas.Book9

namespace Verif.Book
open Spec Re

variable {ls : List Str} {author : Option Str}

/-! ### Styles -/

theorem lineStyles_cons {s : Str} {x y : List Piece} {r : List (List Piece)} : lineStyles s (x :: r) = lineStyles s (y :: r) := by
  match r with
  | [] => rfl
  | [m] => cases m <;> rfl
  | [] :: m :: r => rfl
  | (a :: b) :: m :: r => rfl

theorem paras_ne (st : Str) (prs : List (Option Piece)) : ∃ l qs, paras st prs = ⟨st, false, l⟩ :: qs := by
  obtain ⟨l, qs, h, _⟩ := paras_text ([] : List Str) st prs
  exact ⟨l, qs, h⟩

theorem pieceLines_cons {p : Piece} (hp : p ≠ .nl) (ps : List Piece) : ∃ l r, pieceLines ps = l :: r ∧ pieceLines (p :: ps) = (p :: l) :: r := by
  cases h : pieceLines ps with
  | nil => exact absurd h (pieceLines_ne ps)
  | cons l r =>
    refine ⟨l, r, rfl, ?_⟩
    cases p with
    | nl => exact absurd rfl hp
    | _ => unfold pieceLines; rw [h]

/-- The styles of the paragraphs of a text. -/
theorem paras_lineStyles : ∀ (n : Nat) (ps : List Piece), ps.length ≤ n → ∀ st, (paras st (pairs ps)).map Para.style = lineStyles st (pieceLines ps) := by
  intro n
  induction n with
  | zero =>
    intro ps hn st
    cases ps with
    | nil => rfl
    | cons p ps => simp at hn
  | succ n ih =>
    intro ps hn st
    match ps, hn with
    | [], _ => rfl
    | .nl :: .nl :: r, hn =>
      have ih := ih r (by simp at hn; omega) bodyStyle
      have e1 : pairs (.nl :: .nl :: r) = none :: pairs r := rfl
      have e2 : pieceLines (.nl :: .nl :: r) = [] :: [] :: pieceLines r := rfl
      have e3 : paras st (none :: pairs r) = ⟨st, false, []⟩ :: ⟨indStyle, true, []⟩ :: paras bodyStyle (pairs r) := rfl
      rw [e1, e2, e3, List.map_cons, List.map_cons, ih]
      cases h : pieceLines r with
      | nil => exact absurd h (pieceLines_ne r)
      | cons m r' => rfl
    | [.nl], _ => rfl
    | .nl :: p :: r, hn =>
      by_cases hp : p = .nl
      · subst hp
        have ih := ih r (by simp at hn; omega) bodyStyle
        have e1 : pairs (.nl :: .nl :: r) = none :: pairs r := rfl
        have e2 : pieceLines (.nl :: .nl :: r) = [] :: [] :: pieceLines r := rfl
        have e3 : paras st (none :: pairs r) = ⟨st, false, []⟩ :: ⟨indStyle, true, []⟩ :: paras bodyStyle (pairs r) := rfl
        rw [e1, e2, e3, List.map_cons, List.map_cons, ih]
        cases h : pieceLines r with
        | nil => exact absurd h (pieceLines_ne r)
        | cons m r' => rfl
      · have ih := ih (p :: r) (by simp at hn ⊢; omega) indStyle
        have e1 : pairs (.nl :: p :: r) = some .nl :: pairs (p :: r) := by
          cases p with
          | nl => exact absurd rfl hp
          | _ => rfl
        have e3 : paras st (some .nl :: pairs (p :: r)) = ⟨st, false, []⟩ :: paras indStyle (pairs (p :: r)) := rfl
        have e2 : pieceLines (.nl :: p :: r) = [] :: pieceLines (p :: r) := rfl
        rw [e1, e2, e3, List.map_cons, ih]
        obtain ⟨l, r', h1, h2⟩ := pieceLines_cons hp r
        rw [h2]
        show st :: _ = lineStyles st ([] :: (p :: l) :: r')
        cases r' with
        | nil => rfl
        | cons a b => rfl
    | .ch c :: r, hn => exact other ih st (p := .ch c) (by simp) (by simp at hn; omega)
    | .op c :: r, hn => exact other ih st (p := .op c) (by simp) (by simp at hn; omega)
    | .cl c :: r, hn => exact other ih st (p := .cl c) (by simp) (by simp at hn; omega)
    | .note c :: r, hn => exact other ih st (p := .note c) (by simp) (by simp at hn; omega)
where
  other {n : Nat} (ih : ∀ (ps : List Piece), ps.length ≤ n → ∀ st, (paras st (pairs ps)).map Para.style = lineStyles st (pieceLines ps)) (st : Str) {p : Piece} (hp : p ≠ .nl)
      {r : List Piece} (hn : r.length ≤ n) : (paras st (pairs (p :: r))).map Para.style = lineStyles st (pieceLines (p :: r)) := by
    have ih := ih r hn st
    obtain ⟨l, r', h1, h2⟩ := pieceLines_cons hp r
    obtain ⟨l2, qs, h3⟩ := paras_ne st (pairs r)
    have e1 : pairs (p :: r) = some p :: pairs r := by
      cases p with
      | nl => exact absurd rfl hp
      | _ => rfl
    rw [e1, paras_other hp, h3, h2, lineStyles_cons (y := l), ← h1, ← ih, h3]
    rfl

/-! ### The formattings that are open at the beginning of a line -/

theorem shown_ops {au : Str} (st : List Str) (x : List Piece) : ∀ p, shownLine ls au p (st.map Piece.op ++ x) = shownLine ls au (st.reverse ++ p) x := by
  induction st with
  | nil => intro p; rfl
  | cons t st ih =>
    intro p
    show shownLine ls au (t :: p) (st.map Piece.op ++ x) = _
    rw [ih, List.reverse_cons, List.append_assoc]
    rfl

theorem shown_cls {au : Str} (cs : List Str) : ∀ p, shownLine ls au p (cs.map Piece.cl) = [] := by
  induction cs with
  | nil => intro p; cases p <;> rfl
  | cons t cs ih => intro p; exact ih _

theorem shown_ends {au : Str} (l : List Piece) (cs : List Str) : ∀ p, shownLine ls au p (l ++ cs.map Piece.cl) = shownLine ls au p l := by
  induction l with
  | nil => intro p; exact (shown_cls cs p).trans (shown_cls [] p).symm
  | cons x l ih =>
    intro p
    cases x with
    | ch c => exact congrArg (_ :: ·) (ih p)
    | note c => exact congrArg (_ :: ·) (ih p)
    | op t => exact ih _
    | cl t => exact ih _
    | nl => exact ih _

theorem prefix_ends {p l : List Piece} {cs : List Str} (hp : ∀ x ∈ p, ∃ c, x = .ch c) (h : p <+: l ++ cs.map Piece.cl) : p <+: l := by
  rcases List.prefix_or_prefix_of_prefix h (List.prefix_append l _) with h1 | h1
  · exact h1
  · obtain ⟨w, hw⟩ := h1
    rw [← hw] at h ⊢
    cases w with
    | nil => rw [List.append_nil]; exact List.prefix_refl _
    | cons y w =>
      rw [List.prefix_append_right_inj] at h
      obtain ⟨c, hc⟩ := hp y (by rw [← hw]; simp)
      obtain ⟨z, hz⟩ := h
      cases cs with
      | nil => cases hz
      | cons d cs =>
        injection hz with hz _
        rw [hc] at hz
        cases hz

theorem linePassage_spread {au sty : Str} (st : List Str) (l : List Piece) (cs : List Str) :
    linePassage ls au sty [] (st.reverse.map Piece.op ++ l ++ cs.map Piece.cl) = linePassage ls au sty st l := by
  unfold linePassage
  by_cases hst : st = []
  · subst hst
    have e0 : (([] : List Str).reverse.map Piece.op ++ l ++ cs.map Piece.cl) = l ++ cs.map Piece.cl := rfl
    rw [e0]
    by_cases hq : [Piece.ch '>', .ch ' '] <+: l
    · rw [if_pos (c := [] = [] ∧ _) ⟨rfl, hq.trans (List.prefix_append _ _)⟩, if_pos (c := [] = [] ∧ _) ⟨rfl, hq⟩]
      obtain ⟨r, rfl⟩ := hq
      have e1 : ([Piece.ch '>', .ch ' '] ++ r ++ cs.map Piece.cl).drop 2 = r ++ cs.map Piece.cl := rfl
      have e2 : ([Piece.ch '>', .ch ' '] ++ r).drop 2 = r := rfl
      rw [e1, e2, shown_ends]
    · rw [if_neg, if_neg (fun h => hq h.2), shown_ends]
      rintro ⟨_, h⟩
      refine hq (prefix_ends ?_ h)
      intro x hx
      simp only [List.mem_cons, List.not_mem_nil, or_false] at hx
      rcases hx with rfl | rfl
      · exact ⟨_, rfl⟩
      · exact ⟨_, rfl⟩
  · rw [if_neg, if_neg (fun h => hst h.1), List.append_assoc, shown_ops, List.reverse_reverse, List.append_nil, shown_ends]
    rintro ⟨_, h⟩
    obtain ⟨t, r, hr⟩ : ∃ t r, st.reverse = t :: r := by
      cases h : st.reverse with
      | nil => exact absurd (List.reverse_eq_nil_iff.1 h) hst
      | cons t r => exact ⟨t, r, rfl⟩
    rw [hr] at h
    obtain ⟨z, hz⟩ := h
    injection hz with hz _
    cases hz

/-! ### Texts -/

theorem spreadLines_passages {au : Str} (Ls : List (List Piece)) : ∀ (styles : List Str) (st : List Str), styles.length = Ls.length →
    (styles.zip (spreadLines st Ls)).map (fun p => linePassage ls au p.1 [] p.2) = linesPassages ls au styles st Ls := by
  induction Ls with
  | nil => intro styles st h; rw [List.length_eq_zero_iff.1 h]; rfl
  | cons l Ls ih =>
    intro styles st h
    cases styles with
    | nil => cases h
    | cons s styles =>
      have ih := ih styles (openLeft st l) (by simpa using h)
      show linePassage ls au s [] _ :: _ = _
      rw [linePassage_spread]
      exact congrArg (_ :: ·) ih

theorem spread_empty {st : List Str} {l : List Piece} (hst : Few st) (hu : ∀ t, ¬ [Piece.op t, Piece.cl t] <:+: st.reverse.map Piece.op ++ l ++ (openLeft st l).map Piece.cl) :
    (st.reverse.map Piece.op ++ l ++ (openLeft st l).map Piece.cl = []) ↔ l = [] := by
  rcases hst with rfl | ⟨t, rfl⟩
  · constructor
    · intro h
      exact (List.append_eq_nil_iff.1 (List.append_eq_nil_iff.1 h).1).2
    · rintro rfl
      rfl
  · constructor
    · intro h
      cases h
    · rintro rfl
      refine absurd ?_ (hu t)
      exact List.infix_refl _

/-- The styles do not depend on what is written in the lines. -/
theorem lineStyles_congr : ∀ {a b : List (List Piece)} {s : Str}, a.map List.isEmpty = b.map List.isEmpty → lineStyles s a = lineStyles s b := by
  intro a
  induction h : a.length using Nat.strongRecOn generalizing a with
  | ind n ih =>
    intro b s hab
    match a, b, hab with
    | [], [], _ => rfl
    | [_], [_], _ => rfl
    | [x, m], [y, m'], _ => cases m <;> cases m' <;> rfl
    | x :: [] :: m :: r, y :: [] :: m' :: r', hab =>
      simp only [List.map_cons, List.cons.injEq] at hab
      have := ih (r.length + 1) (by rw [← h]; simp) (a := m :: r) (by simp) (b := m' :: r') (s := bodyText) (by simp [hab])
      show s :: indented :: _ = s :: indented :: _
      rw [this]
    | x :: (c :: d) :: m :: r, y :: (c' :: d') :: m' :: r', hab =>
      simp only [List.map_cons, List.cons.injEq] at hab
      have := ih (r.length + 2) (by rw [← h]; simp) (a := (c :: d) :: m :: r) (by simp) (b := (c' :: d') :: m' :: r') (s := indented) (by simp [hab])
      show s :: _ = s :: _
      rw [this]
    | x :: [] :: m :: r, y :: (c' :: d') :: m' :: r', hab => simp at hab
    | x :: (c :: d) :: m :: r, y :: [] :: m' :: r', hab => simp at hab
    | [], _ :: _, hab => simp at hab
    | _ :: _, [], hab => simp at hab
    | [_], _ :: _ :: _, hab => simp at hab
    | _ :: _ :: _, [_], hab => simp at hab
    | [_, _], _ :: _ :: _ :: _, hab => simp at hab
    | _ :: _ :: _ :: _, [_, _], hab => simp at hab

end Verif.Book
