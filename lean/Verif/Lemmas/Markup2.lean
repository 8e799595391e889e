/-
The replacement of the formatting marks and of the comments.
-/
import Verif.Lemmas.Markup

namespace Verif
open Spec

variable {ls : List Str}

/-- Neighbours, with double line breaks. -/
def NeighO : List (Option Piece) → Prop
  | x :: y :: r => mayFollow (x.getD .nl) (y.getD .nl) = true ∧ NeighO (y :: r)
  | _ => True

theorem NeighO.tail {x : Option Piece} {r : List (Option Piece)} (h : NeighO (x :: r)) : NeighO r := by
  cases r with
  | nil => trivial
  | cons y r => exact h.2

theorem Spec.Neighbours.tail {x : Piece} {r : List Piece} (h : Neighbours (x :: r)) : Neighbours r := by
  cases r with
  | nil => trivial
  | cons y r => exact h.2

theorem mayFollow_nl (y : Piece) : mayFollow .nl y = true := rfl

theorem neighO_pairs {ps : List Piece} (h : Neighbours ps) : NeighO (pairs ps) := by
  fun_induction pairs ps with
  | case1 r ih =>
    have := ih (Neighbours.tail (Neighbours.tail h))
    cases hr : pairs r with
    | nil => trivial
    | cons y z =>
      rw [hr] at this
      exact ⟨mayFollow_nl _, this⟩
  | case3 => trivial
  | case2 p r hne ih =>
    have hi := ih (Neighbours.tail h)
    cases r with
    | nil => trivial
    | cons y z =>
      have h1 : mayFollow p y = true := h.1
      revert hi
      cases hp : pairs (y :: z) with
      | nil => intro _; trivial
      | cons a b =>
        intro hi
        refine ⟨?_, hi⟩
        have : a.getD .nl = y := by
          cases y with
          | nl =>
            cases z with
            | nil => simp [pairs] at hp; rw [← hp.1]; rfl
            | cons w z =>
              cases w with
              | nl => simp [pairs] at hp; rw [← hp.1]; rfl
              | _ => simp [pairs] at hp; rw [← hp.1]; rfl
          | _ => simp [pairs] at hp; rw [← hp.1]; rfl
        rw [this]
        exact h1

/-- What may follow a bracket that is not part of a mark. -/
theorem follow_bracket {y : Piece} (h : mayFollow (.ch '[') y = true) : ∃ c, y = .ch c ∧ c ∉ c!"ibl/h|crsu" := by
  cases y with
  | ch c => exact ⟨c, rfl, by simpa [mayFollow] using h⟩
  | _ => cases h

/-- A mark. -/
def bracketed (u : Str) : Str := '[' :: u ++ c!"]"

theorem bracketed_prefix {u v r : Str} (hu : ']' ∉ u) (hv : ']' ∉ v) (h : bracketed u <+: bracketed v ++ r) : u = v := by
  obtain ⟨z, hz⟩ := h
  unfold bracketed at hz
  simp only [List.cons_append, List.cons.injEq, true_and, List.append_assoc, List.nil_append] at hz
  revert v r
  induction u with
  | nil =>
    intro v r hv hz
    cases v with
    | nil => rfl
    | cons c v =>
      simp only [List.nil_append, List.cons_append, List.cons.injEq] at hz
      exact absurd (by simp [← hz.1]) hv
  | cons c u ih =>
    intro v r hv hz
    cases v with
    | nil =>
      simp only [List.nil_append, List.cons_append, List.cons.injEq] at hz
      exact absurd (by simp [hz.1]) hu
    | cons d v =>
      simp only [List.cons_append, List.cons.injEq] at hz
      rw [hz.1, ih (fun h => hu (by simp [h])) (fun h => hv (by simp [h])) hz.2]

/-- A stage at which some marks may still be there. -/
structure TagStage (ls : List Str) (σ : Stage) : Prop where
  nl : '[' ∉ σ.nl
  nl2 : '[' ∉ σ.nl2
  no : '[' ∉ σ.no
  nc : '[' ∉ σ.nc
  op : ∀ t ∈ formats ls, σ.op t = openTag t ∨ '[' ∉ σ.op t
  cl : ∀ t ∈ formats ls, σ.cl t = closeTag t ∨ '[' ∉ σ.cl t

theorem format_bracket (hl : ∀ l ∈ ls, LangCode l) {t : Str} (ht : t ∈ formats ls) : '[' ∉ t ∧ ']' ∉ t ∧ '/' ∉ t :=
  ⟨format_ne hl ht rfl (by decide) (by decide), format_ne hl ht rfl (by decide) (by decide), format_ne hl ht rfl (by decide) (by decide)⟩

/-- The first character of a mark. -/
theorem mark_head {u : Str} (hu : (∃ t ∈ formats ls, u = t) ∨ (∃ t ∈ formats ls, u = '/' :: t)) :
    ∃ x r, u = x :: r ∧ (x = 'i' ∨ x = 'b' ∨ x = 'l' ∨ x = '/') := by
  rcases hu with ⟨t, ht, rfl⟩ | ⟨t, ht, rfl⟩
  · obtain ⟨c, r, e, h⟩ := format_head ht
    refine ⟨c, r, e, ?_⟩
    rcases h with h | h | h <;> simp [h]
  · exact ⟨_, _, rfl, by simp⟩

/-- The replacement of one mark. -/
theorem rep_tag (hl : ∀ l ∈ ls, LangCode l) {σ : Stage} (hσ : TagStage ls σ) {u : Str}
    (hu : (∃ t ∈ formats ls, u = t) ∨ (∃ t ∈ formats ls, u = '/' :: t)) (q : Str) {ps : List (Option Piece)}
    (h : ∀ p, some p ∈ ps → p.Ok ls) (hn : NeighO ps) :
    ∃ k, Rep (bracketed u) q (σ.flat ps) ((σ.map (fun s => if s = bracketed u then q else s)).flat ps) k := by
  obtain ⟨x, u', hux, hx⟩ := mark_head hu
  have hub : ']' ∉ u := by
    rcases hu with ⟨t, ht, rfl⟩ | ⟨t, ht, rfl⟩
    · exact (format_bracket hl ht).2.1
    · simp only [List.mem_cons, not_or]
      exact ⟨by decide, (format_bracket hl ht).2.1⟩
  have hne : ∀ {s : Str}, '[' ∉ s → (if s = bracketed u then q else s) = s := by
    intro s hs
    rw [if_neg]
    rintro rfl
    exact hs (by simp [bracketed])
  have field : ∀ {s : Str} {a b : Str} {k : Nat}, (∃ v, s = bracketed v ∧ '[' ∉ v ∧ ']' ∉ v) ∨ '[' ∉ s →
      Rep (bracketed u) q a b k → ∃ k, Rep (bracketed u) q (s ++ a) ((if s = bracketed u then q else s) ++ b) k := by
    intro s a b k hs hab
    rcases hs with ⟨v, rfl, hv1, hv2⟩ | hs
    · by_cases huv : bracketed v = bracketed u
      · rw [if_pos huv, huv]
        exact ⟨k + 1, .hit hab⟩
      · rw [if_neg huv]
        refine ⟨k, .miss (s := v ++ c!"]" ++ a) ?_ (Rep.skip (a := v ++ c!"]") ?_ hab)⟩
        · intro hp
          exact huv (by rw [bracketed_prefix hub hv2 hp])
        · simp only [List.mem_append, not_or]
          exact ⟨hv1, by decide⟩
    · rw [hne hs]
      exact ⟨k, Rep.skip hs hab⟩
  induction ps with
  | nil => exact ⟨0, .nil⟩
  | cons p ps ih =>
    obtain ⟨k, hk⟩ := ih (fun p hp => h p (by simp [hp])) hn.tail
    rw [flat_cons, flat_cons]
    match p with
    | none => exact field (.inr hσ.nl2) hk
    | some .nl => exact field (.inr hσ.nl) hk
    | some (.op t) =>
      have ht : t ∈ formats ls := h (.op t) (by simp)
      refine field ?_ hk
      rcases hσ.op t ht with e | e
      · exact .inl ⟨t, e, (format_bracket hl ht).1, (format_bracket hl ht).2.1⟩
      · exact .inr e
    | some (.cl t) =>
      have ht : t ∈ formats ls := h (.cl t) (by simp)
      refine field ?_ hk
      rcases hσ.cl t ht with e | e
      · refine .inl ⟨'/' :: t, e, ?_, ?_⟩
        · simp only [List.mem_cons, not_or]
          exact ⟨by decide, (format_bracket hl ht).1⟩
        · simp only [List.mem_cons, not_or]
          exact ⟨by decide, (format_bracket hl ht).2.1⟩
      · exact .inr e
    | some (.note s) =>
      have hs := h (.note s) (by simp)
      refine ⟨k, ?_⟩
      have e : (σ.map (fun s => if s = bracketed u then q else s)).out (some (.note s)) = σ.no ++ s.flatMap escChar ++ σ.nc := by
        show (if σ.no = bracketed u then q else σ.no) ++ s.flatMap escChar ++ (if σ.nc = bracketed u then q else σ.nc) = _
        rw [hne hσ.no, hne hσ.nc]
      rw [e]
      refine Rep.skip (a := σ.no ++ s.flatMap escChar ++ σ.nc) ?_ hk
      simp only [List.mem_append, not_or]
      exact ⟨⟨hσ.no, not_mem_escs (by decide) (fun hm => (hs.1 _ hm).2.2.2.1 rfl)⟩, hσ.nc⟩
    | some (.ch c) =>
      refine ⟨k, ?_⟩
      by_cases hc : c = '['
      · subst hc
        refine .miss ?_ hk
        rw [hux]
        refine not_prefix2 (p := u' ++ c!"]") ?_
        intro r hr
        cases ps with
        | nil => cases hr
        | cons y ps =>
          obtain ⟨d, hd, hd2⟩ := follow_bracket hn.1
          have : y = some (.ch d) := by
            cases y with
            | none => cases hd
            | some y => rw [Option.getD_some] at hd; rw [hd]
          subst this
          obtain ⟨e, z, he, hed⟩ := escChar_head d
          rw [flat_cons] at hr
          simp only [Stage.out, he] at hr
          have hr : e = x := by injection hr
          rcases hed with rfl | rfl
          · subst hr
            rcases hx with rfl | rfl | rfl | rfl <;> exact hd2 (by decide)
          · subst hr
            rcases hx with hx | hx | hx | hx <;> exact absurd hx (by decide)
      · exact hk.skip (not_mem_esc (by decide) hc)

/-- Text without the second character of the pattern. -/
theorem Rep.skip2 {c d : Char} {p q a s s' : Str} {k : Nat} (ha : d ∉ a) (hl : a.getLast? ≠ some c ∨ s.head? ≠ some d)
    (h : Rep (c :: d :: p) q s s' k) : Rep (c :: d :: p) q (a ++ s) (a ++ s') k := by
  induction a with
  | nil => exact h
  | cons e a ih =>
    refine .miss ?_ (ih (fun hh => ha (by simp [hh])) ?_)
    · rintro ⟨r, hr⟩
      simp only [List.cons_append, List.cons.injEq] at hr
      obtain ⟨rfl, hr⟩ := hr
      cases a with
      | nil =>
        rcases hl with hl | hl
        · exact hl rfl
        · replace hr : d :: (p ++ r) = s := hr
          rw [← hr] at hl
          exact hl rfl
      | cons f a =>
        have hr : d = f := by injection hr
        exact ha (by simp [hr])
    · cases a with
      | nil =>
        rcases hl with hl | hl
        · exact .inl (by simp)
        · exact .inr hl
      | cons f a =>
        rcases hl with hl | hl
        · exact .inl (by simpa using hl)
        · exact .inr hl

theorem escChar_mark {c : Char} (h : c = '/' ∨ c = '*') : escChar c = [c] := by
  rcases h with rfl | rfl <;> rfl

theorem head_append {a b : Str} {c : Char} (ha : a ≠ []) (h : a.head? ≠ some c) : (a ++ b).head? ≠ some c := by
  cases a with
  | nil => exact absurd rfl ha
  | cons d a => exact h

theorem esc_head_ne {c d : Char} (h : c ≠ d) (hd : d ≠ '&') (r : Str) : (escChar c ++ r).head? ≠ some d := by
  obtain ⟨x, y, e, hx⟩ := escChar_head c
  rw [e]
  simp only [List.cons_append, List.head?_cons, ne_eq, Option.some.injEq]
  rcases hx with rfl | rfl
  · exact h
  · exact Ne.symm hd

/-- A stage at which the comment marks may still be there. -/
structure NoteStage (σ : Stage) : Prop where
  star : '*' ∉ σ.nl ∧ '*' ∉ σ.nl2 ∧ ∀ p, (∃ t, p = Piece.op t ∨ p = .cl t) → p.Ok ls → '*' ∉ σ.out (some p)
  head : ∀ p : Option Piece, (∀ q, p = some q → q.Ok ls) → (∀ c, p ≠ some (.ch c)) → (∀ s, p ≠ some (.note s)) → ∃ c r, σ.out p = c :: r ∧ c ≠ '*' ∧ c ≠ '/'
  last : ∀ p : Option Piece, (∀ q, p = some q → q.Ok ls) → (∀ c, p ≠ some (.ch c)) → (∀ s, p ≠ some (.note s)) → (σ.out p).getLast? ≠ some '/'

/-- The first comment mark. -/
theorem rep_no {σ : Stage} (hσ : NoteStage (ls := ls) σ) {q : Str} (hno : σ.no = c!"/*") (hnc : σ.nc = c!"*/") {ps : List (Option Piece)}
    (h : ∀ p, some p ∈ ps → p.Ok ls) (hn : NeighO ps) : ∃ k, Rep c!"/*" q (σ.flat ps) (({ σ with no := q } : Stage).flat ps) k := by
  have hhead : ∀ y ps, (∀ p, some p ∈ y :: ps → p.Ok ls) → y ≠ some (.ch '*') → (σ.flat (y :: ps)).head? ≠ some '*' := by
    intro y ps h hy
    rw [flat_cons]
    match y with
    | some (.ch c) => exact esc_head_ne (fun e => hy (by rw [e])) (by decide) _
    | some (.note s) => simp [Stage.out, hno]
    | some (.op t) =>
      obtain ⟨c, r, e, h1, _⟩ := hσ.head (some (.op t)) (by intro q e; cases e; exact h _ (by simp)) (by simp) (by simp)
      rw [e]; simpa using h1
    | some (.cl t) =>
      obtain ⟨c, r, e, h1, _⟩ := hσ.head (some (.cl t)) (by intro q e; cases e; exact h _ (by simp)) (by simp) (by simp)
      rw [e]; simpa using h1
    | some .nl =>
      obtain ⟨c, r, e, h1, _⟩ := hσ.head (some .nl) (by intro q e; cases e; exact h _ (by simp)) (by simp) (by simp)
      rw [e]; simpa using h1
    | none =>
      obtain ⟨c, r, e, h1, _⟩ := hσ.head none (by intro q e; cases e) (by simp) (by simp)
      rw [e]; simpa using h1
  induction ps with
  | nil => exact ⟨0, .nil⟩
  | cons p ps ih =>
    obtain ⟨k, hk⟩ := ih (fun p hp => h p (by simp [hp])) hn.tail
    rw [flat_cons, flat_cons]
    match p with
    | none => exact ⟨k, hk.skip2 hσ.star.2.1 (.inl (hσ.last none (by intro q e; cases e) (by simp) (by simp)))⟩
    | some .nl => exact ⟨k, hk.skip2 hσ.star.1 (.inl (hσ.last (some .nl) (by intro q e; cases e; trivial) (by simp) (by simp)))⟩
    | some (.op t) =>
      have ht := h (.op t) (by simp)
      exact ⟨k, hk.skip2 (hσ.star.2.2 _ ⟨t, .inl rfl⟩ ht) (.inl (hσ.last (some (.op t)) (by intro q e; cases e; exact ht) (by simp) (by simp)))⟩
    | some (.cl t) =>
      have ht := h (.cl t) (by simp)
      exact ⟨k, hk.skip2 (hσ.star.2.2 _ ⟨t, .inr rfl⟩ ht) (.inl (hσ.last (some (.cl t)) (by intro q e; cases e; exact ht) (by simp) (by simp)))⟩
    | some (.note s) =>
      have hs := h (.note s) (by simp)
      refine ⟨k + 1, ?_⟩
      obtain ⟨X, hX⟩ : ∃ X, X = ({ σ with no := q } : Stage).flat ps := ⟨_, rfl⟩
      rw [← hX] at hk
      show Rep _ _ (σ.no ++ s.flatMap escChar ++ σ.nc ++ σ.flat ps) (q ++ s.flatMap escChar ++ σ.nc ++ ({ σ with no := q } : Stage).flat ps) _
      rw [← hX, hno, hnc, List.append_assoc, List.append_assoc, List.append_assoc q, List.append_assoc q]
      refine .hit ?_
      rw [List.append_assoc]
      refine Rep.skip (not_mem_escs (by decide) (fun hm => (hs.1 _ hm).2.2.2.2.2.1 rfl)) ?_
      refine .miss (c := '*') (by rintro ⟨r, hr⟩; cases hr) (.miss (c := '/') ?_ hk)
      refine not_prefix2 ?_
      intro r hr
      cases ps with
      | nil => cases hr
      | cons y ps =>
        refine hhead y ps (fun p hp => h p (List.mem_cons_of_mem _ hp)) ?_ (by have e : σ.flat (y :: ps) = _ := hr; rw [e]; rfl)
        rintro rfl
        exact absurd hn.1 (by simp [mayFollow])
    | some (.ch c) =>
      refine ⟨k, ?_⟩
      by_cases hc : c = '/'
      · subst hc
        refine .miss (not_prefix2 ?_) hk
        intro r hr
        cases ps with
        | nil => cases hr
        | cons y ps =>
          refine hhead y ps (fun p hp => h p (List.mem_cons_of_mem _ hp)) ?_ (by have e : σ.flat (y :: ps) = _ := hr; rw [e]; rfl)
          rintro rfl
          exact absurd hn.1 (by simp [mayFollow])
      · exact Rep.skip (not_mem_esc (by decide) hc) hk

/-- The second comment mark. -/
theorem rep_nc {σ : Stage} (hσ : NoteStage (ls := ls) σ) {q : Str} (hno : '*' ∉ σ.no) (hno2 : ∃ c r, σ.no = c :: r ∧ c ≠ '/') (hnc : σ.nc = c!"*/")
    {ps : List (Option Piece)} (h : ∀ p, some p ∈ ps → p.Ok ls) (hn : NeighO ps) :
    ∃ k, Rep c!"*/" q (σ.flat ps) (({ σ with nc := q } : Stage).flat ps) k := by
  have hhead : ∀ y ps, (∀ p, some p ∈ y :: ps → p.Ok ls) → y ≠ some (.ch '/') → (σ.flat (y :: ps)).head? ≠ some '/' := by
    intro y ps h hy
    rw [flat_cons]
    match y with
    | some (.ch c) => exact esc_head_ne (fun e => hy (by rw [e])) (by decide) _
    | some (.note s) =>
      obtain ⟨c, r, e, h1⟩ := hno2
      simp only [Stage.out, e]
      simpa using h1
    | some (.op t) =>
      obtain ⟨c, r, e, _, h1⟩ := hσ.head (some (.op t)) (by intro q e; cases e; exact h _ (by simp)) (by simp) (by simp)
      rw [e]; simpa using h1
    | some (.cl t) =>
      obtain ⟨c, r, e, _, h1⟩ := hσ.head (some (.cl t)) (by intro q e; cases e; exact h _ (by simp)) (by simp) (by simp)
      rw [e]; simpa using h1
    | some .nl =>
      obtain ⟨c, r, e, _, h1⟩ := hσ.head (some .nl) (by intro q e; cases e; exact h _ (by simp)) (by simp) (by simp)
      rw [e]; simpa using h1
    | none =>
      obtain ⟨c, r, e, _, h1⟩ := hσ.head none (by intro q e; cases e) (by simp) (by simp)
      rw [e]; simpa using h1
  induction ps with
  | nil => exact ⟨0, .nil⟩
  | cons p ps ih =>
    obtain ⟨k, hk⟩ := ih (fun p hp => h p (by simp [hp])) hn.tail
    rw [flat_cons, flat_cons]
    match p with
    | none => exact ⟨k, hk.skip hσ.star.2.1⟩
    | some .nl => exact ⟨k, hk.skip hσ.star.1⟩
    | some (.op t) => exact ⟨k, hk.skip (hσ.star.2.2 _ ⟨t, .inl rfl⟩ (h (.op t) (by simp)))⟩
    | some (.cl t) => exact ⟨k, hk.skip (hσ.star.2.2 _ ⟨t, .inr rfl⟩ (h (.cl t) (by simp)))⟩
    | some (.note s) =>
      have hs := h (.note s) (by simp)
      refine ⟨k + 1, ?_⟩
      show Rep _ _ (σ.no ++ s.flatMap escChar ++ σ.nc ++ σ.flat ps) (σ.no ++ s.flatMap escChar ++ q ++ _) _
      rw [hnc, List.append_assoc, List.append_assoc _ q]
      refine Rep.skip ?_ (.hit hk)
      simp only [List.mem_append, not_or]
      exact ⟨hno, not_mem_escs (by decide) (fun hm => (hs.1 _ hm).2.2.2.2.1 rfl)⟩
    | some (.ch c) =>
      refine ⟨k, ?_⟩
      by_cases hc : c = '*'
      · subst hc
        refine .miss (not_prefix2 ?_) hk
        intro r hr
        cases ps with
        | nil => cases hr
        | cons y ps =>
          refine hhead y ps (fun p hp => h p (List.mem_cons_of_mem _ hp)) ?_ (by have e : σ.flat (y :: ps) = _ := hr; rw [e]; rfl)
          rintro rfl
          exact absurd hn.1 (by simp [mayFollow])
      · exact Rep.skip (not_mem_esc (by decide) hc) hk

end Verif
