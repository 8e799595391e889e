/-
Formattings over line breaks (C43, C48): what the reader joins again.
-/
import Verif.Lemmas.Flow2
import Verif.Lemmas.ReadPara

namespace Verif
open Spec

variable {ls : List Str}

/-! ### Occurrences of marks -/

theorem pre_ch {c : Char} {x : Str} {qs : List Piece} (hc : c ∉ c!"[/\n") (h : c :: x <+: rawText qs) : ∃ qs', qs = .ch c :: qs' ∧ x <+: rawText qs' := by
  cases qs with
  | nil => simp [rawText] at h
  | cons p qs =>
    rw [rawText_cons] at h
    cases p with
    | ch d =>
      obtain ⟨h1, h2⟩ := List.cons_prefix_cons.1 (show c :: x <+: d :: rawText qs from h)
      exact ⟨qs, by rw [h1], h2⟩
    | op t => exact absurd (List.cons_prefix_cons.1 (show c :: x <+: '[' :: (t ++ c!"]" ++ rawText qs) by simpa [Piece.raw] using h)).1 (fun e => hc (by rw [e]; decide))
    | cl t => exact absurd (List.cons_prefix_cons.1 (show c :: x <+: '[' :: ('/' :: t ++ c!"]" ++ rawText qs) by simpa [Piece.raw] using h)).1 (fun e => hc (by rw [e]; decide))
    | note s => exact absurd (List.cons_prefix_cons.1 (show c :: x <+: '/' :: ('*' :: s ++ c!"*/" ++ rawText qs) by simpa [Piece.raw] using h)).1 (fun e => hc (by rw [e]; decide))
    | nl => exact absurd (List.cons_prefix_cons.1 (show c :: x <+: '\n' :: rawText qs from h)).1 (fun e => hc (by rw [e]; decide))

theorem pre_nl {x : Str} {qs : List Piece} (ho : ∀ p ∈ qs, p.Ok ls) (h : '\n' :: x <+: rawText qs) : ∃ qs', qs = .nl :: qs' ∧ x <+: rawText qs' := by
  cases qs with
  | nil => simp [rawText] at h
  | cons p qs =>
    have hp := ho p (by simp)
    rw [rawText_cons] at h
    cases p with
    | ch d => exact absurd (List.cons_prefix_cons.1 (show '\n' :: x <+: d :: rawText qs from h)).1.symm hp.2.1
    | op t => exact absurd (List.cons_prefix_cons.1 (show '\n' :: x <+: '[' :: (t ++ c!"]" ++ rawText qs) by simpa [Piece.raw] using h)).1 (by decide)
    | cl t => exact absurd (List.cons_prefix_cons.1 (show '\n' :: x <+: '[' :: ('/' :: t ++ c!"]" ++ rawText qs) by simpa [Piece.raw] using h)).1 (by decide)
    | note s => exact absurd (List.cons_prefix_cons.1 (show '\n' :: x <+: '/' :: ('*' :: s ++ c!"*/" ++ rawText qs) by simpa [Piece.raw] using h)).1 (by decide)
    | nl => exact ⟨qs, rfl, (List.cons_prefix_cons.1 (show '\n' :: x <+: '\n' :: rawText qs from h)).2⟩

/-- A mark in the text is a mark. -/
theorem pre_mark (hl : ∀ l ∈ ls, LangCode l) {u x : Str} {qs : List Piece} (hu : (∃ t ∈ formats ls, u = t) ∨ (∃ t ∈ formats ls, u = '/' :: t))
    (ho : ∀ p ∈ qs, p.Ok ls) (hn : Neighbours qs) (h : bracketed u ++ x <+: rawText qs) :
    ∃ p qs', qs = p :: qs' ∧ p.raw = bracketed u ∧ (∀ c, p ≠ .ch c) ∧ x <+: rawText qs' := by
  obtain ⟨y, u', huy, hy⟩ := mark_head hu
  have hub : ']' ∉ u := by
    rcases hu with ⟨t, ht, rfl⟩ | ⟨t, ht, rfl⟩
    · exact (format_bracket hl ht).2.1
    · simp only [List.mem_cons, not_or]
      exact ⟨by decide, (format_bracket hl ht).2.1⟩
  have h0 : bracketed u ++ x = '[' :: y :: (u' ++ c!"]" ++ x) := by rw [huy]; simp [bracketed]
  cases qs with
  | nil => rw [h0] at h; simp [rawText] at h
  | cons p qs =>
    have hp := ho p (by simp)
    have done : ∀ v : Str, p.raw = bracketed v → ']' ∉ v → p.raw = bracketed u ∧ x <+: rawText qs := by
      intro v e hv
      rw [rawText_cons, e] at h
      have e1 : u = v := bracketed_prefix hub hv (List.IsPrefix.trans ⟨x, rfl⟩ h)
      subst e1
      exact ⟨e, (List.prefix_append_right_inj _).1 h⟩
    cases p with
    | ch d =>
      exfalso
      rw [h0, rawText_cons] at h
      obtain ⟨h1, h2⟩ := List.cons_prefix_cons.1 (show '[' :: y :: (u' ++ c!"]" ++ x) <+: d :: rawText qs from h)
      subst h1
      cases qs with
      | nil => simp [rawText] at h2
      | cons q qs =>
        obtain ⟨c, rfl, hc⟩ := follow_bracket hn.1
        obtain ⟨h3, _⟩ := List.cons_prefix_cons.1 (show y :: (u' ++ c!"]" ++ x) <+: c :: rawText qs from h2)
        subst h3
        apply hc
        rcases hy with rfl | rfl | rfl | rfl <;> decide
    | op t =>
      obtain ⟨h1, h2⟩ := done t (by simp [Piece.raw, bracketed]) (format_bracket hl (show t ∈ formats ls from hp)).2.1
      exact ⟨_, qs, rfl, h1, by simp, h2⟩
    | cl t =>
      obtain ⟨h1, h2⟩ := done ('/' :: t) (by simp [Piece.raw, bracketed]) (by
        simp only [List.mem_cons, not_or]
        exact ⟨by decide, (format_bracket hl (show t ∈ formats ls from hp)).2.1⟩)
      exact ⟨_, qs, rfl, h1, by simp, h2⟩
    | note s => rw [h0, rawText_cons] at h; exact absurd (List.cons_prefix_cons.1 (show '[' :: y :: (u' ++ c!"]" ++ x) <+: '/' :: ('*' :: s ++ c!"*/" ++ rawText qs) by simpa [Piece.raw] using h)).1 (by decide)
    | nl => rw [h0, rawText_cons] at h; exact absurd (List.cons_prefix_cons.1 (show '[' :: y :: (u' ++ c!"]" ++ x) <+: '\n' :: rawText qs from h)).1 (by decide)

theorem pre_op (hl : ∀ l ∈ ls, LangCode l) {t x : Str} {qs : List Piece} (ht : t ∈ formats ls) (ho : ∀ p ∈ qs, p.Ok ls) (hn : Neighbours qs)
    (h : (Piece.op t).raw ++ x <+: rawText qs) : ∃ qs', qs = .op t :: qs' ∧ x <+: rawText qs' := by
  have e : (Piece.op t).raw = bracketed t := by simp [Piece.raw, bracketed]
  rw [e] at h
  obtain ⟨p, qs', rfl, h1, h2, h3⟩ := pre_mark hl (.inl ⟨t, ht, rfl⟩) ho hn h
  refine ⟨qs', ?_, h3⟩
  cases p with
  | op v => simp only [Piece.raw, bracketed, List.cons_append, List.nil_append, List.cons.injEq, true_and] at h1; rw [List.append_cancel_right h1]
  | cl v =>
    obtain ⟨c, r, hc, hne⟩ := format_head' ht
    rw [hc] at h1
    simp only [Piece.raw, bracketed, List.cons_append, List.nil_append, List.cons.injEq, true_and] at h1
    exact absurd h1.1.symm hne
  | ch c => exact absurd rfl (h2 c)
  | note s => simp [Piece.raw, bracketed] at h1
  | nl => simp [Piece.raw, bracketed] at h1

theorem pre_cl (hl : ∀ l ∈ ls, LangCode l) {t x : Str} {qs : List Piece} (ht : t ∈ formats ls) (ho : ∀ p ∈ qs, p.Ok ls) (hn : Neighbours qs)
    (h : (Piece.cl t).raw ++ x <+: rawText qs) : ∃ qs', qs = .cl t :: qs' ∧ x <+: rawText qs' := by
  have e : (Piece.cl t).raw = bracketed ('/' :: t) := by simp [Piece.raw, bracketed]
  rw [e] at h
  obtain ⟨p, qs', rfl, h1, h2, h3⟩ := pre_mark hl (.inr ⟨t, ht, rfl⟩) ho hn h
  refine ⟨qs', ?_, h3⟩
  cases p with
  | cl v =>
    simp only [Piece.raw, bracketed, List.cons_append, List.nil_append, List.cons.injEq, true_and] at h1
    rw [List.append_cancel_right h1]
  | op v =>
    obtain ⟨c, r, hc, hne⟩ := format_head' (show v ∈ formats ls from ho (.op v) (by simp))
    rw [hc] at h1
    simp only [Piece.raw, bracketed, List.cons_append, List.nil_append, List.cons.injEq, true_and] at h1
    exact absurd h1.1 hne
  | ch c => exact absurd rfl (h2 c)
  | note s => simp [Piece.raw, bracketed] at h1
  | nl => simp [Piece.raw, bracketed] at h1

/-- The pieces of the patterns. -/
def OfPattern (t : Str) (p : Piece) : Prop := p = .op t ∨ p = .cl t ∨ p = .nl ∨ p = .ch '>' ∨ p = .ch ' '

theorem pre_pieces (hl : ∀ l ∈ ls, LangCode l) {t : Str} (ht : t ∈ formats ls) {w : List Piece} : ∀ {qs : List Piece}, (∀ p ∈ w, OfPattern t p) →
    (∀ p ∈ qs, p.Ok ls) → Neighbours qs → rawText w <+: rawText qs → w <+: qs := by
  induction w with
  | nil => intro qs _ _ _ _; exact List.nil_prefix
  | cons p w ih =>
    intro qs hw ho hn h
    rw [rawText_cons] at h
    have go : ∀ qs', qs = p :: qs' → rawText w <+: rawText qs' → p :: w <+: qs := by
      rintro qs' rfl h'
      exact List.cons_prefix_cons.2 ⟨rfl, ih (fun q hq => hw q (by simp [hq])) (fun q hq => ho q (by simp [hq])) (Neighbours.tail hn) h'⟩
    rcases hw p (by simp) with rfl | rfl | rfl | rfl | rfl
    · obtain ⟨qs', e, h'⟩ := pre_op hl ht ho hn h; exact go qs' e h'
    · obtain ⟨qs', e, h'⟩ := pre_cl hl ht ho hn h; exact go qs' e h'
    · obtain ⟨qs', e, h'⟩ := pre_nl ho (show '\n' :: rawText w <+: rawText qs from h); exact go qs' e h'
    · obtain ⟨qs', e, h'⟩ := pre_ch (by decide) (show '>' :: rawText w <+: rawText qs from h); exact go qs' e h'
    · obtain ⟨qs', e, h'⟩ := pre_ch (by decide) (show ' ' :: rawText w <+: rawText qs from h); exact go qs' e h'

/-- The rest of a piece does not contain the beginning of a mark. -/
theorem raw_tail (hl : ∀ l ∈ ls, LangCode l) {p : Piece} (h : p.Ok ls) : ∃ c a, p.raw = c :: a ∧ '[' ∉ a := by
  cases p with
  | ch c => exact ⟨c, [], rfl, by simp⟩
  | op t =>
    refine ⟨'[', t ++ c!"]", by simp [Piece.raw], ?_⟩
    simp only [List.mem_append, not_or]
    exact ⟨(format_bracket hl (show t ∈ formats ls from h)).1, by decide⟩
  | cl t =>
    refine ⟨'[', '/' :: t ++ c!"]", by simp [Piece.raw], ?_⟩
    simp only [List.mem_append, List.mem_cons, not_or]
    exact ⟨⟨by decide, (format_bracket hl (show t ∈ formats ls from h)).1⟩, by decide, by simp⟩
  | note s =>
    refine ⟨'/', '*' :: s ++ c!"*/", by simp [Piece.raw], ?_⟩
    simp only [List.mem_append, List.mem_cons, not_or]
    exact ⟨⟨by decide, fun hm => (h.1 _ hm).2.2.2.1 rfl⟩, by decide, by decide, by simp⟩
  | nl => exact ⟨'\n', [], rfl, by simp⟩

theorem prefix_snoc {p s : Str} {c d : Char} (hc : c ≠ d) (h : p ++ [c] <+: s ++ [d]) : p ++ [c] <+: s := by
  obtain ⟨b, e⟩ := h
  rcases List.eq_nil_or_concat b with rfl | ⟨b', x, rfl⟩
  · rw [List.append_nil] at e
    have := congrArg List.getLast? e
    simp at this
    exact absurd this hc
  · rw [List.concat_eq_append, ← List.append_assoc] at e
    exact ⟨b', (List.append_inj' e rfl).1⟩

/-- A pattern: it begins with the end of the formatting and ends with its beginning. -/
structure Pattern (t : Str) (w : List Piece) : Prop where
  shape : ∃ v, w = .cl t :: (v ++ [.op t])
  pieces : ∀ p ∈ w, OfPattern t p

theorem Pattern.text {t : Str} {w : List Piece} (h : Pattern t w) : ∃ x y, rawText w = '[' :: x ∧ rawText w = y ++ [']'] := by
  obtain ⟨v, e⟩ := h.shape
  refine ⟨'/' :: t ++ c!"]" ++ rawText (v ++ [.op t]), (Piece.cl t).raw ++ rawText v ++ c!"[" ++ t, ?_, ?_⟩
  · rw [e, rawText_cons]; simp [Piece.raw]
  · rw [e, rawText_cons, rawText_append]; simp [rawText, Piece.raw]

theorem Pattern.miss (hl : ∀ l ∈ ls, LangCode l) {t : Str} (ht : t ∈ formats ls) {w : List Piece} (hw : Pattern t w) {p : Piece} {qs : List Piece}
    (ho : ∀ x ∈ p :: qs, x.Ok ls) (hn : Neighbours (p :: qs)) (hm : ¬ w <+: p :: qs) {q s' : Str} {k : Nat}
    (h : Rep (rawText w) q (rawText qs ++ c!"\n") s' k) : Rep (rawText w) q (rawText (p :: qs) ++ c!"\n") (p.raw ++ s') k := by
  obtain ⟨x, y, e1, e2⟩ := hw.text
  obtain ⟨c, a, e3, h3⟩ := raw_tail hl (ho p (by simp))
  have hnp : ¬ rawText w <+: rawText (p :: qs) ++ c!"\n" := by
    intro hpre
    apply hm
    rw [e2] at hpre
    have := prefix_snoc (by decide) hpre
    rw [← e2] at this
    exact pre_pieces hl ht hw.pieces ho hn this
  rw [rawText_cons, e3, List.append_assoc] at hnp ⊢
  refine Rep.miss hnp ?_
  rw [e1] at h ⊢
  exact Rep.skip h3 h

theorem Pattern.ends {t : Str} {w : List Piece} (hw : Pattern t w) (q : Str) : Rep (rawText w) q c!"\n" c!"\n" 0 := by
  obtain ⟨x, y, e1, e2⟩ := hw.text
  refine .miss ?_ .nil
  rw [e1]
  intro h
  exact absurd (List.cons_prefix_cons.1 h).1 (by decide)

/-- A pattern that does not occur. -/
theorem Pattern.none (hl : ∀ l ∈ ls, LangCode l) {t : Str} (ht : t ∈ formats ls) {w : List Piece} (hw : Pattern t w) {qs : List Piece}
    (ho : ∀ x ∈ qs, x.Ok ls) (hn : Neighbours qs) (hm : ¬ w <:+: qs) (q : Str) : Str.replace (rawText qs ++ c!"\n") (rawText w) q = rawText qs ++ c!"\n" := by
  have key : ∃ k, Rep (rawText w) q (rawText qs ++ c!"\n") (rawText qs ++ c!"\n") k := by
    induction qs with
    | nil => exact ⟨0, hw.ends q⟩
    | cons p qs ih =>
      obtain ⟨k, hk⟩ := ih (fun x hx => ho x (by simp [hx])) (Neighbours.tail hn) (fun h => hm (h.trans (List.suffix_cons p qs).isInfix))
      have := hw.miss hl ht ho hn (fun h => hm h.isInfix) hk
      rw [← List.append_assoc, ← rawText_cons] at this
      exact ⟨k, this⟩
  obtain ⟨k, hk⟩ := key
  obtain ⟨x, y, e1, e2⟩ := hw.text
  exact Rep.replaceGo (by rw [e1]; simp) hk

/-! ### Joining lines -/

/-- The pieces after the ends and beginnings of `t` around the line breaks have been removed. -/
def collapse (t : Str) : List Piece → List Piece
  | [] => []
  | .cl u :: .nl :: .op v :: r => if u = t ∧ v = t then .nl :: collapse t r else .cl u :: collapse t (.nl :: .op v :: r)
  | p :: r => p :: collapse t r

theorem collapse_hit (t : Str) (r : List Piece) : collapse t (.cl t :: .nl :: .op t :: r) = .nl :: collapse t r := by
  rw [collapse]; simp

theorem collapse_miss {t : Str} {p : Piece} {r : List Piece} (h : ¬ [Piece.cl t, .nl, .op t] <+: p :: r) : collapse t (p :: r) = p :: collapse t r := by
  rw [collapse.eq_def]
  split
  · rename_i h'; cases h'
  · rename_i u v r' h'
    injection h' with h1 h2
    subst h1; subst h2
    rw [if_neg]
    rintro ⟨rfl, rfl⟩
    exact h ⟨r', rfl⟩
  · rename_i h'
    injection h' with h1 h2
    subst h1; subst h2
    rfl

theorem joinPattern (t : Str) : Pattern t [.cl t, .nl, .op t] := by
  refine ⟨⟨[.nl], rfl⟩, ?_⟩
  intro p hp
  simp only [List.mem_cons, List.not_mem_nil, or_false] at hp
  rcases hp with rfl | rfl | rfl <;> simp [OfPattern]

theorem replace_join (hl : ∀ l ∈ ls, LangCode l) {t : Str} (ht : t ∈ formats ls) {qs : List Piece} (ho : ∀ x ∈ qs, x.Ok ls) (hn : Neighbours qs) :
    Str.replace (rawText qs ++ c!"\n") (rawText [.cl t, .nl, .op t]) c!"\n" = rawText (collapse t qs) ++ c!"\n" := by
  have hw := joinPattern t
  have key : ∃ k, Rep (rawText [.cl t, .nl, .op t]) c!"\n" (rawText qs ++ c!"\n") (rawText (collapse t qs) ++ c!"\n") k := by
    obtain ⟨n, hlen⟩ : ∃ n, qs.length = n := ⟨_, rfl⟩
    induction n using Nat.strongRecOn generalizing qs with
    | _ n ih =>
      cases qs with
      | nil => exact ⟨0, hw.ends _⟩
      | cons p qs =>
        by_cases hh : [Piece.cl t, .nl, .op t] <+: p :: qs
        · obtain ⟨r, e⟩ := hh
          rw [← e] at ho hn hlen ⊢
          obtain ⟨k, hk⟩ := ih r.length (by simp at hlen; omega) (qs := r) (fun x hx => ho x (by simp [hx])) (Neighbours.tail (Neighbours.tail (Neighbours.tail hn))) rfl
          show ∃ k, Rep _ _ _ (rawText (collapse t (.cl t :: .nl :: .op t :: r)) ++ _) k
          rw [rawText_append, collapse_hit, List.append_assoc]
          exact ⟨k + 1, .hit hk⟩
        · obtain ⟨k, hk⟩ := ih qs.length (by simp at hlen; omega) (qs := qs) (fun x hx => ho x (by simp [hx])) (Neighbours.tail hn) rfl
          have := hw.miss hl ht ho hn hh hk
          rw [← List.append_assoc, ← rawText_cons, ← collapse_miss hh] at this
          exact ⟨k, this⟩
  obtain ⟨k, hk⟩ := key
  obtain ⟨x, y, e1, e2⟩ := hw.text
  exact Rep.replaceGo (by rw [e1]; simp) hk

theorem collapse_ok {t : Str} {qs : List Piece} (ho : ∀ x ∈ qs, x.Ok ls) (hn : Neighbours qs) :
    (∀ x ∈ collapse t qs, x.Ok ls) ∧ Neighbours (collapse t qs) ∧
      (∀ y, (collapse t qs).head? = some y → qs.head? = some y ∨ (y = .nl ∧ qs.head? = some (.cl t))) := by
  have h0 : ∀ x : Piece, mayFollow x .nl = true ∨ x = .ch '[' := by
    intro x
    by_cases hx : x = .ch '['
    · exact .inr hx
    · left; cases x with
      | ch c => unfold mayFollow; split <;> simp_all
      | _ => rfl
  obtain ⟨n, hlen⟩ : ∃ n, qs.length = n := ⟨_, rfl⟩
  induction n using Nat.strongRecOn generalizing qs with
  | _ n ih =>
    cases qs with
    | nil => exact ⟨by simp [collapse], trivial, by simp [collapse]⟩
    | cons p qs =>
      by_cases hh : [Piece.cl t, .nl, .op t] <+: p :: qs
      · obtain ⟨r, e⟩ := hh
        rw [← e] at ho hn hlen ⊢
        obtain ⟨i1, i2, i4⟩ := ih r.length (by simp at hlen; omega) (qs := r) (fun x hx => ho x (by simp [hx])) (Neighbours.tail (Neighbours.tail (Neighbours.tail hn))) rfl
        show (∀ x ∈ collapse t (.cl t :: .nl :: .op t :: r), x.Ok ls) ∧ Neighbours (collapse t (.cl t :: .nl :: .op t :: r)) ∧ _
        rw [collapse_hit]
        refine ⟨?_, ?_, ?_⟩
        · intro x hx
          rcases List.mem_cons.1 hx with rfl | hx
          · trivial
          · exact i1 x hx
        · cases hc : collapse t r with
          | nil => trivial
          | cons y c => rw [hc] at i2; exact ⟨rfl, i2⟩
        · intro y hy
          right
          constructor
          · have : collapse t ([Piece.cl t, .nl, .op t] ++ r) = .nl :: collapse t r := collapse_hit t r
            rw [this] at hy
            simpa using hy.symm
          · rfl
      · obtain ⟨i1, i2, i4⟩ := ih qs.length (by simp at hlen; omega) (qs := qs) (fun x hx => ho x (by simp [hx])) (Neighbours.tail hn) rfl
        rw [collapse_miss hh]
        refine ⟨?_, ?_, ?_⟩
        · intro x hx
          rcases List.mem_cons.1 hx with rfl | hx
          · exact ho x (by simp)
          · exact i1 x hx
        · cases hc : collapse t qs with
          | nil => trivial
          | cons y c =>
            rw [hc] at i2
            refine ⟨?_, i2⟩
            rcases i4 y (by rw [hc]; rfl) with h | ⟨rfl, h⟩
            · cases qs with
              | nil => simp at h
              | cons z qs => simp only [List.head?_cons, Option.some.injEq] at h; subst h; exact hn.1
            · cases qs with
              | nil => simp at h
              | cons z qs =>
                simp only [List.head?_cons, Option.some.injEq] at h
                subst h
                rcases h0 p with h | rfl
                · exact h
                · exact absurd hn.1 (by simp [mayFollow])
        · intro y hy; left; simpa using hy

/-! ### Padding -/

/-- `qs` is the text `ps` with ends and beginnings of formattings around some line breaks. -/
inductive Pad (T : Str → Prop) : List Piece → List Piece → Prop
  | nil : Pad T [] []
  | same (p : Piece) {qs ps : List Piece} : Pad T qs ps → Pad T (p :: qs) (p :: ps)
  | pad {t : Str} {qs ps : List Piece} : T t → Pad T qs ps → Pad T (.cl t :: .nl :: .op t :: qs) (.nl :: ps)

theorem Pad.refl (T : Str → Prop) (ps : List Piece) : Pad T ps ps := by
  induction ps with
  | nil => exact .nil
  | cons p ps ih => exact .same p ih

theorem Pad.prepend {T : Str → Prop} (l : List Piece) {qs ps : List Piece} (h : Pad T qs ps) : Pad T (l ++ qs) (l ++ ps) := by
  induction l with
  | nil => exact h
  | cons p l ih => exact .same p ih

theorem Pad.eq {qs ps : List Piece} (h : Pad (fun _ => False) qs ps) : qs = ps := by
  induction h with
  | nil => rfl
  | same p _ ih => rw [ih]
  | pad ht _ _ => exact ht.elim

theorem Pad.head {T : Str → Prop} {p : Piece} {qs ps : List Piece} (hp : ∀ t, p ≠ .cl t) (h : Pad T (p :: qs) ps) : ∃ ps', ps = p :: ps' ∧ Pad T qs ps' := by
  cases h with
  | same _ h => exact ⟨_, rfl, h⟩
  | pad _ _ => exact absurd rfl (hp _)

theorem Pad.op {T : Str → Prop} {t : Str} {w qs ps : List Piece} (hw : ∀ p ∈ w, ∀ t, p ≠ .cl t) (h : Pad T qs ps) (h1 : w <+: qs) : w <+: ps := by
  induction w generalizing qs ps with
  | nil => exact List.nil_prefix
  | cons p w ih =>
    obtain ⟨r, e⟩ := h1
    subst e
    obtain ⟨ps', rfl, h'⟩ := Pad.head (hw p (by simp)) h
    exact List.cons_prefix_cons.2 ⟨rfl, ih (fun q hq => hw q (by simp [hq])) h' ⟨r, rfl⟩⟩

/-- A pattern that is not a joint around a line break occurs only in the text. -/
theorem Pad.infix {T : Str → Prop} {t : Str} {v qs ps : List Piece} (hv : ∀ p ∈ v, ∀ t, p ≠ .cl t) (hj : ¬ [.nl, .op t] <+: v ∨ ¬ T t) (h : Pad T qs ps)
    (hne : v ≠ []) (h2 : ¬ v <+: [.nl, .op t]) (h1 : .cl t :: v <:+: qs) : .cl t :: v <:+: ps := by
  induction h with
  | nil => simp at h1
  | @same p qs ps h ih =>
    rw [List.infix_cons_iff] at h1
    rcases h1 with h1 | h1
    · obtain ⟨rfl, h3⟩ := List.cons_prefix_cons.1 h1
      exact (List.cons_prefix_cons.2 ⟨rfl, Pad.op (t := t) hv h h3⟩).isInfix
    · exact (ih h1).trans (List.suffix_cons _ _).isInfix
  | @pad u qs ps ht h ih =>
    rw [List.infix_cons_iff, List.infix_cons_iff, List.infix_cons_iff] at h1
    rcases h1 with h1 | h1 | h1 | h1
    · exfalso
      obtain ⟨e, h3⟩ := List.cons_prefix_cons.1 h1
      injection e with e
      subst e
      -- `v` and the rest of the joint
      match v, hne, h3 with
      | [x], _, h3 =>
        obtain ⟨rfl, _⟩ := List.cons_prefix_cons.1 h3
        exact h2 ⟨[.op t], rfl⟩
      | x :: y :: v, _, h3 =>
        obtain ⟨rfl, h4⟩ := List.cons_prefix_cons.1 h3
        obtain ⟨rfl, h5⟩ := List.cons_prefix_cons.1 h4
        rcases hj with hj | hj
        · exact hj ⟨v, rfl⟩
        · exact hj ht
    · exact absurd (List.cons_prefix_cons.1 h1).1 (by simp)
    · exact absurd (List.cons_prefix_cons.1 h1).1 (by simp)
    · exact (ih h1).trans (List.suffix_cons _ _).isInfix

theorem Pad.collapse {T : Str → Prop} {t : Str} {qs ps : List Piece} (h : Pad T qs ps) (hj : ¬ [.cl t, .nl, .op t] <:+: ps) :
    Pad (fun u => T u ∧ u ≠ t) (collapse t qs) ps := by
  induction h with
  | nil => exact .nil
  | @same p qs ps h ih =>
    have hm : ¬ [Piece.cl t, .nl, .op t] <+: p :: qs := by
      intro hpre
      apply hj
      obtain ⟨rfl, h3⟩ := List.cons_prefix_cons.1 hpre
      exact (List.cons_prefix_cons.2 ⟨rfl, Pad.op (t := t) (by simp) h h3⟩).isInfix
    rw [collapse_miss hm]
    exact .same p (ih (fun hi => hj (hi.trans (List.suffix_cons _ _).isInfix)))
  | @pad u qs ps ht h ih =>
    have ih := ih (fun hi => hj (hi.trans (List.suffix_cons _ _).isInfix))
    by_cases hu : u = t
    · subst hu
      rw [collapse_hit]
      exact .same .nl ih
    · have e : Verif.collapse t (.cl u :: .nl :: .op u :: qs) = .cl u :: .nl :: .op u :: Verif.collapse t qs := by
        rw [collapse_miss, collapse_miss, collapse_miss]
        · intro h1; exact absurd (List.cons_prefix_cons.1 h1).1 (by simp)
        · intro h1; exact absurd (List.cons_prefix_cons.1 h1).1 (by simp)
        · intro h1
          have := (List.cons_prefix_cons.1 h1).1
          injection this with this
          exact hu this.symm
      rw [e]
      exact .pad ⟨ht, hu⟩ ih

theorem openAfter_sub {l : List Piece} : ∀ {st st' : List Str}, openAfter st l = some st' → ∀ t ∈ st', t ∈ st ∨ .op t ∈ l := by
  induction l with
  | nil => intro st st' h t ht; simp only [openAfter, Option.some.injEq] at h; subst h; exact .inl ht
  | cons p l ih =>
    intro st st' h t ht
    have keep : openAfter st l = some st' → t ∈ st ∨ .op t ∈ p :: l := by
      intro h1
      rcases ih h1 t ht with h2 | h2
      · exact .inl h2
      · exact .inr (by simp [h2])
    cases p with
    | op u =>
      rw [openAfter] at h
      split at h
      · cases h
      · rcases ih h t ht with h2 | h2
        · rcases List.mem_cons.1 h2 with rfl | h2
          · exact .inr (by simp)
          · exact .inl h2
        · exact .inr (by simp [h2])
    | cl u =>
      cases st with
      | nil => simp [openAfter] at h
      | cons v st =>
        rw [openAfter] at h
        split at h
        · rcases ih h t ht with h2 | h2
          · exact .inl (by simp [h2])
          · exact .inr (by simp [h2])
        · cases h
    | ch c => exact keep (by cases st <;> simpa [openAfter] using h)
    | note s => exact keep (by cases st <;> simpa [openAfter] using h)
    | nl => exact keep (by cases st <;> simpa [openAfter] using h)

theorem spread_pad {T : Str → Prop} {Ls : List (List Piece)} : ∀ {st : List Str}, Few st → (∀ t ∈ st, T t) → (∀ l ∈ Ls, ∀ t, .op t ∈ l → T t) → FlowLines st Ls →
    Pad T (brokenLines (spreadLines st Ls)) (if Ls = [] then [] else st.map Piece.op ++ brokenLines Ls) := by
  induction Ls with
  | nil => intro st _ _ _ _; exact .nil
  | cons l Ls ih =>
    intro st hs hT hL hf
    rw [if_neg (by simp)]
    cases Ls with
    | nil =>
      have e1 : openLeft st l = [] := by
        unfold openLeft
        rw [show openAfter st l = some [] from hf]
        rfl
      have e : brokenLines (spreadLines st [l]) = st.reverse.map Piece.op ++ l ++ (openLeft st l).map Piece.cl := rfl
      rw [e, e1, few_reverse hs, List.map_nil, List.append_nil]
      exact Pad.refl _ _
    | cons m r =>
      obtain ⟨_, st', ha, hst, hf'⟩ := hf
      have e1 : openLeft st l = st' := by unfold openLeft; rw [ha]; rfl
      have hs' : Few st' := by
        rcases hst with rfl | ⟨t, rfl, _⟩ <;> simp [Few]
      have hT' : ∀ t ∈ st', T t := by
        intro t ht
        rcases openAfter_sub ha t ht with h | h
        · exact hT t h
        · exact hL l (by simp) t h
      have IH := ih hs' hT' (fun l' hl' => hL l' (by simp [hl'])) hf'
      rw [if_neg (by simp)] at IH
      obtain ⟨x, X, hX⟩ : ∃ x X, spreadLines st' (m :: r) = x :: X := ⟨_, _, rfl⟩
      have e : brokenLines (spreadLines st (l :: m :: r)) = (st.map Piece.op ++ l) ++ (st'.map Piece.cl ++ .nl :: brokenLines (spreadLines st' (m :: r))) := by
        have e2 : spreadLines st (l :: m :: r) = (st.reverse.map Piece.op ++ l ++ st'.map Piece.cl) :: spreadLines st' (m :: r) := by rw [← e1]; rfl
        rw [e2, hX, brokenLines_cons, few_reverse hs, List.append_assoc]
      rw [e, brokenLines_cons, ← List.append_assoc (st.map Piece.op) l (.nl :: brokenLines (m :: r))]
      refine Pad.prepend _ ?_
      rcases hst with rfl | ⟨t, rfl, _⟩
      · exact .same .nl IH
      · obtain ⟨Y, hY⟩ : ∃ Y, brokenLines (spreadLines [t] (m :: r)) = .op t :: Y := by
          cases r with
          | nil => exact ⟨_, rfl⟩
          | cons m' r => exact ⟨_, rfl⟩
        rw [hY] at IH ⊢
        obtain ⟨ps', e3, h3⟩ := Pad.head (by simp) IH
        have e4 : brokenLines (m :: r) = ps' := by simpa using e3
        rw [e4]
        exact .pad (hT' t (by simp)) h3

theorem cleanup_pad (hl : ∀ l ∈ ls, LangCode l) {ps : List Piece} (hj : ∀ t, ¬ [Piece.cl t, .op t] <:+: ps ∧ ¬ [Piece.cl t, .nl, .op t] <:+: ps ∧ ¬ [Piece.cl t, .nl, .ch '>', .ch ' ', .op t] <:+: ps)
    {tags : List Str} : ∀ {T : Str → Prop} {qs : List Piece}, (∀ t ∈ tags, t ∈ formats ls) → (∀ p ∈ qs, p.Ok ls) → Neighbours qs → Pad T qs ps → (∀ t, T t → t ∈ tags) →
    Rd.cleanupTags tags (rawText qs ++ c!"\n") = rawText ps ++ c!"\n" := by
  induction tags with
  | nil =>
    intro T qs _ _ _ hp hT
    have : qs = ps := by
      have h : ∀ {qs ps : List Piece}, Pad T qs ps → qs = ps := by
        intro qs ps h
        induction h with
        | nil => rfl
        | same p _ ih => rw [ih]
        | pad ht _ _ => cases hT _ ht
      exact h hp
    rw [this]
    rfl
  | cons t tags ih =>
    intro T qs ht ho hn hp hT
    have ht0 := ht t (by simp)
    obtain ⟨j1, j2, j3⟩ := hj t
    have p1 : Pattern t [.cl t, .op t] := ⟨⟨[], rfl⟩, by simp [OfPattern]⟩
    have p3 : Pattern t [.cl t, .nl, .ch '>', .ch ' ', .op t] := ⟨⟨[.nl, .ch '>', .ch ' '], rfl⟩, by simp [OfPattern]⟩
    have r1 := p1.none hl ht0 ho hn (fun h => j1 (Pad.infix (by simp) (.inl (by simp)) hp (by simp) (by simp) h)) []
    have r2 := replace_join hl ht0 ho hn
    obtain ⟨ho', hn', _⟩ := collapse_ok (t := t) ho hn
    have hp' := hp.collapse j2
    have r3 := p3.none hl ht0 ho' hn' (fun h => j3 (Pad.infix (by simp) (.inl (by simp)) hp' (by simp) (by simp) h)) c!"\n> "
    have e1 : rawText [.cl t, .op t] = (c!"[/" ++ t ++ c!"]") ++ (c!"[" ++ t ++ c!"]") := by simp [rawText, Piece.raw]
    have e2 : rawText [.cl t, .nl, .op t] = (c!"[/" ++ t ++ c!"]") ++ c!"\n" ++ (c!"[" ++ t ++ c!"]") := by simp [rawText, Piece.raw]
    have e3 : rawText [.cl t, .nl, .ch '>', .ch ' ', .op t] = (c!"[/" ++ t ++ c!"]") ++ c!"\n> " ++ (c!"[" ++ t ++ c!"]") := by simp [rawText, Piece.raw]
    rw [e1] at r1
    rw [e2] at r2
    rw [e3] at r3
    rw [Rd.cleanupTags, r1, r2, r3]
    refine ih (fun u hu => ht u (by simp [hu])) ho' hn' hp' ?_
    rintro u ⟨hu1, hu2⟩
    rcases List.mem_cons.1 (hT u hu1) with rfl | h
    · exact absurd rfl hu2
    · exact h

theorem mem_pieceLines {ps : List Piece} {l : List Piece} (hl : l ∈ pieceLines ps) {p : Piece} (hp : p ∈ l) : p ∈ ps := by
  rw [← broken_pieceLines ps]
  revert hl
  generalize pieceLines ps = Ls
  intro hl
  induction Ls with
  | nil => cases hl
  | cons m Ls ih =>
    cases Ls with
    | nil =>
      simp only [List.mem_cons, List.not_mem_nil, or_false] at hl
      subst hl
      exact hp
    | cons m' r =>
      rw [brokenLines_cons]
      rcases List.mem_cons.1 hl with rfl | h
      · simp [hp]
      · simp [ih h]

/-- What the reader makes of the lines: the text. -/
theorem cleanup_spread (hl : ∀ l ∈ ls, LangCode l) {ps : List Piece} (h : Flowing ls ps) {langs : List Str} (h1 : ∀ l ∈ langs, l ∈ ls)
    (h2 : ∀ l, .op (c!"lang=" ++ l) ∈ ps → l ∈ langs) :
    Rd.cleanupTags (c!"i" :: c!"b" :: langs.map (fun l => c!"lang=" ++ l)) (rawText (spreadText ps) ++ c!"\n") = rawText ps ++ c!"\n" := by
  have hN := (spread_nested h).1
  have hf := flowLines_of h.neighbours h.nested h.breaks
  have hp : Pad (fun t => .op t ∈ ps) (spreadText ps) ps := by
    have := spread_pad (T := fun t => .op t ∈ ps) (Ls := pieceLines ps) (st := []) (by simp [Few]) (by simp) (fun l hl t ht => mem_pieceLines hl ht) hf
    rw [if_neg (pieceLines_ne ps), List.map_nil, List.nil_append, broken_pieceLines] at this
    exact this
  refine cleanup_pad hl h.joined ?_ hN.ok hN.neighbours hp ?_
  · intro t ht
    simp only [List.mem_cons, List.mem_map] at ht
    simp only [formats, List.mem_cons, List.mem_map]
    rcases ht with h | h | ⟨l, h, e⟩
    · exact .inl h
    · exact .inr (.inl h)
    · exact .inr (.inr ⟨l, h1 l h, e⟩)
  · intro t ht
    have hk : t ∈ formats ls := h.ok _ ht
    simp only [formats, List.mem_cons, List.mem_map] at hk
    simp only [List.mem_cons, List.mem_map]
    rcases hk with h | h | ⟨l, _, e⟩
    · exact .inl h
    · exact .inr (.inl h)
    · subst e
      exact .inr (.inr ⟨l, h2 l ht, rfl⟩)

theorem Pad.subset {T : Str → Prop} {qs ps : List Piece} (h : Pad T qs ps) : ∀ p ∈ ps, p ∈ qs := by
  induction h with
  | nil => simp
  | same p _ ih =>
    intro x hx
    rcases List.mem_cons.1 hx with rfl | hx
    · simp
    · simp [ih x hx]
  | pad _ _ ih =>
    intro x hx
    rcases List.mem_cons.1 hx with rfl | hx
    · simp
    · simp [ih x hx]

theorem spread_mem {ps : List Piece} (h : Flowing ls ps) {p : Piece} (hp : p ∈ ps) : p ∈ spreadText ps := by
  have hf := flowLines_of h.neighbours h.nested h.breaks
  have := spread_pad (T := fun t => .op t ∈ ps) (Ls := pieceLines ps) (st := []) (by simp [Few]) (by simp) (fun l hl t ht => mem_pieceLines hl ht) hf
  rw [if_neg (pieceLines_ne ps), List.map_nil, List.nil_append, broken_pieceLines] at this
  exact this.subset p hp

theorem pieceLines_cover {ps : List Piece} {p : Piece} (hp : p ∈ ps) (hn : p ≠ .nl) : ∃ l ∈ pieceLines ps, p ∈ l := by
  rw [← broken_pieceLines ps] at hp
  revert hp
  generalize pieceLines ps = Ls
  intro hp
  induction Ls with
  | nil => simp [brokenLines] at hp
  | cons m Ls ih =>
    cases Ls with
    | nil => exact ⟨m, by simp, hp⟩
    | cons m' r =>
      rw [brokenLines_cons] at hp
      rcases List.mem_append.1 hp with h | h
      · exact ⟨m, by simp, h⟩
      · rcases List.mem_cons.1 h with h | h
        · exact absurd h hn
        · obtain ⟨l, h1, h2⟩ := ih h
          exact ⟨l, by simp [h1], h2⟩

end Verif
