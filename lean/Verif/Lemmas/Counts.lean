import Verif.Model.Novel
import Verif.Lemmas.Str
import Verif.Lemmas.Escape

namespace Verif
open Re

/-- A matcher that neither looks beyond nor matches across a newline. -/
structure LineLocal (m : Matcher) : Prop where
  loc : ∀ b s t, s ≠ [] → m b (s ++ '\n' :: t) = m b s
  bound : ∀ b s k, m b s = some k → k ≤ s.length

theorem isPrefixOf_append_newline {p s t : Str} (hp : '\n' ∉ p) :
    p.isPrefixOf (s ++ '\n' :: t) = p.isPrefixOf s := by
  induction p generalizing s with
  | nil => simp [List.isPrefixOf]
  | cons a as ih =>
    cases s with
    | nil =>
      have : a ≠ '\n' := fun e => hp (by simp [e])
      simp [List.isPrefixOf, this]
    | cons c cs =>
      simp only [List.cons_append, List.isPrefixOf]
      rw [ih (fun h => hp (by simp [h]))]

theorem length_le_of_isPrefixOf {p s : Str} (h : p.isPrefixOf s = true) : p.length ≤ s.length :=
  (List.isPrefixOf_iff_prefix.1 h).length_le

theorem lineLocal_lit (p : Str) (hp : '\n' ∉ p) : LineLocal (lit p) where
  loc b s t _ := by simp only [lit, isPrefixOf_append_newline hp]
  bound b s k h := by
    simp only [lit] at h
    split at h
    · rename_i hp; simp at h; rw [← h]; exact length_le_of_isPrefixOf hp
    · simp at h

/-- Matching a single newline is line-local, too: it consumes just the newline. -/
theorem lineLocal_newline : LineLocal (lit c!"\n") where
  loc b s t hs := by
    cases s with
    | nil => exact absurd rfl hs
    | cons c cs => simp [lit, List.isPrefixOf]
  bound b s k h := by
    simp only [lit] at h
    split at h
    · rename_i hp; simp at h; rw [← h]; exact length_le_of_isPrefixOf hp
    · simp at h

theorem lineLocal_alt {a b : Matcher} (ha : LineLocal a) (hb : LineLocal b) : LineLocal (alt a b) where
  loc c s t hs := by simp only [alt, ha.loc c s t hs, hb.loc c s t hs]
  bound c s k h := by
    simp only [alt] at h
    cases h1 : a c s with
    | none => rw [h1] at h; exact hb.bound c s k (by simpa using h)
    | some j => rw [h1] at h; simp at h; exact h ▸ ha.bound c s j h1

theorem lineLocal_bolLit (p : Str) (hp : '\n' ∉ p) : LineLocal (bolLit p) where
  loc b s t hs := by
    simp only [bolLit]; split
    · exact (lineLocal_lit p hp).loc b s t hs
    · rfl
  bound b s k h := by
    simp only [bolLit] at h
    split at h
    · exact (lineLocal_lit p hp).bound b s k h
    · simp at h

theorem lazyTo_loc {close : Str} (hc : '\n' ∉ close) (hne : close ≠ []) (s t : Str) :
    lazyTo close (s ++ '\n' :: t) = lazyTo close s := by
  induction s with
  | nil =>
    simp only [List.nil_append, lazyTo, hne, if_false]
    have : close.isPrefixOf ('\n' :: t) = false := by
      have h := isPrefixOf_append_newline (s := []) (t := t) hc
      simp only [List.nil_append] at h
      rw [h]
      cases close with
      | nil => exact absurd rfl hne
      | cons a as => rfl
    simp [this]
  | cons c cs ih =>
    simp only [List.cons_append, lazyTo]
    have h := isPrefixOf_append_newline (s := c :: cs) (t := t) hc
    simp only [List.cons_append] at h
    rw [h, ih]

theorem lazyTo_bound {close : Str} (s : Str) (k : Nat) (h : lazyTo close s = some k) :
    k ≤ s.length := by
  induction s generalizing k with
  | nil =>
    simp only [lazyTo] at h
    split at h
    · simp at h; simp [← h]
    · simp at h
  | cons c cs ih =>
    simp only [lazyTo] at h
    split at h
    · rename_i hp; simp at h; rw [← h]; exact length_le_of_isPrefixOf hp
    · split at h
      · simp at h
      · cases hl : lazyTo close cs with
        | none => rw [hl] at h; simp at h
        | some j =>
          rw [hl] at h; simp at h
          have := ih j hl
          simp; omega

theorem lineLocal_between1 (op close : Str) (ho : '\n' ∉ op) (hc : '\n' ∉ close) (hne : close ≠ []) :
    LineLocal (between1 op close) where
  loc b s t hs := by
    simp only [between1, isPrefixOf_append_newline ho]
    split
    · rename_i hp
      have hl := length_le_of_isPrefixOf hp
      rw [List.drop_append_of_le_length hl]
      cases hd : s.drop op.length with
      | nil => simp
      | cons c cs =>
        simp only [List.cons_append]
        rw [lazyTo_loc hc hne]
    · rfl
  bound b s k h := by
    simp only [between1] at h
    split at h
    · rename_i hp
      have hl := length_le_of_isPrefixOf hp
      cases hd : s.drop op.length with
      | nil => rw [hd] at h; simp at h
      | cons c cs =>
        rw [hd] at h
        simp only at h
        split at h
        · simp at h
        · cases hz : lazyTo close cs with
          | none => rw [hz] at h; simp at h
          | some j =>
            rw [hz] at h; simp at h
            have := lazyTo_bound cs j hz
            have h2 := congrArg List.length hd
            simp at h2
            omega
    · simp at h

theorem lineLocal_between0 (op close : Str) (ho : '\n' ∉ op) (hc : '\n' ∉ close) (hne : close ≠ []) :
    LineLocal (between0 op close) where
  loc b s t hs := by
    simp only [between0, isPrefixOf_append_newline ho]
    split
    · rename_i hp
      have hl := length_le_of_isPrefixOf hp
      rw [List.drop_append_of_le_length hl, lazyTo_loc hc hne]
    · rfl
  bound b s k h := by
    simp only [between0] at h
    split at h
    · rename_i hp
      have hl := length_le_of_isPrefixOf hp
      cases hz : lazyTo close (s.drop op.length) with
      | none => rw [hz] at h; simp at h
      | some j =>
        rw [hz] at h; simp at h
        have := lazyTo_bound _ j hz
        simp at this
        omega
    · simp at h

/-- Substitution before and after a newline are independent. -/
theorem subGo_newline {m : Matcher} (hm : LineLocal m) (rep : Str) (piece : Str)
    (hn : ∀ b t, subGo m rep b 0 ('\n' :: t) = piece ++ subGo m rep true 0 t) (s t : Str) :
    ∀ b n, n ≤ s.length →
      subGo m rep b n (s ++ '\n' :: t) = subGo m rep b n s ++ (piece ++ subGo m rep true 0 t) := by
  induction s with
  | nil =>
    intro b n h
    have : n = 0 := by simpa using h
    subst this
    simp only [List.nil_append]
    rw [hn]
    simp [subGo]
  | cons c cs ih =>
    intro b n h
    cases n with
    | succ n =>
      simp only [List.cons_append, subGo]
      exact ih _ n (by simpa using h)
    | zero =>
      simp only [List.cons_append, subGo]
      have hl := hm.loc b (c :: cs) t (by simp)
      simp only [List.cons_append] at hl
      rw [hl]
      cases hk : m b (c :: cs) with
      | none => simp only; rw [ih _ 0 (by simp)]; rfl
      | some k =>
        cases k with
        | zero => simp only; rw [ih _ 0 (by simp)]; rfl
        | succ k =>
          have := hm.bound b (c :: cs) (k + 1) hk
          simp only
          rw [ih _ k (by simpa using this), List.append_assoc]

theorem sub_newline {m : Matcher} (hm : LineLocal m) (rep piece : Str)
    (hn : ∀ b t, subGo m rep b 0 ('\n' :: t) = piece ++ subGo m rep true 0 t) (s t : Str) :
    sub m rep (s ++ '\n' :: t) = sub m rep s ++ (piece ++ sub m rep t) :=
  subGo_newline hm rep piece hn s t true 0 (by simp)

theorem lineLocal_additional : LineLocal additionalWordLimits :=
  lineLocal_alt (lineLocal_lit _ (by decide))
    (lineLocal_alt (lineLocal_lit _ (by decide)) (lineLocal_lit _ (by decide)))

theorem lineLocal_noWord : LineLocal noWordLimits :=
  lineLocal_alt (lineLocal_between1 _ _ (by decide) (by decide) (by decide))
    (lineLocal_alt (lineLocal_between1 _ _ (by decide) (by decide) (by decide))
      (lineLocal_alt (lineLocal_lit _ (by decide)) (lineLocal_bolLit _ (by decide))))

theorem lineLocal_nonLetters : LineLocal nonLetters :=
  lineLocal_alt (lineLocal_between1 _ _ (by decide) (by decide) (by decide))
    (lineLocal_alt (lineLocal_between1 _ _ (by decide) (by decide) (by decide))
      (lineLocal_alt lineLocal_newline (lineLocal_lit _ (by decide))))

theorem sub_additional_newline (s t : Str) :
    sub additionalWordLimits c!" " (s ++ '\n' :: t)
      = sub additionalWordLimits c!" " s ++ '\n' :: sub additionalWordLimits c!" " t := by
  have := sub_newline lineLocal_additional c!" " c!"\n" (by
    intro b t
    have : additionalWordLimits b ('\n' :: t) = none := by
      simp [additionalWordLimits, alt, lit, List.isPrefixOf]
    simp [subGo, this]) s t
  simpa using this

theorem sub_noWord_newline (s t : Str) :
    sub noWordLimits [] (s ++ '\n' :: t) = sub noWordLimits [] s ++ '\n' :: sub noWordLimits [] t := by
  have := sub_newline lineLocal_noWord [] c!"\n" (by
    intro b t
    have : noWordLimits b ('\n' :: t) = none := by
      simp [noWordLimits, alt, lit, bolLit, between1, List.isPrefixOf]
    simp [subGo, this]) s t
  simpa using this

theorem sub_nonLetters_newline (s t : Str) :
    sub nonLetters [] (s ++ '\n' :: t) = sub nonLetters [] s ++ sub nonLetters [] t := by
  have := sub_newline lineLocal_nonLetters [] [] (by
    intro b t
    have : nonLetters b ('\n' :: t) = some 1 := by
      simp [nonLetters, alt, lit, between1, List.isPrefixOf]
    simp [subGo, this]) s t
  simpa using this

theorem wordsGo_newline (s t cur : Str) :
    Str.wordsGo cur (s ++ '\n' :: t) = Str.wordsGo cur s ++ Str.wordsGo [] t := by
  induction s generalizing cur with
  | nil =>
    simp only [List.nil_append, Str.wordsGo, show Str.isWs '\n' = true by decide, if_true]
    split <;> simp
  | cons c cs ih =>
    simp only [List.cons_append, Str.wordsGo]
    split
    · split
      · exact ih []
      · rw [ih []]; rfl
    · exact ih _

theorem words_newline (s t : Str) :
    Str.words (s ++ '\n' :: t) = Str.words s ++ Str.words t := wordsGo_newline s t []

theorem subGo_nil_length (m : Matcher) (s : Str) : ∀ b n,
    (subGo m [] b n s).length ≤ s.length := by
  induction s with
  | nil => intro b n; cases n <;> simp [subGo]
  | cons c cs ih =>
    intro b n
    cases n with
    | succ n => simp only [subGo, List.length_cons]; have := ih (c = '\n') n; omega
    | zero =>
      simp only [subGo]
      cases m b (c :: cs) with
      | none => simpa using ih _ 0
      | some k =>
        cases k with
        | zero => simpa using ih _ 0
        | succ k => simp only [List.nil_append, List.length_cons]; have := ih (c = '\n') k; omega

theorem subGo_skip (m : Matcher) (rep : Str) (s : Str) : ∀ b n, 0 < n → n ≤ s.length →
    ∃ b', subGo m rep b n s = subGo m rep b' 0 (s.drop n) := by
  induction s with
  | nil => intro b n h1 h2; simp at h2; omega
  | cons c cs ih =>
    intro b n h1 h2
    cases n with
    | zero => omega
    | succ n =>
      simp only [subGo, List.drop_succ_cons]
      by_cases h0 : n = 0
      · subst h0; exact ⟨_, rfl⟩
      · exact ih _ n (by omega) (by simpa using h2)

theorem nonLetters_bol (b b' : Bool) (s : Str) : nonLetters b s = nonLetters b' s := rfl

theorem subGo_nonLetters_bol (rep : Str) (s : Str) : ∀ b b' n,
    subGo nonLetters rep b n s = subGo nonLetters rep b' n s := by
  induction s with
  | nil => intro b b' n; cases n <;> rfl
  | cons c cs ih =>
    intro b b' n
    cases n with
    | succ n => rfl
    | zero => simp only [subGo]; rw [nonLetters_bol b b']

/-- A prefix without markup starters is passed through literally, apart from line breaks. -/
theorem sub_nonLetters_plain (a s : Str)
    (ha : ∀ c ∈ a, c ≠ '[' ∧ c ≠ '/') :
    sub nonLetters [] (a ++ s) = a.filter (fun c => c ≠ '\n' && c ≠ '\r') ++ sub nonLetters [] s := by
  induction a with
  | nil => simp
  | cons c cs ih =>
    have hc := ha c (by simp)
    have ih := ih (fun d hd => ha d (by simp [hd]))
    simp only [sub, List.cons_append] at ih ⊢
    simp only [subGo]
    have key : nonLetters true (c :: (cs ++ s))
        = if c = '\n' ∨ c = '\r' then some 1 else none := by
      simp only [nonLetters, alt, lit, between1, List.isPrefixOf]
      have h1 : ('[' == c) = false := by simpa using Ne.symm hc.1
      have h2 : ('/' == c) = false := by simpa using Ne.symm hc.2
      simp only [h1, h2, Bool.false_and, Bool.false_eq_true, if_false, Option.none_or,
        List.length_singleton]
      by_cases h3 : c = '\n'
      · subst h3; simp
      · by_cases h4 : c = '\r'
        · subst h4; simp
        · simp [h3, h4, Ne.symm h3, Ne.symm h4]
    rw [key, subGo_nonLetters_bol [] (cs ++ s) _ true, ih]
    by_cases h : c = '\n' ∨ c = '\r'
    · rw [if_pos h]
      rcases h with rfl | rfl
      · simpa using ih
      · have := subGo_nonLetters_bol [] (cs ++ s) false true 0
        rw [ih] at this
        simpa using this
    · rw [if_neg h]
      simp only [not_or] at h
      simp [h.1, h.2]

/-- Consuming a whole match. -/
theorem sub_nonLetters_match (mtch s : Str) (k : Nat) (hk : mtch.length = k + 1)
    (hm : nonLetters true (mtch ++ s) = some (k + 1)) :
    sub nonLetters [] (mtch ++ s) = sub nonLetters [] s := by
  cases mtch with
  | nil => simp at hk
  | cons c cs =>
    simp only [List.cons_append] at hm
    simp only [sub, List.cons_append, subGo, hm, List.nil_append]
    have hl : cs.length = k := by simpa using hk
    cases k with
    | zero =>
      have : cs = [] := List.length_eq_zero_iff.1 hl
      subst this
      exact subGo_nonLetters_bol _ _ _ _ _
    | succ k =>
      obtain ⟨b', hb⟩ := subGo_skip nonLetters [] (cs ++ s) (c = '\n') (k + 1) (by omega) (by simp; omega)
      rw [hb, subGo_nonLetters_bol [] _ b' true]
      have : (cs ++ s).drop (k + 1) = s := by rw [← hl]; simp
      rw [this]

/-- `lazyTo` finds the first occurrence of `close`. -/
theorem lazyTo_first (close x s : Str) (hne : close ≠ []) (hx : '\n' ∉ x)
    (hfree : ¬ close <:+: (x ++ close.dropLast)) :
    lazyTo close (x ++ close ++ s) = some (x.length + close.length) := by
  induction x with
  | nil =>
    cases close with
    | nil => exact absurd rfl hne
    | cons a as =>
      have : (a :: as).isPrefixOf (a :: (as ++ s)) = true := by
        rw [List.isPrefixOf_iff_prefix]; exact ⟨s, by simp⟩
      simp only [List.nil_append, List.cons_append, lazyTo, this, if_true, List.length_nil,
        Nat.zero_add]
  | cons c cs ih =>
    have hp : close.isPrefixOf (c :: (cs ++ close ++ s)) = false := by
      rw [Bool.eq_false_iff, ne_eq, List.isPrefixOf_iff_prefix]
      intro hp
      apply hfree
      have : close <+: (c :: cs ++ close.dropLast) := by
        refine List.prefix_of_prefix_length_le hp ?_ (by simp; omega)
        refine ⟨[close.getLast hne] ++ s, ?_⟩
        have e : close.dropLast ++ [close.getLast hne] = close := List.dropLast_concat_getLast hne
        calc (c :: cs ++ close.dropLast) ++ ([close.getLast hne] ++ s)
            = c :: (cs ++ (close.dropLast ++ [close.getLast hne]) ++ s) := by simp
          _ = _ := by rw [e]
      exact this.isInfix
    simp only [List.cons_append, List.append_assoc] at hp ⊢
    simp only [lazyTo, hp]
    have hc : c ≠ '\n' := fun e => hx (by simp [e])
    simp only [hc, if_false, Bool.false_eq_true]
    have := ih (fun h => hx (by simp [h])) (Str.FreeOf.tail (sep := close) hfree)
    rw [List.append_assoc] at this
    rw [this]
    simp; omega

end Verif
