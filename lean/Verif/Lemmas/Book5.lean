/-
The line breaks of the exported document come back (C56): the substitutes for line breaks do not occur in the text.
-/
import Verif.Lemmas.Book4

namespace Verif.Book
open Spec Re

variable {ls : List Str} {author : Option Str}

/-- An occurrence that ends with a character it does not contain. -/
theorem NoBegin.stop {p s : Str} {x : Char} (h : ¬ p <:+: s) (hx : x ∉ p) (hp : p ≠ []) : NoBegin p (s ++ [x]) := by
  intro a b e hb r hpre
  have hbx : ∃ b', b = b' ++ [x] := by
    have hlast : b.getLast? = some x := by
      have : (a ++ b).getLast? = some x := by rw [← e]; simp
      rw [List.getLast?_append] at this
      cases hl : b.getLast? with
      | none => exact absurd (List.getLast?_eq_none_iff.1 hl) hb
      | some y => rw [hl] at this; simpa using this
    obtain ⟨b', hb'⟩ := List.getLast?_eq_some_iff.1 hlast
    exact ⟨b', hb'⟩
  obtain ⟨b', rfl⟩ := hbx
  have hs : s = a ++ b' := by
    rw [← List.append_assoc] at e
    exact (List.append_inj' e rfl).1
  rcases List.prefix_or_prefix_of_prefix hpre ⟨[x] ++ r, (List.append_assoc _ _ _).symm⟩ with h1 | h1
  · obtain ⟨w, hw⟩ := h1
    exact h ⟨a, w, by rw [hs, ← hw, List.append_assoc]⟩
  · obtain ⟨w, hw⟩ := h1
    rw [← hw, List.append_assoc] at hpre
    rw [List.prefix_append_right_inj] at hpre
    cases w with
    | nil => rw [List.append_nil] at hw; exact h ⟨a, [], by rw [hs, hw]; simp⟩
    | cons y w =>
      obtain ⟨z, hz⟩ := hpre
      injection hz with hz _
      exact hx (by rw [← hw, hz]; simp)

theorem NoBegin.mono {p a b : Str} (h : NoBegin p (a ++ b)) : NoBegin p b := fun x y e hy r => h (a ++ x) y (by rw [e]; simp) hy r

/-- A character at which no occurrence begins. -/
theorem NoBegin.cons {p s : Str} {c : Char} (h : ∀ r, ¬ p <+: c :: (s ++ r)) (hs : NoBegin p s) : NoBegin p (c :: s) := by
  intro a b e hb r
  cases a with
  | nil =>
    rw [List.nil_append] at e
    subst e
    exact h r
  | cons d a =>
    injection e with _ e
    exact hs a b e hb r

/-! ### Back to line breaks -/

/-- The first way back. -/
def back1 (s : Str) : Str := Str.replaceGo c!"@r@" c!"\r" 0 s
/-- The second way back. -/
def back2 (s : Str) : Str := Str.replaceGo c!"@n@" c!"\n" 0 s

theorem back_miss {p q : Str} {c : Char} {s : Str} (h : ¬ p <+: c :: s) : Str.replaceGo p q 0 (c :: s) = c :: Str.replaceGo p q 0 s := by
  unfold Str.replaceGo
  rw [if_neg (fun hp => h (List.isPrefixOf_iff_prefix.1 hp))]
  cases s <;> rfl

theorem back_calm {p q s : Str} (h : NoBegin p s) (r : Str) : Str.replaceGo p q 0 (s ++ r) = s ++ Str.replaceGo p q 0 r := by
  induction s with
  | nil => rfl
  | cons c s ih =>
    have h0 : ¬ p <+: c :: (s ++ r) := h [] (c :: s) rfl (by simp) r
    rw [List.cons_append, back_miss h0, ih h.tail]
    rfl

/-- The line breaks of a part of the document come back. -/
structure Back (s : Str) : Prop where
  head : s.head? ≠ some 'r'
  first : ∀ r, r.head? ≠ some 'r' → back1 (nlE s ++ r) = nlE s ++ back1 r
  second : ∀ r, back2 (nlE s ++ r) = s ++ back2 r

theorem Back.nil : Back [] := ⟨by simp, fun _ _ => rfl, fun _ => rfl⟩

theorem nlE_head {s r : Str} (hs : s.head? ≠ some 'r') (hr : r.head? ≠ some 'r') : (nlE s ++ r).head? ≠ some 'r' := by
  cases s with
  | nil => exact hr
  | cons c s =>
    unfold nlE
    rw [List.flatMap_cons]
    split
    · simp
    · exact hs

theorem Back.append {a b : Str} (h1 : Back a) (h2 : Back b) : Back (a ++ b) := by
  refine ⟨?_, ?_, ?_⟩
  · cases a with
    | nil => exact h2.head
    | cons c a => exact h1.head
  · intro r hr
    rw [nlE_append, List.append_assoc, h1.first _ (nlE_head h2.head hr), h2.first _ hr, List.append_assoc]
  · intro r
    rw [nlE_append, List.append_assoc, h1.second, h2.second, List.append_assoc]

/-- Parts without line breaks. -/
theorem Back.inline {s : Str} (hh : s.head? ≠ some 'r') (hn : '\n' ∉ s) (h1 : NoBegin c!"@r@" s) (h2 : NoBegin c!"@n@" s) : Back s := by
  refine ⟨hh, ?_, ?_⟩
  · intro r _
    rw [nlE_id hn]
    exact back_calm h1 r
  · intro r
    rw [nlE_id hn]
    exact back_calm h2 r

theorem back_lit {s : Str} (ha : '@' ∉ s) (hr : ¬ c!"\nr" <:+: s) :
    (∀ r, r.head? ≠ some 'r' → back1 (nlE s ++ r) = nlE s ++ back1 r) ∧ ∀ r, back2 (nlE s ++ r) = s ++ back2 r := by
  induction s with
  | nil => exact ⟨fun _ _ => rfl, fun _ => rfl⟩
  | cons c s ih =>
    obtain ⟨ih1, ih2⟩ := ih (fun hm => ha (by simp [hm])) (fun hi => hr (hi.trans (List.suffix_cons _ _).isInfix))
    by_cases hc : c = '\n'
    · subst hc
      have hs : s.head? ≠ some 'r' := by
        cases s with
        | nil => simp
        | cons d s =>
          intro h
          injection h with h
          have h : d = 'r' := h
          subst h
          exact hr ⟨[], s, rfl⟩
      constructor
      · intro r hr
        show back1 ('@' :: 'n' :: '@' :: (nlE s ++ r)) = '@' :: 'n' :: '@' :: (nlE s ++ back1 r)
        rw [← ih1 r hr]
        unfold back1
        rw [back_miss, back_miss, back_miss]
        · rintro ⟨w, hw⟩
          injection hw with _ hw
          exact nlE_head hs hr (by rw [← hw]; rfl)
        · rintro ⟨w, hw⟩
          injection hw with hw _
          exact absurd hw (by decide)
        · rintro ⟨w, hw⟩
          injection hw with _ hw
          injection hw with hw _
          exact absurd hw (by decide)
      · intro r
        show back2 ('@' :: 'n' :: '@' :: (nlE s ++ r)) = '\n' :: (s ++ back2 r)
        rw [← ih2 r]
        show Str.replaceGo c!"@n@" c!"\n" 0 (c!"@n@" ++ (nlE s ++ r)) = _
        rw [Str.replaceGo_match (by decide)]
        rfl
    · have e : nlE (c :: s) = c :: nlE s := by unfold nlE; rw [List.flatMap_cons, if_neg hc]; rfl
      have hca : c ≠ '@' := fun e => ha (by simp [e])
      have go : ∀ {p : Str} {r : Str}, ¬ '@' :: p <+: c :: r := by
        rintro p r ⟨w, hw⟩
        injection hw with hw _
        exact hca hw.symm
      rw [e]
      constructor
      · intro r hr'
        have := ih1 r hr'
        unfold back1 at *
        rw [List.cons_append, back_miss go, this]
        rfl
      · intro r
        have := ih2 r
        unfold back2 at *
        rw [List.cons_append, back_miss go, this]
        rfl

/-- Parts without the letter the substitutes begin with. -/
theorem Back.lit {s : Str} (hh : s.head? ≠ some 'r') (ha : '@' ∉ s) (hr : ¬ c!"\nr" <:+: s) : Back s := ⟨hh, (back_lit ha hr).1, (back_lit ha hr).2⟩

/-- The whole document. -/
theorem convertNotes_noted {k : Nat} {s s' : Str} (h : Noted author 0 s s' k) (hb : Back s') (hcr : '\r' ∉ s) (hs : ¬ c!"/*" <+: s) : convertNotes author s = s' := by
  obtain ⟨⟨m, h1, h2⟩, h3⟩ := h
  unfold convertNotes
  by_cases hc : Str.contains s c!"/*" = true
  · rw [if_pos ⟨hc, by
      rw [Bool.not_eq_true', Bool.eq_false_iff]
      intro hp
      exact hs (List.isPrefixOf_iff_prefix.1 hp)⟩]
    simp only
    have e0 : Str.replace s c!"\r" c!"@r@" = s := by
      rw [replace_single]
      clear h1 h2 h3 hb hs hc
      induction s with
      | nil => rfl
      | cons c s ih =>
        rw [List.flatMap_cons, if_neg (fun e => hcr (by simp [e])), ih (fun hm => hcr (by simp [hm]))]
        rfl
    rw [e0, nlE_replace]
    have e1 := h1 []
    rw [List.append_nil] at e1
    have e2 := h2 []
    rw [List.append_nil] at e2
    have g1 : subSt (fun _ s => (noteMatch s).map (·.1)) replaceNote (0, 0) (nlE s) = m := by
      refine Eq.trans ?_ (e1.trans ?_)
      · rfl
      · show m ++ go1 (k, k) [] = m
        show m ++ [] = m
        simp
    have g2 : subSt (σ := Unit) (between0 c!"/*" c!"*/") (fun _ m => ((), c!"<office:annotation><dc:creator>" ++ pyStr author ++ c!"</dc:creator><text:p>" ++
        (m.drop 2).take (m.length - 4) ++ c!"</text:p></office:annotation>")) () m = nlE s' := by
      refine Eq.trans ?_ (e2.trans ?_)
      · rfl
      · show nlE s' ++ [] = nlE s'
        simp
    rw [g1, g2]
    have f1 := hb.first [] (by simp)
    have f2 := hb.second []
    rw [List.append_nil] at f1 f2
    have f1' : Str.replace (nlE s') c!"@r@" c!"\r" = nlE s' := by
      refine Eq.trans f1 ?_
      show nlE s' ++ [] = _
      simp
    have f2' : Str.replace (nlE s') c!"@n@" c!"\n" = s' := by
      refine Eq.trans f2 ?_
      show s' ++ [] = _
      simp
    rw [f1', f2']
  · rw [if_neg (fun hh => hc hh.1)]
    have hni : ¬ c!"/*" <:+: s := by
      intro hi
      refine hc ?_
      exact (contains_iff _ _).2 hi
    exact (h3 hni).symm

end Verif.Book
