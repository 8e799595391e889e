/-
The step that makes quotations (odt_w_formatted.py 166-176), composed from its effects on parts of the document.
-/
import Verif.Lemmas.Markup6

namespace Verif
open Spec Re

/-- Wherever the part `s` stands, replacing makes `s'` from it. -/
def RepOf (p q s s' : Str) : Prop := ∀ r r' k, Rep p q r r' k → ∃ k', Rep p q (s ++ r) (s' ++ r') k'

theorem RepOf.nil (p q : Str) : RepOf p q [] [] := fun _ _ k h => ⟨k, h⟩

theorem RepOf.append {p q a a' b b' : Str} (h1 : RepOf p q a a') (h2 : RepOf p q b b') : RepOf p q (a ++ b) (a' ++ b') := by
  intro r r' k h
  obtain ⟨k1, h⟩ := h2 r r' k h
  obtain ⟨k2, h⟩ := h1 _ _ _ h
  exact ⟨k2, by rw [List.append_assoc, List.append_assoc]; exact h⟩

theorem RepOf.skip {c : Char} {p q a : Str} (h : c ∉ a) : RepOf (c :: p) q a a := fun _ _ k hr => ⟨k, hr.skip h⟩

/-- No occurrence of `p` begins in `s`, whatever follows. -/
def noStart (p : Str) : Str → Bool
  | [] => true
  | c :: s => !(p.isPrefixOf (c :: s)) && !((c :: s).isPrefixOf p) && noStart p s

theorem noStart_prefix {p : Str} {c : Char} {s : Str} (h : noStart p (c :: s) = true) (r : Str) : ¬ p <+: c :: (s ++ r) := by
  simp only [noStart, Bool.and_eq_true, Bool.not_eq_true'] at h
  intro hp
  have h2 : c :: s <+: c :: (s ++ r) := ⟨r, by simp⟩
  rcases List.prefix_or_prefix_of_prefix hp h2 with h3 | h3
  · rw [List.isPrefixOf_iff_prefix.2 h3] at h
    exact absurd h.1.1 (by simp)
  · rw [List.isPrefixOf_iff_prefix.2 h3] at h
    exact absurd h.1.2 (by simp)

theorem RepOf.lit {p q s : Str} (h : noStart p s = true) : RepOf p q s s := by
  intro r r' k hr
  refine ⟨k, ?_⟩
  induction s with
  | nil => exact hr
  | cons c s ih =>
    refine .miss (noStart_prefix h r) (ih ?_)
    simp only [noStart, Bool.and_eq_true] at h
    exact h.2

/-- No occurrence of `p` begins in `s`. -/
def NoOcc (p s : Str) : Prop := ∀ r, ¬ p <:+: r → ¬ p <:+: s ++ r

theorem NoOcc.nil (p : Str) : NoOcc p [] := fun _ h => h

theorem NoOcc.append {p a b : Str} (h1 : NoOcc p a) (h2 : NoOcc p b) : NoOcc p (a ++ b) := by
  intro r h
  rw [List.append_assoc]
  exact h1 _ (h2 _ h)

theorem NoOcc.skip {c : Char} {p a : Str} (h : c ∉ a) : NoOcc (c :: p) a := by
  intro r hr
  induction a with
  | nil => exact hr
  | cons d a ih =>
    rw [List.cons_append, List.infix_cons_iff]
    rintro (⟨z, hz⟩ | hi)
    · simp only [List.cons_append, List.cons.injEq] at hz
      exact h (by simp [hz.1])
    · exact ih (fun hm => h (by simp [hm])) hi

theorem NoOcc.lit {p s : Str} (h : noStart p s = true) : NoOcc p s := by
  intro r hr
  induction s with
  | nil => exact hr
  | cons c s ih =>
    rw [List.cons_append, List.infix_cons_iff]
    rintro (hp | hi)
    · exact noStart_prefix h r hp
    · simp only [noStart, Bool.and_eq_true] at h
      exact ih h.2 hi

/-- A paragraph with a quotation mark. -/
def quotInd : Str := c!"\"First_20_line_20_indent\">&gt; "
/-- See `quotInd`. -/
def quotBody : Str := c!"\"Text_20_body\">&gt; "
/-- What is written instead. -/
def quotOut : Str := c!"\"Quotations\">"
/-- A quotation mark after a comment. -/
def quotNote : Str := c!"</office:annotation>&gt; "

/-- The effect of the whole step on a part of the document, which has no carriage returns afterwards. -/
def Quot (s s' : Str) : Prop := (∃ m, RepOf quotInd quotOut s m ∧ RepOf quotBody quotOut m s') ∧ NoOcc quotNote s' ∧ '\r' ∉ s'

theorem Quot.nil : Quot [] [] := ⟨⟨[], RepOf.nil _ _, RepOf.nil _ _⟩, NoOcc.nil _, by simp⟩

theorem Quot.append {a a' b b' : Str} (h1 : Quot a a') (h2 : Quot b b') : Quot (a ++ b) (a' ++ b') := by
  obtain ⟨⟨m1, h11, h12⟩, h13, h14⟩ := h1
  obtain ⟨⟨m2, h21, h22⟩, h23, h24⟩ := h2
  refine ⟨⟨m1 ++ m2, h11.append h21, h12.append h22⟩, h13.append h23, ?_⟩
  simp only [List.mem_append, not_or]
  exact ⟨h14, h24⟩

/-- Text without markup. -/
theorem Quot.text {s : Str} (h1 : '"' ∉ s) (h2 : '<' ∉ s) (h3 : '\r' ∉ s) : Quot s s :=
  ⟨⟨s, RepOf.skip h1, RepOf.skip h1⟩, NoOcc.skip h2, h3⟩

/-- The check for literal parts. -/
def quotLit (s : Str) : Bool := noStart quotInd s && noStart quotBody s && noStart quotNote s && !(decide ('\r' ∈ s))

theorem Quot.lit {s : Str} (h : quotLit s = true) : Quot s s := by
  simp only [quotLit, Bool.and_eq_true, Bool.not_eq_true', decide_eq_false_iff_not] at h
  exact ⟨⟨s, RepOf.lit h.1.1.1, RepOf.lit h.1.1.2⟩, NoOcc.lit h.1.2, h.2⟩

theorem lazyTo_infix {close s : Str} {k : Nat} (h : lazyTo close s = some k) : close <:+: s := by
  induction s generalizing k with
  | nil =>
    unfold lazyTo at h
    split at h
    · rename_i e; rw [e]; exact List.infix_refl _
    · cases h
  | cons c s ih =>
    unfold lazyTo at h
    split at h
    · rename_i e
      exact (List.isPrefixOf_iff_prefix.1 e).isInfix
    split at h
    · cases h
    · cases hl : lazyTo close s with
      | none => rw [hl] at h; cases h
      | some j => exact (ih hl).trans (List.infix_cons (List.infix_refl _))

theorem between1_none {op close s : Str} (h : ¬ close <:+: s) (b : Bool) : between1 op close b s = none := by
  unfold between1
  split
  · cases hd : s.drop op.length with
    | nil => rfl
    | cons c cs =>
      simp only
      split
      · rfl
      · cases hl : lazyTo close cs with
        | none => rfl
        | some k =>
          refine absurd ((lazyTo_infix hl).trans ?_) h
          have : cs <:+ s := (List.suffix_cons c cs).trans (by rw [← hd]; exact List.drop_suffix _ _)
          exact this.isInfix
  · rfl

theorem subStGo_none {σ : Type} {m : Matcher} {f : σ → Str → σ × Str} {st : σ} {s : Str} (h : ∀ b t, t <:+ s → m b t = none) (b : Bool) :
    subStGo m f st b 0 s = s := by
  induction s generalizing b with
  | nil => rfl
  | cons c s ih =>
    have h1 := h b (c :: s) (List.suffix_refl _)
    unfold subStGo
    rw [h1]
    simp only
    rw [ih (fun b t ht => h b t (ht.trans (List.suffix_cons c s)))]

/-- The step for the whole document. -/
theorem quotations_eq {s s' : Str} (h : Quot s s') : quotations s = s' := by
  obtain ⟨⟨m, h1, h2⟩, h3, _⟩ := h
  obtain ⟨k1, r1⟩ := h1 [] [] 0 .nil
  obtain ⟨k2, r2⟩ := h2 [] [] 0 .nil
  simp only [List.append_nil] at r1 r2
  have e1 : Str.replace s quotInd quotOut = m := r1.replace (by decide)
  have e2 : Str.replace m quotBody quotOut = s' := r2.replace (by decide)
  have hn : ¬ quotNote <:+: s' := by
    have := h3 [] (by decide)
    simpa using this
  unfold quotations
  split
  · show subSt (σ := Unit) (between1 _ quotNote) _ () (Str.replace (Str.replace s quotInd quotOut) quotBody quotOut) = s'
    rw [e1, e2]
    refine subStGo_none ?_ true
    intro b t ht
    exact between1_none (fun hi => hn (hi.trans ht.isInfix)) b
  · rename_i hc
    have hc : ¬ c!"&gt; " <:+: s := fun hi => hc ((contains_iff _ _).2 hi)
    have i1 : c!"&gt; " <:+: quotInd := ⟨c!"\"First_20_line_20_indent\">", [], rfl⟩
    have i2 : c!"&gt; " <:+: quotBody := ⟨c!"\"Text_20_body\">", [], rfl⟩
    have e3 : Str.replace s quotInd quotOut = s := Str.replace_of_not_contains ((contains_false_iff _ _).2 (fun h => hc (i1.trans h)))
    have e4 : Str.replace s quotBody quotOut = s := Str.replace_of_not_contains ((contains_false_iff _ _).2 (fun h => hc (i2.trans h)))
    rw [← e2, ← e1, e3, e4]

end Verif
