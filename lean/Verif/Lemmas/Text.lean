/-
Lemmas about `replace`, `in`, the serialised tree and the postprocessing, by chunks of markup and text.
-/
import Verif.Model.Yw7Text
import Verif.Lemmas.Str
import Verif.Lemmas.Escape

namespace Verif
open Elem

namespace Str

theorem replaceGo_of_not_mem {c : Char} {old new a b : Str} (h : c ∉ a) :
    replaceGo (c :: old) new 0 (a ++ b) = a ++ replaceGo (c :: old) new 0 b := by
  induction a with
  | nil => rfl
  | cons d a ih =>
    have hd : d ≠ c := fun e => h (by simp [e])
    have hp : (c :: old).isPrefixOf (d :: (a ++ b)) = false := by
      simp [List.isPrefixOf, hd.symm]
    simp only [List.cons_append, replaceGo, hp, Bool.false_eq_true, if_false]
    rw [ih (fun hh => h (by simp [hh]))]

theorem replaceGo_skip (old new : Str) (a b : Str) : replaceGo old new a.length (a ++ b) = replaceGo old new 0 b := by
  induction a with
  | nil => rfl
  | cons c a ih => simp only [List.length_cons, List.cons_append, replaceGo]; exact ih

theorem replaceGo_match {old new : Str} (ho : old ≠ []) (b : Str) :
    replaceGo old new 0 (old ++ b) = new ++ replaceGo old new 0 b := by
  cases old with
  | nil => exact absurd rfl ho
  | cons c old =>
    have hp : (c :: old).isPrefixOf ((c :: old) ++ b) = true := by
      rw [List.isPrefixOf_iff_prefix]; exact List.prefix_append _ _
    rw [List.cons_append] at hp ⊢
    simp only [replaceGo, hp, if_true, List.length_cons, Nat.add_sub_cancel]
    rw [replaceGo_skip]

theorem replaceGo_no_match {c : Char} {old new b : Str} (h : (c :: old).isPrefixOf (c :: b) = false) :
    replaceGo (c :: old) new 0 (c :: b) = c :: replaceGo (c :: old) new 0 b := by
  simp [replaceGo, h]

/-- `p in s`. -/
theorem contains_cons (c : Char) (s p : Str) : contains (c :: s) p = (p.isPrefixOf (c :: s) || contains s p) := rfl

theorem replaceGo_of_not_contains {old new s : Str} (h : contains s old = false) : replaceGo old new 0 s = s := by
  induction s with
  | nil => rfl
  | cons c s ih =>
    rw [contains_cons, Bool.or_eq_false_iff] at h
    simp only [replaceGo, h.1, Bool.false_eq_true, if_false, ih h.2]

theorem replace_of_not_contains {old new s : Str} (h : contains s old = false) : replace s old new = s :=
  replaceGo_of_not_contains h

theorem isPrefixOf_barrier {c : Char} {p : Str} (hc : c ∉ p) (a b : Str) :
    p.isPrefixOf (a ++ c :: b) = p.isPrefixOf a := by
  induction p generalizing a with
  | nil => simp [List.isPrefixOf]
  | cons d p ih =>
    have hd : d ≠ c := fun e => hc (by simp [e])
    have hp : c ∉ p := fun h => hc (by simp [h])
    cases a with
    | nil => simp [List.isPrefixOf, hd]
    | cons e a => simp only [List.cons_append, List.isPrefixOf, ih hp]

/-- A character that is not in the pattern separates its occurrences. -/
theorem contains_barrier {c : Char} {p : Str} (hc : c ∉ p) (hp : p ≠ []) (a b : Str) :
    contains (a ++ c :: b) p = (contains a p || contains b p) := by
  induction a with
  | nil =>
    have h1 : p.isPrefixOf (c :: b) = false := by
      have := isPrefixOf_barrier hc [] b
      rw [List.nil_append] at this
      rw [this]
      cases p with
      | nil => exact absurd rfl hp
      | cons d p => rfl
    have h2 : contains [] p = false := by
      cases p with
      | nil => exact absurd rfl hp
      | cons d p => rfl
    rw [List.nil_append, contains_cons, h1, h2]
  | cons d a ih =>
    rw [List.cons_append, contains_cons, contains_cons, ih, ← List.cons_append, isPrefixOf_barrier hc,
      Bool.or_assoc]

theorem replaceGo_barrier {c : Char} {old : Str} (new : Str) (hc : c ∉ old) (ho : old ≠ []) (a b : Str) (n : Nat)
    (hn : n ≤ a.length) :
    replaceGo old new n (a ++ c :: b) = replaceGo old new n a ++ c :: replaceGo old new 0 b := by
  induction a generalizing n with
  | nil =>
    have : n = 0 := by simpa using hn
    subst this
    have h1 : old.isPrefixOf (c :: b) = false := by
      have := isPrefixOf_barrier hc [] b
      rw [List.nil_append] at this
      rw [this]
      cases old with
      | nil => exact absurd rfl ho
      | cons d p => rfl
    simp [replaceGo, h1]
  | cons d a ih =>
    cases n with
    | succ n => simp only [List.cons_append, replaceGo]; exact ih n (by simpa using hn)
    | zero =>
      have hp := isPrefixOf_barrier hc (d :: a) b
      simp only [List.cons_append] at hp ⊢
      simp only [replaceGo, hp]
      split
      · rename_i h
        rw [ih, List.append_assoc]
        rw [List.isPrefixOf_iff_prefix] at h
        have := h.length_le
        simp only [List.length_cons] at this
        omega
      · rw [ih 0 (Nat.zero_le _)]; rfl

theorem replace_barrier {c : Char} {old : Str} (new : Str) (hc : c ∉ old) (ho : old ≠ []) (a b : Str) :
    replace (a ++ c :: b) old new = replace a old new ++ c :: replace b old new :=
  replaceGo_barrier new hc ho a b 0 (Nat.zero_le _)

theorem replace_join {c : Char} {old : Str} (new : Str) (hc : c ∉ old) (ho : old ≠ []) (ls : List Str) :
    replace (join [c] ls) old new = join [c] (ls.map (fun l => replace l old new)) := by
  induction ls with
  | nil => rfl
  | cons a r ih =>
    cases r with
    | nil => rfl
    | cons b r =>
      simp only [join, List.map_cons, List.append_assoc, List.singleton_append] at ih ⊢
      rw [replace_barrier new hc ho, ih]

end Str

/-! ### Chunks of markup and text -/

/-- Pieces of the written file: markup `<s>`, text, and the two ends of CDATA sections. -/
inductive Chunk
  | tag (s : Str)
  | txt (s : Str)
  | cdo
  | cdc
  deriving DecidableEq

namespace Chunk

/-- The piece, with the text mapped by `f`. -/
def render (f : Str → Str) : Chunk → Str
  | tag s => '<' :: s ++ c!">"
  | txt s => f s
  | cdo => c!"<![CDATA["
  | cdc => c!"]]>"

/-- No markup characters inside of tags. -/
def ok : Chunk → Prop
  | tag s => '<' ∉ s ∧ '>' ∉ s ∧ '&' ∉ s
  | _ => True

end Chunk

/-- A list of pieces. -/
def renderL (f : Str → Str) (cs : List Chunk) : Str := cs.flatMap (Chunk.render f)

theorem renderL_cons (f : Str → Str) (c : Chunk) (cs : List Chunk) :
    renderL f (c :: cs) = c.render f ++ renderL f cs := rfl

theorem renderL_append (f : Str → Str) (a b : List Chunk) : renderL f (a ++ b) = renderL f a ++ renderL f b := by
  simp [renderL]

theorem tag_prefix {s u : Str} (hs : '>' ∉ s) (hu : '>' ∉ u) (b : Str) :
    ('<' :: s ++ c!">").isPrefixOf ('<' :: u ++ c!">" ++ b) = decide (s = u) := by
  have key : ∀ s u : Str, '>' ∉ s → '>' ∉ u → (s ++ c!">").isPrefixOf (u ++ c!">" ++ b) = decide (s = u) := by
    intro s
    induction s with
    | nil =>
      intro u _ hu
      cases u with
      | nil => simp [List.isPrefixOf]
      | cons c u =>
        have : c ≠ '>' := fun e => hu (by simp [e])
        simp [List.isPrefixOf, this.symm]
    | cons d s ih =>
      intro u hs hu
      cases u with
      | nil =>
        have : d ≠ '>' := fun e => hs (by simp [e])
        simp [List.isPrefixOf, this]
      | cons c u =>
        have h := ih u (fun h => hs (by simp [h])) (fun h => hu (by simp [h]))
        simp only [List.cons_append, List.isPrefixOf, h, List.cons.injEq]
        by_cases hdc : d = c <;> simp [hdc]
  have := key s u hs hu
  simp only [List.cons_append, List.isPrefixOf, beq_self_eq_true, Bool.true_and]
  exact this

/-- Replacing a tag in a text that consists of pieces. -/
theorem replace_chunks {f : Str → Str} (hf : ∀ s, '<' ∉ f s) {s new : Str} (ns : List Chunk)
    (hs : '<' ∉ s ∧ '>' ∉ s) (hs2 : s.head? ≠ some '!') (hn : renderL f ns = new) (cs : List Chunk) (hok : ∀ c ∈ cs, c.ok) :
    Str.replace (renderL f cs) ('<' :: s ++ c!">") new =
      renderL f (cs.flatMap (fun c => if c = .tag s then ns else [c])) := by
  unfold Str.replace
  induction cs with
  | nil => rfl
  | cons c cs ih =>
    have ih := ih (fun c hc => hok c (by simp [hc]))
    have h0 := hok c (by simp)
    rw [List.flatMap_cons, renderL_append, ← ih, renderL_cons]
    cases c with
    | tag u =>
      by_cases hsu : u = s
      · subst hsu
        simp only [if_true, hn, Chunk.render]
        exact Str.replaceGo_match (by simp) _
      · have hne : Chunk.tag u ≠ .tag s := by intro h; cases h; exact hsu rfl
        rw [if_neg hne]
        have hp := tag_prefix hs.2 h0.2.1 (renderL f cs)
        rw [decide_eq_false (Ne.symm hsu)] at hp
        simp only [Chunk.render, renderL, List.flatMap_cons, List.flatMap_nil, List.append_nil] at hp ⊢
        rw [List.cons_append, List.cons_append, List.cons_append] at hp
        rw [List.cons_append, List.cons_append, List.cons_append, Str.replaceGo_no_match hp,
          Str.replaceGo_of_not_mem (by
            intro h
            simp only [List.mem_append, List.mem_cons, List.not_mem_nil, or_false] at h
            rcases h with h | h
            · exact h0.1 h
            · exact absurd h (by decide))]
        rfl
    | txt t =>
      have hne : Chunk.txt t ≠ .tag s := by intro h; cases h
      rw [if_neg hne]
      simp only [Chunk.render, renderL, List.flatMap_cons, List.flatMap_nil, List.append_nil, List.cons_append]
      exact Str.replaceGo_of_not_mem (hf t)
    | cdo =>
      have hne : Chunk.cdo ≠ .tag s := by intro h; cases h
      rw [if_neg hne]
      simp only [Chunk.render, renderL, List.flatMap_cons, List.flatMap_nil, List.append_nil, List.cons_append,
        List.nil_append]
      have hp : ('<' :: (s ++ c!">")).isPrefixOf ('<' :: '!' :: '[' :: 'C' :: 'D' :: 'A' :: 'T' :: 'A' :: '[' ::
          List.flatMap (Chunk.render f) cs) = false := by
        cases s with
        | nil => simp [List.isPrefixOf]
        | cons d s =>
          have : d ≠ '!' := by intro h; exact hs2 (by simp [h])
          simp [List.isPrefixOf, this]
      rw [Str.replaceGo_no_match hp]
      exact congrArg _ (Str.replaceGo_of_not_mem (a := c!"![CDATA[") (by decide))
    | cdc =>
      have hne : Chunk.cdc ≠ .tag s := by intro h; cases h
      rw [if_neg hne]
      simp only [Chunk.render, renderL, List.flatMap_cons, List.flatMap_nil, List.append_nil]
      exact Str.replaceGo_of_not_mem (by decide)

/-! ### Escaping and unescaping -/

/-- What `_escape_cdata` makes of one character. -/
def etEscChar (c : Char) : Str :=
  if c = '&' then c!"&amp;" else if c = '<' then c!"&lt;" else if c = '>' then c!"&gt;" else [c]

theorem etEscape_eq (t : Str) : etEscape t = t.flatMap etEscChar := by
  simp only [etEscape, replaceAll, List.foldl_cons, List.foldl_nil, replace_single, List.flatMap_assoc]
  congr 1
  funext c
  unfold etEscChar
  by_cases h1 : c = '&'
  · subst h1; rfl
  · by_cases h2 : c = '<'
    · subst h2; rfl
    · by_cases h3 : c = '>'
      · subst h3; rfl
      · simp [h1, h2, h3]

theorem etEscape_append (a b : Str) : etEscape (a ++ b) = etEscape a ++ etEscape b := by
  simp [etEscape_eq]

theorem mem_etEscape {t : Str} : '<' ∉ etEscape t ∧ '>' ∉ etEscape t := by
  rw [etEscape_eq]
  simp only [List.mem_flatMap, not_exists, not_and]
  constructor <;>
  · intro c _ h
    unfold etEscChar at h
    split at h
    · exact absurd h (by decide)
    · split at h
      · exact absurd h (by decide)
      · split at h
        · exact absurd h (by decide)
        · simp only [List.mem_singleton] at h; subst h; contradiction

theorem unescapeGo_skip (a b : Str) : unescapeGo a.length (a ++ b) = unescapeGo 0 b := by
  induction a with
  | nil => rfl
  | cons c a ih => simp only [List.length_cons, List.cons_append, unescapeGo]; exact ih

theorem unescape_plain {c : Char} (h : c ≠ '&') (b : Str) : unescape (c :: b) = c :: unescape b := by
  simp [unescape, unescapeGo, List.isPrefixOf, h.symm]

theorem unescape_plain_append {a : Str} (h : '&' ∉ a) (b : Str) : unescape (a ++ b) = a ++ unescape b := by
  induction a with
  | nil => rfl
  | cons c a ih =>
    rw [List.cons_append, unescape_plain (fun e => h (by simp [e])), ih (fun hh => h (by simp [hh]))]; rfl

theorem unescape_etEscape (a b : Str) : unescape (etEscape a ++ b) = a ++ unescape b := by
  rw [etEscape_eq]
  induction a with
  | nil => rfl
  | cons c a ih =>
    rw [List.flatMap_cons, List.append_assoc, List.cons_append, ← ih]
    unfold etEscChar
    split
    · rename_i h; subst h
      exact congrArg ('&' :: ·) (unescapeGo_skip c!"amp;" _)
    · split
      · rename_i h; subst h
        exact congrArg ('<' :: ·) (unescapeGo_skip c!"lt;" _)
      · split
        · rename_i h; subst h
          exact congrArg ('>' :: ·) (unescapeGo_skip c!"gt;" _)
        · rename_i h _ _
          exact unescape_plain h _

theorem unescape_chunks (cs : List Chunk) (hok : ∀ c ∈ cs, c.ok) : unescape (renderL etEscape cs) = renderL id cs := by
  induction cs with
  | nil => rfl
  | cons c cs ih =>
    have ih := ih (fun c hc => hok c (by simp [hc]))
    have h0 := hok c (by simp)
    rw [renderL_cons, renderL_cons, ← ih]
    cases c with
    | tag s =>
      refine unescape_plain_append (a := '<' :: s ++ c!">") ?_ _
      intro h
      simp only [List.mem_append, List.mem_cons, List.not_mem_nil, or_false] at h
      rcases h with (h | h) | h
      · exact absurd h (by decide)
      · exact h0.2.2 h
      · exact absurd h (by decide)
    | txt s => exact unescape_etEscape s _
    | cdo => exact unescape_plain_append (by decide) _
    | cdc => exact unescape_plain_append (by decide) _

theorem isPrefixOf_etEscape {p : Str} (hp : '&' ∉ p ∧ '<' ∉ p ∧ '>' ∉ p) (s : Str) :
    p.isPrefixOf (etEscape s) = p.isPrefixOf s := by
  rw [etEscape_eq]
  induction p generalizing s with
  | nil => simp [List.isPrefixOf]
  | cons d p ih =>
    obtain ⟨h1, h2, h3⟩ := hp
    simp only [List.mem_cons, not_or] at h1 h2 h3
    have ih := ih ⟨h1.2, h2.2, h3.2⟩
    have e1 : (d == '&') = false := by simpa using Ne.symm h1.1
    have e2 : (d == '<') = false := by simpa using Ne.symm h2.1
    have e3 : (d == '>') = false := by simpa using Ne.symm h3.1
    cases s with
    | nil => rfl
    | cons c s =>
      rw [List.flatMap_cons]
      by_cases g1 : c = '&'
      · subst g1
        show ((d == '&') && _) = ((d == '&') && _)
        rw [e1]; rfl
      · by_cases g2 : c = '<'
        · subst g2
          show ((d == '&') && _) = ((d == '<') && _)
          rw [e1, e2]; rfl
        · by_cases g3 : c = '>'
          · subst g3
            show ((d == '&') && _) = ((d == '>') && _)
            rw [e1, e3]; rfl
          · have : etEscChar c = [c] := by simp [etEscChar, g1, g2, g3]
            rw [this]
            simp only [List.cons_append, List.nil_append, List.isPrefixOf, ih]

/-- Escaping does not create or destroy occurrences of a pattern without the letters of entities. -/
theorem contains_etEscape {p : Str} (hp : p ≠ []) (h : ∀ c ∈ c!"&<>ampltg;", c ∉ p) (s : Str) :
    Str.contains (etEscape s) p = Str.contains s p := by
  have hn : ∀ c ∈ c!"&<>ampltg;", ∀ r, p.isPrefixOf (c :: r) = false := by
    intro c hc r
    have := Str.isPrefixOf_barrier (h c hc) [] r
    rw [List.nil_append] at this
    rw [this]
    cases p with
    | nil => exact absurd rfl hp
    | cons d p => rfl
  induction s with
  | nil => rfl
  | cons c s ih =>
    have hpre := isPrefixOf_etEscape (p := p) ⟨h _ (by decide), h _ (by decide), h _ (by decide)⟩ (c :: s)
    rw [Str.contains_cons, ← hpre, ← ih]
    rw [etEscape_eq, List.flatMap_cons, ← etEscape_eq]
    unfold etEscChar
    by_cases g1 : c = '&'
    · simp (disch := decide) only [g1, if_true, List.cons_append, List.nil_append, Str.contains_cons, hn, Bool.false_or]
    · by_cases g2 : c = '<'
      · simp (disch := decide) only [g2, if_true, if_false, List.cons_append, List.nil_append, Str.contains_cons, hn, Bool.false_or, reduceCtorEq, (by decide : ('<' = '&') = False)]
      · by_cases g3 : c = '>'
        · simp (disch := decide) only [g3, if_true, if_false, List.cons_append, List.nil_append, Str.contains_cons, hn, Bool.false_or, (by decide : ('>' = '&') = False), (by decide : ('>' = '<') = False)]
        · simp only [g1, g2, g3, if_false, List.cons_append, List.nil_append, Str.contains_cons]

end Verif
