/-
Replacing and counting in formatted texts, piece by piece.
-/
import Verif.Spec.Markup
import Verif.Spec.Roundtrip
import Verif.Model.OdtText
import Verif.Lemmas.Text
import Verif.Lemmas.Text3
import Verif.Lemmas.Splitter2

namespace Verif
open Spec

/-- Replacing the leftmost occurrences of `p` by `q` makes `s'` from `s`; there are `k` of them. -/
inductive Rep (p q : Str) : Str → Str → Nat → Prop
  | nil : Rep p q [] [] 0
  | hit {s s' : Str} {k : Nat} : Rep p q s s' k → Rep p q (p ++ s) (q ++ s') (k + 1)
  | miss {c : Char} {s s' : Str} {k : Nat} : ¬ p <+: c :: s → Rep p q s s' k → Rep p q (c :: s) (c :: s') k

theorem Rep.replaceGo {p q s s' : Str} {k : Nat} (hp : p ≠ []) (h : Rep p q s s' k) : Str.replaceGo p q 0 s = s' := by
  induction h with
  | nil => rfl
  | hit _ ih => rw [Str.replaceGo_match hp, ih]
  | @miss c s _ _ hm _ ih =>
    have : p.isPrefixOf (c :: s) = false := by
      rw [Bool.eq_false_iff]
      intro h
      exact hm (List.isPrefixOf_iff_prefix.1 h)
    simp only [Str.replaceGo, this, Bool.false_eq_true, if_false, ih]

theorem Rep.replace {p q s s' : Str} {k : Nat} (hp : p ≠ []) (h : Rep p q s s' k) : Str.replace s p q = s' := h.replaceGo hp

theorem countGo_skip (p a b : Str) : Str.countGo p a.length (a ++ b) = Str.countGo p 0 b := by
  induction a with
  | nil => rfl
  | cons c a ih => simp only [List.length_cons, List.cons_append, Str.countGo]; exact ih

theorem Rep.count {p q s s' : Str} {k : Nat} (hp : p ≠ []) (h : Rep p q s s' k) : Str.count s p = k := by
  show Str.countGo p 0 s = k
  induction h with
  | nil => rfl
  | @hit s _ _ _ ih =>
    cases p with
    | nil => exact absurd rfl hp
    | cons c p =>
      have hp : (c :: p).isPrefixOf ((c :: p) ++ s) = true := by
        rw [List.isPrefixOf_iff_prefix]; exact List.prefix_append _ _
      rw [List.cons_append] at hp ⊢
      simp only [Str.countGo, hp, if_true, List.length_cons, Nat.add_sub_cancel]
      rw [countGo_skip, ih]
  | @miss c s _ _ hm _ ih =>
    have : p.isPrefixOf (c :: s) = false := by
      rw [Bool.eq_false_iff]
      intro h
      exact hm (List.isPrefixOf_iff_prefix.1 h)
    simp only [Str.countGo, this, Bool.false_eq_true, if_false, ih]

/-- Text without the first character of the pattern. -/
theorem Rep.skip {c : Char} {p q a s s' : Str} {k : Nat} (ha : c ∉ a) (h : Rep (c :: p) q s s' k) : Rep (c :: p) q (a ++ s) (a ++ s') k := by
  induction a with
  | nil => exact h
  | cons d a ih =>
    refine .miss ?_ (ih (fun hh => ha (by simp [hh])))
    rintro ⟨r, hr⟩
    simp only [List.cons_append, List.cons.injEq] at hr
    exact ha (by simp [hr.1])

/-- The first two characters decide. -/
theorem not_prefix2 {a b : Char} {p s : Str} (h : ∀ r, s = b :: r → False) : ¬ a :: b :: p <+: a :: s := by
  rintro ⟨r, hr⟩
  simp only [List.cons_append, List.cons.injEq, true_and] at hr
  exact h _ hr.symm

/-! ### Stages of the conversion -/

/-- How the pieces are written at some stage of the conversion. -/
structure Stage where
  nl : Str
  nl2 : Str
  op : Str → Str
  cl : Str → Str
  no : Str
  nc : Str

/-- `none` is a double line break. -/
def Stage.out (σ : Stage) : Option Piece → Str
  | some (.ch c) => escChar c
  | some (.op t) => σ.op t
  | some (.cl t) => σ.cl t
  | some (.note s) => σ.no ++ s.flatMap escChar ++ σ.nc
  | some .nl => σ.nl
  | none => σ.nl2

/-- The whole text. -/
def Stage.flat (σ : Stage) (ps : List (Option Piece)) : Str := ps.flatMap σ.out

/-- The effect of a replacement. -/
def Stage.map (σ : Stage) (f : Str → Str) : Stage := ⟨f σ.nl, f σ.nl2, fun t => f (σ.op t), fun t => f (σ.cl t), f σ.no, f σ.nc⟩

/-- The first replacements: special characters. -/
def stage0 : Stage := ⟨c!"\n", c!"\n\n", openTag, closeTag, c!"/*", c!"*/"⟩

/-- Line breaks in pairs. -/
def pairs : List Piece → List (Option Piece)
  | .nl :: .nl :: r => none :: pairs r
  | p :: r => some p :: pairs r
  | [] => []

theorem flat_cons (σ : Stage) (p : Option Piece) (ps : List (Option Piece)) : σ.flat (p :: ps) = σ.out p ++ σ.flat ps := rfl

/-- Characters that the special characters' replacement leaves alone. -/
def noSpecial (s : Str) : Prop := ∀ c ∈ s, escChar c = [c]

theorem esc_noSpecial {s : Str} (h : noSpecial s) : s.flatMap escChar = s := by
  induction s with
  | nil => rfl
  | cons c s ih =>
    rw [List.flatMap_cons, h c (by simp), ih (fun d hd => h d (by simp [hd]))]
    rfl

theorem noSpecial_alnum {s : Str} (h : ∀ c ∈ s, c.isAlphanum = true) : noSpecial s := by
  intro c hc
  have := h c hc
  unfold escChar
  repeat' split
  all_goals first
    | rfl
    | (rename_i e; subst e; cases this)

theorem LangCode_noSpecial {l : Str} (h : LangCode l) : noSpecial l := by
  obtain ⟨a, b, rfl, _, _, _, ha, hb⟩ := h
  intro c hc
  rcases List.mem_append.1 hc with hc | hc
  · rcases List.mem_append.1 hc with hc | hc
    · exact noSpecial_alnum ha c hc
    · simp at hc; subst hc; decide
  · exact noSpecial_alnum hb c hc

theorem LangCode_chars {l : Str} (h : LangCode l) {c : Char} (hc : c ∈ l) : c.isAlphanum = true ∨ c = '-' := by
  obtain ⟨a, b, rfl, _, _, _, ha, hb⟩ := h
  rcases List.mem_append.1 hc with hc | hc
  · rcases List.mem_append.1 hc with hc | hc
    · exact .inl (ha c hc)
    · simp at hc; exact .inr hc
  · exact .inl (hb c hc)

/-- The characters of formatting names. -/
theorem format_chars {ls : List Str} (hl : ∀ l ∈ ls, LangCode l) {t : Str} (ht : t ∈ formats ls) {c : Char} (hc : c ∈ t) :
    c.isAlphanum = true ∨ c = '-' ∨ c = '=' := by
  simp only [formats, List.mem_cons, List.mem_map] at ht
  rcases ht with rfl | rfl | ⟨l, hm, rfl⟩
  · simp at hc; subst hc; exact .inl rfl
  · simp at hc; subst hc; exact .inl rfl
  · rcases List.mem_append.1 hc with hc | hc
    · simp at hc
      rcases hc with rfl | rfl | rfl | rfl | rfl
      · exact .inl rfl
      · exact .inl rfl
      · exact .inl rfl
      · exact .inl rfl
      · exact .inr (.inr rfl)
    · rcases LangCode_chars (hl l hm) hc with h | h
      · exact .inl h
      · exact .inr (.inl h)

theorem format_ne {ls : List Str} (hl : ∀ l ∈ ls, LangCode l) {t : Str} (ht : t ∈ formats ls) {d : Char} (hd : d.isAlphanum = false)
    (h1 : d ≠ '-') (h2 : d ≠ '=') : d ∉ t := by
  intro hm
  rcases format_chars hl ht hm with h | h | h
  · rw [hd] at h; cases h
  · exact h1 h
  · exact h2 h

/-- A formatting name begins with `i`, `b` or `l`. -/
theorem format_head {ls : List Str} {t : Str} (ht : t ∈ formats ls) : ∃ c r, t = c :: r ∧ (c = 'i' ∨ c = 'b' ∨ c = 'l') := by
  simp only [formats, List.mem_cons, List.mem_map] at ht
  rcases ht with rfl | rfl | ⟨l, hm, rfl⟩
  · exact ⟨_, _, rfl, .inl rfl⟩
  · exact ⟨_, _, rfl, .inr (.inl rfl)⟩
  · exact ⟨_, _, rfl, .inr (.inr rfl)⟩

theorem openTag_eq (t : Str) : openTag t = (Piece.op t).raw := rfl
theorem closeTag_eq (t : Str) : closeTag t = (Piece.cl t).raw := by
  simp [closeTag, Piece.raw]

theorem pairs_raw (ps : List Piece) : (pairs ps).flatMap (fun p => match p with | some p => p.raw | none => c!"\n\n") = rawText ps := by
  fun_induction pairs ps with
  | case1 r ih => rw [List.flatMap_cons, ih]; rfl
  | case2 p r _ ih => rw [List.flatMap_cons, ih]; rfl
  | case3 => rfl

theorem mem_pairs {ps : List Piece} {p : Piece} (h : some p ∈ pairs ps) : p ∈ ps := by
  fun_induction pairs ps with
  | case1 r ih => simp at h; simp [ih h]
  | case2 q r _ ih =>
    simp only [List.mem_cons, Option.some.injEq] at h
    rcases h with rfl | h
    · simp
    · simp [ih h]
  | case3 => cases h

/-- The special characters. -/
theorem stage0_flat {ls : List Str} (hl : ∀ l ∈ ls, LangCode l) {ps : List Piece} (h : ∀ p ∈ ps, p.Ok ls) :
    (rawText ps).flatMap escChar = stage0.flat (pairs ps) := by
  have hs : ∀ {t}, t ∈ formats ls → noSpecial t := by
    intro t ht c hc
    rcases format_chars hl ht hc with hc | rfl | rfl
    · exact noSpecial_alnum (s := [c]) (by simpa using hc) c (by simp)
    · rfl
    · rfl
  rw [← pairs_raw, List.flatMap_assoc]
  unfold Stage.flat
  apply flatMap_congr'
  intro x hx
  match x with
  | none => rfl
  | some p =>
    have hp := h p (mem_pairs hx)
    cases p with
    | ch c => simp [Piece.raw, Stage.out]
    | nl => rfl
    | note s => simp only [Piece.raw, Stage.out, List.flatMap_append]; rfl
    | op t =>
      have : noSpecial (openTag t) := by
        intro c hc
        simp only [openTag, List.mem_cons, List.mem_append, List.mem_singleton, List.cons_append, List.not_mem_nil, or_false] at hc
        rcases hc with rfl | hc | rfl
        · rfl
        · exact hs hp c hc
        · rfl
      exact esc_noSpecial this
    | cl t =>
      have : noSpecial (closeTag t) := by
        intro c hc
        simp only [closeTag, List.mem_cons, List.mem_append, List.mem_singleton, List.cons_append, List.not_mem_nil, or_false] at hc
        rcases hc with rfl | rfl | hc | rfl
        · rfl
        · rfl
        · exact hs hp c hc
        · rfl
      show (Piece.cl t).raw.flatMap escChar = _
      rw [← closeTag_eq]
      exact esc_noSpecial this

/-! ### The replacements -/

theorem escChar_head (c : Char) : ∃ d r, escChar c = d :: r ∧ (d = c ∨ d = '&') := by
  unfold escChar
  repeat' split
  all_goals first
    | exact ⟨_, _, rfl, .inl rfl⟩
    | exact ⟨_, _, rfl, .inr rfl⟩

theorem escChar_mem {c d : Char} (h : d ∈ escChar c) : d = c ∨ d ∈ c!"&amp;&gt;&lt;&apos;&quot;" := by
  unfold escChar at h
  split at h
  · exact .inr (by revert h; simp; intro h; rcases h with rfl | rfl | rfl | rfl | rfl <;> simp)
  split at h
  · exact .inr (by revert h; simp; intro h; rcases h with rfl | rfl | rfl | rfl <;> simp)
  split at h
  · exact .inr (by revert h; simp; intro h; rcases h with rfl | rfl | rfl | rfl <;> simp)
  split at h
  · exact .inr (by revert h; simp; intro h; rcases h with rfl | rfl | rfl | rfl | rfl | rfl <;> simp)
  split at h
  · exact .inr (by revert h; simp; intro h; rcases h with rfl | rfl | rfl | rfl | rfl | rfl <;> simp)
  · exact .inl (by simpa using h)

/-- A character that occurs in no entity. -/
theorem not_mem_esc {c d : Char} (hd : d ∉ c!"&amp;&gt;&lt;&apos;&quot;") (hc : c ≠ d) : d ∉ escChar c := by
  intro h
  rcases escChar_mem h with rfl | h
  · exact hc rfl
  · exact hd h

theorem not_mem_escs {s : Str} {d : Char} (hd : d ∉ c!"&amp;&gt;&lt;&apos;&quot;") (hs : d ∉ s) : d ∉ s.flatMap escChar := by
  intro h
  rw [List.mem_flatMap] at h
  obtain ⟨c, hc, h⟩ := h
  exact not_mem_esc hd (fun e => hs (e ▸ hc)) h

/-- What is written for a line break. -/
def nlText : Str := c!"</text:p>\r<text:p text:style-name=\"First_20_line_20_indent\">"
/-- What is written for a double line break. -/
def nl2Text : Str := c!"</text:p>\r<text:p text:style-name=\"First_20_line_20_indent\" />\r<text:p text:style-name=\"Text_20_body\">"

variable {ls : List Str}

theorem tag_no_nl (hl : ∀ l ∈ ls, LangCode l) {t : Str} (ht : t ∈ formats ls) {d : Char} (hd : d.isAlphanum = false) (h1 : d ≠ '-')
    (h2 : d ≠ '=') (h3 : d ≠ '[') (h4 : d ≠ ']') (h5 : d ≠ '/') : d ∉ openTag t ∧ d ∉ closeTag t := by
  have := format_ne hl ht hd h1 h2
  constructor
  · simp only [openTag, List.mem_cons, List.mem_append, List.cons_append, List.not_mem_nil, or_false]
    rintro (h | h | h)
    · exact h3 h
    · exact this h
    · exact h4 h
  · simp only [closeTag, List.mem_cons, List.mem_append, List.cons_append, List.not_mem_nil, or_false]
    rintro (h | h | h | h)
    · exact h3 h
    · exact h5 h
    · exact this h
    · exact h4 h

/-- Stage 1: double line breaks. -/
theorem rep_nl2 (hl : ∀ l ∈ ls, LangCode l) {ps : List Piece} (h : ∀ p ∈ ps, p.Ok ls) :
    ∃ k, Rep c!"\n\n" nl2Text (stage0.flat (pairs ps)) (({ stage0 with nl2 := nl2Text } : Stage).flat (pairs ps)) k := by
  fun_induction pairs ps with
  | case1 r ih =>
    obtain ⟨k, hk⟩ := ih (fun p hp => h p (by simp [hp]))
    exact ⟨k + 1, .hit hk⟩
  | case3 => exact ⟨0, .nil⟩
  | case2 p r hne ih =>
    obtain ⟨k, hk⟩ := ih (fun p hp => h p (by simp [hp]))
    refine ⟨k, ?_⟩
    rw [flat_cons, flat_cons]
    have hp := h p (by simp)
    cases p with
    | ch c => exact hk.skip (not_mem_esc (by decide) hp.2.1)
    | op t => exact hk.skip (tag_no_nl hl hp (d := '\n') rfl (by decide) (by decide) (by decide) (by decide) (by decide)).1
    | cl t => exact hk.skip (tag_no_nl hl hp (d := '\n') rfl (by decide) (by decide) (by decide) (by decide) (by decide)).2
    | note s =>
      refine hk.skip (a := c!"/*" ++ s.flatMap escChar ++ c!"*/") ?_
      simp only [List.mem_append]
      rintro ((h | h) | h)
      · revert h; decide
      · exact not_mem_escs (by decide) (fun h => (hp.1 _ h).2.1 rfl) h
      · revert h; decide
    | nl =>
      refine .miss (not_prefix2 ?_) hk
      intro z hz
      cases r with
      | nil => cases hz
      | cons p r =>
        have hp := h p (by simp)
        have hpr : pairs (p :: r) = some p :: pairs r := by
          cases p with
          | nl => exact absurd rfl (hne r · rfl)
          | _ => simp [pairs]
        rw [hpr, flat_cons] at hz
        cases p with
        | ch c =>
          obtain ⟨d, x, e, hd⟩ := escChar_head c
          simp only [Stage.out, e, List.cons_append] at hz
          have hz : d = '\n' := by injection hz
          rcases hd with rfl | rfl
          · exact hp.2.1 hz
          · exact absurd hz (by decide)
        | op t => cases hz
        | cl t => cases hz
        | note s => cases hz
        | nl => exact absurd rfl (hne r · rfl)

/-- Stage 2: single characters. -/
theorem replace_char {d : Char} (q : Str) (hd : d ∉ c!"&amp;&gt;&lt;&apos;&quot;") (σ : Stage) {ps : List (Option Piece)}
    (h : ∀ p, some p ∈ ps → ∀ c ∈ (match p with | .ch c => [c] | .note s => s | _ => []), c ≠ d) :
    Str.replace (σ.flat ps) [d] q = (σ.map (fun s => Str.replace s [d] q)).flat ps := by
  have hid : ∀ s : Str, d ∉ s → s.flatMap (fun x => if x = d then q else [x]) = s := by
    intro s hs
    induction s with
    | nil => rfl
    | cons c s ih =>
      rw [List.flatMap_cons, if_neg (fun e => hs (by simp [e])), ih (fun h => hs (by simp [h]))]
      rfl
  rw [replace_single]
  unfold Stage.flat
  rw [List.flatMap_assoc]
  apply flatMap_congr'
  intro x hx
  match x with
  | none => simp only [Stage.out, Stage.map, replace_single]
  | some p =>
    have hp := h p hx
    cases p with
    | ch c => exact hid _ (not_mem_esc hd (hp c (by simp)))
    | op t => simp only [Stage.out, Stage.map, replace_single]
    | cl t => simp only [Stage.out, Stage.map, replace_single]
    | nl => simp only [Stage.out, Stage.map, replace_single]
    | note s =>
      simp only [Stage.out, Stage.map, replace_single, List.flatMap_append]
      rw [hid (s.flatMap escChar) (not_mem_escs hd (fun hm => hp d hm rfl))]

end Verif
