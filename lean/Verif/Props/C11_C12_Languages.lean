/-
C11: document languages. C12: document locale.
-/
import Verif.Model.Languages
import Verif.Spec.Lists
import Verif.Lemmas.Globals

namespace Verif
open Re Spec

namespace Spec

/-- `s` begins with the language tag `[lang=code]`, followed by `rest`. -/
def TagAt (s code rest : Str) : Prop :=
  s = c!"[lang=" ++ code ++ c!"]" ++ rest ∧ ']' ∉ code ∧ '\n' ∉ code

/-- `codes` are the codes of the successive, leftmost, non-overlapping language tags of the text. -/
inductive TagScan : Str → List Str → Prop where
  | none (s : Str) : (∀ p t code rest, s = p ++ t → ¬ TagAt t code rest) → TagScan s []
  | more (pre t code rest : Str) (codes : List Str) :
      (∀ p q c r, pre = p ++ q → q ≠ [] → ¬ TagAt (q ++ t) c r) →
      TagAt t code rest → TagScan rest codes → TagScan (pre ++ t) (code :: codes)

end Spec

theorem lazyTo_bracket : ∀ (s : Str) (k : Nat), lazyTo c!"]" s = some k →
    ∃ code rest, s = code ++ ']' :: rest ∧ ']' ∉ code ∧ '\n' ∉ code ∧ k = code.length + 1 := by
  intro s
  induction s with
  | nil => intro k h; simp [lazyTo] at h
  | cons c cs ih =>
    intro k h
    unfold lazyTo at h
    by_cases h1 : (c!"]").isPrefixOf (c :: cs) = true
    · rw [if_pos h1] at h
      simp [List.isPrefixOf] at h1 h
      exact ⟨[], cs, by simp [h1.symm], by simp, by simp, by simp [h.symm]⟩
    · rw [if_neg h1] at h
      by_cases h2 : c = '\n'
      · rw [if_pos h2] at h; cases h
      · rw [if_neg h2] at h
        obtain ⟨m, hm, rfl⟩ := Option.map_eq_some_iff.1 h
        obtain ⟨code, rest, e, a, b, rfl⟩ := ih m hm
        have hc : ']' ≠ c := by
          intro e'; apply h1; simp [List.isPrefixOf, ← e']
        exact ⟨c :: code, rest, by simp [e], by simp [hc, a], by simp [Ne.symm h2, b], rfl⟩

theorem lazyTo_bracket_of (code rest : Str) (h1 : ']' ∉ code) (h2 : '\n' ∉ code) :
    lazyTo c!"]" (code ++ ']' :: rest) = some (code.length + 1) := by
  induction code with
  | nil => simp [lazyTo]
  | cons c cs ih =>
    simp only [List.mem_cons, not_or] at h1 h2
    have hp : (c!"]").isPrefixOf (c :: (cs ++ ']' :: rest)) = false := by
      simp only [List.isPrefixOf, Bool.and_true]; simpa using h1.1
    simp only [List.cons_append, lazyTo, hp, Bool.false_eq_true, if_false, Ne.symm h2.1, ih h1.2 h2.2,
      Option.map_some, List.length_cons]

/-- Test for a tag at the beginning. -/
theorem tagAt_iff (s code rest : Str) : TagAt s code rest ↔
    c!"[lang=".isPrefixOf s = true ∧ ∃ k, lazyTo c!"]" (s.drop 6) = some k ∧
      code = (s.drop 6).take (k - 1) ∧ rest = (s.drop 6).drop k := by
  constructor
  · rintro ⟨e, h1, h2⟩
    subst e
    refine ⟨List.isPrefixOf_iff_prefix.2 ⟨code ++ c!"]" ++ rest, by simp⟩, code.length + 1, ?_, ?_, ?_⟩
    · simpa using lazyTo_bracket_of code rest h1 h2
    · simp
    · simp
  · rintro ⟨h, k, hk, rfl, rfl⟩
    obtain ⟨t, rfl⟩ := List.isPrefixOf_iff_prefix.1 h
    obtain ⟨code, rest, e, a, b, rfl⟩ := lazyTo_bracket _ k hk
    simp only [List.drop_append, List.length_cons, List.length_nil] at e ⊢
    simp only [List.drop_succ_cons, List.drop_zero, List.drop_nil, List.nil_append, Nat.sub_self] at e
    subst e
    unfold TagAt
    simp [a, b]

theorem searchLang_none : ∀ s : Str, searchLang s = none →
    ∀ p t code rest, s = p ++ t → ¬ TagAt t code rest := by
  intro s
  induction s with
  | nil =>
    intro _ p t code rest e h
    simp at e
    rw [e.2] at h
    obtain ⟨h, _⟩ := h; simp at h
  | cons c cs ih =>
    intro h p t code rest e
    unfold searchLang at h
    have hcs : searchLang cs = none := by
      split at h
      · split at h
        · cases h
        · exact h
      · exact h
    cases p with
    | nil =>
      simp at e; subst e
      intro ht
      obtain ⟨h1, k, h2, _, _⟩ := (tagAt_iff _ _ _).1 ht
      rw [if_pos h1] at h
      rw [h2] at h
      cases h
    | cons x p =>
      simp at e
      exact ih hcs p t code rest e.2

theorem searchLang_some : ∀ (s code rest : Str), searchLang s = some (code, rest) →
    ∃ pre t, s = pre ++ t ∧ TagAt t code rest ∧
      ∀ p q c r, pre = p ++ q → q ≠ [] → ¬ TagAt (q ++ t) c r := by
  intro s
  induction s with
  | nil => intro code rest h; cases h
  | cons c cs ih =>
    intro code rest h
    unfold searchLang at h
    by_cases hp : c!"[lang=".isPrefixOf (c :: cs) = true
    · rw [if_pos hp] at h
      cases hl : lazyTo c!"]" ((c :: cs).drop 6) with
      | some k =>
        rw [hl] at h
        simp only [Option.some.injEq, Prod.mk.injEq] at h
        refine ⟨[], c :: cs, rfl, (tagAt_iff _ _ _).2 ⟨hp, k, hl, h.1.symm, h.2.symm⟩, ?_⟩
        intro p q c r e hq; simp at e; exact absurd e.2 hq
      | none =>
        rw [hl] at h
        obtain ⟨pre, t, rfl, ht, hb⟩ := ih code rest h
        refine ⟨c :: pre, t, rfl, ht, ?_⟩
        intro p q c' r e hq
        cases p with
        | nil =>
          simp at e; subst e
          intro hta
          obtain ⟨_, k, h2, _⟩ := (tagAt_iff _ _ _).1 hta
          rw [List.cons_append, hl] at h2; cases h2
        | cons x p =>
          simp at e
          exact hb p q c' r e.2 hq
    · rw [if_neg hp] at h
      obtain ⟨pre, t, rfl, ht, hb⟩ := ih code rest h
      refine ⟨c :: pre, t, rfl, ht, ?_⟩
      intro p q c' r e hq
      cases p with
      | nil =>
        simp at e; subst e
        intro hta
        exact hp ((tagAt_iff _ _ _).1 hta).1
      | cons x p =>
        simp at e
        exact hb p q c' r e.2 hq

theorem languagesLoop_scan : ∀ (fuel : Nat) (s : Str), s.length < fuel → TagScan s (languagesLoop fuel s) := by
  intro fuel
  induction fuel with
  | zero => intro s h; omega
  | succ fuel ih =>
    intro s h
    unfold languagesLoop
    cases hs : searchLang s with
    | none => exact .none s (searchLang_none s hs)
    | some cr =>
      obtain ⟨code, rest⟩ := cr
      obtain ⟨pre, t, rfl, ht, hb⟩ := searchLang_some s code rest hs
      refine .more pre t code rest _ hb ht (ih rest ?_)
      have := congrArg List.length ht.1
      simp only [List.length_append, List.length_cons, List.length_nil] at this h
      omega

/-- The codes found in a text are those of the successive, leftmost, non-overlapping tags. -/
theorem C11_scan (text : Str) : TagScan text (languagesIn text) :=
  languagesLoop_scan _ _ (Nat.lt_succ_self _)

/-- The specification determines the codes. -/
theorem Spec.TagAt.unique {s c c' r r' : Str} (h : TagAt s c r) (h' : TagAt s c' r') : c = c' ∧ r = r' := by
  obtain ⟨_, k, h1, rfl, rfl⟩ := (tagAt_iff _ _ _).1 h
  obtain ⟨_, k', h2, rfl, rfl⟩ := (tagAt_iff _ _ _).1 h'
  rw [h1] at h2; injection h2 with h2; subst h2
  exact ⟨rfl, rfl⟩

theorem Spec.TagScan.more_inv {s : Str} {codes : List Str} (h : TagScan s codes) {pre t code rest : Str}
    (e : s = pre ++ t) (hb : ∀ p q c r, pre = p ++ q → q ≠ [] → ¬ TagAt (q ++ t) c r)
    (ht : TagAt t code rest) : ∃ cs, codes = code :: cs ∧ TagScan rest cs := by
  cases h with
  | none _ hn => exact absurd ht (hn pre t code rest e)
  | more pre' t' code' rest' codes' hb' ht' hr' =>
    have key : ∀ {a b a' b' c r : Str}, a ++ b = a' ++ b' → TagAt b c r →
        (∀ p q c r, a' = p ++ q → q ≠ [] → ¬ TagAt (q ++ b') c r) → a'.length ≤ a.length := by
      intro a b a' b' c r e ht hb
      by_cases hl : a'.length ≤ a.length
      · exact hl
      · exfalso
        have h1 : a' = a ++ a'.drop a.length := by
          have e2 := congrArg (List.take a.length) e
          simp at e2
          rw [List.take_append_of_le_length (by omega)] at e2
          have := List.take_append_drop a.length a'
          rw [← e2] at this; exact this.symm
        refine hb a (a'.drop a.length) c r h1 ?_ ?_
        · intro hn
          have := congrArg List.length hn
          simp at this; omega
        · have : a'.drop a.length ++ b' = b := by
            have := e
            rw [h1] at this
            simp only [List.append_assoc] at this
            simp at this
            exact this.symm
          rw [this]; exact ht
    have l1 := key e ht' hb
    have l2 := key e.symm ht hb'
    obtain ⟨rfl, rfl⟩ := List.append_inj e (by omega)
    obtain ⟨rfl, rfl⟩ := Spec.TagAt.unique ht ht'
    exact ⟨codes', rfl, hr'⟩

theorem C11_scan_unique {s : Str} {a : List Str} (h : TagScan s a) : ∀ b, TagScan s b → a = b := by
  induction h with
  | none s hn =>
    intro b hb
    cases hb with
    | none => rfl
    | more pre t code rest codes _ ht _ => exact absurd ht (hn _ _ _ _ rfl)
  | more pre t code rest codes hb ht hr ih =>
    intro b h'
    obtain ⟨cs, rfl, h2⟩ := h'.more_inv rfl hb ht
    rw [ih cs h2]

/-- Soundness: every code found occurs as a language tag in the text. -/
theorem C11_sound (text code : Str) (h : code ∈ languagesIn text) :
    c!"[lang=" ++ code ++ c!"]" <:+: text ∧ ']' ∉ code ∧ '\n' ∉ code := by
  have hs := C11_scan text
  generalize languagesIn text = l at hs h
  induction hs with
  | none => simp at h
  | more pre t c rest codes hb ht hr ih =>
    rcases List.mem_cons.1 h with rfl | h
    · refine ⟨⟨pre, rest, ?_⟩, ht.2⟩
      rw [ht.1]; simp
    · obtain ⟨⟨a, b, e⟩, hc⟩ := ih h
      refine ⟨⟨pre ++ c!"[lang=" ++ c ++ c!"]" ++ a, b, ?_⟩, hc⟩
      rw [ht.1, ← e]; simp

theorem mem_prefix_of_append {a b x y : Str} {c : Char} (h : a ++ b = x ++ c :: y) (hc : c ∉ a) :
    ∃ d, x = a ++ d ∧ b = d ++ c :: y := by
  rcases List.append_eq_append_iff.1 h with ⟨d, h1, h2⟩ | ⟨d, h1, h2⟩
  · exact ⟨d, h1, h2⟩
  · cases d with
    | nil => refine ⟨[], by simpa using h1.symm, by simpa using h2.symm⟩
    | cons z zs =>
      simp at h2
      exfalso; apply hc; rw [h1, h2.1]; simp

/-- Completeness: every language tag of the text is found, or it is the innermost part of a found
(nested) tag, whose code then ends with its code. -/
theorem C11_complete (text code : Str) (h1 : ']' ∉ code) (h2 : '\n' ∉ code)
    (h : c!"[lang=" ++ code ++ c!"]" <:+: text) :
    ∃ c ∈ languagesIn text, c = code ∨ c!"[lang=" ++ code <:+ c := by
  have hs := C11_scan text
  generalize languagesIn text = l at hs
  induction hs with
  | none s hn =>
    obtain ⟨a, b, e⟩ := h
    refine absurd (⟨rfl, h1, h2⟩ : TagAt (c!"[lang=" ++ code ++ c!"]" ++ b) code b) (hn a _ _ _ ?_)
    rw [← e]; simp
  | more pre t c rest codes hb ht hr ih =>
    obtain ⟨a, b, e⟩ := h
    have e' : a ++ (c!"[lang=" ++ code ++ c!"]" ++ b) = pre ++ t := by rw [← e]; simp
    rcases List.append_eq_append_iff.1 e' with ⟨d, hd1, hd2⟩ | ⟨d, hd1, hd2⟩
    · -- the occurrence starts in `pre` or with `t`
      by_cases hd : d = []
      · subst hd
        simp only [List.nil_append] at hd2
        have := Spec.TagAt.unique ht (hd2 ▸ ⟨rfl, h1, h2⟩ : TagAt t code b)
        exact ⟨c, by simp, .inl this.1⟩
      · exact absurd (hd2 ▸ (⟨rfl, h1, h2⟩ : TagAt _ code b)) (hb a d code b hd1 hd)
    · -- it starts inside `t`
      by_cases hd : d = []
      · subst hd
        simp only [List.nil_append] at hd2
        have := Spec.TagAt.unique ht (hd2 ▸ ⟨rfl, h1, h2⟩ : TagAt t code b)
        exact ⟨c, by simp, .inl this.1⟩
      · -- t = "[lang=" ++ c ++ "]" ++ rest = d ++ occurrence
        have et : d ++ (c!"[lang=" ++ code ++ c!"]" ++ b) = c!"[lang=" ++ c ++ (c!"]" ++ rest) := by
          rw [← hd2, ht.1]; simp
        rcases List.append_eq_append_iff.1 et with ⟨u, hu1, hu2⟩ | ⟨u, hu1, hu2⟩
        · -- starts before the closing bracket: c!"[lang=" ++ c = d ++ u
          -- the first closing bracket of the occurrence is that of the tag
          have e3 : (c!"[lang=" ++ code) ++ ']' :: b = u ++ ']' :: rest := by
            simpa using hu2
          have nb1 : ']' ∉ c!"[lang=" ++ code := by simp [h1]
          have nb2 : ']' ∉ u := by
            intro hm
            have : ']' ∈ c!"[lang=" ++ c := by rw [hu1]; simp [hm]
            simp [ht.2.1] at this
          obtain ⟨w, hw1, hw2⟩ := mem_prefix_of_append e3.symm nb2
          obtain ⟨w', hw1', hw2'⟩ := mem_prefix_of_append e3 nb1
          have hl1 := congrArg List.length hw1
          have hl2 := congrArg List.length hw1'
          simp only [List.length_append] at hl1 hl2
          have hw0 : w = [] := List.eq_nil_of_length_eq_zero (by omega)
          subst hw0
          rw [List.append_nil] at hw1
          refine ⟨c, by simp, .inr ?_⟩
          -- c!"[lang=" ++ c = d ++ (c!"[lang=" ++ code), d ≠ []
          rw [← hw1] at hu1
          have hs1 : c!"[lang=" ++ code <:+ c!"[lang=" ++ c := ⟨d, hu1.symm⟩
          have hs2 : c <:+ c!"[lang=" ++ c := List.suffix_append _ _
          rcases List.suffix_or_suffix_of_suffix hs1 hs2 with h | h
          · exact h
          · obtain ⟨g, hg⟩ := h
            have e4 : c!"[lang=" ++ c = d ++ (g ++ c) := by rw [hg]; exact hu1
            have e5 : c!"[lang=" = d ++ g := by
              rw [← List.append_assoc] at e4
              exact List.append_cancel_right e4
            cases d with
            | nil => exact absurd rfl hd
            | cons x d =>
              cases g with
              | nil =>
                simp only [List.nil_append] at hg
                rw [hg]; exact List.suffix_refl _
              | cons y g =>
                exfalso
                have h0 : y = '[' := by
                  have := congrArg List.head? hg
                  simpa using this
                have h3 : y ∈ c!"lang=" := by
                  have e6 : c!"lang=" = d ++ y :: g := by simpa using (List.cons.inj e5).2
                  rw [e6]; simp
                subst h0; revert h3; decide
        · -- starts inside `rest` (or with the closing bracket, which is impossible)
          have hu3 : u ≠ [] := by
            intro hu
            subst hu
            simp at hu2
          cases u with
          | nil => exact absurd rfl hu3
          | cons x u =>
            simp only [List.cons_append, List.nil_append, List.cons.injEq] at hu2
            have : c!"[lang=" ++ code ++ c!"]" <:+: rest := ⟨u, b, by rw [hu2.2]; simp⟩
            obtain ⟨c', hm, hc'⟩ := ih this
            exact ⟨c', by simp [hm], hc'⟩

/-! ### the list of a novel -/

/-- All codes of all scenes, in dictionary order, with repetitions. -/
def allCodes (n : Novel) : List Str :=
  n.scenes.flatMap (fun p => languagesIn (p.2.sceneContent.getD []))

theorem pushNew_first : ∀ (src pre acc : List Str), FirstOccurrences pre acc →
    FirstOccurrences (pre ++ src) (src.foldl pushNew acc) := by
  intro src
  induction src with
  | nil => intro pre acc h; simpa using h
  | cons x r ih =>
    intro pre acc h
    rw [List.foldl_cons]
    have : FirstOccurrences (pre ++ [x]) (pushNew acc x) := by
      unfold pushNew
      have hord : ∀ y ∈ acc, (pre ++ [x]).idxOf y = pre.idxOf y := fun y hy =>
        idxOf_append_mem ((h.mem y).1 hy)
      by_cases hx : x ∈ acc
      · rw [if_pos hx]
        refine ⟨h.nodup, ?_, ?_⟩
        · intro y
          rw [h.mem]
          simp only [List.mem_append, List.mem_singleton]
          constructor
          · exact .inl
          · rintro (h1 | rfl)
            · exact h1
            · exact (h.mem y).1 hx
        · refine List.Pairwise.imp_of_mem ?_ h.order
          intro a b ha hb hab
          rw [hord a ha, hord b hb]; exact hab
      · rw [if_neg hx]
        have hxp : x ∉ pre := fun hm => hx ((h.mem x).2 hm)
        refine ⟨?_, ?_, ?_⟩
        · rw [List.nodup_append]
          refine ⟨h.nodup, by simp, ?_⟩
          intro a ha b hb; simp at hb; subst hb
          exact fun e => hx (e ▸ ha)
        · intro y
          simp only [List.mem_append, List.mem_singleton, h.mem]
        · rw [List.pairwise_append]
          refine ⟨?_, by simp, ?_⟩
          · refine List.Pairwise.imp_of_mem ?_ h.order
            intro a b ha hb hab
            rw [hord a ha, hord b hb]; exact hab
          · intro a ha b hb
            simp at hb; subst hb
            rw [hord a ha, idxOf_append_not_mem hxp]
            have := List.idxOf_lt_length_of_mem ((h.mem a).1 ha)
            omega
    have h2 := ih (pre ++ [x]) _ this
    simpa using h2

theorem getLanguages_eq (n : Novel) :
    n.getLanguages.languages = some ((allCodes n).foldl pushNew []) := by
  unfold Novel.getLanguages allCodes
  simp only [Option.some.injEq]
  generalize ([] : List Str) = acc
  induction n.scenes generalizing acc with
  | nil => rfl
  | cons p r ih =>
    rw [List.foldl_cons, ih, List.flatMap_cons, List.foldl_append]
    congr 1
    cases hc : p.2.sceneContent with
    | none => rfl
    | some t => cases t <;> rfl

/-- `get_languages` lists the codes of all scenes, each once, in the order of first occurrence, and
changes nothing else. (With `C11_scan`, `C11_sound`, `C11_complete` for the single text.) -/
theorem C11_languages (n : Novel) : ∃ langs, n.getLanguages.languages = some langs ∧
    FirstOccurrences (n.scenes.flatMap (fun p => languagesIn (p.2.sceneContent.getD []))) langs ∧
    { n.getLanguages with languages := n.languages } = n := by
  refine ⟨_, getLanguages_eq n, ?_, rfl⟩
  have := pushNew_first (allCodes n) [] [] ⟨by simp, by simp, by simp⟩
  rw [List.nil_append] at this
  exact this

/-- Running it again, or on a novel with the same scenes, gives the same list. -/
theorem C11_idempotent (n : Novel) : n.getLanguages.getLanguages = n.getLanguages := rfl

example : languagesIn c!"x [lang=en]a[/lang=en] [lang=[lang=de] [lang=\n] [lang=fr]"
    = [c!"en", c!"[lang=de", c!"fr"] := by decide

/-! ### C12 -/

/-- A locale as `check_locale` accepts it. -/
def Plausible (n : Novel) : Prop :=
  ∃ l c : Str, n.languageCode = some l ∧ n.countryCode = some c ∧ l.length = 2 ∧ c.length = 2

/-- No language is set. -/
def NoLanguage (n : Novel) : Prop := n.languageCode = none ∨ n.languageCode = some []

/-- The locale after the check: kept if plausible, the system locale exactly if no
language was set, "no language" otherwise; nothing but the locale changes. -/
theorem C12_outcome (n : Novel) (sl sc : Str) :
    (NoLanguage n → (n.checkLocale sl sc).languageCode = some sl ∧
      (n.checkLocale sl sc).countryCode = some sc) ∧
    (¬ NoLanguage n → Plausible n → n.checkLocale sl sc = n) ∧
    (¬ NoLanguage n → ¬ Plausible n → (n.checkLocale sl sc).languageCode = some c!"zxx" ∧
      (n.checkLocale sl sc).countryCode = some c!"none") ∧
    { n.checkLocale sl sc with languageCode := n.languageCode, countryCode := n.countryCode } = n := by
  unfold NoLanguage
  refine ⟨?_, ?_, ?_, ?_⟩
  · intro h; unfold Novel.checkLocale; rw [if_pos h]; exact ⟨rfl, rfl⟩
  · rintro h ⟨l, c, h1, h2, h3⟩
    unfold Novel.checkLocale; rw [if_neg h, h1, h2]; simp only [h3, and_self, if_true]
  · intro h hp
    unfold Novel.checkLocale; rw [if_neg h]
    cases hl : n.languageCode with
    | none => exact ⟨rfl, rfl⟩
    | some l =>
      cases hc : n.countryCode with
      | none => exact ⟨rfl, rfl⟩
      | some c =>
        simp only
        have : ¬ (l.length = 2 ∧ c.length = 2) := fun e => hp ⟨l, c, hl, hc, e.1, e.2⟩
        rw [if_neg this]; exact ⟨rfl, rfl⟩
  · unfold Novel.checkLocale
    split
    · rfl
    · split
      · split <;> rfl
      · rfl

/-- A second check changes nothing once a plausible or the "no language" locale is set; in
particular the check is idempotent whenever the system locale has the form `ll_CC`. -/
theorem C12_stable (n : Novel) (sl sc : Str) (h1 : sl.length = 2) (h2 : sc.length = 2) :
    (n.checkLocale sl sc).checkLocale sl sc = n.checkLocale sl sc := by
  by_cases hn : NoLanguage n
  · have e := (C12_outcome n sl sc).1 hn
    refine (C12_outcome (n.checkLocale sl sc) sl sc).2.1 ?_ ⟨sl, sc, e.1, e.2, h1, h2⟩
    rintro (h | h)
    · rw [e.1] at h; cases h
    · rw [e.1] at h; injection h with h; subst h; simp at h1
  · by_cases hp : Plausible n
    · have e := (C12_outcome n sl sc).2.1 hn hp
      rw [e, e]
    · obtain ⟨e1, e2⟩ := (C12_outcome n sl sc).2.2.1 hn hp
      have hn' : ¬ NoLanguage (n.checkLocale sl sc) := by
        rintro (h | h) <;> (rw [e1] at h; cases h)
      have hp' : ¬ Plausible (n.checkLocale sl sc) := by
        rintro ⟨l, c, a, b, l2, _⟩
        rw [e1] at a; injection a with a; subst a; simp at l2
      have f := (C12_outcome (n.checkLocale sl sc) sl sc).2.2.1 hn' hp'
      have g := (C12_outcome (n.checkLocale sl sc) sl sc).2.2.2
      have ext : ∀ a b : Novel, { a with languageCode := b.languageCode, countryCode := b.countryCode } = b →
          a.languageCode = b.languageCode → a.countryCode = b.countryCode → a = b := by
        intro a b h h3 h4; rw [← h3, ← h4] at h; exact h
      exact ext _ _ g (f.1.trans e1.symm) (f.2.trans e2.symm)

/-- Once a language is set, the system locale has no influence. -/
theorem C12_system_independent (n : Novel) (sl sc sl' sc' : Str) (h : ¬ NoLanguage n) :
    n.checkLocale sl sc = n.checkLocale sl' sc' := by
  unfold NoLanguage at h
  unfold Novel.checkLocale
  rw [if_neg h, if_neg h]

example : (({ languageCode := some c!"de", countryCode := some c!"AT" } : Novel).checkLocale c!"en" c!"US").countryCode = some c!"AT"
    ∧ (({ languageCode := some c!"german" } : Novel).checkLocale c!"en" c!"US").languageCode = some c!"zxx" := by decide

end Verif
