/-
Reading the header and the footer of an exported manuscript.
-/
import Verif.Lemmas.ReadDoc
import Verif.Model.OdtHeader
import Verif.Lemmas.Ini

namespace Verif
open Spec Re Template

variable {ls : List Str} {h : Reader}

/-! ### The text of the header -/

theorem headStart_no : '$' ∉ odtHeadStart := by decide +kernel

theorem formattedHeader_eq (ls : List Str) : formattedHeader ls = odtHeadStart ++ (automaticStyles ls ++ odtHeadEnd) := by
  unfold formattedHeader odtHeadTemplate
  rw [subst_lit headStart_no]
  have e : c!"$automaticStyles" ++ odtHeadEnd = '$' :: (c!"automaticStyles" ++ odtHeadEnd) := rfl
  rw [e, subst_var (v := automaticStyles ls) (by decide) ?_ rfl, subst_lit' (by decide)]
  intro c hc
  cases hc
  decide

theorem automaticStyles_eq (hne : ls ≠ []) : automaticStyles ls =
    c!"<office:automatic-styles>" ++ ((languageStyles 1 ls).flatMap (fun s => '\n' :: s) ++ c!"\n </office:automatic-styles>") := by
  unfold automaticStyles
  rw [if_neg hne]
  have key : ∀ (l : List Str) (a z : Str), Str.join c!"\n" (a :: l ++ [z]) = a ++ (l.flatMap (fun s => '\n' :: s) ++ '\n' :: z) := by
    intro l
    induction l with
    | nil => intro a z; simp [Str.join]
    | cons b l ih =>
      intro a z
      have : Str.join c!"\n" (a :: (b :: l) ++ [z]) = a ++ c!"\n" ++ Str.join c!"\n" (b :: l ++ [z]) := rfl
      rw [this, ih]
      simp
  rw [key]

theorem languageParts_code {l : Str} (hl : LangCode l) : ∃ a b, languageParts l = (a, b) ∧ l = a ++ c!"-" ++ b ∧ a ≠ [] ∧ b ≠ c!"none" ∧
    (∀ c ∈ a, c.isAlphanum = true) ∧ (∀ c ∈ b, c.isAlphanum = true) := by
  obtain ⟨a, b, e, h1, h2, h3, h4, h5⟩ := hl
  have na : '-' ∉ a := fun hm => absurd (h4 _ hm) (by decide)
  have nb : '-' ∉ b := fun hm => absurd (h5 _ hm) (by decide)
  refine ⟨a, b, ?_, e, h1, h3, h4, h5⟩
  unfold languageParts
  rw [e, Str.split_append_sep c!"-" a b (by decide) ((Str.freeOf_singleton _ _).2 na), Str.split_free _ _ ((Str.freeOf_singleton _ _).2 nb).not_infix]

theorem alnum_plain {c : Char} (h : c.isAlphanum = true) : plainAttr c = true := by
  have k : ∀ d : Char, d.isAlphanum = false → c ≠ d := by
    intro d hd e
    rw [e, hd] at h
    cases h
  have hx : xmlLegal c = true := by
    unfold xmlLegal
    have : 0x30 ≤ c.toNat ∧ c.toNat ≤ 0x7a := by
      simp only [Char.isAlphanum, Char.isAlpha, Char.isUpper, Char.isLower, Char.isDigit, Bool.or_eq_true, Bool.and_eq_true, decide_eq_true_eq, ge_iff_le,
        UInt32.le_iff_toNat_le] at h
      have e : c.toNat = c.val.toNat := rfl
      rw [e]
      simp only [Char.reduceVal, UInt32.reduceToNat] at h
      omega
    simp only [Bool.or_eq_true, Bool.and_eq_true, decide_eq_true_eq, bne_iff_ne, ne_eq]
    omega
  have hb : xmlBlank c = false := by
    unfold xmlBlank
    simp only [Bool.or_eq_false_iff, decide_eq_false_iff_not]
    exact ⟨⟨k _ (by decide), k _ (by decide)⟩, k _ (by decide)⟩
  unfold plainAttr
  rw [hx, hb]
  simp only [Bool.true_and, Bool.not_false, Bool.and_true, Bool.and_eq_true, bne_iff_ne, ne_eq]
  exact ⟨⟨⟨k _ (by decide), k _ (by decide)⟩, k _ (by decide)⟩, k _ (by decide)⟩

/-! ### A style -/

theorem langTags_snoc (i : Nat) (ls : List Str) (l : Str) : langTags i (ls ++ [l]) = langTags i ls ++ [(c!"T" ++ Str.ofNat (i + ls.length), l)] := by
  induction ls generalizing i with
  | nil => rfl
  | cons m ls ih =>
    rw [List.cons_append]
    unfold langTags
    rw [ih, List.cons_append, List.length_cons]
    have : i + 1 + ls.length = i + (ls.length + 1) := by omega
    rw [this]
    rfl

theorem langTags_keys (i : Nat) (ls : List Str) {k : Nat} (hk : i + ls.length ≤ k) : c!"T" ++ Str.ofNat k ∉ Dict.keys (langTags i ls) := by
  induction ls generalizing i with
  | nil => simp [langTags, Dict.keys]
  | cons m ls ih =>
    unfold langTags
    rw [List.length_cons] at hk
    have h1 := ih (i + 1) (by omega)
    intro hm
    have : c!"T" ++ Str.ofNat k = c!"T" ++ Str.ofNat i ∨ c!"T" ++ Str.ofNat k ∈ Dict.keys (langTags (i + 1) ls) := by
      simpa [Dict.keys] using hm
    rcases this with e | e
    · have e2 := Str.ofNat_injective (List.append_cancel_left e)
      omega
    · exact h1 e

theorem styleOpen_sax (i : Str) (hi : i.all plainAttr = true) : saxRun .lt (c!"style:style style:name=\"T" ++ (i ++ c!"\" style:family=\"text\">\n   ")) =
    (.text c!"   \n", [.start c!"style:style" [(c!"style:name", c!"T" ++ i), (c!"style:family", c!"text")]]) := by
  have h1 : saxRun .lt c!"style:style style:name=\"T" = (.val c!"style:style".reverse [] c!"style:name".reverse '"' ['T'], []) := by decide +kernel
  have h3 : ∀ v : Str, saxRun (.val c!"style:style".reverse [] c!"style:name".reverse '"' (v.reverse ++ ['T'])) c!"\" style:family=\"text\">\n   " =
      (.text c!"   \n", [.start c!"style:style" [(c!"style:name", c!"T" ++ v), (c!"style:family", c!"text")]]) := by
    intro v
    show (Sx.text c!"   \n", [Ev.start _ [(_, (v.reverse ++ ['T']).reverse), (_, _)]]) = _
    have e : (v.reverse ++ ['T']).reverse = c!"T" ++ v := by simp
    rw [e]
    rfl
  rw [saxRun_comp h1 (saxRun_comp (saxRun_valPlain hi _ _ _ _) (h3 _))]
  rfl

/-- The next attribute. -/
theorem attr_next {n : Str} {as : Dict Str} {a v lit b : Str} (hl : lit = '"' :: ' ' :: (b ++ c!"=\"")) (hb : b.all qnameChar = true) (hbn : b ≠ []) (ha : as.get? a = none) :
    saxRun (.val n as a.reverse '"' (v.reverse ++ [])) lit = (.val n (as ++ [(a, v)]) b.reverse '"' [], []) := by
  subst hl
  have e1 : saxRun (.val n as a.reverse '"' (v.reverse ++ [])) c!"\" " = (.inTag n (as ++ [(a, v)]), []) := by
    simp only [saxRun, saxStep, List.append_nil, List.reverse_reverse, ha]
    rfl
  have e2 : ∀ (b acc : Str), b.all qnameChar = true → saxRun (.attr n (as ++ [(a, v)]) acc) b = (.attr n (as ++ [(a, v)]) (b.reverse ++ acc), []) := by
    intro b
    induction b with
    | nil => intro acc _; rfl
    | cons c b ih =>
      intro acc hq
      rw [List.all_cons, Bool.and_eq_true] at hq
      have hc : c ≠ '=' := by
        intro e
        rw [e] at hq
        exact absurd hq.1 (by decide)
      show (saxRun (saxStep (.attr n (as ++ [(a, v)]) acc) c).1 b |>.1, (saxStep (.attr n (as ++ [(a, v)]) acc) c).2 ++ (saxRun (saxStep (.attr n (as ++ [(a, v)]) acc) c).1 b).2) = _
      have e3 : saxStep (.attr n (as ++ [(a, v)]) acc) c = (.attr n (as ++ [(a, v)]) (c :: acc), []) := by
        simp only [saxStep]
        rw [if_neg hc, if_pos hq.1]
      rw [e3, ih _ hq.2]
      simp
  cases b with
  | nil => exact absurd rfl hbn
  | cons c b =>
    rw [List.all_cons, Bool.and_eq_true] at hb
    have e4 : saxRun (.inTag n (as ++ [(a, v)])) [c] = (.attr n (as ++ [(a, v)]) [c], []) := by
      simp only [saxRun, saxStep]
      rw [if_pos hb.1]
      rfl
    have e5 : saxRun (.attr n (as ++ [(a, v)]) (b.reverse ++ [c])) c!"=\"" = (.val n (as ++ [(a, v)]) (b.reverse ++ [c]) '"' [], []) := rfl
    have := saxRun_comp e1 (saxRun_comp e4 (saxRun_comp (e2 b [c] hb.2) e5))
    rw [List.reverse_cons]
    exact this

/-- The attributes of the text properties. -/
def langAttrs (a b : Str) : Dict Str := [(c!"fo:language", a), (c!"fo:country", b), (c!"style:language-asian", a), (c!"style:country-asian", b),
  (c!"style:language-complex", a), (c!"style:country-complex", b)]

theorem props_sax {a b : Str} (ha : a.all plainAttr = true) (hb : b.all plainAttr = true) :
    saxRun .lt (c!"style:text-properties fo:language=\"" ++ (a ++ (c!"\" fo:country=\"" ++ (b ++ (c!"\" style:language-asian=\"" ++ (a ++ (c!"\" style:country-asian=\"" ++
      (b ++ (c!"\" style:language-complex=\"" ++ (a ++ (c!"\" style:country-complex=\"" ++ (b ++ c!"\"/>\n  </style:style>")))))))))))) =
    (.text [], [.start c!"style:text-properties" (langAttrs a b), .stop c!"style:text-properties", .chars c!"\n  ", .stop c!"style:style"]) := by
  have h0 : saxRun .lt c!"style:text-properties fo:language=\"" = (.val c!"style:text-properties".reverse [] c!"fo:language".reverse '"' [], []) := by decide +kernel
  have hz : ∀ v : Str, saxRun (.val c!"style:text-properties".reverse [(c!"fo:language", a), (c!"fo:country", b), (c!"style:language-asian", a), (c!"style:country-asian", b),
      (c!"style:language-complex", a)] c!"style:country-complex".reverse '"' (v.reverse ++ [])) c!"\"/>\n  </style:style>" =
      (.text [], [.start c!"style:text-properties" [(c!"fo:language", a), (c!"fo:country", b), (c!"style:language-asian", a), (c!"style:country-asian", b),
      (c!"style:language-complex", a), (c!"style:country-complex", v)], .stop c!"style:text-properties", .chars c!"\n  ", .stop c!"style:style"]) := by
    intro v
    rw [List.append_nil]
    have e : (List.reverse v).reverse = v := List.reverse_reverse v
    show (Sx.text [], [Ev.start _ [(_, _), (_, _), (_, _), (_, _), (_, _), (_, v.reverse.reverse)], _, _, _]) = _
    rw [e]
    rfl
  have key := saxRun_comp h0 (saxRun_comp (saxRun_valPlain ha _ _ _ _) (saxRun_comp (attr_next (a := c!"fo:language") (b := c!"fo:country") rfl (by decide) (by decide) rfl)
    (saxRun_comp (saxRun_valPlain hb _ _ _ _) (saxRun_comp (attr_next (a := c!"fo:country") (b := c!"style:language-asian") rfl (by decide) (by decide) rfl)
    (saxRun_comp (saxRun_valPlain ha _ _ _ _) (saxRun_comp (attr_next (a := c!"style:language-asian") (b := c!"style:country-asian") rfl (by decide) (by decide) rfl)
    (saxRun_comp (saxRun_valPlain hb _ _ _ _) (saxRun_comp (attr_next (a := c!"style:country-asian") (b := c!"style:language-complex") rfl (by decide) (by decide) rfl)
    (saxRun_comp (saxRun_valPlain ha _ _ _ _) (saxRun_comp (attr_next (a := c!"style:language-complex") (b := c!"style:country-complex") rfl (by decide) (by decide) rfl)
    (saxRun_comp (saxRun_valPlain hb _ _ _ _) (hz _))))))))))))
  exact key

/-- Inside a style. -/
def styleP (ls : List Str) (s : Str) : OdtP := { languageTags := langTags 1 ls, style := some s }

theorem step_props {l : Str} (hl : LangCode l) {a b : Str} (hp : languageParts l = (a, b)) (ls : List Str) :
    (styleP ls (c!"T" ++ Str.ofNat (1 + ls.length))).step (.start c!"style:text-properties" (langAttrs a b)) =
      .ok (styleP (ls ++ [l]) (c!"T" ++ Str.ofNat (1 + ls.length)), []) := by
  obtain ⟨a', b', h1, h2, h3, h4, _⟩ := languageParts_code hl
  rw [hp] at h1
  cases h1
  have e : OdtP.textProperties (styleP ls (c!"T" ++ Str.ofNat (1 + ls.length))) (langAttrs a b) =
      .ok (styleP (ls ++ [l]) (c!"T" ++ Str.ofNat (1 + ls.length))) := by
    cases a with
    | nil => exact absurd rfl h3
    | cons c a =>
      have e1 : (Dict.get? (langAttrs (c :: a) b) c!"fo:language") = some (c :: a) := rfl
      have e2 : (Dict.get? (langAttrs (c :: a) b) c!"fo:country") = some b := rfl
      have e3 : (Dict.get? (langAttrs (c :: a) b) c!"fo:font-style") = none := rfl
      have e4 : (Dict.get? (langAttrs (c :: a) b) c!"fo:font-weight") = none := rfl
      unfold OdtP.textProperties
      have e5 : (styleP ls (c!"T" ++ Str.ofNat (1 + ls.length))).style = some (c!"T" ++ Str.ofNat (1 + ls.length)) := rfl
      rw [e5]
      simp only
      rw [e3, e4, e1, e2]
      simp only
      rw [if_pos h4, if_neg (by simp), if_neg (by simp)]
      unfold styleP
      have e6 : Dict.set (langTags 1 ls) (c!"T" ++ Str.ofNat (1 + ls.length)) (c :: a ++ c!"-" ++ b) = langTags 1 (ls ++ [l]) := by
        rw [Verif.Dict.set_snoc _ _ _ (langTags_keys 1 ls (Nat.le_refl _)), langTags_snoc, h2]
      simp only [e6]
  show (match OdtP.textProperties _ _ with | .ok p' => Except.ok (p', []) | .error e => .error e) = _
  rw [e]

theorem step_style (ls : List Str) (s : Str) (as : Dict Str) (h1 : as.get? c!"style:name" = some s) (h2 : as.get? c!"style:parent-style-name" = none) :
    (idleP ls []).step (.start c!"style:style" as) = .ok (styleP ls s, []) := by
  show Except.ok (OdtP.startStyle (idleP ls []) as, []) = _
  unfold OdtP.startStyle
  rw [h1, h2]
  rfl

/-- One style. -/
theorem Fed.style {l : Str} (hl : LangCode l) (ls : List Str) (acc : Str) (r : Rd) :
    Fed h ('\n' :: languageStyle (1 + ls.length) l) acc (idleP ls []) r [] (idleP (ls ++ [l]) []) r := by
  obtain ⟨a, b, h1, h2, h3, h4, h5, h6⟩ := languageParts_code hl
  have ha : a.all plainAttr = true := List.all_eq_true.2 (fun c hc => alnum_plain (h5 c hc))
  have hb : b.all plainAttr = true := List.all_eq_true.2 (fun c hc => alnum_plain (h6 c hc))
  have e : '\n' :: languageStyle (1 + ls.length) l = c!"\n  " ++ (('<' :: (c!"style:style style:name=\"T" ++ (Str.ofNat (1 + ls.length) ++ c!"\" style:family=\"text\">\n   "))) ++
      ('<' :: (c!"style:text-properties fo:language=\"" ++ (a ++ (c!"\" fo:country=\"" ++ (b ++ (c!"\" style:language-asian=\"" ++ (a ++ (c!"\" style:country-asian=\"" ++
      (b ++ (c!"\" style:language-complex=\"" ++ (a ++ (c!"\" style:country-complex=\"" ++ (b ++ c!"\"/>\n  </style:style>")))))))))))))) := by
    unfold languageStyle
    rw [h1]
    simp only [List.flatten_cons, List.flatten_nil, List.append_nil]
    generalize Str.ofNat (1 + ls.length) = i
    show '\n' :: (c!"  <style:style style:name=\"T" ++ (i ++ (c!"\" style:family=\"text\">\n   <style:text-properties fo:language=\"" ++ _))) = _
    have e2 : ∀ x y z w : Str, x ++ (y ++ z) ++ w = x ++ (y ++ (z ++ w)) := by intro x y z w; simp
    show _ = c!"\n  <" ++ (c!"style:style style:name=\"T" ++ (i ++ c!"\" style:family=\"text\">\n   ") ++ _)
    rw [e2]
    rfl
  rw [e]
  refine (Fed.plain (by decide) acc _ _).append (Fed.append (a1 := c!"   \n") (p1 := styleP ls (c!"T" ++ Str.ofNat (1 + ls.length))) (r1 := r) ?_ ?_)
  · refine ⟨saxPend (c!"\n  ".reverse ++ acc) ++ [.start c!"style:style" [(c!"style:name", c!"T" ++ Str.ofNat (1 + ls.length)), (c!"style:family", c!"text")]], ?_, ?_⟩
    · rw [saxRun_lt, styleOpen_sax _ (digits_plain (digits_ofNat _)).1]
    · exact (idle_pend [] _ r).append (Goes.one0 r (step_style ls _ _ rfl rfl))
  · refine Fed.tag (props_sax ha hb) (p1 := styleP ls (c!"T" ++ Str.ofNat (1 + ls.length))) (r1 := r) (Goes.pend0 r (fun _ => rfl)) ?_
    have g1 : Goes h (styleP ls (c!"T" ++ Str.ofNat (1 + ls.length))) r [.start c!"style:text-properties" (langAttrs a b)] (styleP (ls ++ [l]) (c!"T" ++ Str.ofNat (1 + ls.length))) r :=
      Goes.one0 r (step_props hl h1 ls)
    have g2 : Goes h (styleP (ls ++ [l]) (c!"T" ++ Str.ofNat (1 + ls.length))) r [.stop c!"style:text-properties", .chars c!"\n  ", .stop c!"style:style"] (idleP (ls ++ [l]) []) r :=
      ⟨[], rfl, rfl⟩
    exact g1.append g2

theorem Fed.styles (ls : List Str) (hL : ∀ l ∈ ls, LangCode l) (ls0 : List Str) (acc : Str) (r : Rd) :
    ∃ acc', Fed h ((languageStyles (1 + ls0.length) ls).flatMap (fun s => '\n' :: s)) acc (idleP ls0 []) r acc' (idleP (ls0 ++ ls) []) r := by
  induction ls generalizing ls0 acc with
  | nil =>
    refine ⟨acc, ?_⟩
    rw [List.append_nil]
    exact Fed.nil _ _ _ _
  | cons l ls ih =>
    obtain ⟨acc', h2⟩ := ih (fun x hx => hL x (by simp [hx])) (ls0 ++ [l]) []
    refine ⟨acc', ?_⟩
    unfold languageStyles
    rw [List.flatMap_cons]
    have e : 1 + (ls0 ++ [l]).length = 1 + ls0.length + 1 := by simp; omega
    rw [e, List.append_assoc] at h2
    exact (Fed.style (hL l (by simp)) ls0 acc r).append h2

/-! ### Header and footer -/

set_option maxRecDepth 100000 in
theorem headStart_sax : (saxRun (.text []) odtHeadStart).1 = .text c!" \n" := by decide +kernel

set_option maxRecDepth 100000 in
theorem headStart_run : (OdtP.run {} (saxRun (.text []) odtHeadStart).2).toOption = some ({}, []) := by decide +kernel

theorem Fed.headStart (r : Rd) : Fed h odtHeadStart [] (idleP [] []) r c!" \n" (idleP [] []) r := by
  refine ⟨(saxRun (.text []) odtHeadStart).2, ?_, [], ?_, rfl⟩
  · exact Prod.ext headStart_sax rfl
  · have := headStart_run
    cases hx : OdtP.run {} (saxRun (.text []) odtHeadStart).2 with
    | error e => rw [hx] at this; cases this
    | ok p =>
      rw [hx] at this
      simp only [Except.toOption, Option.some.injEq] at this
      rw [this] at hx
      exact hx

theorem Fed.header (hL : ∀ l ∈ ls, LangCode l) (r : Rd) : ∃ acc, Fed h (formattedHeader ls) [] (idleP [] []) r acc (idleP ls []) r := by
  rw [formattedHeader_eq]
  have he : Fed h odtHeadEnd [] (idleP ls []) r c!"\n\n" (idleP ls []) r := by
    refine ⟨[.chars c!"\n ", .start c!"office:body" [], .chars c!"\n  ", .start c!"office:text" [(c!"text:use-soft-page-breaks", c!"true")]], by decide +kernel, ⟨[], rfl, rfl⟩⟩
  by_cases hne : ls = []
  · subst hne
    refine ⟨_, (Fed.headStart r).append (Fed.append (a1 := []) (p1 := idleP [] []) (r1 := r) ?_ he)⟩
    exact ⟨[.chars c!"\n ", .start c!"office:automatic-styles" [], .stop c!"office:automatic-styles"], by decide +kernel, ⟨[], rfl, rfl⟩⟩
  · rw [automaticStyles_eq hne]
    obtain ⟨acc', h2⟩ := Fed.styles (h := h) ls hL [] [] r
    refine ⟨_, (Fed.headStart r).append (Fed.append (a1 := []) (p1 := idleP ls []) (r1 := r) ?_ he)⟩
    refine Fed.append (a1 := []) (p1 := idleP [] []) (r1 := r) ?_ (Fed.append h2 ?_)
    · exact ⟨[.chars c!"\n ", .start c!"office:automatic-styles" []], by decide +kernel, ⟨[], rfl, rfl⟩⟩
    · refine (Fed.plain (t := c!"\n ") (by decide) acc' _ _).append ?_
      refine Fed.tag (t := c!"/office:automatic-styles>") (evs := [.stop c!"office:automatic-styles"]) (by decide +kernel) (idle_pend [] _ r) ?_
      exact ⟨[], rfl, rfl⟩

theorem noStart_safe {p s : Str} {d : Char} (hd : d ∈ p) (hs : d ∉ s) (hd' : d ≠ '\n') (hn : '\n' ∉ p) : noStart p (s ++ c!"\n") = true := by
  induction s with
  | nil =>
    show (!(p.isPrefixOf c!"\n") && !(c!"\n".isPrefixOf p) && true) = true
    simp only [Bool.and_true, Bool.and_eq_true, Bool.not_eq_true']
    refine ⟨?_, ?_⟩
    · rw [Bool.eq_false_iff, ne_eq, List.isPrefixOf_iff_prefix]
      intro h
      have := h.subset hd
      simp only [List.mem_singleton] at this
      exact hd' this
    · rw [Bool.eq_false_iff, ne_eq, List.isPrefixOf_iff_prefix]
      exact fun h => hn (h.subset (by simp))
  | cons c s ih =>
    simp only [List.mem_cons, not_or] at hs
    show (!(p.isPrefixOf (c :: (s ++ c!"\n"))) && !((c :: (s ++ c!"\n")).isPrefixOf p) && noStart p (s ++ c!"\n")) = true
    simp only [Bool.and_eq_true, Bool.not_eq_true']
    refine ⟨⟨?_, ?_⟩, ih hs.2⟩
    · rw [Bool.eq_false_iff, ne_eq, List.isPrefixOf_iff_prefix]
      intro h
      have := h.subset hd
      simp only [List.mem_cons, List.mem_append, List.not_mem_nil, or_false] at this
      rcases this with h | h | h
      · exact hs.1 h
      · exact hs.2 h
      · exact hd' h
    · rw [Bool.eq_false_iff, ne_eq, List.isPrefixOf_iff_prefix]
      exact fun h => hn (h.subset (by simp))

/-- Text without the characters `_`, `&` and `\r`, followed by a line break. -/
theorem Quot.safe {s : Str} (h1 : '_' ∉ s) (h2 : '&' ∉ s) (h3 : '\r' ∉ s) : Quot (s ++ c!"\n") (s ++ c!"\n") := by
  apply Quot.lit
  unfold quotLit
  rw [noStart_safe (d := '_') (by decide) h1 (by decide) (by decide), noStart_safe (d := '_') (by decide) h1 (by decide) (by decide),
    noStart_safe (d := '&') (by decide) h2 (by decide) (by decide)]
  simp [h3]

theorem styles_no {d : Char} (hd : d = '_' ∨ d = '&' ∨ d = '\r') (hL : ∀ l ∈ ls, LangCode l) (i : Nat) : d ∉ (languageStyles i ls).flatMap (fun s => '\n' :: s) := by
  induction ls generalizing i with
  | nil => simp [languageStyles]
  | cons l ls ih =>
    unfold languageStyles
    rw [List.flatMap_cons, List.mem_append, not_or]
    refine ⟨?_, ih (fun x hx => hL x (by simp [hx])) (i + 1)⟩
    obtain ⟨a, b, h1, h2, h3, h4, h5, h6⟩ := languageParts_code (hL l (by simp))
    have hda : d.isAlphanum = false := by rcases hd with rfl | rfl | rfl <;> decide
    have ha : d ∉ a := fun hm => by rw [h5 d hm] at hda; cases hda
    have hb : d ∉ b := fun hm => by rw [h6 d hm] at hda; cases hda
    have hi : d ∉ Str.ofNat i := by
      intro hm
      have := digits_ofNat i d hm
      rcases hd with rfl | rfl | rfl <;> exact absurd this (by unfold Digit; decide)
    rw [List.mem_cons, not_or]
    refine ⟨by rcases hd with rfl | rfl | rfl <;> decide, ?_⟩
    unfold languageStyle
    rw [h1]
    simp only
    intro hm
    rw [List.mem_flatten] at hm
    obtain ⟨t, ht, hm⟩ := hm
    revert hm
    revert t
    simp only [List.forall_mem_cons]
    refine ⟨?_, hi, ?_, ha, ?_, hb, ?_, ha, ?_, hb, ?_, ha, ?_, hb, ?_, by intro x hx; cases hx⟩ <;> rcases hd with rfl | rfl | rfl <;> decide

theorem Quot.header (hL : ∀ l ∈ ls, LangCode l) : Quot (formattedHeader ls) (formattedHeader ls) := by
  rw [formattedHeader_eq]
  refine Quot.append (Quot.lit (by decide +kernel)) (Quot.append ?_ (Quot.lit (by decide)))
  by_cases hne : ls = []
  · subst hne
    exact Quot.lit (by decide)
  · rw [automaticStyles_eq hne]
    have e : c!"<office:automatic-styles>" ++ ((languageStyles 1 ls).flatMap (fun s => '\n' :: s) ++ c!"\n </office:automatic-styles>") =
        (c!"<office:automatic-styles>" ++ (languageStyles 1 ls).flatMap (fun s => '\n' :: s) ++ c!"\n") ++ c!" </office:automatic-styles>" := by
      have e2 : ∀ x y : Str, x ++ (y ++ (c!"\n" ++ c!" </office:automatic-styles>")) = (x ++ y ++ c!"\n") ++ c!" </office:automatic-styles>" := by
        intro x y
        rw [List.append_assoc, List.append_assoc]
      exact e2 _ _
    rw [e]
    refine Quot.append (Quot.safe ?_ ?_ ?_) (Quot.lit (by decide))
    all_goals
      rw [List.mem_append, not_or]
      refine ⟨by decide, styles_no ?_ hL 1⟩
      simp

theorem Part.footer {type : Nat} {r : Rd} : Part type ls contentFooter r r := by
  refine ⟨contentFooter, Quot.lit (by decide), ?_⟩
  intro cm acc langs hl
  refine ⟨cm, c!"\n", langs, hl, ?_⟩
  have e : contentFooter = c!"  " ++ '<' :: c!"/office:text>\n </office:body>\n</office:document-content>\n" := rfl
  rw [e]
  refine (Fed.plain (by decide) acc _ _).append ?_
  refine ⟨saxPend (c!"  ".reverse ++ acc) ++ [.stop c!"office:text", .chars c!"\n ", .stop c!"office:body", .chars c!"\n", .stop c!"office:document-content"], ?_, ?_⟩
  · rw [saxRun_lt]
    rfl
  · exact (idle_pend cm _ _).append ⟨[], rfl, rfl⟩

end Verif
