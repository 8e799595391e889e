/-
Reading a line of a document that was written from a formatted text, piece by piece.
-/
import Verif.Lemmas.ReadLine
import Verif.Props.C32_Scenes

namespace Verif
open Spec Re

variable {ls : List Str} {author : Option Str} {type : Nat} {r0 : Rd} {q : Bool}

/-! ### The styles for languages -/

theorem langTags_none {k : Str} (h : ∀ j, k ≠ c!"T" ++ Str.ofNat j) (i : Nat) (rs : List Str) : (langTags i rs).get? k = none := by
  induction rs generalizing i with
  | nil => rfl
  | cons l rs ih =>
    unfold langTags Dict.get?
    rw [if_neg (fun e => h i e.symm)]
    exact ih (i + 1)

theorem langTags_some {i j : Nat} (hij : i ≤ j) {rs : List Str} {l : Str} (h : rs[j - i]? = some l) : (langTags i rs).get? (c!"T" ++ Str.ofNat j) = some l := by
  induction rs generalizing i with
  | nil => cases h
  | cons m rs ih =>
    unfold langTags Dict.get?
    by_cases e : i = j
    · subst e
      rw [if_pos rfl]
      simpa using h
    · rw [if_neg (fun he => e (Str.ofNat_injective (List.append_cancel_left he)))]
      refine ih (i := i + 1) (by omega) ?_
      have e2 : j - i = (j - (i + 1)) + 1 := by omega
      rw [e2] at h
      simpa using h

theorem ne_langTag {k : Str} (h : ∀ d ∈ k[1]?, d.isDigit = false) (h' : 1 < k.length) : ∀ j, k ≠ c!"T" ++ Str.ofNat j := by
  intro j e
  obtain ⟨d, r, e2, hd⟩ := ofNat_head j
  rw [e2] at e
  subst e
  have := h d (by simp)
  rw [hd] at this
  cases this

/-! ### A part of a line -/

/-- The languages known to the reader: those of the project; none is forgotten, and those in `K` are added. -/
def Kept (ls : List Str) (K : Str → Prop) (langs langs' : List Str) : Prop := (∀ l ∈ langs', l ∈ ls) ∧ ∀ l, l ∈ langs ∨ K l → l ∈ langs'

/-- No language. -/
def NoLang : Str → Prop := fun _ => False

theorem Kept.same {langs : List Str} (h : ∀ l ∈ langs, l ∈ ls) : Kept ls NoLang langs langs := ⟨h, fun l hl => hl.elim id (fun h => h.elim)⟩

theorem Kept.trans {K K1 K2 : Str → Prop} {a b c : List Str} (hK : ∀ x, K x → K1 x ∨ K2 x) (h1 : Kept ls K1 a b) (h2 : Kept ls K2 b c) : Kept ls K a c := by
  refine ⟨h2.1, ?_⟩
  rintro l (h | h)
  · exact h2.2 l (.inl (h1.2 l (.inl h)))
  · rcases hK l h with h | h
    · exact h2.2 l (.inl (h1.2 l (.inr h)))
    · exact h2.2 l (.inr h)

/-- The languages begun in a line. -/
def begun (l : List Piece) : Str → Prop := fun x => .op (c!"lang=" ++ x) ∈ l

/-- The text takes the reader from the open formattings `st` to `st'`; it adds `out`. -/
def Reads (type : Nat) (r0 : Rd) (ls : List Str) (q : Bool) (s acc : Str) (st : List Str) (out acc' : Str) (st' : List Str) (K : Str → Prop) : Prop :=
  ∀ cm L langs, (∀ l ∈ langs, l ∈ ls) → ∃ cm' L' langs', Kept ls K langs langs' ∧
    Fed (manuscriptReader type) s acc (lineP ls cm q st) (rdAt r0 L (langOf st) langs) acc' (lineP ls cm' q st') (rdAt r0 L' (langOf st') langs') ∧
    L'.flatten = L.flatten ++ out

theorem Reads.append {K K1 K2 : Str → Prop} {s1 s2 a a1 a2 o1 o2 : Str} {st st1 st2 : List Str} (h1 : Reads type r0 ls q s1 a st o1 a1 st1 K1)
    (h2 : Reads type r0 ls q s2 a1 st1 o2 a2 st2 K2) (hK : ∀ x, K x → K1 x ∨ K2 x) :
    Reads type r0 ls q (s1 ++ s2) a st (o1 ++ o2) a2 st2 K := by
  intro cm L langs hl
  obtain ⟨cm1, L1, langs1, hl1, f1, e1⟩ := h1 cm L langs hl
  obtain ⟨cm2, L2, langs2, hl2, f2, e2⟩ := h2 cm1 L1 langs1 hl1.1
  exact ⟨cm2, L2, langs2, Kept.trans hK hl1 hl2, f1.append f2, by rw [e2, e1, List.append_assoc]⟩

/-- A tag whose event leads to one call that adds `out`. -/
theorem Reads.tag {K : Str → Prop} (h0 : InScene r0) {t acc out : Str} {st st' : List Str} {evs : List Ev} (ha : acc.reverse = [] ∨ ∃ c ∈ acc.reverse, Str.isWs c = false)
    (h1 : saxRun .lt t = (.text [], evs))
    (h2 : ∀ cm L langs, (∀ l ∈ langs, l ∈ ls) → ∃ cm' L' langs', Kept ls K langs langs' ∧
      Goes (manuscriptReader type) (lineP ls cm q st) (rdAt r0 L (langOf st) langs) evs (lineP ls cm' q st') (rdAt r0 L' (langOf st') langs') ∧
      L'.flatten = L.flatten ++ out) :
    Reads type r0 ls q ('<' :: t) acc st (acc.reverse ++ out) [] st' K := by
  intro cm L langs hl
  obtain ⟨L1, g1, e1⟩ := pend_line (type := type) (ls := ls) (q := q) (cm := cm) (st := st) (L := L) (lang := langOf st) (langs := langs) h0 ha
  obtain ⟨cm2, L2, langs2, hl2, g2, e2⟩ := h2 cm L1 langs hl
  exact ⟨cm2, L2, langs2, hl2, Fed.tag h1 g1 g2, by rw [e2, e1, List.append_assoc]⟩

theorem Reads.ch {c : Char} (h : xmlLegal c = true) (acc : Str) (st : List Str) : Reads type r0 ls q (escChar c) acc st [] (c :: acc) st NoLang := by
  intro cm L langs hl
  exact ⟨cm, L, langs, Kept.same hl, ⟨[], saxRun_escChar h acc, Goes.nil _ _ _⟩, by simp⟩

/-- One event, one call. -/
theorem Goes.one1 {h : Reader} {p p' : OdtP} {r r' : Rd} {e : Ev} {c : Call} (h1 : p.step e = .ok (p', [c])) (h2 : h r c = .ok r') :
    Goes h p r [e] p' r' := by
  refine Goes.one h1 ?_
  simp only [Reader.run, h2, bind, Except.bind]

/-- One event, no call. -/
theorem Goes.one0 {h : Reader} {p p' : OdtP} (r : Rd) {e : Ev} (h1 : p.step e = .ok (p', [])) : Goes h p r [e] p' r :=
  Goes.one h1 rfl

/-! ### Formattings -/

theorem langOf_i (st : List Str) : langOf (c!"i" :: st) = langOf st := rfl
theorem langOf_b (st : List Str) : langOf (c!"b" :: st) = langOf st := rfl
theorem langOf_lang (l : Str) (st : List Str) : langOf ((c!"lang=" ++ l) :: st) = l := by
  unfold langOf
  rw [if_pos (List.prefix_append _ _)]
  rfl

theorem scene_at (h0 : InScene r0) (L : List Str) (lang : Str) (langs : List Str) : ∃ id, (rdAt r0 L lang langs).scId = some id :=
  Option.isSome_iff_exists.1 h0.scene

theorem start_em (h0 : InScene r0) (L : List Str) (lang : Str) (langs : List Str) :
    manuscriptReader type (rdAt r0 L lang langs) (.start c!"em" []) = .ok (rdAt r0 (L ++ [c!"[i]"]) lang langs) := by
  show msStart type _ _ _ = _
  have e1 : (rdAt r0 L lang langs).scId.isSome = true := h0.scene
  unfold msStart
  show (if (rdAt r0 L lang langs).scId.isSome = true then _ else _) = _
  rw [if_pos e1]
  rfl

theorem start_strong (h0 : InScene r0) (L : List Str) (lang : Str) (langs : List Str) :
    manuscriptReader type (rdAt r0 L lang langs) (.start c!"strong" []) = .ok (rdAt r0 (L ++ [c!"[b]"]) lang langs) := by
  show msStart type _ _ _ = _
  have e1 : (rdAt r0 L lang langs).scId.isSome = true := h0.scene
  unfold msStart
  show (if (rdAt r0 L lang langs).scId.isSome = true then _ else _) = _
  rw [if_pos e1]
  rfl

theorem start_lang (h0 : InScene r0) (L : List Str) (lang : Str) (langs : List Str) (l : Str) :
    manuscriptReader type (rdAt r0 L lang langs) (.start c!"lang" [(c!"lang", some l)]) =
      .ok (rdAt r0 (L ++ [c!"[lang=" ++ l ++ c!"]"]) l (if l ∈ langs then langs else langs ++ [l])) := by
  show msStart type _ _ _ = _
  have e1 : (rdAt r0 L lang langs).scId.isSome = true := h0.scene
  unfold msStart
  show (if (rdAt r0 L lang langs).scId.isSome = true then _ else _) = _
  rw [if_pos e1]
  rfl

theorem stop_em (h0 : InScene r0) (L : List Str) (lang : Str) (langs : List Str) :
    manuscriptReader type (rdAt r0 L lang langs) (.stop c!"em") = .ok (rdAt r0 (L ++ [c!"[/i]"]) lang langs) := by
  obtain ⟨id, e⟩ := scene_at h0 L lang langs
  show msStop _ _ = _
  unfold msStop
  rw [e]
  rfl

theorem stop_strong (h0 : InScene r0) (L : List Str) (lang : Str) (langs : List Str) :
    manuscriptReader type (rdAt r0 L lang langs) (.stop c!"strong") = .ok (rdAt r0 (L ++ [c!"[/b]"]) lang langs) := by
  obtain ⟨id, e⟩ := scene_at h0 L lang langs
  show msStop _ _ = _
  unfold msStop
  rw [e]
  rfl

theorem stopLanguage_at (L : List Str) {lang : Str} (hl : lang ≠ []) (langs : List Str) :
    (rdAt r0 L lang langs).stopLanguage = rdAt r0 (L ++ [c!"[/lang=" ++ lang ++ c!"]"]) [] langs := by
  unfold Rd.stopLanguage
  have : (rdAt r0 L lang langs).language ≠ [] := hl
  rw [if_neg this]
  rfl

theorem stopLanguage_none (L : List Str) (langs : List Str) : (rdAt r0 L [] langs).stopLanguage = rdAt r0 L [] langs := by
  unfold Rd.stopLanguage
  have : (rdAt r0 L [] langs).language = [] := rfl
  rw [if_pos this]

theorem stop_lang (h0 : InScene r0) (L : List Str) {lang : Str} (hl : lang ≠ []) (langs : List Str) :
    manuscriptReader type (rdAt r0 L lang langs) (.stop c!"lang") = .ok (rdAt r0 (L ++ [c!"[/lang=" ++ lang ++ c!"]"]) [] langs) := by
  obtain ⟨id, e⟩ := scene_at h0 L lang langs
  show msStop _ _ = _
  rw [← stopLanguage_at L hl langs]
  unfold msStop
  rw [e]
  rfl

theorem step_em (cm : Str) (st : List Str) :
    (lineP ls cm q st).step (.start c!"text:span" [(c!"text:style-name", c!"Emphasis")]) = .ok (lineP ls cm q (c!"i" :: st), [.start c!"em" []]) := by
  have e := langTags_none (ne_langTag (k := c!"Emphasis") (by decide) (by decide)) 1 ls
  show (match (langTags 1 ls).get? c!"Emphasis" with | some l => _ | none => _) = _
  rw [e]
  rfl

theorem step_strong (cm : Str) (st : List Str) :
    (lineP ls cm q st).step (.start c!"text:span" [(c!"text:style-name", c!"Strong_20_Emphasis")]) =
      .ok (lineP ls cm q (c!"b" :: st), [.start c!"strong" []]) := by
  have e := langTags_none (ne_langTag (k := c!"Strong_20_Emphasis") (by decide) (by decide)) 1 ls
  show (match (langTags 1 ls).get? c!"Strong_20_Emphasis" with | some l => _ | none => _) = _
  rw [e]
  rfl

theorem spanName_lang (l : Str) : spanName (c!"lang=" ++ l) = c!"lang" := by
  unfold spanName
  rw [if_neg (by simp), if_neg (by simp)]

theorem step_lang (cm : Str) (st : List Str) {j : Nat} {l : Str} (hj : (langTags 1 ls).get? (c!"T" ++ Str.ofNat j) = some l) :
    (lineP ls cm q st).step (.start c!"text:span" [(c!"text:style-name", c!"T" ++ Str.ofNat j)]) =
      .ok (lineP ls cm q ((c!"lang=" ++ l) :: st), [.start c!"lang" [(c!"lang", some l)]]) := by
  have e1 : c!"T" ++ Str.ofNat j ∉ [c!"Emphasis"] := by simp
  have e2 : c!"T" ++ Str.ofNat j ∉ [c!"Strong_20_Emphasis"] := by simp
  show OdtP.startElement (lineP ls cm q st) c!"text:span" [(c!"text:style-name", c!"T" ++ Str.ofNat j)] = _
  unfold OdtP.startElement
  rw [if_neg (by decide), if_pos rfl]
  have e3 : ((Dict.get? [(c!"text:style-name", c!"T" ++ Str.ofNat j)] c!"text:style-name").getD []) = c!"T" ++ Str.ofNat j := rfl
  have e4 : OdtP.emphasis (c!"T" ++ Str.ofNat j) (lineP ls cm q st, []) = (lineP ls cm q st, []) := by
    unfold OdtP.emphasis
    have e5 : c!"T" ++ Str.ofNat j ∉ (lineP ls cm q st).emTags := e1
    have e6 : c!"T" ++ Str.ofNat j ∉ (lineP ls cm q st).strongTags := e2
    simp only [if_neg e5, if_neg e6]
  simp only [e3, e4]
  have e7 : (lineP ls cm q st).languageTags.get? (c!"T" ++ Str.ofNat j) = some l := hj
  rw [e7]
  simp only [lineP, List.map_cons, spanName_lang, List.nil_append]

theorem langSpan_sax (j : Nat) : ∃ t, langSpan j = '<' :: t ∧ saxRun .lt t = (.text [], [.start c!"text:span" [(c!"text:style-name", c!"T" ++ Str.ofNat j)]]) := by
  refine ⟨c!"text:span text:style-name=\"" ++ ((c!"T" ++ Str.ofNat j) ++ c!"\">"), ?_, ?_⟩
  · unfold langSpan
    simp only [List.append_assoc, List.cons_append, List.nil_append]
  · have h1 : saxRun .lt c!"text:span text:style-name=\"" = (.val c!"text:span".reverse [] c!"text:style-name".reverse '"' [], []) := by decide +kernel
    have h2 : (c!"T" ++ Str.ofNat j).all plainAttr = true := by
      rw [List.all_append, Bool.and_eq_true]
      exact ⟨by decide, (digits_plain (digits_ofNat j)).1⟩
    have h3 : ∀ v : Str, saxRun (.val c!"text:span".reverse [] c!"text:style-name".reverse '"' (v.reverse ++ [])) c!"\">" =
        (.text [], [.start c!"text:span" [(c!"text:style-name", v)]]) := by
      intro v
      rw [List.append_nil]
      have e : (List.reverse v).reverse = v := List.reverse_reverse v
      show (Sx.text [], [Ev.start _ [(_, v.reverse.reverse)]]) = _
      rw [e]
      rfl
    rw [saxRun_comp h1 (saxRun_comp (saxRun_valPlain h2 _ _ _ _) (h3 _))]
    rfl

/-- The codes of the languages are not empty. -/
def NoBlankLang (ls : List Str) : Prop := ∀ l ∈ ls, l ≠ []

/-- A pending run of characters is not lost. -/
def Visible (acc : Str) : Prop := acc.reverse = [] ∨ ∃ c ∈ acc.reverse, Str.isWs c = false

/-- The beginning of a formatting. -/
theorem Reads.op (h0 : InScene r0) {t acc : Str} (ht : t ∈ formats ls) (ha : Visible acc) (st : List Str) :
    Reads type r0 ls q (opText ls t) acc st (acc.reverse ++ (Piece.op t).raw) [] (t :: st) (fun x => t = c!"lang=" ++ x) := by
  by_cases e1 : t = c!"i"
  · subst e1
    show Reads type r0 ls q (c!"<text:span text:style-name=\"Emphasis\">") acc st _ [] _ _
    refine Reads.tag h0 ha (evs := [.start c!"text:span" [(c!"text:style-name", c!"Emphasis")]]) (by decide +kernel) ?_
    intro cm L langs hl
    exact ⟨cm, _, langs, ⟨hl, fun l h => h.elim id (fun h => by simp at h)⟩, Goes.one1 (step_em cm st) (start_em h0 L _ langs), by simp [Piece.raw]⟩
  by_cases e2 : t = c!"b"
  · subst e2
    show Reads type r0 ls q (c!"<text:span text:style-name=\"Strong_20_Emphasis\">") acc st _ [] _ _
    refine Reads.tag h0 ha (evs := [.start c!"text:span" [(c!"text:style-name", c!"Strong_20_Emphasis")]]) (by decide +kernel) ?_
    intro cm L langs hl
    exact ⟨cm, _, langs, ⟨hl, fun l h => h.elim id (fun h => by simp at h)⟩, Goes.one1 (step_strong cm st) (start_strong h0 L _ langs), by simp [Piece.raw]⟩
  simp only [formats, List.mem_cons, e1, e2, false_or, List.mem_map] at ht
  obtain ⟨l, hm, rfl⟩ := ht
  obtain ⟨j, h1, _, e, h2⟩ := langOp_eq 1 hm
  have e3 : opText ls (c!"lang=" ++ l) = langSpan j := by
    unfold opText
    rw [if_neg e1, if_neg e2, e]
  obtain ⟨t, e4, h3⟩ := langSpan_sax j
  rw [e3, e4]
  refine Reads.tag h0 ha h3 ?_
  intro cm L langs hl
  refine ⟨cm, L ++ [c!"[lang=" ++ l ++ c!"]"], if l ∈ langs then langs else langs ++ [l], ?_, ?_, ?_⟩
  rotate_left
  · rw [langOf_lang]
    exact Goes.one1 (step_lang cm st (langTags_some h1 h2)) (start_lang h0 L _ langs l)
  · simp [Piece.raw]
  · constructor
    · intro x hx
      split at hx
      · exact hl x hx
      · rcases List.mem_append.1 hx with hx | hx
        · exact hl x hx
        · rw [List.mem_singleton.1 hx]; exact hm
    · rintro x (h | h)
      · split
        · exact h
        · simp [h]
      · have h := List.append_cancel_left h
        subst h
        split
        · assumption
        · simp

theorem step_stop (cm : Str) (t : Str) (st : List Str) :
    (lineP ls cm q (t :: st)).step (.stop c!"text:span") = .ok (lineP ls cm q st, [.stop (spanName t)]) := rfl

/-- The end of a formatting. -/
theorem Reads.cl (h0 : InScene r0) (hL : NoBlankLang ls) {t acc : Str} (ht : t ∈ formats ls) (ha : Visible acc) {st : List Str}
    (hs : c!"lang=" <+: t → ∀ u ∈ st, ¬ c!"lang=" <+: u) :
    Reads type r0 ls q spanEnd acc (t :: st) (acc.reverse ++ (Piece.cl t).raw) [] st NoLang := by
  show Reads type r0 ls q (c!"</text:span>") acc _ _ [] _ _
  refine Reads.tag h0 ha (evs := [.stop c!"text:span"]) (by decide +kernel) ?_
  intro cm L langs hl
  by_cases e1 : t = c!"i"
  · subst e1
    exact ⟨cm, _, langs, Kept.same hl, Goes.one1 (step_stop cm _ st) (stop_em h0 L _ langs), by simp [Piece.raw]⟩
  by_cases e2 : t = c!"b"
  · subst e2
    exact ⟨cm, _, langs, Kept.same hl, Goes.one1 (step_stop cm _ st) (stop_strong h0 L _ langs), by simp [Piece.raw]⟩
  simp only [formats, List.mem_cons, e1, e2, false_or, List.mem_map] at ht
  obtain ⟨l, hm, rfl⟩ := ht
  replace hs := hs (List.prefix_append _ _)
  have e3 : langOf st = [] := by
    clear ha
    induction st with
    | nil => rfl
    | cons u st ih =>
      unfold langOf
      rw [if_neg (hs u (by simp))]
      exact ih (fun v hv => hs v (by simp [hv]))
  refine ⟨cm, L ++ [c!"[/lang=" ++ l ++ c!"]"], langs, Kept.same hl, Goes.one1 (step_stop cm _ st) ?_, ?_⟩
  · rw [spanName_lang, langOf_lang, e3]
    exact stop_lang h0 L (hL l hm) langs
  · simp [Piece.raw]

/-! ### Comments -/

/-- In a comment. -/
def noteP (ls : List Str) (cm : Str) (q : Bool) (st : List Str) (k : Nat) : OdtP :=
  { languageTags := langTags 1 ls, comment := cm, paragraph := true, blockquote := q, span := st.map spanName, commentCount := some k }

theorem author_plain (ha : AuthorOk author) : (pyStr author).all plainChar = true := by
  rw [List.all_eq_true]
  intro c hc
  obtain ⟨h1, h2⟩ := ha c hc
  have k : ∀ d : Char, d ∈ c!"<>&[*\r\n" → c ≠ d := fun d hd e => h2 (e ▸ hd)
  simp only [plainChar, Bool.and_eq_true, bne_iff_ne, ne_eq]
  exact ⟨⟨⟨⟨h1, k '<' (by decide)⟩, k '&' (by decide)⟩, k '>' (by decide)⟩, k '\r' (by decide)⟩

theorem note_sax (ha : AuthorOk author) {s : Str} (hs : Carriable s) :
    ∃ t, noteStart author ++ s.flatMap escChar ++ noteEnd = '<' :: t ∧
      saxRun .lt t = (.text [], [.start c!"office:annotation" [], .start c!"dc:creator" []] ++ saxPend (pyStr author).reverse ++
        [.stop c!"dc:creator", .start c!"text:p" []] ++ saxPend s.reverse ++ [.stop c!"text:p", .stop c!"office:annotation"]) := by
  refine ⟨c!"office:annotation><dc:creator>" ++ (pyStr author ++ (c!"</dc:creator><text:p>" ++ (s.flatMap escChar ++ c!"</text:p></office:annotation>"))), ?_, ?_⟩
  · unfold noteStart noteEnd
    simp only [List.append_assoc, List.cons_append, List.nil_append]
  · have h1 : saxRun .lt c!"office:annotation><dc:creator>" = (.text [], [.start c!"office:annotation" [], .start c!"dc:creator" []]) := by decide +kernel
    have h2 := saxRun_plain (author_plain ha) []
    have h3 : ∀ acc, saxRun (.text acc) c!"</dc:creator><text:p>" = (.text [], saxPend acc ++ [.stop c!"dc:creator", .start c!"text:p" []]) := fun _ => rfl
    have h4 := saxRun_esc hs []
    have h5 : ∀ acc, saxRun (.text acc) c!"</text:p></office:annotation>" = (.text [], saxPend acc ++ [.stop c!"text:p", .stop c!"office:annotation"]) := fun _ => rfl
    rw [saxRun_comp h1 (saxRun_comp h2 (saxRun_comp (h3 _) (saxRun_comp h4 (h5 _))))]
    simp only [List.append_nil, List.nil_append, List.append_assoc]

theorem Goes.pend0 {h : Reader} {p : OdtP} (r : Rd) {acc : Str} (h1 : ∀ s, p.step (.chars s) = .ok (p, [])) : Goes h p r (saxPend acc) p r := by
  unfold saxPend
  split
  · exact Goes.nil _ _ _
  · exact Goes.one0 r (h1 _)

theorem step_comment (cm : Str) (st : List Str) {s : Str} (r : Rd) (h : Reader) :
    Goes h (noteP ls cm q st 1) r (saxPend s.reverse) (noteP ls (cm ++ s) q st 1) r := by
  unfold saxPend
  split
  · rename_i e
    have : s = [] := by simpa using e
    subst this
    rw [List.append_nil]
    exact Goes.nil _ _ _
  · rw [List.reverse_reverse]
    exact Goes.one0 r rfl

theorem comment_at (h0 : InScene r0) (L : List Str) (lang : Str) (langs : List Str) {s : Str} (h1 : '~' ∉ s) (h2 : Str.strip s = s) :
    manuscriptReader type (rdAt r0 L lang langs) (.comment s) = .ok (rdAt r0 (L ++ [c!"/*" ++ s ++ c!"*/"]) lang langs) := by
  obtain ⟨id, e⟩ := scene_at h0 L lang langs
  show Except.ok (msComment _ _) = _
  unfold msComment
  have hc : Str.contains s c!"~" = false := by
    rw [contains_false_iff]
    rintro ⟨a, b, rfl⟩
    exact h1 (by simp)
  rw [e, hc]
  simp only [h2]
  rfl

/-- A comment. -/
theorem Reads.note (h0 : InScene r0) (hA : AuthorOk author) {s acc : Str} (hs : (Piece.note s).Ok ls) (ha : Visible acc) (st : List Str) :
    Reads type r0 ls q (noteStart author ++ s.flatMap escChar ++ noteEnd) acc st (acc.reverse ++ (Piece.note s).raw) [] st NoLang := by
  obtain ⟨t, e, hx⟩ := note_sax hA (s := s) (fun c hc => ⟨(hs.1 c hc).1, (hs.1 c hc).2.2.1⟩)
  rw [e]
  refine Reads.tag h0 ha hx ?_
  intro cm L langs hl
  refine ⟨s, L ++ [c!"/*" ++ s ++ c!"*/"], langs, Kept.same hl, ?_, by simp [Piece.raw]⟩
  have h1 : Goes (manuscriptReader type) (lineP ls cm q st) (rdAt r0 L (langOf st) langs) [.start c!"office:annotation" [], .start c!"dc:creator" []]
      (noteP ls [] q st 0) (rdAt r0 L (langOf st) langs) := Goes.append (a := [_]) (Goes.one0 _ rfl) (Goes.one0 _ rfl)
  have h2 : Goes (manuscriptReader type) (noteP ls [] q st 0) (rdAt r0 L (langOf st) langs) (saxPend (pyStr author).reverse)
      (noteP ls [] q st 0) (rdAt r0 L (langOf st) langs) := Goes.pend0 _ (fun _ => rfl)
  have h3 : Goes (manuscriptReader type) (noteP ls [] q st 0) (rdAt r0 L (langOf st) langs) [.stop c!"dc:creator", .start c!"text:p" []]
      (noteP ls [] q st 1) (rdAt r0 L (langOf st) langs) := Goes.append (a := [_]) (Goes.one0 _ rfl) (Goes.one0 _ rfl)
  have h4 := step_comment (ls := ls) (q := q) [] st (s := s) (rdAt r0 L (langOf st) langs) (manuscriptReader type)
  have h5 : Goes (manuscriptReader type) (noteP ls ([] ++ s) q st 1) (rdAt r0 L (langOf st) langs) [.stop c!"text:p", .stop c!"office:annotation"]
      (lineP ls s q st) (rdAt r0 (L ++ [c!"/*" ++ s ++ c!"*/"]) (langOf st) langs) :=
    Goes.append (a := [_]) (Goes.one0 _ rfl) (Goes.one1 rfl (comment_at h0 L _ langs (fun hm => (hs.1 _ hm).2.2.2.2.2.2 rfl) hs.2))
  exact (((h1.append h2).append h3).append h4).append h5

/-! ### A whole line -/

/-- At most one language is open. -/
def OneLang : List Str → Prop
  | [] => True
  | t :: st => (c!"lang=" <+: t → ∀ u ∈ st, ¬ c!"lang=" <+: u) ∧ OneLang st

theorem read_line (h0 : InScene r0) (hL : NoBlankLang ls) (hA : AuthorOk author) {l : List Piece} (ho : ∀ p ∈ l, p.Ok ls) (hn : Piece.nl ∉ l)
    {st st' : List Str} (hs : OneLang st) (hst : ∀ t ∈ st, t ∈ formats ls) (hop : openAfter st l = some st') {acc : Str}
    (hr : ∀ s ∈ textRuns acc.reverse l, s = [] ∨ ∃ c ∈ s, Str.isWs c = false) :
    ∃ acc' out, Reads type r0 ls q (lineOut author ls l) acc st out acc' st' (begun l) ∧ Visible acc' ∧ out ++ acc'.reverse = acc.reverse ++ rawText l := by
  induction l generalizing st acc with
  | nil =>
    cases hop
    refine ⟨acc, [], ?_, hr _ (by simp [textRuns]), by simp [rawText]⟩
    intro cm L langs hl
    exact ⟨cm, L, langs, ⟨hl, fun l h => h.elim id (fun h => by cases h)⟩, Fed.nil _ _ _ _, by simp⟩
  | cons x l ih =>
    have ho' : ∀ p ∈ l, p.Ok ls := fun y hy => ho y (by simp [hy])
    have hn' : Piece.nl ∉ l := fun hm => hn (by simp [hm])
    have hx := ho x (by simp)
    rw [lineOut_cons, rawText_cons]
    cases x with
    | nl => exact absurd (by simp) hn
    | ch c =>
      simp only [openAfter] at hop
      obtain ⟨acc', out, h1, h2, h3⟩ := ih ho' hn' hs hst hop (acc := c :: acc) (by simpa [textRuns] using hr)
      refine ⟨acc', [] ++ out, Reads.append (Reads.ch hx.1 acc st) h1 (fun x h => .inr (by simpa [begun] using h)), h2, ?_⟩
      rw [List.nil_append, h3]
      simp [Piece.raw]
    | op t =>
      simp only [openAfter] at hop
      split at hop
      · cases hop
      rename_i hno
      have hr' : ∀ s ∈ acc.reverse :: textRuns [] l, s = [] ∨ ∃ c ∈ s, Str.isWs c = false := hr
      obtain ⟨acc', out, h1, h2, h3⟩ := ih ho' hn' (st := t :: st) ⟨fun hp u hu hu' => hno ⟨hp, u, hu, hu'⟩, hs⟩
        (fun u hu => by rcases List.mem_cons.1 hu with rfl | hu; exact hx; exact hst u hu) hop (acc := []) (fun s hs => hr' s (by simp [show s ∈ textRuns [] l from hs]))
      refine ⟨acc', _, Reads.append (Reads.op h0 hx (hr' _ (by simp)) st) h1 (fun x h => by simpa [begun, NoLang, eq_comm] using h), h2, ?_⟩
      rw [List.append_assoc, h3]
      simp
    | cl t =>
      cases st with
      | nil => simp [openAfter] at hop
      | cons u st =>
        simp only [openAfter] at hop
        split at hop
        · rename_i e
          subst e
          have hr' : ∀ s ∈ acc.reverse :: textRuns [] l, s = [] ∨ ∃ c ∈ s, Str.isWs c = false := hr
          obtain ⟨acc', out, h1, h2, h3⟩ := ih ho' hn' hs.2 (fun u hu => hst u (by simp [hu])) hop (acc := []) (fun s hs => hr' s (by simp [show s ∈ textRuns [] l from hs]))
          refine ⟨acc', _, Reads.append (Reads.cl h0 hL hx (hr' _ (by simp)) hs.1) h1 (fun x h => .inr (by simpa [begun] using h)), h2, ?_⟩
          rw [List.append_assoc, h3]
          simp
        · cases hop
    | note s =>
      simp only [openAfter] at hop
      have hr' : ∀ s ∈ acc.reverse :: textRuns [] l, s = [] ∨ ∃ c ∈ s, Str.isWs c = false := hr
      obtain ⟨acc', out, h1, h2, h3⟩ := ih ho' hn' hs hst hop (acc := []) (fun s hs => hr' s (by simp [show s ∈ textRuns [] l from hs]))
      refine ⟨acc', _, Reads.append (Reads.note h0 hA hx (hr' _ (by simp)) st) h1 (fun x h => by simpa [begun, NoLang, eq_comm] using h), h2, ?_⟩
      rw [List.append_assoc, h3]
      simp

end Verif
