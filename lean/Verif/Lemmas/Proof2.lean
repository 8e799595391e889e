/-
Reading a line of a proof reading document, piece by piece.
-/
import Verif.Lemmas.Proof1

namespace Verif.Proof
open Spec Re

variable {ls : List Str} {author : Option Str} {r0 : Rd} {q : Bool}

/-! ### The states -/

/-- The styles for emphasis. -/
def emNames (ls : List Str) : List Str := [c!"Emphasis", c!"T" ++ Str.ofNat (ls.length + 1)]
/-- See `emNames`. -/
def strongNames (ls : List Str) : List Str := [c!"Strong_20_Emphasis", c!"T" ++ Str.ofNat (ls.length + 2)]

/-- Between two paragraphs; `cm` is the text of the last comment. -/
def idleP (ls : List Str) (cm : Str) : OdtP := { emTags := emNames ls, strongTags := strongNames ls, languageTags := langTags 1 ls, comment := cm }

/-- In a paragraph. -/
def lineP (ls : List Str) (cm : Str) (q : Bool) (st : List Str) : OdtP :=
  { emTags := emNames ls, strongTags := strongNames ls, languageTags := langTags 1 ls, comment := cm, paragraph := true, blockquote := q, span := st.map spanName }

/-- In a comment. -/
def noteP (ls : List Str) (cm : Str) (q : Bool) (st : List Str) (k : Nat) : OdtP :=
  { emTags := emNames ls, strongTags := strongNames ls, languageTags := langTags 1 ls, comment := cm, paragraph := true, blockquote := q, span := st.map spanName, commentCount := some k }

/-- The text has no scene marker. -/
def NoMark (s : Str) : Prop := ¬ c!"[ScID" <:+: s ∧ ¬ c!"[/ScID" <:+: s

/-- Pending data is added. -/
theorem data_line (h0 : InScene r0) (L : List Str) (lang : Str) (langs : List Str) {s : Str} (hs : NoMark s) :
    proofReader (rdAt r0 L lang langs) (.data s) = .ok (rdAt r0 (L ++ [s]) lang langs) := by
  show proofData _ _ = _
  unfold proofData
  have e1 : (rdAt r0 L lang langs).skipData = false := h0.skip
  have e2 : (rdAt r0 L lang langs).scId.isSome = true := h0.scene
  have e3 : Str.contains s c!"[ScID" = false := (contains_false_iff _ _).2 hs.1
  have e4 : Str.contains s c!"[/ScID" = false := (contains_false_iff _ _).2 hs.2
  simp only [e1, e2, e3, e4, Bool.false_eq_true, if_false, if_true]
  rfl

theorem pend_line (h0 : InScene r0) {cm : Str} {q : Bool} {st : List Str} {L : List Str} {lang : Str} {langs : List Str} {acc : Str}
    (ha : NoMark acc.reverse) :
    ∃ L', Goes proofReader (lineP ls cm q st) (rdAt r0 L lang langs) (saxPend acc) (lineP ls cm q st) (rdAt r0 L' lang langs) ∧
      L'.flatten = L.flatten ++ acc.reverse := by
  unfold saxPend
  by_cases he : acc = []
  · subst he
    exact ⟨L, by rw [if_pos rfl]; exact Goes.nil _ _ _, by simp⟩
  · rw [if_neg he]
    exact ⟨L ++ [acc.reverse], Goes.one1 rfl (data_line h0 L lang langs ha), by simp⟩

/-! ### A part of a line -/

/-- The text takes the reader from the open formattings `st` to `st'`; it adds `out`. -/
def Reads (r0 : Rd) (ls : List Str) (q : Bool) (s acc : Str) (st : List Str) (out acc' : Str) (st' : List Str) (K : Str → Prop) : Prop :=
  ∀ cm L langs, (∀ l ∈ langs, l ∈ ls) → ∃ cm' L' langs', Kept ls K langs langs' ∧
    Fed proofReader s acc (lineP ls cm q st) (rdAt r0 L (langOf st) langs) acc' (lineP ls cm' q st') (rdAt r0 L' (langOf st') langs') ∧
    L'.flatten = L.flatten ++ out

theorem Reads.append {K K1 K2 : Str → Prop} {s1 s2 a a1 a2 o1 o2 : Str} {st st1 st2 : List Str} (h1 : Reads r0 ls q s1 a st o1 a1 st1 K1)
    (h2 : Reads r0 ls q s2 a1 st1 o2 a2 st2 K2) (hK : ∀ x, K x → K1 x ∨ K2 x) :
    Reads r0 ls q (s1 ++ s2) a st (o1 ++ o2) a2 st2 K := by
  intro cm L langs hl
  obtain ⟨cm1, L1, langs1, hl1, f1, e1⟩ := h1 cm L langs hl
  obtain ⟨cm2, L2, langs2, hl2, f2, e2⟩ := h2 cm1 L1 langs1 hl1.1
  exact ⟨cm2, L2, langs2, Kept.trans hK hl1 hl2, f1.append f2, by rw [e2, e1, List.append_assoc]⟩

/-- A tag whose event leads to one call that adds `out`. -/
theorem Reads.tag {K : Str → Prop} (h0 : InScene r0) {t acc out : Str} {st st' : List Str} {evs : List Ev} (ha : NoMark acc.reverse)
    (h1 : saxRun .lt t = (.text [], evs))
    (h2 : ∀ cm L langs, (∀ l ∈ langs, l ∈ ls) → ∃ cm' L' langs', Kept ls K langs langs' ∧
      Goes proofReader (lineP ls cm q st) (rdAt r0 L (langOf st) langs) evs (lineP ls cm' q st') (rdAt r0 L' (langOf st') langs') ∧
      L'.flatten = L.flatten ++ out) :
    Reads r0 ls q ('<' :: t) acc st (acc.reverse ++ out) [] st' K := by
  intro cm L langs hl
  obtain ⟨L1, g1, e1⟩ := pend_line (ls := ls) (q := q) (cm := cm) (st := st) (L := L) (lang := langOf st) (langs := langs) h0 ha
  obtain ⟨cm2, L2, langs2, hl2, g2, e2⟩ := h2 cm L1 langs hl
  exact ⟨cm2, L2, langs2, hl2, Fed.tag h1 g1 g2, by rw [e2, e1, List.append_assoc]⟩

theorem Reads.ch {c : Char} (h : xmlLegal c = true) (acc : Str) (st : List Str) : Reads r0 ls q (escChar c) acc st [] (c :: acc) st NoLang := by
  intro cm L langs hl
  exact ⟨cm, L, langs, Kept.same hl, ⟨[], saxRun_escChar h acc, Goes.nil _ _ _⟩, by simp⟩


/-! ### Formattings -/

theorem start_em (_ : InScene r0) (L : List Str) (lang : Str) (langs : List Str) :
    proofReader (rdAt r0 L lang langs) (.start c!"em" []) = .ok (rdAt r0 (L ++ [c!"[i]"]) lang langs) := rfl
theorem start_strong (_ : InScene r0) (L : List Str) (lang : Str) (langs : List Str) :
    proofReader (rdAt r0 L lang langs) (.start c!"strong" []) = .ok (rdAt r0 (L ++ [c!"[b]"]) lang langs) := rfl
theorem start_lang (_ : InScene r0) (L : List Str) (lang : Str) (langs : List Str) (l : Str) :
    proofReader (rdAt r0 L lang langs) (.start c!"lang" [(c!"lang", some l)]) =
      .ok (rdAt r0 (L ++ [c!"[lang=" ++ l ++ c!"]"]) l (if l ∈ langs then langs else langs ++ [l])) := rfl
theorem stop_em (_ : InScene r0) (L : List Str) (lang : Str) (langs : List Str) :
    proofReader (rdAt r0 L lang langs) (.stop c!"em") = .ok (rdAt r0 (L ++ [c!"[/i]"]) lang langs) := rfl
theorem stop_strong (_ : InScene r0) (L : List Str) (lang : Str) (langs : List Str) :
    proofReader (rdAt r0 L lang langs) (.stop c!"strong") = .ok (rdAt r0 (L ++ [c!"[/b]"]) lang langs) := rfl
theorem stop_lang (_ : InScene r0) (L : List Str) {lang : Str} (hl : lang ≠ []) (langs : List Str) :
    proofReader (rdAt r0 L lang langs) (.stop c!"lang") = .ok (rdAt r0 (L ++ [c!"[/lang=" ++ lang ++ c!"]"]) [] langs) := by
  show Except.ok (rdAt r0 L lang langs).stopLanguage = _
  rw [stopLanguage_at L hl langs]

theorem T_inj {i j : Nat} (h : c!"T" ++ Str.ofNat i = c!"T" ++ Str.ofNat j) : i = j := Str.ofNat_injective (List.append_cancel_left h)

theorem T_em (i : Nat) : c!"T" ++ Str.ofNat i ∈ emNames ls ↔ i = ls.length + 1 := by
  unfold emNames
  simp only [List.mem_cons, List.not_mem_nil, or_false]
  constructor
  · rintro (h | h)
    · simp at h
    · exact T_inj h
  · rintro rfl
    exact .inr rfl

theorem T_strong (i : Nat) : c!"T" ++ Str.ofNat i ∈ strongNames ls ↔ i = ls.length + 2 := by
  unfold strongNames
  simp only [List.mem_cons, List.not_mem_nil, or_false]
  constructor
  · rintro (h | h)
    · simp at h
    · exact T_inj h
  · rintro rfl
    exact .inr rfl

theorem langTags_high {j : Nat} (h : ls.length < j) : (langTags 1 ls).get? (c!"T" ++ Str.ofNat j) = none := by
  have k : ∀ (i : Nat) (rs : List Str), i + rs.length ≤ j → (langTags i rs).get? (c!"T" ++ Str.ofNat j) = none := by
    intro i rs
    induction rs generalizing i with
    | nil => intro _; rfl
    | cons l r ih =>
      intro hij
      simp only [List.length_cons] at hij
      unfold langTags Dict.get?
      rw [if_neg (fun e => by have := T_inj e; omega)]
      exact ih (i + 1) (by omega)
  exact k 1 ls (by omega)

theorem step_em (cm : Str) (st : List Str) :
    (lineP ls cm q st).step (.start c!"text:span" [(c!"text:style-name", c!"T" ++ Str.ofNat (ls.length + 1))]) =
      .ok (lineP ls cm q (c!"i" :: st), [.start c!"em" []]) := by
  obtain ⟨j, hj⟩ : ∃ j, j = ls.length + 1 := ⟨_, rfl⟩
  rw [← hj]
  show OdtP.startElement (lineP ls cm q st) c!"text:span" [(c!"text:style-name", c!"T" ++ Str.ofNat j)] = _
  unfold OdtP.startElement
  rw [if_neg (by decide), if_pos rfl]
  have e3 : ((Dict.get? [(c!"text:style-name", c!"T" ++ Str.ofNat j)] c!"text:style-name").getD []) = c!"T" ++ Str.ofNat j := rfl
  have e4 : OdtP.emphasis (c!"T" ++ Str.ofNat j) (lineP ls cm q st, []) = (lineP ls cm q (c!"i" :: st), [.start c!"em" []]) := by
    unfold OdtP.emphasis
    have e5 : c!"T" ++ Str.ofNat j ∈ (lineP ls cm q st).emTags := (T_em j).2 hj
    have e6 : c!"T" ++ Str.ofNat j ∉ (lineP ls cm q st).strongTags := fun h => by have := (T_strong j).1 h; omega
    simp only [if_pos e5, if_neg e6]
    rfl
  simp only [e3, e4]
  have e7 : (lineP ls cm q (c!"i" :: st)).languageTags.get? (c!"T" ++ Str.ofNat j) = none := langTags_high (by omega)
  rw [e7]

theorem step_strong (cm : Str) (st : List Str) :
    (lineP ls cm q st).step (.start c!"text:span" [(c!"text:style-name", c!"T" ++ Str.ofNat (ls.length + 2))]) =
      .ok (lineP ls cm q (c!"b" :: st), [.start c!"strong" []]) := by
  obtain ⟨j, hj⟩ : ∃ j, j = ls.length + 2 := ⟨_, rfl⟩
  rw [← hj]
  show OdtP.startElement (lineP ls cm q st) c!"text:span" [(c!"text:style-name", c!"T" ++ Str.ofNat j)] = _
  unfold OdtP.startElement
  rw [if_neg (by decide), if_pos rfl]
  have e3 : ((Dict.get? [(c!"text:style-name", c!"T" ++ Str.ofNat j)] c!"text:style-name").getD []) = c!"T" ++ Str.ofNat j := rfl
  have e4 : OdtP.emphasis (c!"T" ++ Str.ofNat j) (lineP ls cm q st, []) = (lineP ls cm q (c!"b" :: st), [.start c!"strong" []]) := by
    unfold OdtP.emphasis
    have e5 : c!"T" ++ Str.ofNat j ∉ (lineP ls cm q st).emTags := fun h => by have := (T_em j).1 h; omega
    have e6 : c!"T" ++ Str.ofNat j ∈ (lineP ls cm q st).strongTags := (T_strong j).2 hj
    simp only [if_neg e5, if_pos e6]
    rfl
  simp only [e3, e4]
  have e7 : (lineP ls cm q (c!"b" :: st)).languageTags.get? (c!"T" ++ Str.ofNat j) = none := langTags_high (by omega)
  rw [e7]

theorem step_lang (cm : Str) (st : List Str) {j : Nat} {l : Str} (hle : j ≤ ls.length) (hj : (langTags 1 ls).get? (c!"T" ++ Str.ofNat j) = some l) :
    (lineP ls cm q st).step (.start c!"text:span" [(c!"text:style-name", c!"T" ++ Str.ofNat j)]) =
      .ok (lineP ls cm q ((c!"lang=" ++ l) :: st), [.start c!"lang" [(c!"lang", some l)]]) := by
  show OdtP.startElement (lineP ls cm q st) c!"text:span" [(c!"text:style-name", c!"T" ++ Str.ofNat j)] = _
  unfold OdtP.startElement
  rw [if_neg (by decide), if_pos rfl]
  have e3 : ((Dict.get? [(c!"text:style-name", c!"T" ++ Str.ofNat j)] c!"text:style-name").getD []) = c!"T" ++ Str.ofNat j := rfl
  have e4 : OdtP.emphasis (c!"T" ++ Str.ofNat j) (lineP ls cm q st, []) = (lineP ls cm q st, []) := by
    unfold OdtP.emphasis
    have e5 : c!"T" ++ Str.ofNat j ∉ (lineP ls cm q st).emTags := fun h => by have := (T_em j).1 h; omega
    have e6 : c!"T" ++ Str.ofNat j ∉ (lineP ls cm q st).strongTags := fun h => by have := (T_strong j).1 h; omega
    simp only [if_neg e5, if_neg e6]
  simp only [e3, e4]
  have e7 : (lineP ls cm q st).languageTags.get? (c!"T" ++ Str.ofNat j) = some l := hj
  rw [e7]
  simp only [lineP, List.map_cons, spanName_lang, List.nil_append]

/-- The beginning of a formatting. -/
theorem Reads.op (h0 : InScene r0) {t acc : Str} (ht : t ∈ formats ls) (ha : NoMark acc.reverse) (st : List Str) :
    Reads r0 ls q (opText ls t) acc st (acc.reverse ++ (Piece.op t).raw) [] (t :: st) (fun x => t = c!"lang=" ++ x) := by
  by_cases e1 : t = c!"i"
  · subst e1
    obtain ⟨t, e4, h3⟩ := langSpan_sax (ls.length + 1)
    rw [show opText ls c!"i" = langSpan (ls.length + 1) from rfl, e4]
    refine Reads.tag h0 ha h3 ?_
    intro cm L langs hl
    exact ⟨cm, _, langs, ⟨hl, fun l h => h.elim id (fun h => by simp at h)⟩, Goes.one1 (step_em cm st) (start_em h0 L _ langs), by simp [Piece.raw]⟩
  by_cases e2 : t = c!"b"
  · subst e2
    obtain ⟨t, e4, h3⟩ := langSpan_sax (ls.length + 2)
    rw [show opText ls c!"b" = langSpan (ls.length + 2) from rfl, e4]
    refine Reads.tag h0 ha h3 ?_
    intro cm L langs hl
    exact ⟨cm, _, langs, ⟨hl, fun l h => h.elim id (fun h => by simp at h)⟩, Goes.one1 (step_strong cm st) (start_strong h0 L _ langs), by simp [Piece.raw]⟩
  simp only [formats, List.mem_cons, e1, e2, false_or, List.mem_map] at ht
  obtain ⟨l, hm, rfl⟩ := ht
  obtain ⟨j, h1, hj, e, h2⟩ := langOp_eq 1 hm
  have e3 : opText ls (c!"lang=" ++ l) = langSpan j := by
    unfold opText
    rw [if_neg e1, if_neg e2, e]
  obtain ⟨t, e4, h3⟩ := langSpan_sax j
  rw [e3, e4]
  refine Reads.tag h0 ha h3 ?_
  intro cm L langs hl
  refine ⟨cm, L ++ [c!"[lang=" ++ l ++ c!"]"], if l ∈ langs then langs else langs ++ [l], ?_, ?_, ?_⟩
  rotate_left
  · rw [langOf_lang]
    exact Goes.one1 (step_lang cm st (by omega) (langTags_some h1 h2)) (start_lang h0 L _ langs l)
  · simp [Piece.raw]
  · constructor
    · intro x hx
      split at hx
      · exact hl x hx
      · rcases List.mem_append.1 hx with hx | hx
        · exact hl x hx
        · rw [List.mem_singleton.1 hx]; exact hm
    · rintro x (h | h)
      · split
        · exact h
        · simp [h]
      · have h := List.append_cancel_left h
        subst h
        split
        · assumption
        · simp

theorem step_stop (cm : Str) (t : Str) (st : List Str) :
    (lineP ls cm q (t :: st)).step (.stop c!"text:span") = .ok (lineP ls cm q st, [.stop (spanName t)]) := rfl

/-- The end of a formatting. -/
theorem Reads.cl (h0 : InScene r0) (hL : NoBlankLang ls) {t acc : Str} (ht : t ∈ formats ls) (ha : NoMark acc.reverse) {st : List Str}
    (hs : c!"lang=" <+: t → ∀ u ∈ st, ¬ c!"lang=" <+: u) :
    Reads r0 ls q spanEnd acc (t :: st) (acc.reverse ++ (Piece.cl t).raw) [] st NoLang := by
  show Reads r0 ls q (c!"</text:span>") acc _ _ [] _ _
  refine Reads.tag h0 ha (evs := [.stop c!"text:span"]) (by decide +kernel) ?_
  intro cm L langs hl
  by_cases e1 : t = c!"i"
  · subst e1
    exact ⟨cm, _, langs, Kept.same hl, Goes.one1 (step_stop cm _ st) (stop_em h0 L _ langs), by simp [Piece.raw]⟩
  by_cases e2 : t = c!"b"
  · subst e2
    exact ⟨cm, _, langs, Kept.same hl, Goes.one1 (step_stop cm _ st) (stop_strong h0 L _ langs), by simp [Piece.raw]⟩
  simp only [formats, List.mem_cons, e1, e2, false_or, List.mem_map] at ht
  obtain ⟨l, hm, rfl⟩ := ht
  replace hs := hs (List.prefix_append _ _)
  have e3 : langOf st = [] := by
    clear ha
    induction st with
    | nil => rfl
    | cons u st ih =>
      unfold langOf
      rw [if_neg (hs u (by simp))]
      exact ih (fun v hv => hs v (by simp [hv]))
  refine ⟨cm, L ++ [c!"[/lang=" ++ l ++ c!"]"], langs, Kept.same hl, Goes.one1 (step_stop cm _ st) ?_, ?_⟩
  · rw [spanName_lang, langOf_lang, e3]
    exact stop_lang h0 L (hL l hm) langs
  · simp [Piece.raw]

/-! ### Comments -/

theorem step_comment (cm : Str) (st : List Str) {s : Str} (r : Rd) (h : Reader) :
    Goes h (noteP ls cm q st 1) r (saxPend s.reverse) (noteP ls (cm ++ s) q st 1) r := by
  unfold saxPend
  split
  · rename_i e
    have : s = [] := by simpa using e
    subst this
    rw [List.append_nil]
    exact Goes.nil _ _ _
  · rw [List.reverse_reverse]
    exact Goes.one0 r rfl

theorem comment_at (h0 : InScene r0) (L : List Str) (lang : Str) (langs : List Str) {s : Str} :
    proofReader (rdAt r0 L lang langs) (.comment s) = .ok (rdAt r0 (L ++ [c!"/*" ++ s ++ c!"*/"]) lang langs) := by
  show Except.ok ((rdAt r0 L lang langs).baseComment s) = _
  unfold Rd.baseComment
  have e2 : (rdAt r0 L lang langs).scId.isSome = true := h0.scene
  rw [if_pos e2]
  rfl

/-- A comment. -/
theorem Reads.note (h0 : InScene r0) (hA : AuthorOk author) {s acc : Str} (hs : (Piece.note s).Ok ls) (ha : NoMark acc.reverse) (st : List Str) :
    Reads r0 ls q (noteStart author ++ s.flatMap escChar ++ noteEnd) acc st (acc.reverse ++ (Piece.note s).raw) [] st NoLang := by
  obtain ⟨t, e, hx⟩ := note_sax hA (s := s) (fun c hc => ⟨(hs.1 c hc).1, (hs.1 c hc).2.2.1⟩)
  rw [e]
  refine Reads.tag h0 ha hx ?_
  intro cm L langs hl
  refine ⟨s, L ++ [c!"/*" ++ s ++ c!"*/"], langs, Kept.same hl, ?_, by simp [Piece.raw]⟩
  have h1 : Goes proofReader (lineP ls cm q st) (rdAt r0 L (langOf st) langs) [.start c!"office:annotation" [], .start c!"dc:creator" []]
      (noteP ls [] q st 0) (rdAt r0 L (langOf st) langs) := Goes.append (a := [_]) (Goes.one0 _ rfl) (Goes.one0 _ rfl)
  have h2 : Goes proofReader (noteP ls [] q st 0) (rdAt r0 L (langOf st) langs) (saxPend (pyStr author).reverse)
      (noteP ls [] q st 0) (rdAt r0 L (langOf st) langs) := Goes.pend0 _ (fun _ => rfl)
  have h3 : Goes proofReader (noteP ls [] q st 0) (rdAt r0 L (langOf st) langs) [.stop c!"dc:creator", .start c!"text:p" []]
      (noteP ls [] q st 1) (rdAt r0 L (langOf st) langs) := Goes.append (a := [_]) (Goes.one0 _ rfl) (Goes.one0 _ rfl)
  have h4 := step_comment (ls := ls) (q := q) [] st (s := s) (rdAt r0 L (langOf st) langs) proofReader
  have h5 : Goes proofReader (noteP ls ([] ++ s) q st 1) (rdAt r0 L (langOf st) langs) [.stop c!"text:p", .stop c!"office:annotation"]
      (lineP ls s q st) (rdAt r0 (L ++ [c!"/*" ++ s ++ c!"*/"]) (langOf st) langs) :=
    Goes.append (a := [_]) (Goes.one0 _ rfl) (Goes.one1 rfl (comment_at h0 L _ langs ))
  exact (((h1.append h2).append h3).append h4).append h5

/-! ### A whole line -/

/-- A line in the document. -/
def lineOut (author : Option Str) (ls : List Str) (l : List Piece) : Str := l.flatMap (fun p => (finalStage author ls).out (some p))

theorem lineOut_cons (p : Piece) (l : List Piece) : lineOut author ls (p :: l) = (finalStage author ls).out (some p) ++ lineOut author ls l := rfl

theorem read_line (h0 : InScene r0) (hL : NoBlankLang ls) (hA : AuthorOk author) {l : List Piece} (ho : ∀ p ∈ l, p.Ok ls) (hn : Piece.nl ∉ l)
    {st st' : List Str} (hs : OneLang st) (hst : ∀ t ∈ st, t ∈ formats ls) (hop : openAfter st l = some st') {acc : Str}
    (hr : ∀ s ∈ textRuns acc.reverse l, NoMark s) :
    ∃ acc' out, Reads r0 ls q (lineOut author ls l) acc st out acc' st' (begun l) ∧ NoMark acc'.reverse ∧ out ++ acc'.reverse = acc.reverse ++ rawText l := by
  induction l generalizing st acc with
  | nil =>
    cases hop
    refine ⟨acc, [], ?_, hr _ (by simp [textRuns]), by simp [rawText]⟩
    intro cm L langs hl
    exact ⟨cm, L, langs, ⟨hl, fun l h => h.elim id (fun h => by cases h)⟩, Fed.nil _ _ _ _, by simp⟩
  | cons x l ih =>
    have ho' : ∀ p ∈ l, p.Ok ls := fun y hy => ho y (by simp [hy])
    have hn' : Piece.nl ∉ l := fun hm => hn (by simp [hm])
    have hx := ho x (by simp)
    rw [lineOut_cons, rawText_cons]
    cases x with
    | nl => exact absurd (by simp) hn
    | ch c =>
      simp only [openAfter] at hop
      obtain ⟨acc', out, h1, h2, h3⟩ := ih ho' hn' hs hst hop (acc := c :: acc) (by simpa [textRuns] using hr)
      refine ⟨acc', [] ++ out, Reads.append (Reads.ch hx.1 acc st) h1 (fun x h => .inr (by simpa [begun] using h)), h2, ?_⟩
      rw [List.nil_append, h3]
      simp [Piece.raw]
    | op t =>
      simp only [openAfter] at hop
      split at hop
      · cases hop
      rename_i hno
      have hr' : ∀ s ∈ acc.reverse :: textRuns [] l, NoMark s := hr
      obtain ⟨acc', out, h1, h2, h3⟩ := ih ho' hn' (st := t :: st) ⟨fun hp u hu hu' => hno ⟨hp, u, hu, hu'⟩, hs⟩
        (fun u hu => by rcases List.mem_cons.1 hu with rfl | hu; exact hx; exact hst u hu) hop (acc := []) (fun s hs => hr' s (by simp [show s ∈ textRuns [] l from hs]))
      refine ⟨acc', _, Reads.append (Reads.op h0 hx (hr' _ (by simp)) st) h1 (fun x h => by simpa [begun, NoLang, eq_comm] using h), h2, ?_⟩
      rw [List.append_assoc, h3]
      simp
    | cl t =>
      cases st with
      | nil => simp [openAfter] at hop
      | cons u st =>
        simp only [openAfter] at hop
        split at hop
        · rename_i e
          subst e
          have hr' : ∀ s ∈ acc.reverse :: textRuns [] l, NoMark s := hr
          obtain ⟨acc', out, h1, h2, h3⟩ := ih ho' hn' hs.2 (fun u hu => hst u (by simp [hu])) hop (acc := []) (fun s hs => hr' s (by simp [show s ∈ textRuns [] l from hs]))
          refine ⟨acc', _, Reads.append (Reads.cl h0 hL hx (hr' _ (by simp)) hs.1) h1 (fun x h => .inr (by simpa [begun] using h)), h2, ?_⟩
          rw [List.append_assoc, h3]
          simp
        · cases hop
    | note s =>
      simp only [openAfter] at hop
      have hr' : ∀ s ∈ acc.reverse :: textRuns [] l, NoMark s := hr
      obtain ⟨acc', out, h1, h2, h3⟩ := ih ho' hn' hs hst hop (acc := []) (fun s hs => hr' s (by simp [show s ∈ textRuns [] l from hs]))
      refine ⟨acc', _, Reads.append (Reads.note h0 hA hx (hr' _ (by simp)) st) h1 (fun x h => by simpa [begun, NoLang, eq_comm] using h), h2, ?_⟩
      rw [List.append_assoc, h3]
      simp

/-! ### Paragraphs -/

/-- Paragraphs of a scene: they add `out`. -/
def ReadsP (r0 : Rd) (ls : List Str) (s out : Str) (K : Str → Prop) : Prop :=
  ∀ cm acc L langs, (∀ l ∈ langs, l ∈ ls) → ∃ cm' acc' L' langs', Kept ls K langs langs' ∧
    Fed proofReader s acc (idleP ls cm) (rdAt r0 L [] langs) acc' (idleP ls cm') (rdAt r0 L' [] langs') ∧
    L'.flatten = L.flatten ++ out

theorem ReadsP.nil : ReadsP r0 ls [] [] NoLang := fun cm acc L langs hl => ⟨cm, acc, L, langs, Kept.same hl, Fed.nil _ _ _ _, by simp⟩

theorem ReadsP.append {K K1 K2 : Str → Prop} {s1 s2 o1 o2 : Str} (h1 : ReadsP r0 ls s1 o1 K1) (h2 : ReadsP r0 ls s2 o2 K2) (hK : ∀ x, K x → K1 x ∨ K2 x) :
    ReadsP r0 ls (s1 ++ s2) (o1 ++ o2) K := by
  intro cm acc L langs hl
  obtain ⟨cm1, a1, L1, langs1, hl1, f1, e1⟩ := h1 cm acc L langs hl
  obtain ⟨cm2, a2, L2, langs2, hl2, f2, e2⟩ := h2 cm1 a1 L1 langs1 hl1.1
  exact ⟨cm2, a2, L2, langs2, Kept.trans hK hl1 hl2, f1.append f2, by rw [e2, e1, List.append_assoc]⟩

/-- Character data between paragraphs are ignored. -/
theorem idle_pend {h : Reader} (cm : Str) (acc : Str) (r : Rd) : Goes h (idleP ls cm) r (saxPend acc) (idleP ls cm) r := Goes.pend0 r (fun _ => rfl)

theorem ReadsP.blank {s : Str} (hs : s.all plainChar = true) : ReadsP r0 ls s [] NoLang := by
  intro cm acc L langs hl
  exact ⟨cm, _, L, langs, Kept.same hl, Fed.plain hs acc _ _, by simp⟩

theorem start_p (L : List Str) (lang : Str) (langs : List Str) :
    proofReader (rdAt r0 L lang langs) (.start c!"p" []) = .ok (rdAt r0 L lang langs) := rfl

theorem stop_p (L : List Str) (langs : List Str) :
    proofReader (rdAt r0 L [] langs) (.stop c!"p") = .ok (rdAt r0 (L ++ [c!"\n"]) [] langs) := by
  show Except.ok (((rdAt r0 L [] langs).push c!"\n").stopLanguage) = _
  show Except.ok ((rdAt r0 (L ++ [c!"\n"]) [] langs).stopLanguage) = _
  rw [stopLanguage_none]

/-- The styles of the paragraphs of the document. -/
def pStyles : List Str := [indStyle, bodyStyle, c!"Title", c!"Subtitle", c!"scene_20_mark"]

theorem pStyle_no {st : Str} (hs : st ∈ pStyles) : ∀ j, st ≠ c!"T" ++ Str.ofNat j := by
  have k : ∀ st ∈ pStyles, (∀ d ∈ st[1]?, d.isDigit = false) ∧ 1 < st.length := by decide
  exact ne_langTag (k st hs).1 (k st hs).2

theorem pStyle_plain {st : Str} (hs : st ∈ pStyles) : st.all plainAttr = true := by
  have k : ∀ st ∈ pStyles, st.all plainAttr = true := by decide
  exact k st hs

theorem step_p {st : Str} (hs : st ∈ pStyles) (cm : Str) :
    (idleP ls cm).step (.start c!"text:p" [(c!"text:style-name", st)]) = .ok (lineP ls cm false [], [.start c!"p" []]) := by
  have hno := pStyle_no hs
  have e : (langTags 1 ls).get? st = none := langTags_none hno 1 ls
  show OdtP.startElement (idleP ls cm) c!"text:p" [(c!"text:style-name", st)] = _
  unfold OdtP.startElement
  have e3 : (Dict.get? [(c!"text:style-name", st)] c!"text:style-name").getD [] = st := rfl
  rw [if_pos rfl]
  simp only [e3]
  have e4 : OdtP.startParagraph (idleP ls cm) st = .ok (lineP ls cm false [], [.start c!"p" []]) := by
    unfold OdtP.startParagraph
    have e5 : (idleP ls cm).languageTags.get? st = none := e
    rw [e5]
    have : st = indStyle ∨ st = bodyStyle ∨ st = c!"Title" ∨ st = c!"Subtitle" ∨ st = c!"scene_20_mark" := by simpa [pStyles] using hs
    rcases this with rfl | rfl | rfl | rfl | rfl <;> rfl
  rw [e4]
  have e6 : OdtP.emphasis st (lineP ls cm false [], [.start c!"p" []]) = (lineP ls cm false [], [.start c!"p" []]) := by
    unfold OdtP.emphasis
    have k : ∀ st ∈ pStyles, st ≠ c!"Emphasis" ∧ st ≠ c!"Strong_20_Emphasis" := by decide
    have e7 : st ∉ (lineP ls cm false []).emTags := by
      show st ∉ emNames ls
      simp only [emNames, List.mem_cons, List.not_mem_nil, or_false, not_or]
      exact ⟨(k st hs).1, hno _⟩
    have e8 : st ∉ (lineP ls cm false []).strongTags := by
      show st ∉ strongNames ls
      simp only [strongNames, List.mem_cons, List.not_mem_nil, or_false, not_or]
      exact ⟨(k st hs).2, hno _⟩
    simp only [if_neg e7, if_neg e8]
  show Except.ok (OdtP.emphasis st (lineP ls cm false [], [.start c!"p" []])) = _
  rw [e6]

/-- A paragraph with its text. -/
theorem ReadsP.line (h0 : InScene r0) (hL : NoBlankLang ls) (hA : AuthorOk author) {l : List Piece} (ho : ∀ p ∈ l, p.Ok ls) (hn : Piece.nl ∉ l)
    (hop : openAfter [] l = some []) (hr : ∀ s ∈ textRuns [] l, NoMark s) {st : Str} (hst : st ∈ pStyles) :
    ReadsP r0 ls (pOpen st ++ lineOut author ls l ++ pEnd) (rawText l ++ c!"\n") (begun l) := by
  intro cm acc L langs hl
  obtain ⟨t, e1, x1⟩ := pOpen_sax (pStyle_plain hst)
  have f1 : Fed proofReader (pOpen st) acc (idleP ls cm) (rdAt r0 L [] langs) [] (lineP ls cm false []) (rdAt r0 L [] langs) := by
    rw [e1]
    exact Fed.tag x1 (idle_pend cm acc _) (Goes.one1 (step_p hst cm) (start_p L [] langs))
  obtain ⟨acc', out, h1, h2, h3⟩ := read_line (q := false) h0 hL hA ho hn (st := []) (st' := []) trivial (by simp) hop (acc := []) hr
  obtain ⟨cm2, L2, langs2, hl2, f2, e2⟩ := h1 cm L langs hl
  obtain ⟨L3, g3, e3⟩ := pend_line (ls := ls) (q := false) (cm := cm2) (st := []) (L := L2) (lang := []) (langs := langs2) h0 h2
  have f4 : Fed proofReader pEnd acc' (lineP ls cm2 false []) (rdAt r0 L2 (langOf []) langs2) [] (idleP ls cm2) (rdAt r0 (L3 ++ [c!"\n"]) [] langs2) := by
    show Fed _ (c!"</text:p>") _ _ _ _ _ _
    exact Fed.tag (evs := [.stop c!"text:p"]) (by decide +kernel) g3 (Goes.one1 (c := .stop c!"p") rfl (stop_p L3 langs2))
  refine ⟨cm2, [], L3 ++ [c!"\n"], langs2, hl2, (f1.append f2).append f4, ?_⟩
  rw [List.flatten_append, e3, e2, List.append_assoc, List.append_assoc, ← List.append_assoc out, h3]
  simp only [List.reverse_nil, List.nil_append, List.flatten_cons, List.flatten_nil, List.append_nil, List.append_assoc]


end Verif.Proof
