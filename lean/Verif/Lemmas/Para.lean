/-
The paragraphs of a converted text, and which of them become quotations.
-/
import Verif.Lemmas.Quot

namespace Verif
open Spec Re

variable {ls : List Str} {author : Option Str}

/-- A paragraph: its style, whether it is written as an empty element, its text. -/
structure Para where
  style : Str
  empty : Bool
  line : List Piece

/-- The style of paragraphs after a line break. -/
def indStyle : Str := c!"First_20_line_20_indent"
/-- The style of the first paragraph. -/
def bodyStyle : Str := c!"Text_20_body"

/-- The paragraphs of a text. -/
def paras (st : Str) : List (Option Piece) → List Para
  | [] => [⟨st, false, []⟩]
  | some .nl :: r => ⟨st, false, []⟩ :: paras indStyle r
  | none :: r => ⟨st, false, []⟩ :: ⟨indStyle, true, []⟩ :: paras bodyStyle r
  | some p :: r => match paras st r with | q :: qs => ⟨q.style, q.empty, p :: q.line⟩ :: qs | [] => []

/-- The text of a line. -/
def lineOut (author : Option Str) (ls : List Str) (l : List Piece) : Str := (finalStage author ls).flat (l.map some)

/-- The beginning of a paragraph. -/
def pOpen (st : Str) : Str := c!"<text:p text:style-name=\"" ++ st ++ c!"\">"
/-- The end of a paragraph. -/
def pEnd : Str := c!"</text:p>"

/-- The text of a paragraph. -/
def paraText (author : Option Str) (ls : List Str) (q : Para) : Str :=
  if q.empty then c!"<text:p text:style-name=\"" ++ q.style ++ c!"\" />" else pOpen q.style ++ lineOut author ls q.line ++ pEnd

theorem paras_other {st : Str} {p : Piece} (hp : p ≠ .nl) (r : List (Option Piece)) :
    paras st (some p :: r) = match paras st r with | q :: qs => ⟨q.style, q.empty, p :: q.line⟩ :: qs | [] => [] := by
  cases p <;> first | exact absurd rfl hp | rfl

theorem lineOut_cons (p : Piece) (l : List Piece) : lineOut author ls (p :: l) = (finalStage author ls).out (some p) ++ lineOut author ls l := rfl

/-- The text is made of its paragraphs. -/
theorem paras_text (author : Option Str) (ls : List Str) (st : Str) (prs : List (Option Piece)) :
    ∃ l qs, paras st prs = ⟨st, false, l⟩ :: qs ∧
      (finalStage author ls).flat prs ++ pEnd = lineOut author ls l ++ pEnd ++ qs.flatMap (fun q => '\n' :: paraText author ls q) := by
  induction prs generalizing st with
  | nil => exact ⟨[], [], rfl, rfl⟩
  | cons p prs ih =>
    match p with
    | none =>
      obtain ⟨l, qs, h1, h2⟩ := ih bodyStyle
      refine ⟨[], ⟨indStyle, true, []⟩ :: paras bodyStyle prs, rfl, ?_⟩
      rw [flat_cons, List.append_assoc, h2, h1]
      show nl2Out ++ _ = _
      rw [List.flatMap_cons, List.flatMap_cons]
      show nl2Out ++ _ = pEnd ++ (('\n' :: (c!"<text:p text:style-name=\"" ++ indStyle ++ c!"\" />")) ++ ('\n' :: (pOpen bodyStyle ++ lineOut author ls l ++ pEnd) ++ _))
      generalize lineOut author ls l = x
      rw [show nl2Out = pEnd ++ ('\n' :: (c!"<text:p text:style-name=\"" ++ indStyle ++ c!"\" />")) ++ '\n' :: pOpen bodyStyle from rfl]
      simp only [List.append_assoc, List.cons_append]
    | some .nl =>
      obtain ⟨l, qs, h1, h2⟩ := ih indStyle
      refine ⟨[], paras indStyle prs, rfl, ?_⟩
      rw [flat_cons, List.append_assoc, h2, h1]
      show nlOut ++ _ = _
      rw [List.flatMap_cons]
      show nlOut ++ _ = pEnd ++ ('\n' :: (pOpen indStyle ++ lineOut author ls l ++ pEnd) ++ _)
      generalize lineOut author ls l = x
      rw [show nlOut = pEnd ++ '\n' :: pOpen indStyle from rfl]
      simp only [List.append_assoc, List.cons_append]
    | some (.ch c) =>
      obtain ⟨l, qs, h1, h2⟩ := ih st
      refine ⟨.ch c :: l, qs, by rw [paras_other (by simp), h1], ?_⟩
      rw [flat_cons, List.append_assoc, h2, lineOut_cons, List.append_assoc, List.append_assoc, List.append_assoc]
    | some (.op c) =>
      obtain ⟨l, qs, h1, h2⟩ := ih st
      refine ⟨.op c :: l, qs, by rw [paras_other (by simp), h1], ?_⟩
      rw [flat_cons, List.append_assoc, h2, lineOut_cons, List.append_assoc, List.append_assoc, List.append_assoc]
    | some (.cl c) =>
      obtain ⟨l, qs, h1, h2⟩ := ih st
      refine ⟨.cl c :: l, qs, by rw [paras_other (by simp), h1], ?_⟩
      rw [flat_cons, List.append_assoc, h2, lineOut_cons, List.append_assoc, List.append_assoc, List.append_assoc]
    | some (.note c) =>
      obtain ⟨l, qs, h1, h2⟩ := ih st
      refine ⟨.note c :: l, qs, by rw [paras_other (by simp), h1], ?_⟩
      rw [flat_cons, List.append_assoc, h2, lineOut_cons, List.append_assoc, List.append_assoc, List.append_assoc]

/-- The paragraphs are the lines. -/
theorem paras_lines (st : Str) (ps : List Piece) : (paras st (pairs ps)).map Para.line = pieceLines ps := by
  fun_induction pairs ps generalizing st with
  | case1 r ih =>
    show [] :: [] :: (paras bodyStyle (pairs r)).map Para.line = _
    rw [ih, pieceLines_nl, pieceLines_nl]
  | case3 => rfl
  | case2 p r hne ih =>
    by_cases hp : p = .nl
    · subst hp
      show [] :: (paras indStyle (pairs r)).map Para.line = _
      rw [ih, pieceLines_nl]
    · obtain ⟨l, qs, h1, h2⟩ := pieceLines_cons hp r
      rw [h2, paras_other hp]
      have := ih st
      cases hq : paras st (pairs r) with
      | nil => rw [hq, h1] at this; cases this
      | cons q qs' =>
        rw [hq, h1] at this
        simp only [List.map_cons, List.cons.injEq] at this
        simp only [List.map_cons, this.1, this.2]

theorem paras_styles {st : Str} (h : st = indStyle ∨ st = bodyStyle) (prs : List (Option Piece)) :
    ∀ q ∈ paras st prs, (q.style = indStyle ∨ q.style = bodyStyle) ∧ (q.empty = true → q.line = [] ∧ q.style = indStyle) := by
  induction prs generalizing st with
  | nil =>
    intro q hq
    simp only [paras, List.mem_singleton] at hq
    subst hq
    exact ⟨h, fun h => by cases h⟩
  | cons p prs ih =>
    match p with
    | none =>
      intro q hq
      simp only [paras, List.mem_cons] at hq
      rcases hq with rfl | rfl | hq
      · exact ⟨h, fun h => by cases h⟩
      · exact ⟨.inl rfl, fun _ => ⟨rfl, rfl⟩⟩
      · exact ih (.inr rfl) q hq
    | some p =>
      by_cases hp : p = .nl
      · subst hp
        intro q hq
        simp only [paras, List.mem_cons] at hq
        rcases hq with rfl | hq
        · exact ⟨h, fun h => by cases h⟩
        · exact ih (.inl rfl) q hq
      · rw [paras_other hp]
        obtain ⟨l, qs, h1, _⟩ := paras_text none [] st prs
        intro q hq
        rw [h1] at hq
        simp only [List.mem_cons] at hq
        rcases hq with rfl | hq
        · exact ⟨h, fun h => by cases h⟩
        · exact ih h q (by rw [h1]; simp [hq])

/-! ### Quotations -/

/-- The text of a paragraph afterwards. -/
def quotedText (author : Option Str) (ls : List Str) (q : Para) : Str :=
  if q.empty then paraText author ls q
  else match q.line with
    | .ch '>' :: .ch ' ' :: l => pOpen c!"Quotations" ++ lineOut author ls l ++ pEnd
    | _ => paraText author ls q

/-- A part without `>`, followed by `<`. -/
theorem RepOf.guard {p q a : Str} (h1 : '<' ∉ p) (h2 : '>' ∈ p) (h3 : '>' ∉ a) : RepOf p q (a ++ ['<']) (a ++ ['<']) := by
  intro r r' k hr
  refine ⟨k, ?_⟩
  have key : ∀ (a : Str), '>' ∉ a → ¬ p <+: a ++ '<' :: r := by
    intro a ha hp
    have h4 : a ++ ['<'] <+: a ++ '<' :: r := ⟨r, by simp⟩
    rcases List.prefix_or_prefix_of_prefix hp h4 with h5 | h5
    · rw [List.prefix_concat_iff] at h5
      rcases h5 with h5 | h5
      · exact h1 (by rw [h5]; simp)
      · exact ha (h5.subset h2)
    · exact h1 (h5.subset (by simp))
  rw [List.append_assoc, List.append_assoc]
  induction a with
  | nil => exact .miss (key [] h3) hr
  | cons c a ih => exact .miss (key (c :: a) h3) (ih (fun h => h3 (by simp [h])))

theorem esc_no_quote (c : Char) : '"' ∉ escChar c := by
  unfold escChar
  repeat' split
  all_goals first
    | decide
    | (simp only [List.mem_singleton]; intro h; exact absurd h.symm ‹_›)

theorem esc_no_lt (c : Char) : '<' ∉ escChar c := by
  unfold escChar
  repeat' split
  all_goals first
    | decide
    | (simp only [List.mem_singleton]; intro h; exact absurd h.symm ‹_›)

theorem escs_no_quote (s : Str) : '"' ∉ s.flatMap escChar := by
  intro h
  obtain ⟨c, _, h⟩ := List.mem_flatMap.1 h
  exact esc_no_quote c h

theorem escs_no_lt (s : Str) : '<' ∉ s.flatMap escChar := by
  intro h
  obtain ⟨c, _, h⟩ := List.mem_flatMap.1 h
  exact esc_no_lt c h

/-- The two patterns. -/
def IsQuot (p : Str) : Prop := p = quotInd ∨ p = quotBody

theorem IsQuot.lit {p q s : Str} (h : IsQuot p) (h1 : noStart quotInd s = true) (h2 : noStart quotBody s = true) : RepOf p q s s := by
  rcases h with rfl | rfl
  · exact .lit h1
  · exact .lit h2

theorem IsQuot.text {p q s : Str} (h : IsQuot p) (h1 : '"' ∉ s) : RepOf p q s s := by
  rcases h with rfl | rfl
  · exact RepOf.skip h1
  · exact RepOf.skip h1

theorem ofNat_head (i : Nat) : ∃ d r, Str.ofNat i = d :: r ∧ d.isDigit = true := by
  cases h : Str.ofNat i with
  | nil => exact absurd h (Str.ofNat_ne_nil i)
  | cons d r =>
    refine ⟨d, r, rfl, ?_⟩
    have : d ∈ Str.ofNat i := by rw [h]; simp
    exact Str.isDigit_of_mem_ofNat this

theorem langSpan_rep {p q : Str} (h : IsQuot p) (i : Nat) : RepOf p q (langSpan i) (langSpan i) := by
  obtain ⟨d, z, e, hd⟩ := ofNat_head i
  have hq : '"' ∉ Str.ofNat i := fun hm => by
    have := Str.isDigit_of_mem_ofNat hm
    revert this; decide
  have e1 : langSpan i = c!"<text:span text:style-name=" ++ (('"' :: 'T' :: Str.ofNat i) ++ c!"\">") := by
    unfold langSpan
    simp only [List.append_assoc, List.cons_append, List.nil_append]
  rw [e1]
  refine (h.text (by decide)).append (RepOf.append ?_ (h.lit (by decide) (by decide)))
  intro r r' k hr
  refine ⟨k, .miss (s := 'T' :: Str.ofNat i ++ r) ?_ ?_⟩
  · rw [e]
    rintro ⟨y, hy⟩
    rcases h with rfl | rfl
    · exact absurd hy (by simp [quotInd])
    · simp only [quotBody, List.cons_append, List.cons.injEq, true_and] at hy
      rw [← hy.1] at hd
      cases hd
  · have : '"' ∉ 'T' :: Str.ofNat i := by simp [hq]
    rcases h with rfl | rfl
    · exact Rep.skip (a := 'T' :: Str.ofNat i) this hr
    · exact Rep.skip (a := 'T' :: Str.ofNat i) this hr

theorem opText_cases {t : Str} (ht : t ∈ formats ls) : opText ls t = emSpan ∨ opText ls t = strongSpan ∨ ∃ i, opText ls t = langSpan i := by
  unfold opText
  split
  · exact .inl rfl
  split
  · exact .inr (.inl rfl)
  simp only [formats, List.mem_cons, List.mem_map] at ht
  rcases ht with h | h | ⟨l, hm, rfl⟩
  · exact absurd h ‹_›
  · exact absurd h ‹_›
  · obtain ⟨j, _, _, e, _⟩ := langOp_eq 1 hm
    exact .inr (.inr ⟨j, e⟩)

theorem author_gt (ha : AuthorOk author) : '>' ∉ pyStr author := fun hm => (ha _ hm).2 (by decide)

theorem noteStart_rep {p q : Str} (h : IsQuot p) (ha : AuthorOk author) : RepOf p q (noteStart author) (noteStart author) := by
  have e : noteStart author = c!"<office:annotation><dc:creator>" ++ ((pyStr author ++ ['<']) ++ c!"/dc:creator><text:p>") := by
    unfold noteStart
    simp only [List.append_assoc, List.cons_append, List.nil_append]
  rw [e]
  refine (h.text (by decide)).append (RepOf.append ?_ (h.text (by decide)))
  rcases h with rfl | rfl
  · exact RepOf.guard (by decide) (by decide) (author_gt ha)
  · exact RepOf.guard (by decide) (by decide) (author_gt ha)

/-- A line without its beginning has no quotation marks. -/
theorem line_rep {p q : Str} (h : IsQuot p) (ha : AuthorOk author) {l : List Piece} (ho : ∀ x ∈ l, x.Ok ls) (hn : Piece.nl ∉ l) :
    RepOf p q (lineOut author ls l) (lineOut author ls l) := by
  induction l with
  | nil => exact RepOf.nil _ _
  | cons x l ih =>
    rw [lineOut_cons]
    refine RepOf.append ?_ (ih (fun y hy => ho y (by simp [hy])) (fun hm => hn (by simp [hm])))
    cases x with
    | nl => exact absurd (by simp) hn
    | ch c => exact h.text (esc_no_quote c)
    | op t =>
      show RepOf p q (opText ls t) (opText ls t)
      rcases opText_cases (ls := ls) (ho (.op t) (by simp)) with e | e | ⟨i, e⟩
      · rw [e]; exact h.lit (by decide) (by decide)
      · rw [e]; exact h.lit (by decide) (by decide)
      · rw [e]; exact langSpan_rep h i
    | cl t => exact h.text (s := spanEnd) (by decide)
    | note s =>
      show RepOf p q (noteStart author ++ s.flatMap escChar ++ noteEnd) _
      exact ((noteStart_rep h ha).append (h.text (escs_no_quote s))).append (h.text (by decide))

/-- A line that begins with a quotation mark. -/
theorem line_quote {l : List Piece} {r : Str} (h : c!"&gt; " <+: lineOut author ls l ++ pEnd ++ r) :
    ∃ l', l = .ch '>' :: .ch ' ' :: l' := by
  have hop : ∀ t, ∃ z, opText ls t = '<' :: z ∨ opText ls t = '[' :: z := by
    intro t
    unfold opText
    split
    · exact ⟨_, .inl rfl⟩
    split
    · exact ⟨_, .inl rfl⟩
    have : ∀ i rs, ∃ z, langOp i rs t = '<' :: z ∨ langOp i rs t = '[' :: z := by
      intro i rs
      induction rs generalizing i with
      | nil => exact ⟨_, .inr rfl⟩
      | cons l rs ih =>
        unfold langOp
        split
        · exact ⟨_, .inl rfl⟩
        · exact ih _
    exact this _ _
  have head : ∀ {l : List Piece} {d : Char} {z : Str}, d ≠ '<' → d ≠ '[' → d :: z = lineOut author ls l ++ pEnd ++ r →
      ∃ c l' z', l = .ch c :: l' ∧ escChar c = d :: z' := by
    intro l d z hd hd2 e
    cases l with
    | nil => injection e with e; exact absurd e hd
    | cons x l =>
      rw [lineOut_cons] at e
      cases x with
      | nl => injection e with e; exact absurd e hd
      | op t =>
        obtain ⟨z', hz | hz⟩ := hop t
        · replace e : d :: z = opText ls t ++ lineOut author ls l ++ pEnd ++ r := e
          rw [hz] at e; injection e with e; exact absurd e hd
        · replace e : d :: z = opText ls t ++ lineOut author ls l ++ pEnd ++ r := e
          rw [hz] at e; injection e with e; exact absurd e hd2
      | cl t => injection e with e; exact absurd e hd
      | note t => injection e with e; exact absurd e hd
      | ch c =>
        obtain ⟨x, y, e2, _⟩ := escChar_head c
        refine ⟨c, l, y, rfl, ?_⟩
        rw [out_ch, e2] at e
        have e : d = x := by injection e
        rw [e2, e]
  obtain ⟨z, hz⟩ := h
  obtain ⟨c, l', z', hl, e⟩ := head (d := '&') (by decide) (by decide) hz
  subst hl
  have hc : c = '>' := by
    rw [lineOut_cons, out_ch] at hz
    clear head hop
    unfold escChar at hz
    repeat' split at hz
    all_goals first
      | assumption
      | (exact absurd hz (by intro e; injection e with _ e; injection e with e; revert e; decide))
      | (simp only [List.cons_append, List.cons.injEq] at hz; exact absurd hz.1.symm ‹_›)
  subst hc
  have hz : ' ' :: z = lineOut author ls l' ++ pEnd ++ r := by
    rw [lineOut_cons, out_ch] at hz
    have : c!"&gt;" ++ (' ' :: z) = c!"&gt;" ++ (lineOut author ls l' ++ pEnd ++ r) := by
      rw [List.append_assoc, List.append_assoc] at hz
      rw [List.append_assoc]
      exact hz
    exact List.append_cancel_left this
  obtain ⟨c, l'', z'', hl, e⟩ := head (by decide) (by decide) hz
  subst hl
  refine ⟨l'', ?_⟩
  unfold escChar at e
  repeat' split at e
  all_goals first
    | (injection e with e; exact absurd e (by decide))
    | (injection e with e; rw [e])

end Verif
