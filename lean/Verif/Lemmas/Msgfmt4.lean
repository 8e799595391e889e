/-
Reading translation files: the loop over the lines.
-/
import Verif.Lemmas.Msgfmt3

namespace Verif
open Spec

variable {charset : Str → Option Enc}

/-- The messages, the pending one included. -/
def finalMsgs (s : MoState) : List (Bytes × Bytes) := if s.sect = some .str then addMsg s.ctxt s.id s.str s.fuzzy s.messages else s.messages

/-- The state between two entries. -/
structure Ready (s : MoState) (E : Enc) (M : List (Bytes × Bytes)) : Prop where
  sect : s.sect = some .str ∨ s.sect = none
  ctxt : s.ctxt = none
  enc : s.enc = E
  ok : E ≠ .other
  final : finalMsgs s = M

/-- The bytes of a line. -/
def lineBytes (l : Str) : Bytes := utf8 (l ++ c!"\n")

theorem moLine_decode {s : MoState} {E : Enc} (he : s.enc = E) (ho : E ≠ .other) (l : Str) :
    moLine charset s (lineBytes l) = (let l := view E l ++ c!"\n"
      if l.head? = some '#' then
        let s := if s.sect = some .str then
          { s with messages := addMsg s.ctxt s.id s.str s.fuzzy s.messages, sect := none, ctxt := none, fuzzy := false } else s
        some (if Str.startsWith l c!"#," && Str.contains l c!"fuzzy" then { s with fuzzy := true } else s)
      else do
        let (s, l) ← keyword charset s l
        addString s l) := by
  unfold moLine lineBytes
  rw [he, decode_view ho, view_append, view_ascii (E := E) (s := c!"\n") (by decide)]
  rfl

def isFuzzyMark (l : Str) : Bool := (c!"#,").isPrefixOf l && Str.contains l c!"fuzzy"

theorem remark_view {E : Enc} {l : Str} (h : isRemark l = true) : (view E l ++ c!"\n").head? = some '#' := by
  cases l with
  | nil => cases h
  | cons c l =>
    have : c = '#' := by simpa [isRemark] using h
    subst this
    rw [view_cons, view_char (by decide)]
    rfl

theorem contains_nl (s : Str) : Str.contains (s ++ c!"\n") c!"fuzzy" = Str.contains s c!"fuzzy" := by
  induction s with
  | nil => rfl
  | cons c s ih =>
    rw [List.cons_append, Str.contains, Str.contains, ih]
    have : ∀ (p s : Str), '\n' ∉ p → p.isPrefixOf (s ++ c!"\n") = p.isPrefixOf s := by
      intro p
      induction p with
      | nil => intro s _; rfl
      | cons a p ih2 =>
        intro s hn
        cases s with
        | nil =>
          show (a == '\n' && _) = false
          rw [beq_eq_false_iff_ne.2 fun e => hn (by rw [e]; exact List.mem_cons_self)]; rfl
        | cons b s =>
          show (a == b && p.isPrefixOf (s ++ c!"\n")) = (a == b && p.isPrefixOf s)
          rw [ih2 s fun h => hn (List.mem_cons_of_mem _ h)]
    have e := this c!"fuzzy" (c :: s) (by decide)
    rw [List.cons_append] at e
    rw [e]

theorem comma_nl {l : Str} (h : isRemark l = true) : (c!"#,").isPrefixOf (l ++ c!"\n") = (c!"#,").isPrefixOf l := by
  cases l with
  | nil => cases h
  | cons c l => cases l <;> rfl

theorem remark_line {s : MoState} {E : Enc} {M : List (Bytes × Bytes)} (hr : Ready s E M) {l : Str} (h : isRemark l = true) :
    ∃ s', moLine charset s (lineBytes l) = some s' ∧ Ready s' E M ∧ s'.sect = none ∧
      s'.fuzzy = ((if s.sect = some .str then false else s.fuzzy) || isFuzzyMark l) := by
  rw [moLine_decode hr.enc hr.ok]
  have hh := remark_view (E := E) h
  have e : view E l ++ c!"\n" = view E (l ++ c!"\n") := by rw [view_append, view_ascii (E := E) (s := c!"\n") (by decide)]
  have hf : (Str.startsWith (view E l ++ c!"\n") c!"#," && Str.contains (view E l ++ c!"\n") c!"fuzzy") = isFuzzyMark l := by
    unfold isFuzzyMark Str.startsWith
    rw [e, prefix_view (by decide), contains_view (by decide), contains_nl, comma_nl h]
  simp only [hh, if_true, hf]
  have hfin := hr.final
  unfold finalMsgs at hfin
  by_cases h1 : s.sect = some .str
  · rw [if_pos h1] at hfin
    simp only [h1, if_true]
    cases hz : isFuzzyMark l with
    | true => exact ⟨_, rfl, ⟨.inr rfl, rfl, hr.enc, hr.ok, by simpa [finalMsgs] using hfin⟩, rfl, rfl⟩
    | false => exact ⟨_, rfl, ⟨.inr rfl, rfl, hr.enc, hr.ok, by simpa [finalMsgs] using hfin⟩, rfl, rfl⟩
  · have h2 : s.sect = none := hr.sect.resolve_left h1
    rw [if_neg h1] at hfin
    simp only [if_neg h1]
    cases hz : isFuzzyMark l with
    | true => exact ⟨_, rfl, ⟨.inr h2, hr.ctxt, hr.enc, hr.ok, by simpa [finalMsgs, h2] using hfin⟩, h2, by simp⟩
    | false => exact ⟨_, rfl, ⟨.inr h2, hr.ctxt, hr.enc, hr.ok, by simpa [finalMsgs, h2] using hfin⟩, h2, by simp⟩

theorem blank_line {s : MoState} {E : Enc} (he : s.enc = E) (ho : E ≠ .other) {l : Str} (h : ∀ c ∈ l, c ∈ c!" \t\r") :
    moLine charset s (lineBytes l) = some s := by
  rw [moLine_decode he ho]
  have ha : ∀ c ∈ c!" \t\r", c.toNat < 128 ∧ Str.isWs c = true ∧ c ≠ '#' ∧ c ≠ 'm' := by decide
  rw [view_ascii fun c hc => (ha c (h c hc)).1]
  have hws : ∀ c ∈ l ++ c!"\n", Str.isWs c = true := by
    intro c hc
    rcases List.mem_append.1 hc with hc | hc
    · exact (ha c (h c hc)).2.1
    · rw [List.mem_singleton.1 hc]; decide
  obtain ⟨x, r, e, hx1, hx2⟩ : ∃ x r, l ++ c!"\n" = x :: r ∧ x ≠ '#' ∧ x ≠ 'm' := by
    cases l with
    | nil => exact ⟨'\n', [], rfl, by decide, by decide⟩
    | cons c l =>
      have := ha c (h c List.mem_cons_self)
      exact ⟨c, l ++ c!"\n", rfl, this.2.2⟩
  have hk : ∀ (p : Str), Str.startsWith (l ++ c!"\n") ('m' :: p) = false := by
    intro p
    rw [e]
    show ('m' == x && _) = false
    rw [beq_eq_false_iff_ne.2 fun h => hx2 h.symm]; rfl
  have hkw : keyword charset s (l ++ c!"\n") = some (s, l ++ c!"\n") := by
    unfold keyword
    rw [hk, hk, hk, hk]
    rfl
  dsimp only
  rw [if_neg (by rw [e]; simpa using hx1), hkw]
  show addString s (l ++ c!"\n") = some s
  unfold addString
  rw [(Str.strip_eq_nil_iff _).2 hws]
  rfl

/-- The lines above an entry. -/
theorem above_lines {E : Enc} {M : List (Bytes × Bytes)} : ∀ (above : List Str) (s : MoState), (∀ l ∈ above, SideLine l) → Ready s E M →
    ∃ s', moLoop charset s (above.map lineBytes) = some s' ∧ Ready s' E M ∧
      ((above.any isRemark = false ∧ s' = s) ∨
        (above.any isRemark = true ∧ s'.sect = none ∧ s'.fuzzy = ((if s.sect = some .str then false else s.fuzzy) || above.any isFuzzyMark))) := by
  intro above
  induction above with
  | nil => intro s _ hr; exact ⟨s, rfl, hr, .inl ⟨rfl, rfl⟩⟩
  | cons l above ih =>
    intro s hl hr
    have hl' : ∀ l ∈ above, SideLine l := fun x hx => hl x (List.mem_cons_of_mem _ hx)
    by_cases h : isRemark l = true
    · obtain ⟨s1, h1, r1, hs1, hf1⟩ := remark_line (charset := charset) hr h
      obtain ⟨s2, h2, r2, hc⟩ := ih s1 hl' r1
      refine ⟨s2, ?_, r2, .inr ⟨by rw [List.any_cons, h]; rfl, ?_⟩⟩
      · rw [List.map_cons, moLoop, h1]; exact h2
      · rcases hc with ⟨hc1, hc2⟩ | ⟨hc1, hc2, hc3⟩
        · subst hc2
          refine ⟨hs1, ?_⟩
          have : above.any isFuzzyMark = false := by
            rw [List.any_eq_false] at hc1 ⊢
            intro x hx hz
            refine hc1 x hx ?_
            unfold isFuzzyMark at hz
            cases x with
            | nil => cases hz
            | cons c x =>
              have := (Bool.and_eq_true _ _ ▸ hz).1
              have : (('#' == c) && _) = true := this
              have hc := (Bool.and_eq_true _ _ ▸ this).1
              rw [← beq_iff_eq.1 hc]; rfl
          rw [hf1, List.any_cons, this, Bool.or_false]
        · refine ⟨hc2, ?_⟩
          rw [hc3, hs1, hf1, List.any_cons]
          simp [Bool.or_assoc]
    · have hb : ∀ c ∈ l, c ∈ c!" \t\r" := (hl l List.mem_cons_self).2.resolve_left h
      have h1 := blank_line (charset := charset) hr.enc hr.ok hb
      obtain ⟨s2, h2, r2, hc⟩ := ih s hl' hr
      have hz : isFuzzyMark l = false := by
        cases l with
        | nil => rfl
        | cons c x =>
          have : c ≠ '#' := fun e => h (by rw [e]; rfl)
          show ((('#' == c) && _) && _) = false
          rw [beq_eq_false_iff_ne.2 fun e => this e.symm]; rfl
      refine ⟨s2, by rw [List.map_cons, moLoop, h1]; exact h2, r2, ?_⟩
      rw [List.any_cons, List.any_cons, hz, (by simpa using h : isRemark l = false)]
      simpa using hc

/-! ### Strings -/

theorem addString_quoted {s : MoState} {E E' : Enc} (he : s.enc = E') (ho : E' ≠ .other) {p t a : Str} (hp : Denotes p t) (hv : view E p = view E' p)
    (ha : ∀ c ∈ a, Str.isWs c = true) : addString s (a ++ (c!"\"" ++ view E p ++ c!"\"") ++ c!"\n") =
      match s.sect with
      | some .ctxt => some { s with ctxt := some (s.ctxt.getD [] ++ utf8 t) }
      | some .id => some { s with id := s.id ++ utf8 t }
      | some .str => some { s with str := s.str ++ utf8 t }
      | none => none := by
  unfold addString
  rw [strip_quoted _ _ _ ha (by decide)]
  dsimp only
  rw [if_neg (by simp), hv, pyLiteral_denotes (denotes_view E' hp), he]
  show (do let b ← E'.encode (view E' t); _) = _
  rw [encode_view ho]
  rfl

theorem string_line {s : MoState} {E : Enc} (he : s.enc = E) (ho : E ≠ .other) {p t : Str} (hp : Denotes p t) :
    moLine charset s (lineBytes (c!"\"" ++ p ++ c!"\"")) =
      match s.sect with
      | some .ctxt => some { s with ctxt := some (s.ctxt.getD [] ++ utf8 t) }
      | some .id => some { s with id := s.id ++ utf8 t }
      | some .str => some { s with str := s.str ++ utf8 t }
      | none => none := by
  rw [moLine_decode he ho, view_append, view_append, view_ascii (E := E) (s := c!"\"") (by decide)]
  have hkw : keyword charset s (c!"\"" ++ view E p ++ c!"\"" ++ c!"\n") = some (s, c!"\"" ++ view E p ++ c!"\"" ++ c!"\n") := rfl
  dsimp only
  rw [if_neg (by intro h; cases h), hkw]
  exact addString_quoted (E := E) (a := []) he ho hp rfl (by simp)

theorem string_line_id {s : MoState} {E : Enc} (he : s.enc = E) (ho : E ≠ .other) {p t : Str} (hp : Denotes p t) (hs : s.sect = some .id) :
    moLine charset s (lineBytes (c!"\"" ++ p ++ c!"\"")) = some { s with id := s.id ++ utf8 t } := by
  refine (string_line he ho hp).trans ?_
  split
  · rename_i h; rw [hs] at h; cases h
  · rfl
  · rename_i h; rw [hs] at h; cases h
  · rename_i h; rw [hs] at h; cases h

theorem string_line_str {s : MoState} {E : Enc} (he : s.enc = E) (ho : E ≠ .other) {p t : Str} (hp : Denotes p t) (hs : s.sect = some .str) :
    moLine charset s (lineBytes (c!"\"" ++ p ++ c!"\"")) = some { s with str := s.str ++ utf8 t } := by
  refine (string_line he ho hp).trans ?_
  split
  · rename_i h; rw [hs] at h; cases h
  · rename_i h; rw [hs] at h; cases h
  · rfl
  · rename_i h; rw [hs] at h; cases h

theorem id_strings {E : Enc} (ho : E ≠ .other) {r : List Str} {u : Str} (hd : DenotesAll r u) : ∀ (s : MoState), s.enc = E → s.sect = some .id →
    moLoop charset s ((r.map fun q => c!"\"" ++ q ++ c!"\"").map lineBytes) = some { s with id := s.id ++ utf8 u } := by
  induction hd with
  | nil => intro s _ _; simp [moLoop, utf8]
  | @cons p t r u hp _ ih =>
    intro s he hs
    rw [List.map_cons, List.map_cons, moLoop, string_line_id he ho hp hs]
    show moLoop charset { s with id := s.id ++ utf8 t } _ = _
    rw [ih { s with id := s.id ++ utf8 t } he hs, utf8_append, List.append_assoc]

theorem str_strings {E : Enc} (ho : E ≠ .other) {r : List Str} {u : Str} (hd : DenotesAll r u) : ∀ (s : MoState), s.enc = E → s.sect = some .str →
    moLoop charset s ((r.map fun q => c!"\"" ++ q ++ c!"\"").map lineBytes) = some { s with str := s.str ++ utf8 u } := by
  induction hd with
  | nil => intro s _ _; simp [moLoop, utf8]
  | @cons p t r u hp _ ih =>
    intro s he hs
    rw [List.map_cons, List.map_cons, moLoop, string_line_str he ho hp hs]
    show moLoop charset { s with str := s.str ++ utf8 t } _ = _
    rw [ih { s with str := s.str ++ utf8 t } he hs, utf8_append, List.append_assoc]

theorem moLoop_append : ∀ (a b : List Bytes) (s : MoState), moLoop charset s (a ++ b) = (moLoop charset s a).bind fun s => moLoop charset s b := by
  intro a
  induction a with
  | nil => intro b s; rfl
  | cons l a ih =>
    intro b s
    rw [List.cons_append, moLoop, moLoop]
    cases moLine charset s l with
    | none => rfl
    | some s' => exact ih b s'

/-- The encoding after the line of a message. -/
def nextEnc (charset : Str → Option Enc) (s : MoState) (header : Str) : Enc :=
  if s.sect = some .str ∧ s.id = [] then (charset (view s.enc header)).getD s.enc else s.enc

theorem msgid_line {s : MoState} {E : Enc} {M : List (Bytes × Bytes)} (hr : Ready s E M) (header : Str) (hh : s.sect = some .str → s.str = utf8 header)
    {p t : Str} (hp : Denotes p t) (ho : nextEnc charset s header ≠ .other) (hv : view E p = view (nextEnc charset s header) p) :
    moLine charset s (lineBytes (c!"msgid" ++ c!" \"" ++ p ++ c!"\"")) =
      some { s with sect := some .id, id := utf8 t, str := [], plural := some false, messages := M, enc := nextEnc charset s header } := by
  rw [moLine_decode hr.enc hr.ok, view_append, view_append, view_ascii (E := E) (s := c!"msgid" ++ c!" \"") (by decide), view_ascii (E := E) (s := c!"\"") (by decide)]
  dsimp only
  rw [if_neg (by intro h; cases h)]
  have hfin := hr.final
  unfold finalMsgs at hfin
  have hkw : keyword charset s (c!"msgid" ++ c!" \"" ++ view E p ++ c!"\"" ++ c!"\n") =
      some ({ s with sect := some .id, id := [], str := [], plural := some false, messages := M, enc := nextEnc charset s header },
        c!" \"" ++ view E p ++ c!"\"" ++ c!"\n") := by
    unfold keyword
    rw [if_neg (show ¬ Str.startsWith (c!"msgid" ++ c!" \"" ++ view E p ++ c!"\"" ++ c!"\n") c!"msgctxt" = true from Bool.false_ne_true),
      if_pos (show (Str.startsWith (c!"msgid" ++ c!" \"" ++ view E p ++ c!"\"" ++ c!"\n") c!"msgid" &&
        !Str.startsWith (c!"msgid" ++ c!" \"" ++ view E p ++ c!"\"" ++ c!"\n") c!"msgid_plural") = true from rfl)]
    by_cases h1 : s.sect = some .str
    · rw [if_pos h1] at hfin ⊢
      by_cases h2 : s.id = []
      · rw [if_pos h2, hh h1, decode_view (hr.enc ▸ hr.ok)]
        have : nextEnc charset s header = (charset (view s.enc header)).getD s.enc := by unfold nextEnc; rw [if_pos ⟨h1, h2⟩]
        rw [this, ← hfin, hh h1]
        rfl
      · rw [if_neg h2]
        have : nextEnc charset s header = s.enc := by unfold nextEnc; rw [if_neg fun h => h2 h.2]
        rw [this, ← hfin]
        rfl
    · rw [if_neg h1] at hfin ⊢
      have : nextEnc charset s header = s.enc := by unfold nextEnc; rw [if_neg fun h => h1 h.1]
      rw [this, ← hfin]
      rfl
  rw [hkw]
  exact addString_quoted (E := E) (a := c!" ") (s := { s with sect := some .id, id := [], str := [], plural := some false, messages := M, enc := nextEnc charset s header })
    rfl ho hp hv (by decide)

theorem msgstr_line {s : MoState} {E : Enc} (he : s.enc = E) (ho : E ≠ .other) (hpl : s.plural = some false) {p t : Str} (hp : Denotes p t) :
    moLine charset s (lineBytes (c!"msgstr" ++ c!" \"" ++ p ++ c!"\"")) = some { s with sect := some .str, str := s.str ++ utf8 t } := by
  rw [moLine_decode he ho, view_append, view_append, view_ascii (E := E) (s := c!"msgstr" ++ c!" \"") (by decide), view_ascii (E := E) (s := c!"\"") (by decide)]
  dsimp only
  rw [if_neg (by intro h; cases h)]
  have hkw : keyword charset s (c!"msgstr" ++ c!" \"" ++ view E p ++ c!"\"" ++ c!"\n") =
      some ({ s with sect := some .str }, c!" \"" ++ view E p ++ c!"\"" ++ c!"\n") := by
    unfold keyword
    generalize hl : c!"msgstr" ++ c!" \"" ++ view E p ++ c!"\"" ++ c!"\n" = l
    have h1 : Str.startsWith l c!"msgctxt" = false := by rw [← hl]; rfl
    have h2 : (Str.startsWith l c!"msgid" && !Str.startsWith l c!"msgid_plural") = false := by rw [← hl]; rfl
    have h3 : Str.startsWith l c!"msgid_plural" = false := by rw [← hl]; rfl
    have h4 : Str.startsWith l c!"msgstr" = true := by rw [← hl]; rfl
    have h5 : Str.startsWith l c!"msgstr[" = false := by rw [← hl]; rfl
    have h6 : l.drop 6 = c!" \"" ++ view E p ++ c!"\"" ++ c!"\n" := by rw [← hl]; rfl
    rw [h1, h2, h3, h4, h5, h6, hpl]
    rfl
  rw [hkw]
  exact addString_quoted (E := E) (a := c!" ") (s := { s with sect := some .str }) he ho hp rfl (by decide)

end Verif
