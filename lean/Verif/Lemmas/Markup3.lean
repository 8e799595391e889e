/-
The conversion of a formatted text for a document.
-/
import Verif.Lemmas.Markup2

namespace Verif
open Spec

variable {ls : List Str}

theorem flat_congr {σ τ : Stage} {ps : List (Option Piece)} (h : ∀ p ∈ ps, σ.out p = τ.out p) : σ.flat ps = τ.flat ps := flatMap_congr' h

/-- `<text:span ...>` for the two kinds of emphasis. -/
def emSpan : Str := c!"<text:span text:style-name=\"Emphasis\">"
/-- See `emSpan`. -/
def strongSpan : Str := c!"<text:span text:style-name=\"Strong_20_Emphasis\">"
/-- For a language. -/
def langSpan (i : Nat) : Str := c!"<text:span text:style-name=\"T" ++ Str.ofNat i ++ c!"\">"
/-- The end of a span. -/
def spanEnd : Str := c!"</text:span>"

/-- A mark among the languages numbered from `i`. -/
def langOp : Nat → List Str → Str → Str
  | _, [], t => openTag t
  | i, l :: r, t => if t = c!"lang=" ++ l then langSpan i else langOp (i + 1) r t

/-- The beginning of a formatting. -/
def opText (ls : List Str) (t : Str) : Str := if t = c!"i" then emSpan else if t = c!"b" then strongSpan else langOp 1 ls t

/-- The beginning of an annotation. -/
def noteStart (author : Option Str) : Str := c!"<office:annotation><dc:creator>" ++ pyStr author ++ c!"</dc:creator><text:p>"
/-- Its end. -/
def noteEnd : Str := c!"</text:p></office:annotation>"

/-- A new paragraph. -/
def nlOut : Str := c!"</text:p>\n<text:p text:style-name=\"First_20_line_20_indent\">"
/-- An empty line and a new paragraph. -/
def nl2Out : Str := c!"</text:p>\n<text:p text:style-name=\"First_20_line_20_indent\" />\n<text:p text:style-name=\"Text_20_body\">"

/-- The finished text. -/
def finalStage (author : Option Str) (ls : List Str) : Stage := ⟨nlOut, nl2Out, opText ls, fun _ => spanEnd, noteStart author, noteEnd⟩

theorem openTag_inj {s t : Str} (h : openTag s = openTag t) : s = t := by
  unfold openTag at h
  simpa using h

theorem closeTag_inj {s t : Str} (h : closeTag s = closeTag t) : s = t := by
  unfold closeTag at h
  simpa using h

theorem openTag_ne_closeTag {s t : Str} (ht : ∃ c r, s = c :: r ∧ c ≠ '/') : openTag s ≠ closeTag t := by
  obtain ⟨c, r, rfl, hc⟩ := ht
  unfold openTag closeTag
  simp only [List.cons_append, ne_eq, List.cons.injEq, true_and, not_and]
  exact fun e => absurd e hc

theorem format_head' {t : Str} (ht : t ∈ formats ls) : ∃ c r, t = c :: r ∧ c ≠ '/' := by
  obtain ⟨c, r, e, h⟩ := format_head ht
  refine ⟨c, r, e, ?_⟩
  rcases h with rfl | rfl | rfl <;> decide

/-- One mark `[t]` of a stage replaced. -/
theorem replace_open (hl : ∀ l ∈ ls, LangCode l) {σ τ : Stage} (hσ : TagStage ls σ) {t : Str} (ht : t ∈ formats ls) (q : Str)
    {ps : List (Option Piece)} (h : ∀ p, some p ∈ ps → p.Ok ls) (hn : NeighO ps)
    (h1 : τ.nl = σ.nl) (h2 : τ.nl2 = σ.nl2) (h3 : ∀ u ∈ formats ls, τ.op u = if u = t ∧ σ.op u = openTag u then q else σ.op u)
    (h4 : ∀ u ∈ formats ls, τ.cl u = σ.cl u) (h5 : τ.no = σ.no) (h6 : τ.nc = σ.nc) :
    Str.replace (σ.flat ps) (openTag t) q = τ.flat ps := by
  obtain ⟨k, hk⟩ := rep_tag hl hσ (.inl ⟨t, ht, rfl⟩) q h hn
  rw [show openTag t = bracketed t from rfl, hk.replace (by simp [bracketed])]
  have hne : ∀ {s : Str}, '[' ∉ s → (if s = bracketed t then q else s) = s := by
    intro s hs
    rw [if_neg]
    rintro rfl
    exact hs (by simp [bracketed])
  apply flat_congr
  intro p hp
  match p with
  | none => show (if σ.nl2 = bracketed t then q else σ.nl2) = τ.nl2; rw [hne hσ.nl2, h2]
  | some (.ch c) => rfl
  | some .nl => show (if σ.nl = bracketed t then q else σ.nl) = τ.nl; rw [hne hσ.nl, h1]
  | some (.note s) =>
    show (if σ.no = bracketed t then q else σ.no) ++ _ ++ (if σ.nc = bracketed t then q else σ.nc) = τ.no ++ _ ++ τ.nc
    rw [hne hσ.no, hne hσ.nc, h5, h6]
  | some (.op u) =>
    have hu := h _ hp
    show (if σ.op u = bracketed t then q else σ.op u) = τ.op u
    rw [h3 u hu]
    rcases hσ.op u hu with e | e
    · by_cases hut : u = t
      · subst hut
        have c1 : u = u ∧ σ.op u = openTag u := ⟨rfl, e⟩
        rw [if_pos c1]
        exact if_pos e
      · have c1 : ¬ (u = t ∧ σ.op u = openTag u) := fun hh => hut hh.1
        rw [if_neg c1]
        refine if_neg ?_
        rw [e]
        intro hh
        exact hut (openTag_inj hh)
    · rw [hne e, if_neg]
      rintro ⟨_, e2⟩
      rw [e2] at e
      exact e (by simp [openTag])
  | some (.cl u) =>
    have hu := h _ hp
    show (if σ.cl u = bracketed t then q else σ.cl u) = τ.cl u
    rw [h4 u hu]
    rcases hσ.cl u hu with e | e
    · rw [e]
      exact if_neg (openTag_ne_closeTag (format_head' ht)).symm
    · exact hne e

/-- One mark `[/t]` of a stage replaced. -/
theorem replace_close (hl : ∀ l ∈ ls, LangCode l) {σ τ : Stage} (hσ : TagStage ls σ) {t : Str} (ht : t ∈ formats ls) (q : Str)
    {ps : List (Option Piece)} (h : ∀ p, some p ∈ ps → p.Ok ls) (hn : NeighO ps)
    (h1 : τ.nl = σ.nl) (h2 : τ.nl2 = σ.nl2) (h3 : ∀ u ∈ formats ls, τ.op u = σ.op u)
    (h4 : ∀ u ∈ formats ls, τ.cl u = if u = t ∧ σ.cl u = closeTag u then q else σ.cl u) (h5 : τ.no = σ.no) (h6 : τ.nc = σ.nc) :
    Str.replace (σ.flat ps) (closeTag t) q = τ.flat ps := by
  obtain ⟨k, hk⟩ := rep_tag hl hσ (.inr ⟨t, ht, rfl⟩) q h hn
  rw [show closeTag t = bracketed ('/' :: t) from rfl, hk.replace (by simp [bracketed])]
  have hne : ∀ {s : Str}, '[' ∉ s → (if s = bracketed ('/' :: t) then q else s) = s := by
    intro s hs
    rw [if_neg]
    rintro rfl
    exact hs (by simp [bracketed])
  apply flat_congr
  intro p hp
  match p with
  | none => show (if σ.nl2 = _ then q else σ.nl2) = τ.nl2; rw [hne hσ.nl2, h2]
  | some (.ch c) => rfl
  | some .nl => show (if σ.nl = _ then q else σ.nl) = τ.nl; rw [hne hσ.nl, h1]
  | some (.note s) =>
    show (if σ.no = _ then q else σ.no) ++ _ ++ (if σ.nc = _ then q else σ.nc) = τ.no ++ _ ++ τ.nc
    rw [hne hσ.no, hne hσ.nc, h5, h6]
  | some (.cl u) =>
    have hu := h _ hp
    show (if σ.cl u = closeTag t then q else σ.cl u) = τ.cl u
    rw [h4 u hu]
    rcases hσ.cl u hu with e | e
    · by_cases hut : u = t
      · subst hut
        have c1 : u = u ∧ σ.cl u = closeTag u := ⟨rfl, e⟩
        rw [if_pos c1]
        exact if_pos e
      · have c1 : ¬ (u = t ∧ σ.cl u = closeTag u) := fun hh => hut hh.1
        rw [if_neg c1]
        refine if_neg ?_
        rw [e]
        intro hh
        exact hut (closeTag_inj hh)
    · have := hne e
      rw [show bracketed ('/' :: t) = closeTag t from rfl] at this
      rw [this, if_neg]
      rintro ⟨_, e2⟩
      rw [e2] at e
      exact e (by simp [closeTag])
  | some (.op u) =>
    have hu := h _ hp
    show (if σ.op u = closeTag t then q else σ.op u) = τ.op u
    rw [h3 u hu]
    rcases hσ.op u hu with e | e
    · rw [e]
      exact if_neg (openTag_ne_closeTag (format_head' hu))
    · exact hne e

/-- The languages. -/
theorem replace_langs (hl : ∀ l ∈ ls, LangCode l) {σ : Stage} (hσ : TagStage ls σ) {ps : List (Option Piece)} (h : ∀ p, some p ∈ ps → p.Ok ls)
    (hn : NeighO ps) (i : Nat) (rs : List Str) (hr : ∀ l ∈ rs, l ∈ ls) {τ : Stage} (h1 : τ.nl = σ.nl) (h2 : τ.nl2 = σ.nl2)
    (h3 : ∀ u ∈ formats ls, τ.op u = if σ.op u = openTag u then langOp i rs u else σ.op u)
    (h4 : ∀ u ∈ formats ls, τ.cl u = if σ.cl u = closeTag u then (if u ∈ rs.map (fun l => c!"lang=" ++ l) then spanEnd else closeTag u) else σ.cl u)
    (h5 : τ.no = σ.no) (h6 : τ.nc = σ.nc) : replaceAll (langReplacements i rs) (σ.flat ps) = τ.flat ps := by
  induction rs generalizing i σ with
  | nil =>
    show σ.flat ps = τ.flat ps
    apply flat_congr
    intro p hp
    match p with
    | none => exact h2.symm
    | some (.ch c) => rfl
    | some .nl => exact h1.symm
    | some (.note s) => show σ.no ++ _ ++ σ.nc = τ.no ++ _ ++ τ.nc; rw [h5, h6]
    | some (.op u) =>
      show σ.op u = τ.op u
      rw [h3 u (h _ hp)]
      split
      · assumption
      · rfl
    | some (.cl u) =>
      show σ.cl u = τ.cl u
      rw [h4 u (h _ hp)]
      split
      · simpa using ‹_›
      · rfl
  | cons l rs ih =>
    have ht : c!"lang=" ++ l ∈ formats ls := by
      simp only [formats, List.mem_cons, List.mem_map]
      exact .inr (.inr ⟨l, hr l (by simp), rfl⟩)
    have hbr : '[' ∉ langSpan i := by
      unfold langSpan
      simp only [List.mem_append, not_or]
      refine ⟨⟨by decide, ?_⟩, by decide⟩
      intro hm
      have := Str.isDigit_of_mem_ofNat hm
      revert this; decide
    let σ1 : Stage := { σ with op := fun u => if u = c!"lang=" ++ l ∧ σ.op u = openTag u then langSpan i else σ.op u }
    let σ2 : Stage := { σ1 with cl := fun u => if u = c!"lang=" ++ l ∧ σ.cl u = closeTag u then spanEnd else σ.cl u }
    have hσ1 : TagStage ls σ1 := by
      refine ⟨hσ.nl, hσ.nl2, hσ.no, hσ.nc, ?_, hσ.cl⟩
      intro t ht
      show (if t = c!"lang=" ++ l ∧ σ.op t = openTag t then langSpan i else σ.op t) = openTag t ∨ '[' ∉ (if t = c!"lang=" ++ l ∧ σ.op t = openTag t then langSpan i else σ.op t)
      split
      · exact .inr hbr
      · exact hσ.op t ht
    have hσ2 : TagStage ls σ2 := by
      refine ⟨hσ.nl, hσ.nl2, hσ.no, hσ.nc, hσ1.op, ?_⟩
      intro t ht
      show (if t = c!"lang=" ++ l ∧ σ.cl t = closeTag t then spanEnd else σ.cl t) = closeTag t ∨ '[' ∉ (if t = c!"lang=" ++ l ∧ σ.cl t = closeTag t then spanEnd else σ.cl t)
      split
      · exact .inr (by decide)
      · exact hσ.cl t ht
    show replaceAll (langReplacements (i + 1) rs) (Str.replace (Str.replace (σ.flat ps) (openTag (c!"lang=" ++ l)) (langSpan i)) (closeTag (c!"lang=" ++ l)) spanEnd) = _
    rw [replace_open (τ := σ1) hl hσ ht _ h hn rfl rfl (fun _ _ => rfl) (fun _ _ => rfl) rfl rfl,
      replace_close (τ := σ2) hl hσ1 ht _ h hn rfl rfl (fun _ _ => rfl) (fun _ _ => rfl) rfl rfl]
    refine ih hσ2 (i + 1) (fun l hl => hr l (by simp [hl])) h1 h2 ?_ ?_ h5 h6
    · intro u hu
      rw [h3 u hu]
      show (if σ.op u = openTag u then (if u = c!"lang=" ++ l then langSpan i else langOp (i + 1) rs u) else σ.op u) =
        if (if u = c!"lang=" ++ l ∧ σ.op u = openTag u then langSpan i else σ.op u) = openTag u then langOp (i + 1) rs u
        else (if u = c!"lang=" ++ l ∧ σ.op u = openTag u then langSpan i else σ.op u)
      by_cases e1 : σ.op u = openTag u
      · by_cases e2 : u = c!"lang=" ++ l
        · have c1 : u = c!"lang=" ++ l ∧ σ.op u = openTag u := ⟨e2, e1⟩
          have c2 : langSpan i ≠ openTag u := by
            intro e
            rw [e] at hbr
            exact hbr (by simp [openTag])
          rw [if_pos e1, if_pos e2, if_pos c1, if_neg c2]
        · have : ¬ (u = c!"lang=" ++ l ∧ σ.op u = openTag u) := fun hh => e2 hh.1
          rw [if_pos e1, if_neg e2, if_neg this, if_pos e1]
      · have : ¬ (u = c!"lang=" ++ l ∧ σ.op u = openTag u) := fun hh => e1 hh.2
        rw [if_neg e1, if_neg this, if_neg e1]
    · intro u hu
      rw [h4 u hu]
      show (if σ.cl u = closeTag u then (if u ∈ (c!"lang=" ++ l) :: rs.map (fun l => c!"lang=" ++ l) then spanEnd else closeTag u) else σ.cl u) =
        if (if u = c!"lang=" ++ l ∧ σ.cl u = closeTag u then spanEnd else σ.cl u) = closeTag u then
          (if u ∈ rs.map (fun l => c!"lang=" ++ l) then spanEnd else closeTag u)
        else (if u = c!"lang=" ++ l ∧ σ.cl u = closeTag u then spanEnd else σ.cl u)
      by_cases e1 : σ.cl u = closeTag u
      · by_cases e2 : u = c!"lang=" ++ l
        · have e3 : u ∈ (c!"lang=" ++ l) :: rs.map (fun l => c!"lang=" ++ l) := by rw [e2]; exact List.mem_cons_self
          have c1 : u = c!"lang=" ++ l ∧ σ.cl u = closeTag u := ⟨e2, e1⟩
          have c2 : spanEnd ≠ closeTag u := by
            unfold closeTag spanEnd
            intro e
            cases e
          rw [if_pos e1, if_pos e3, if_pos c1, if_neg c2]
        · have e3 : ¬ (u = c!"lang=" ++ l ∧ σ.cl u = closeTag u) := fun hh => e2 hh.1
          rw [if_pos e1, if_neg e3, if_pos e1]
          simp only [List.mem_cons, e2, false_or]
      · have : ¬ (u = c!"lang=" ++ l ∧ σ.cl u = closeTag u) := fun hh => e1 hh.2
        rw [if_neg e1, if_neg this, if_neg e1]

end Verif
