/-
Lemmas for C32: what a parser makes of a spreadsheet written by PyWriter.
-/
import Verif.Lemmas.Sax
import Verif.Lemmas.Template
import Verif.Lemmas.Export
import Verif.Model.OdsRead
import Verif.Spec.Ods

namespace Verif
open XNode Spec

/-! ### Line ends -/

theorem normEol_cons {c : Char} (hc : c ≠ '\r') (s : Str) : normEol (c :: s) = c :: normEol s := by
  cases s with
  | nil =>
    unfold normEol
    split
    · contradiction
    · rename_i h; injection h with h1 h2; exact absurd h1 hc
    · rename_i h; injection h with h1 h2; exact absurd h1 hc
    · rename_i h; injection h with h1 h2; subst h1 h2; rfl
  | cons d s =>
    conv => lhs; unfold normEol
    split
    · contradiction
    · rename_i h; injection h with h1 h2; exact absurd h1 hc
    · rename_i h; injection h with h1 h2; exact absurd h1 hc
    · rename_i h; injection h with h1 h2; subst h1; rw [h2]

theorem normEol_eq {s : Str} (h : '\r' ∉ s) : normEol s = s := by
  induction s with
  | nil => rfl
  | cons c s ih =>
    rw [normEol_cons (fun e => h (by simp [e])), ih (fun e => h (by simp [e]))]

/-! ### Selecting -/

theorem sel_append (t : Str) (a b : List XNode) : sel t (a ++ b) = sel t a ++ sel t b := by simp [sel]

theorem sel_textNode (t acc : Str) : sel t (textNode acc) = [] := by
  unfold textNode
  split <;> rfl

theorem itertextL_append (a b : List XNode) : itertextL (a ++ b) = itertextL a ++ itertextL b := by
  induction a with
  | nil => rfl
  | cons k a ih => simp only [List.cons_append, itertextL, ih, List.append_assoc]

theorem itertextL_textNode (acc : Str) : itertextL (textNode acc) = acc.reverse := by
  unfold textNode
  split
  · rename_i h; subst h; rfl
  · simp [itertextL, itertext]

/-! ### Cells -/

/-- `raw` is the markup of the character data `l`. -/
def ParaText (raw l : Str) : Prop := ∀ acc, saxRun (.text acc) raw = (.text (l.reverse ++ acc), [])

/-- The separator of the lines of a cell. -/
def paraSep : Str := c!"</text:p>\n<text:p>"

/-- `v` is the markup of a cell with the given lines. -/
def CellLines (v : Str) (ls : List Str) : Prop :=
  ∃ raws, raws ≠ [] ∧ v = Str.join paraSep raws ∧ raws.length = ls.length ∧ ∀ p ∈ raws.zip ls, ParaText p.1 p.2

theorem renders_para {raw l : Str} (h : ParaText raw l) (a0 : Str) :
    Renders (c!"<text:p>" ++ (raw ++ c!"</text:p>")) a0 (textNode a0 ++ [.elem c!"text:p" [] (textNode l.reverse)]) [] := by
  have h2 : Renders raw [] [] l.reverse := by
    unfold Renders
    rw [h []]; simp; rfl
  exact Renders.elem (start := c!"text:p>") (stop := c!"/text:p>") (t := c!"text:p") (as := []) rfl h2 rfl

theorem renders_paras (raws : List Str) : ∀ ls : List Str, raws ≠ [] → raws.length = ls.length → (∀ p ∈ raws.zip ls, ParaText p.1 p.2) →
    ∀ a0, ∃ ns, Renders (c!"<text:p>" ++ (Str.join paraSep raws ++ c!"</text:p>")) a0 ns [] ∧
      (sel c!"text:p" ns).map itertext = ls ∧ sel c!"table:table-cell" ns = [] := by
  induction raws with
  | nil => intro _ h; exact absurd rfl h
  | cons r rs ih =>
    intro ls _ hlen hp a0
    cases ls with
    | nil => cases hlen
    | cons l ls =>
      have hr := renders_para (hp (r, l) (by simp)) a0
      have hi : itertext (.elem c!"text:p" [] (textNode l.reverse)) = l := by
        rw [itertext, itertextL_textNode, List.reverse_reverse]
      cases rs with
      | nil =>
        have : ls = [] := by cases ls with | nil => rfl | cons => simp at hlen
        subst this
        refine ⟨_, hr, ?_, ?_⟩
        · rw [sel_append, sel_textNode]; simp only [sel, List.nil_append, List.filter_cons, isTag, List.filter_nil, decide_true, if_true, List.map_cons, hi, List.map_nil]
        · rw [sel_append, sel_textNode]; rfl
      | cons r2 rs2 =>
        obtain ⟨ns, h1, h2, h3⟩ := ih ls (by simp) (by simpa using hlen) (fun p hp' => hp p (by simp [hp'])) ['\n']
        have hnl : Renders ['\n'] [] [] ['\n'] := rfl
        have := (hr.append hnl).append h1
        refine ⟨textNode a0 ++ [.elem c!"text:p" [] (textNode l.reverse)] ++ [] ++ ns, ?_, ?_, ?_⟩
        · have e : Str.join paraSep (r :: r2 :: rs2) = r ++ (paraSep ++ Str.join paraSep (r2 :: rs2)) := by simp [Str.join]
          rw [e]
          have e2 : c!"<text:p>" ++ (r ++ (paraSep ++ Str.join paraSep (r2 :: rs2)) ++ c!"</text:p>") =
              c!"<text:p>" ++ (r ++ c!"</text:p>") ++ ['\n'] ++ (c!"<text:p>" ++ (Str.join paraSep (r2 :: rs2) ++ c!"</text:p>")) := by
            rw [show paraSep = c!"</text:p>" ++ (['\n'] ++ c!"<text:p>") from rfl]
            simp only [List.append_assoc]
          rw [e2]
          exact this
        · rw [sel_append, sel_append, sel_append, sel_textNode, List.map_append, h2]
          simp only [sel, List.nil_append, List.filter_cons, isTag, List.filter_nil, decide_true, if_true, List.map_cons, hi, List.map_nil, List.append_nil, List.cons_append]
        · rw [sel_append, sel_append, sel_append, sel_textNode, h3]; rfl

/-- A cell with the given lines that stands for one column. -/
def CellNode (ls : List Str) (c : XNode) : Prop :=
  c.isTag c!"table:table-cell" = true ∧ (sel c!"text:p" c.kids).map itertext = ls ∧ c.attr c!"table:number-columns-repeated" = none

/-- Character data that are blank. -/
theorem saxRun_blank (n : Nat) (acc : Str) : saxRun (.text acc) (List.replicate n ' ') = (.text (List.replicate n ' ' ++ acc), []) := by
  rw [saxRun_plain (by rw [List.all_replicate]; cases n <;> simp; decide)]
  simp

theorem renders_cell {attrs v : Str} {as : Dict Str} {ls : List Str}
    (ha : saxRun .lt (c!"table:table-cell" ++ attrs ++ c!">") = (.text [], [.start c!"table:table-cell" as]))
    (has : as.get? c!"table:number-columns-repeated" = none) (hv : CellLines v ls) (a0 : Str) :
    ∃ pre c, Renders (odsCellWith attrs v) a0 (pre ++ [c]) ['\n'] ∧ sel c!"table:table-cell" pre = [] ∧ CellNode ls c := by
  obtain ⟨raws, hne, rfl, hlen, hp⟩ := hv
  obtain ⟨ns, h1, h2, h3⟩ := renders_paras raws ls hne hlen hp c!"      \n"
  have e1 : Renders c!"\n      " [] [] c!"      \n" := rfl
  have e2 : Renders c!"\n     " [] [] c!"     \n" := rfl
  have hin := (e1.append h1).append e2
  have e3 : saxRun .lt c!"/table:table-cell>\n" = (.text ['\n'], [.stop c!"table:table-cell"]) := rfl
  have he := Renders.elem (a0 := List.replicate 5 ' ' ++ a0) ha hin e3
  have hb : Renders c!"     " a0 [] (List.replicate 5 ' ' ++ a0) := saxRun_blank 5 a0
  have := hb.append he
  refine ⟨textNode (List.replicate 5 ' ' ++ a0), .elem c!"table:table-cell" as (([] ++ ns ++ []) ++ textNode c!"     \n"), ?_,
    sel_textNode _ _, ?_, ?_, ?_⟩
  rotate_left 1
  · rw [isTag]; simp only [decide_true]
  · rw [kids, List.nil_append, List.append_nil, sel_append, sel_textNode, List.append_nil, h2]
  · rw [attr]; exact has
  · rw [List.nil_append] at this
    have et : odsCellWith attrs (Str.join paraSep raws) = c!"     " ++ ('<' :: (c!"table:table-cell" ++ attrs ++ c!">") ++
        (c!"\n      " ++ (c!"<text:p>" ++ (Str.join paraSep raws ++ c!"</text:p>")) ++ c!"\n     " ++ '<' :: c!"/table:table-cell>\n")) := by
      unfold odsCellWith
      rw [show c!"     <table:table-cell" = c!"     " ++ '<' :: c!"table:table-cell" from rfl,
        show c!">\n      <text:p>" = c!">" ++ (c!"\n      " ++ c!"<text:p>") from rfl,
        show c!"</text:p>\n     </table:table-cell>\n" = c!"</text:p>" ++ (c!"\n     " ++ '<' :: c!"/table:table-cell>\n") from rfl]
      generalize Str.join paraSep raws = v
      generalize c!"     " = x1
      generalize c!"table:table-cell" = x2
      generalize c!"\n      " = x3
      generalize c!"<text:p>" = x4
      generalize c!"</text:p>" = x5
      generalize c!"\n     " = x6
      generalize c!"/table:table-cell>\n" = x7
      simp only [List.append_assoc, List.cons_append]
    rw [et]
    exact this

/-! ### Rows -/

/-- The lines of a cell. -/
def linesOf (c : XNode) : List Str := (sel c!"text:p" c.kids).map itertext

/-- `s` is the markup of a cell with the given lines. -/
def CellMark (s : Str) (ls : List Str) : Prop :=
  ∀ a0, ∃ pre c, Renders s a0 (pre ++ [c]) ['\n'] ∧ sel c!"table:table-cell" pre = [] ∧ CellNode ls c

theorem renders_cells : ∀ (items : List (Str × List Str)), (∀ p ∈ items, CellMark p.1 p.2) → ∀ a0, ∃ ns a1,
    Renders (items.map (·.1)).flatten a0 ns a1 ∧ (sel c!"table:table-cell" ns).map linesOf = items.map (·.2) ∧
    ∀ c ∈ sel c!"table:table-cell" ns, c.attr c!"table:number-columns-repeated" = none := by
  intro items
  induction items with
  | nil => intro _ a0; exact ⟨[], a0, Renders.nil a0, rfl, by simp [sel]⟩
  | cons p items ih =>
    intro h a0
    obtain ⟨pre, c, h1, h2, h3, h4, h5⟩ := h p (by simp) a0
    obtain ⟨ns, a1, g1, g2, g3⟩ := ih (fun q hq => h q (by simp [hq])) ['\n']
    have hs : sel c!"table:table-cell" (pre ++ [c] ++ ns) = c :: sel c!"table:table-cell" ns := by
      rw [sel_append, sel_append, h2]
      have : sel c!"table:table-cell" [c] = [c] := by simp [sel, h3]
      rw [this]; rfl
    refine ⟨pre ++ [c] ++ ns, a1, by simpa using h1.append g1, ?_, ?_⟩
    · rw [hs, List.map_cons, List.map_cons, g2]; congr 1
    · rw [hs]
      intro d hd
      rcases List.mem_cons.mp hd with rfl | hd
      · exact h5
      · exact g3 d hd

/-- Cells that stand for one column each are read one by one. -/
theorem odsCells_plain (k : Nat) (extra : List XNode) : ∀ (cells : List XNode) (i : Nat), cells ≠ [] → i + cells.length = k →
    (∀ c ∈ cells, linesOf c ≠ [] ∧ c.attr c!"table:number-columns-repeated" = none) →
    odsCells k i (cells ++ extra) = .ok (cells.map (fun c => Str.join c!"\n" (linesOf c))) := by
  intro cells
  induction cells with
  | nil => intro i h; exact absurd rfl h
  | cons c cs ih =>
    intro i _ hk hc
    have h1 := hc c (by simp)
    have ht : odsCellText c = some (Str.join c!"\n" (linesOf c)) := by
      unfold odsCellText linesOf
      cases hs : sel c!"text:p" c.kids with
      | nil => exact absurd (by simp [linesOf, hs]) h1.1
      | cons => rfl
    rw [List.cons_append, odsCells]
    rw [if_neg (by simp [ht]), ht]
    simp only [Option.getD_some]
    cases cs with
    | nil =>
      rw [if_pos (by simp at hk; omega)]; rfl
    | cons c2 cs =>
      rw [if_neg (by simp at hk; omega), h1.2]
      simp only
      rw [ih (i + 1) (by simp) (by simp at hk ⊢; omega) (fun d hd => hc d (by simp [hd]))]
      rfl

/-- `s` is the markup of a row from which a reader gets the given cells. -/
def RowMark (k : Nat) (s : Str) (cells : List Str) : Prop :=
  ∀ a0, ∃ pre row a1, Renders s a0 (pre ++ [row]) a1 ∧ sel c!"table:table-row" pre = [] ∧ row.isTag c!"table:table-row" = true ∧
    odsCells k 0 (sel c!"table:table-cell" row.kids) = .ok cells

/-- A row, with its start tag given by the markup `st` after the character `<` and the number of blanks before it. -/
theorem renders_rowWith {items : List (Str × List Str)} {e st : Str} {as : Dict Str} (ind : Nat)
    (hs : saxRun .lt st = (.text [], [.start c!"table:table-row" as])) (hne : items ≠ []) (h : ∀ p ∈ items, CellMark p.1 p.2 ∧ p.2 ≠ [])
    (he : ∀ a0, ∃ ns a1, Renders e a0 ns a1) :
    RowMark items.length (List.replicate ind ' ' ++ '<' :: (st ++ c!"\n" ++ ((items.map (·.1)).flatten ++ (e ++ '<' :: c!"/table:table-row>\n\n"))))
      (items.map (fun p => Str.join c!"\n" p.2)) := by
  intro a0
  have h0 : Renders c!"\n" [] [] c!"\n" := rfl
  obtain ⟨ns, a1, g1, g2, g3⟩ := renders_cells items (fun p hp => (h p hp).1) c!"\n"
  obtain ⟨ne, a2, f1⟩ := he a1
  have ht : saxRun .lt c!"/table:table-row>\n\n" = (.text c!"\n\n", [.stop c!"table:table-row"]) := rfl
  have hrow := Renders.elem (a0 := List.replicate ind ' ' ++ a0) hs ((h0.append g1).append f1) ht
  have hb : Renders (List.replicate ind ' ') a0 [] (List.replicate ind ' ' ++ a0) := saxRun_blank ind a0
  have := hb.append hrow
  rw [List.nil_append] at this
  refine ⟨textNode (List.replicate ind ' ' ++ a0), .elem c!"table:table-row" as ([] ++ ns ++ ne ++ textNode a2),
    c!"\n\n", ?_, sel_textNode _ _, ?_, ?_⟩
  · have et : List.replicate ind ' ' ++ '<' :: (st ++ c!"\n" ++ ((items.map (·.1)).flatten ++ (e ++ '<' :: c!"/table:table-row>\n\n"))) =
        List.replicate ind ' ' ++ ('<' :: st ++ (c!"\n" ++ (items.map (·.1)).flatten ++ e ++ '<' :: c!"/table:table-row>\n\n")) := by
      generalize c!"/table:table-row>\n\n" = x3
      generalize c!"\n" = x4
      simp only [List.append_assoc, List.cons_append]
    rw [et]
    exact this
  · rw [isTag]; simp only [decide_true]
  · rw [kids]
    have e1 : sel c!"table:table-cell" ([] ++ ns ++ ne ++ textNode a2) = sel c!"table:table-cell" ns ++ sel c!"table:table-cell" (ne ++ textNode a2) := by
      rw [List.nil_append, List.append_assoc, sel_append]
    rw [e1]
    have hlen : (sel c!"table:table-cell" ns).length = items.length := by
      have := congrArg List.length g2; simpa using this
    rw [odsCells_plain items.length]
    · congr 1
      have := congrArg (List.map (fun l => Str.join c!"\n" l)) g2
      simpa [Function.comp_def] using this
    · intro hn; rw [hn] at hlen; exact hne (List.length_eq_zero_iff.mp hlen.symm)
    · rw [hlen]; omega
    · intro c hc
      refine ⟨?_, g3 c hc⟩
      have : linesOf c ∈ (sel c!"table:table-cell" ns).map linesOf := List.mem_map_of_mem hc
      rw [g2] at this
      obtain ⟨p, hp, he⟩ := List.mem_map.mp this
      rw [← he]
      exact (h p hp).2

theorem renders_row {items : List (Str × List Str)} {e : Str} (hne : items ≠ []) (h : ∀ p ∈ items, CellMark p.1 p.2 ∧ p.2 ≠ [])
    (he : ∀ a0, ∃ ns a1, Renders e a0 ns a1) :
    RowMark items.length (odsRowStart ++ ((items.map (·.1)).flatten ++ (e ++ '<' :: c!"/table:table-row>\n\n")))
      (items.map (fun p => Str.join c!"\n" p.2)) :=
  renders_rowWith (st := c!"table:table-row table:style-name=\"ro2\">") (as := [(c!"table:style-name", c!"ro2")]) 3 rfl hne h he

/-! ### Documents -/

theorem odsRows_append {k : Nat} : ∀ {a b : List XNode} {x y : List (List Str)}, odsRows k a = .ok x → odsRows k b = .ok y →
    odsRows k (a ++ b) = .ok (x ++ y) := by
  intro a
  induction a with
  | nil => intro b x y h1 h2; injection h1 with h1; subst h1; exact h2
  | cons r a ih =>
    intro b x y h1 h2
    unfold odsRows at h1
    obtain ⟨cells, hc, h1⟩ := bind_ok h1
    obtain ⟨rest, hr, h1⟩ := bind_ok h1
    injection h1 with h1
    rw [List.cons_append, odsRows, hc]
    simp only [Bind.bind, Except.bind]
    rw [ih hr h2, ← h1]
    simp only
    by_cases hcell : cells = []
    · rw [if_pos hcell, if_pos hcell]
    · rw [if_neg hcell, if_neg hcell]; rfl

theorem renders_rows {k : Nat} : ∀ (rows : List (Str × List Str)), (∀ p ∈ rows, RowMark k p.1 p.2 ∧ p.2 ≠ []) → ∀ a0, ∃ ns a1,
    Renders (rows.map (·.1)).flatten a0 ns a1 ∧ odsRows k (sel c!"table:table-row" ns) = .ok (rows.map (·.2)) := by
  intro rows
  induction rows with
  | nil => intro _ a0; exact ⟨[], a0, Renders.nil a0, rfl⟩
  | cons p rows ih =>
    intro h a0
    obtain ⟨pre, row, a1, h1, h2, h3, h4⟩ := (h p (by simp)).1 a0
    obtain ⟨ns, a2, g1, g2⟩ := ih (fun q hq => h q (by simp [hq])) a1
    refine ⟨pre ++ [row] ++ ns, a2, by simpa using h1.append g1, ?_⟩
    rw [sel_append, sel_append, h2]
    have : sel c!"table:table-row" [row] = [row] := by simp [sel, h3]
    rw [this]
    apply odsRows_append (x := [p.2]) _ g2
    simp only [List.nil_append, odsRows, h4, Bind.bind, Except.bind, if_neg (h p (by simp)).2]

/-- Whether there is no such element. -/
def noTag (t : Str) (ks : List XNode) : Bool := (sel t ks).isEmpty

/-- What the text before the rows must be: the beginning of a document with the table still open and the given rows complete. -/
def headOk (h : Str) (k : Nat) (rows0 : List (List Str)) : Bool :=
  decide ('\r' ∉ h) &&
  match saxRun (.text []) h with
  | (.text _, es) =>
    match XBld.run {} es with
    | some ⟨[f1, f2, f3, f4], none⟩ =>
      f1.tag == c!"table:table" && f2.tag == c!"office:spreadsheet" && noTag c!"table:table" f2.kids && f3.tag == c!"office:body" &&
      noTag c!"office:spreadsheet" f3.kids && noTag c!"office:body" f4.kids && f4.tag == c!"office:document-content" &&
      (match odsRows k (sel c!"table:table-row" f1.kids.reverse) with
      | .ok l => l == rows0
      | _ => false)
    | _ => false
  | _ => false

theorem find_skip {t : Str} {a b : List XNode} (h : sel t a = []) : find t (a ++ b) = find t b := by
  unfold find sel at *
  rw [List.find?_append]
  have : List.find? (isTag t) a = none := by
    rw [List.find?_eq_none]
    intro x hx hb
    have : x ∈ a.filter (isTag t) := List.mem_filter.mpr ⟨hx, hb⟩
    rw [h] at this
    cases this
  rw [this]; rfl

theorem sel_reverse (t : Str) (a : List XNode) : sel t a.reverse = (sel t a).reverse := by
  unfold sel; rw [List.filter_reverse]

set_option maxRecDepth 4000 in
theorem sax_footer (a : Str) : saxRun (.text a) odsFooter = (.text ['\n'],
    [.chars (a.reverse ++ c!"   "), .stop c!"table:table", .chars c!"\n  ", .stop c!"office:spreadsheet", .chars c!"\n ",
     .stop c!"office:body", .chars c!"\n", .stop c!"office:document-content"]) := by
  have hb := saxRun_blank 3 a
  have e : odsFooter = List.replicate 3 ' ' ++ ('<' :: c!"/table:table>\n  </office:spreadsheet>\n </office:body>\n</office:document-content>\n") := rfl
  have h2 : saxRun .lt c!"/table:table>\n  </office:spreadsheet>\n </office:body>\n</office:document-content>\n" = (.text ['\n'],
    [.stop c!"table:table", .chars c!"\n  ", .stop c!"office:spreadsheet", .chars c!"\n ",
     .stop c!"office:body", .chars c!"\n", .stop c!"office:document-content"]) := rfl
  have h3 : saxRun (.text (List.replicate 3 ' ' ++ a)) ('<' :: c!"/table:table>\n  </office:spreadsheet>\n </office:body>\n</office:document-content>\n") =
      (.text ['\n'], saxPend (List.replicate 3 ' ' ++ a) ++ [.stop c!"table:table", .chars c!"\n  ", .stop c!"office:spreadsheet", .chars c!"\n ",
     .stop c!"office:body", .chars c!"\n", .stop c!"office:document-content"]) := by rw [saxRun_lt, h2]
  rw [e, saxRun_comp hb h3]
  have : saxPend (List.replicate 3 ' ' ++ a) = [.chars (a.reverse ++ c!"   ")] := by
    unfold saxPend
    rw [if_neg (by simp)]
    simp [List.replicate]
  rw [this]; rfl

/-- A document made of such a header, rows and the footer is well-formed, and a reader gets the titles and the rows. -/
theorem sheet_reads {h : Str} {k : Nat} {rows0 : List (List Str)} (hh : headOk h k rows0 = true) {rows : List (Str × List Str)}
    (hr : ∀ p ∈ rows, RowMark k p.1 p.2 ∧ p.2 ≠ []) (hcr : ∀ p ∈ rows, '\r' ∉ p.1) :
    ∃ root, parseDoc (h ++ ((rows.map (·.1)).flatten ++ odsFooter)) = some root ∧ getRows k root = .ok (rows0 ++ rows.map (·.2)) := by
  unfold headOk at hh
  rw [Bool.and_eq_true] at hh
  obtain ⟨hh0, hh⟩ := hh
  rcases hx : saxRun (.text []) h with ⟨st, es⟩
  rw [hx] at hh
  cases st <;> try (exact absurd hh Bool.false_ne_true)
  rename_i acc
  simp only at hh
  rcases hb : XBld.run {} es with _ | ⟨fs, r⟩
  · rw [hb] at hh; exact absurd hh Bool.false_ne_true
  rw [hb] at hh
  rcases fs with _ | ⟨f1, _ | ⟨f2, _ | ⟨f3, _ | ⟨f4, _ | ⟨f5, fs⟩⟩⟩⟩⟩ <;> try (exact absurd hh Bool.false_ne_true)
  cases r with
  | some r => exact absurd hh Bool.false_ne_true
  | none =>
  simp only [Bool.and_eq_true, beq_iff_eq, noTag, List.isEmpty_iff] at hh
  obtain ⟨⟨⟨⟨⟨⟨⟨t1, t2⟩, n2⟩, t3⟩, n3⟩, n4⟩, t4⟩, hrow⟩ := hh
  have hrow' : odsRows k (sel c!"table:table-row" f1.kids.reverse) = .ok rows0 := by
    cases ho : odsRows k (sel c!"table:table-row" f1.kids.reverse) with
    | error e => rw [ho] at hrow; exact absurd hrow Bool.false_ne_true
    | ok l =>
      rw [ho] at hrow
      simp only [beq_iff_eq] at hrow
      rw [hrow]
  obtain ⟨ns, a1, hR, hO⟩ := renders_rows rows hr acc
  have hrun := saxRun_comp hx (saxRun_comp hR (sax_footer a1))
  have hcr' : '\r' ∉ h ++ ((rows.map (·.1)).flatten ++ odsFooter) := by
    intro hm
    rcases List.mem_append.mp hm with hm | hm
    · exact (of_decide_eq_true hh0) hm
    · rcases List.mem_append.mp hm with hm | hm
      · obtain ⟨s, hs, hc⟩ := List.mem_flatten.mp hm
        obtain ⟨p, hp, rfl⟩ := List.mem_map.mp hs
        exact hcr p hp hc
      · revert hm; decide
  have hev : saxEvents (h ++ ((rows.map (·.1)).flatten ++ odsFooter)) = some (es ++ (nodesEvs ns ++
      [.chars (a1.reverse ++ c!"   "), .stop c!"table:table", .chars c!"\n  ", .stop c!"office:spreadsheet", .chars c!"\n ",
       .stop c!"office:body", .chars c!"\n", .stop c!"office:document-content", .chars c!"\n"])) := by
    unfold saxEvents
    rw [normEol_eq hcr', hrun]
    simp [saxPend]
  obtain ⟨g1, as1, ks1⟩ := f1
  obtain ⟨g2, as2, ks2⟩ := f2
  obtain ⟨g3, as3, ks3⟩ := f3
  obtain ⟨g4, as4, ks4⟩ := f4
  simp only at t1 t2 t3 t4 n2 n3 n4 hrow'
  subst t1 t2 t3 t4
  have hfin : XBld.run {} (es ++ (nodesEvs ns ++
      [.chars (a1.reverse ++ c!"   "), .stop c!"table:table", .chars c!"\n  ", .stop c!"office:spreadsheet", .chars c!"\n ",
       .stop c!"office:body", .chars c!"\n", .stop c!"office:document-content", .chars c!"\n"])) =
      some ⟨[], some (.elem c!"office:document-content" as4 (.text c!"\n" :: .elem c!"office:body" as3 (.text c!"\n " ::
        .elem c!"office:spreadsheet" as2 (.text c!"\n  " :: .elem c!"table:table" as1 (.text (a1.reverse ++ c!"   ") ::
          (ns.reverse ++ ks1)).reverse :: ks2).reverse :: ks3).reverse :: ks4).reverse)⟩ := by
    rw [XBld_run_append, hb, Option.bind_some, run_nodes]
    rfl
  refine ⟨.elem c!"office:document-content" as4 (.text c!"\n" :: .elem c!"office:body" as3 (.text c!"\n " ::
        .elem c!"office:spreadsheet" as2 (.text c!"\n  " :: .elem c!"table:table" as1 (.text (a1.reverse ++ c!"   ") ::
          (ns.reverse ++ ks1)).reverse :: ks2).reverse :: ks3).reverse :: ks4).reverse, ?_, ?_⟩
  · unfold parseDoc
    rw [hev, Option.bind_some, hfin]
  · have f1 : find c!"office:body" (XNode.elem c!"office:document-content" as4 (.text c!"\n" :: .elem c!"office:body" as3 (.text c!"\n " ::
        .elem c!"office:spreadsheet" as2 (.text c!"\n  " :: .elem c!"table:table" as1 (.text (a1.reverse ++ c!"   ") ::
          (ns.reverse ++ ks1)).reverse :: ks2).reverse :: ks3).reverse :: ks4).reverse).kids = some (.elem c!"office:body" as3 (.text c!"\n " ::
        .elem c!"office:spreadsheet" as2 (.text c!"\n  " :: .elem c!"table:table" as1 (.text (a1.reverse ++ c!"   ") ::
          (ns.reverse ++ ks1)).reverse :: ks2).reverse :: ks3).reverse) := by
      rw [kids, List.reverse_cons, List.reverse_cons, List.append_assoc, find_skip (by rw [sel_reverse, n4]; rfl)]
      rfl
    have f2 : find c!"office:spreadsheet" (XNode.elem c!"office:body" as3 (.text c!"\n " ::
        .elem c!"office:spreadsheet" as2 (.text c!"\n  " :: .elem c!"table:table" as1 (.text (a1.reverse ++ c!"   ") ::
          (ns.reverse ++ ks1)).reverse :: ks2).reverse :: ks3).reverse).kids = some (.elem c!"office:spreadsheet" as2 (.text c!"\n  " :: .elem c!"table:table" as1 (.text (a1.reverse ++ c!"   ") ::
          (ns.reverse ++ ks1)).reverse :: ks2).reverse) := by
      rw [kids, List.reverse_cons, List.reverse_cons, List.append_assoc, find_skip (by rw [sel_reverse, n3]; rfl)]
      rfl
    have f3 : find c!"table:table" (XNode.elem c!"office:spreadsheet" as2 (.text c!"\n  " :: .elem c!"table:table" as1 (.text (a1.reverse ++ c!"   ") ::
          (ns.reverse ++ ks1)).reverse :: ks2).reverse).kids = some (.elem c!"table:table" as1 (.text (a1.reverse ++ c!"   ") ::
          (ns.reverse ++ ks1)).reverse) := by
      rw [kids, List.reverse_cons, List.reverse_cons, List.append_assoc, find_skip (by rw [sel_reverse, n2]; rfl)]
      rfl
    unfold getRows findOr
    rw [f1]
    simp only [Bind.bind, Except.bind]
    rw [f2]
    simp only
    rw [f3]
    simp only
    rw [kids, List.reverse_cons, List.reverse_append, List.reverse_reverse, sel_append, sel_append]
    have := odsRows_append hrow' hO
    have e : sel c!"table:table-row" [XNode.text (a1.reverse ++ c!"   ")] = [] := rfl
    rw [e, List.append_nil]
    exact this

end Verif
