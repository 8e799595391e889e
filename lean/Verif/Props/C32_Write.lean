/-
C32, writing: the spreadsheets PyWriter writes are well-formed, every row has as many cells as the header row, and a reader gets the
texts back.
-/
import Verif.Lemmas.Ods
import Verif.Props.C32_Read

namespace Verif
open XNode Spec Template

/-! ### Empty templates -/

theorem subst_empty (m : Mapping) : Template.subst [] m = [] := rfl

theorem elementLines_empty {f : Str → Except Exc Mapping} : ∀ {ids : List Str} {l : List Str}, elementLines [] f ids = .ok l → l.flatten = [] := by
  intro ids
  induction ids with
  | nil => intro l h; injection h with h; subst h; rfl
  | cons id ids ih =>
    intro l h
    unfold elementLines at h
    obtain ⟨m, _, h⟩ := bind_ok h
    obtain ⟨r, hr, h⟩ := bind_ok h
    injection h with h
    subst h
    rw [List.flatten_cons, ih hr]; rfl

/-- No template for chapters and scenes. -/
structure NoChapters (x : Templates) : Prop where
  part : x.part = []
  chapter : x.chapter = []
  notesPart : x.notesPart = []
  todoPart : x.todoPart = []
  notesChapter : x.notesChapter = []
  todoChapter : x.todoChapter = []
  unusedChapter : x.unusedChapter = []
  notExportedChapter : x.notExportedChapter = []
  scene : x.scene = []
  firstScene : x.firstScene = []
  appendedScene : x.appendedScene = []
  notesScene : x.notesScene = []
  todoScene : x.todoScene = []
  unusedScene : x.unusedScene = []
  notExportedScene : x.notExportedScene = []
  sceneDivider : x.sceneDivider = []
  chapterEnd : x.chapterEnd = []
  unusedChapterEnd : x.unusedChapterEnd = []
  notExportedChapterEnd : x.notExportedChapterEnd = []
  notesChapterEnd : x.notesChapterEnd = []
  todoChapterEnd : x.todoChapterEnd = []

theorem sceneTemplate_empty {x : Templates} (h : NoChapters x) {ty : Option Nat} {b f : Bool} {s : Scene} {t : Str} {c : Bool}
    (ht : sceneTemplate x ty b f s = some (t, c)) : t = [] := by
  unfold sceneTemplate at ht
  simp only [h.todoScene, h.notesScene, h.unusedScene, h.notExportedScene, h.appendedScene, h.scene] at ht
  repeat' split at ht
  all_goals first | contradiction | (injection ht with ht; injection ht with ht _; exact ht.symm)

theorem scenesLoop_empty {x : Exporter} (h : NoChapters x.toTemplates) {n : Novel} {ty : Option Nat} {b : Bool} :
    ∀ (ids : List Str) (f : Bool) (k : Counters) (r : List Str × Counters), scenesLoop x n ty b f k ids = .ok r → r.1.flatten = [] := by
  intro ids
  induction ids with
  | nil => intro f k r hr; injection hr with hr; subst hr; rfl
  | cons id ids ih =>
    intro f k r hr
    unfold scenesLoop at hr
    obtain ⟨s, _, hr⟩ := bind_ok hr
    split at hr
    · exact ih _ _ _ hr
    · rename_i t c hst
      have ht := sceneTemplate_empty h hst
      obtain ⟨m, _, hr⟩ := bind_ok hr
      obtain ⟨rest, hrest, hr⟩ := bind_ok hr
      injection hr with hr
      subst hr
      simp only [h.firstScene, h.sceneDivider, ht]
      have := ih _ _ _ hrest
      split <;> simp [this, subst_empty]

theorem chapterTemplate_empty {x : Templates} (h : NoChapters x) (ch : Chapter) (b : Bool) :
    (∀ t, (chapterTemplate x ch b).1 = some t → t = []) ∧ ∀ t, chapterEndTemplate x ch b = some t → t = [] := by
  constructor
  · intro t ht
    unfold chapterTemplate at ht
    simp only [h.part, h.chapter, h.notesPart, h.todoPart, h.notesChapter, h.todoChapter, h.unusedChapter, h.notExportedChapter] at ht
    repeat' split at ht
    all_goals first | contradiction | (simp at ht; done) | (simp at ht; exact ht) | (simp at ht; exact ht.symm)
  · intro t ht
    unfold chapterEndTemplate at ht
    simp only [h.chapterEnd, h.unusedChapterEnd, h.notExportedChapterEnd, h.notesChapterEnd, h.todoChapterEnd] at ht
    repeat' split at ht
    all_goals first | contradiction

theorem chapterLine_empty {x : Exporter} {n : Novel} {id : Str} {k : Nat} {t : Option Str} {l : List Str} (ht : ∀ s, t = some s → s = [])
    (h : chapterLine x n id k t = .ok l) : l.flatten = [] := by
  cases t with
  | none => injection h with h; subst h; rfl
  | some s =>
    obtain ⟨m, _, h⟩ := bind_ok h
    injection h with h
    subst h
    rw [ht s rfl]; rfl

theorem chaptersLoop_empty {x : Exporter} (h : NoChapters x.toTemplates) {n : Novel} : ∀ (ids : List Str) (c : Nat) (k : Counters) (r : List Str),
    chaptersLoop x n c k ids = .ok r → r.flatten = [] := by
  intro ids
  induction ids with
  | nil => intro c k r hr; injection hr with hr; subst hr; rfl
  | cons id ids ih =>
    intro c k r hr
    unfold chaptersLoop at hr
    obtain ⟨ch, _, hr⟩ := bind_ok hr
    obtain ⟨ne, _, hr⟩ := bind_ok hr
    obtain ⟨head, hh, hr⟩ := bind_ok hr
    obtain ⟨sc, hs, hr⟩ := bind_ok hr
    obtain ⟨tail, ht, hr⟩ := bind_ok hr
    obtain ⟨rest, hrest, hr⟩ := bind_ok hr
    injection hr with hr
    subst hr
    have e := chapterTemplate_empty h ch ne
    simp only [List.flatten_append, chapterLine_empty e.1 hh, chapterLine_empty e.2 ht, scenesLoop_empty h _ _ _ _ hs, ih _ _ _ hrest,
      List.append_nil]

/-! ### Texts -/

theorem join_nl (t : Str) : Str.join c!"\n" (Str.split t c!"\n") = t := Str.join_split _ (by simp) t

theorem carriable_rstrip {t : Str} (h : Carriable t) : Carriable (Str.rstrip t) := by
  intro c hc
  obtain ⟨u, hu, _⟩ := Str.rstripBy_prefix Str.isWs t
  exact h c (by rw [hu]; exact List.mem_append_left _ hc)

theorem zip_map_mem {α β γ : Type} (f : α → β) (g : α → γ) (l : List α) {p : β × γ} (h : p ∈ (l.map f).zip (l.map g)) : ∃ a ∈ l, p = (f a, g a) := by
  induction l with
  | nil => cases h
  | cons a l ih =>
    simp only [List.map_cons, List.zip_cons_cons, List.mem_cons] at h
    rcases h with rfl | h
    · exact ⟨a, by simp, rfl⟩
    · obtain ⟨b, hb, e⟩ := ih h
      exact ⟨b, by simp [hb], e⟩

/-- Converted text is the markup of its lines. -/
theorem cellLines_conv {t : Option Str} (h : CarriableO t) : CellLines (odsConvert t) (Str.split (shown t) c!"\n") := by
  cases t with
  | none => exact ⟨[[]], by simp, rfl, rfl, by
      intro p hp
      have : p = ([], []) := by simpa [shown, Str.split_nil] using hp
      subst this
      intro acc; rfl⟩
  | some t =>
    have hc := carriable_rstrip h
    refine ⟨(Str.split (Str.rstrip t) c!"\n").map (fun l => l.flatMap escChar), ?_, ?_, ?_, ?_⟩
    · simpa using Str.split_ne_nil _ _
    · rw [odsConvert_eq, flatMap_lines]; rfl
    · simp [shown]
    · intro p hp
      have : p ∈ ((Str.split (Str.rstrip t) c!"\n").map (fun l => l.flatMap escChar)).zip ((Str.split (Str.rstrip t) c!"\n").map id) := by
        simpa [shown] using hp
      obtain ⟨l, hl, rfl⟩ := zip_map_mem _ _ _ this
      intro acc
      apply saxRun_esc
      intro c hcl
      apply hc c
      exact (mem_of_mem_split hl hcl).1

/-- Plain text is its own markup. -/
theorem cellLines_plain {v : Str} (h : v.all plainChar = true) : CellLines v [v] := by
  refine ⟨[v], by simp, rfl, rfl, ?_⟩
  intro p hp
  have : p = (v, v) := by simpa using hp
  subst this
  intro acc
  exact saxRun_plain h acc

theorem cellMark_text {v : Str} {ls : List Str} (h : CellLines v ls) : CellMark (odsCell v) ls := by
  intro a0
  exact renders_cell (attrs := c!" office:value-type=\"string\"") (as := [(c!"office:value-type", c!"string")]) rfl rfl h a0

/-! ### Row templates -/

theorem subst_cellWith {attrs lit name v : Str} {m : Mapping} (ha : '$' ∉ attrs) (hl : '$' ∉ lit) (hn : IsIdent name = true)
    (hm : m.get? name = some v) (rest : Str) :
    Template.subst (odsCellWith attrs (lit ++ '$' :: name) ++ rest) m = odsCellWith attrs (lit ++ v) ++ Template.subst rest m := by
  unfold odsCellWith
  have e1 : c!"     <table:table-cell" ++ attrs ++ c!">\n      <text:p>" ++ (lit ++ '$' :: name) ++ c!"</text:p>\n     </table:table-cell>\n" ++ rest =
      (c!"     <table:table-cell" ++ attrs ++ c!">\n      <text:p>" ++ lit) ++ ('$' :: (name ++ (c!"</text:p>\n     </table:table-cell>\n" ++ rest))) := by
    generalize c!"     <table:table-cell" = x1
    generalize c!">\n      <text:p>" = x2
    generalize c!"</text:p>\n     </table:table-cell>\n" = x3
    simp only [List.append_assoc, List.cons_append]
  have hd : '$' ∉ c!"     <table:table-cell" ++ attrs ++ c!">\n      <text:p>" ++ lit := by
    intro h
    rcases List.mem_append.mp h with h | h
    · rcases List.mem_append.mp h with h | h
      · rcases List.mem_append.mp h with h | h
        · revert h; decide
        · exact ha h
      · revert h; decide
    · exact hl h
  rw [e1, Template.subst_lit hd, Template.subst_var hn (by intro c hc; injection hc with hc; subst hc; decide) hm,
    Template.subst_lit (by decide)]
  generalize c!"     <table:table-cell" = x1
  generalize c!">\n      <text:p>" = x2
  generalize c!"</text:p>\n     </table:table-cell>\n" = x3
  simp only [List.append_assoc]

/-- A cell of a row template: constant text and the name of a placeholder. -/
abbrev Field := Str × Str

theorem subst_cells {m : Mapping} {vals : List (Field × Str)}
    (h : ∀ p ∈ vals, '$' ∉ p.1.1 ∧ IsIdent p.1.2 = true ∧ m.get? p.1.2 = some p.2) (rest : Str) :
    Template.subst ((vals.map (fun p => p.1.1 ++ '$' :: p.1.2)).flatMap odsCell ++ rest) m =
      ((vals.map (fun p => odsCell (p.1.1 ++ p.2))).flatten) ++ Template.subst rest m := by
  induction vals with
  | nil => rfl
  | cons p vals ih =>
    obtain ⟨h1, h2, h3⟩ := h p (by simp)
    rw [List.map_cons, List.flatMap_cons, List.append_assoc]
    rw [show odsCell (p.1.1 ++ '$' :: p.1.2) = odsCellWith c!" office:value-type=\"string\"" (p.1.1 ++ '$' :: p.1.2) from rfl,
      subst_cellWith (by decide) h1 h2 h3, ih (fun q hq => h q (by simp [hq]))]
    rw [List.map_cons, List.flatten_cons, List.append_assoc]; rfl

/-- The end of the rows of the short lists. -/
theorem rowEnd_renders (a0 : Str) : ∃ ns a1, Renders
    c!"     <table:table-cell table:number-columns-repeated=\"1014\"/>\n    " a0 ns a1 := by
  have hb : Renders c!"     " a0 [] (List.replicate 5 ' ' ++ a0) := saxRun_blank 5 a0
  have h : saxRun .lt c!"table:table-cell table:number-columns-repeated=\"1014\"/>\n    " =
      (.text c!"    \n", [.start c!"table:table-cell" [(c!"table:number-columns-repeated", c!"1014")], .stop c!"table:table-cell"]) := rfl
  exact ⟨_, _, hb.append (Renders.empty (a0 := List.replicate 5 ' ' ++ a0) h)⟩

/-- A row of one of the short lists. -/
theorem shortRow {m : Mapping} {vals : List (Field × Str × List Str)} (hne : vals ≠ [])
    (h : ∀ p ∈ vals, '$' ∉ p.1.1 ∧ IsIdent p.1.2 = true ∧ m.get? p.1.2 = some p.2.1 ∧ CellLines (p.1.1 ++ p.2.1) p.2.2 ∧ p.2.2 ≠ []) :
    RowMark vals.length (Template.subst (odsRowStart ++ (vals.map (fun p => p.1.1 ++ '$' :: p.1.2)).flatMap odsCell ++ odsRowEnd) m)
      (vals.map (fun p => Str.join c!"\n" p.2.2)) := by
  have e : odsRowEnd = c!"     <table:table-cell table:number-columns-repeated=\"1014\"/>\n    " ++ '<' :: c!"/table:table-row>\n\n" := rfl
  have hs : Template.subst (odsRowStart ++ (vals.map (fun p => p.1.1 ++ '$' :: p.1.2)).flatMap odsCell ++ odsRowEnd) m =
      odsRowStart ++ (((vals.map (fun p => (odsCell (p.1.1 ++ p.2.1), p.2.2))).map (·.1)).flatten ++
        (c!"     <table:table-cell table:number-columns-repeated=\"1014\"/>\n    " ++ '<' :: c!"/table:table-row>\n\n")) := by
    rw [List.append_assoc, Template.subst_lit (by decide)]
    have := subst_cells (m := m) (vals := vals.map (fun p => (p.1, p.2.1))) (by
      intro q hq
      obtain ⟨p, hp, rfl⟩ := List.mem_map.mp hq
      obtain ⟨h1, h2, h3, _⟩ := h p hp
      exact ⟨h1, h2, h3⟩) odsRowEnd
    simp only [List.map_map, Function.comp_def] at this ⊢
    rw [this, Template.subst_lit' (by decide), e]
  rw [hs]
  have := renders_row (items := vals.map (fun p => (odsCell (p.1.1 ++ p.2.1), p.2.2))) (by simpa using hne) (by
    intro q hq
    obtain ⟨p, hp, rfl⟩ := List.mem_map.mp hq
    obtain ⟨_, _, _, h4, h5⟩ := h p hp
    exact ⟨cellMark_text h4, h5⟩) rowEnd_renders
  simpa [Function.comp_def] using this

theorem plain_all {t : Str} (h : Plain t) : t.all plainChar = true := by
  rw [List.all_eq_true]
  intro c hc
  obtain ⟨h1, h2, h3, h4, h5⟩ := h c hc
  simp [plainChar, h1, h2, h3, h4, h5]

/-! ### Carriage returns -/

theorem noCR_escChar {c : Char} (h : c ≠ '\r') : '\r' ∉ escChar c := by
  unfold escChar
  repeat' split
  all_goals first | decide | (intro hh; simp at hh; exact h hh.symm)

theorem noCR_conv {t : Option Str} (h : CarriableO t) : '\r' ∉ odsConvert t := by
  cases t with
  | none => simp [odsConvert]
  | some t =>
    rw [odsConvert_eq]
    intro hm
    obtain ⟨c, hc, hm⟩ := List.mem_flatMap.mp hm
    split at hm
    · revert hm; decide
    · exact noCR_escChar (carriable_rstrip h c hc).2 hm

theorem noCR_cell {v : Str} (h : '\r' ∉ v) : '\r' ∉ odsCell v := by
  intro hm
  unfold odsCell odsCellWith at hm
  rcases List.mem_append.mp hm with hm | hm
  · rcases List.mem_append.mp hm with hm | hm
    · rcases List.mem_append.mp hm with hm | hm
      · revert hm; decide
      · revert hm; decide
    · exact h hm
  · revert hm; decide

theorem shortRow_noCR {m : Mapping} {vals : List (Field × Str)}
    (h : ∀ p ∈ vals, '$' ∉ p.1.1 ∧ IsIdent p.1.2 = true ∧ m.get? p.1.2 = some p.2) (hc : ∀ p ∈ vals, '\r' ∉ p.1.1 ++ p.2) :
    '\r' ∉ Template.subst (odsRowStart ++ (vals.map (fun p => p.1.1 ++ '$' :: p.1.2)).flatMap odsCell ++ odsRowEnd) m := by
  rw [List.append_assoc, Template.subst_lit (by decide), subst_cells h, Template.subst_lit' (by decide)]
  intro hm
  rcases List.mem_append.mp hm with hm | hm
  · revert hm; decide
  · rcases List.mem_append.mp hm with hm | hm
    · obtain ⟨s, hs, hx⟩ := List.mem_flatten.mp hm
      obtain ⟨p, hp, rfl⟩ := List.mem_map.mp hs
      exact noCR_cell (hc p hp) hx
    · revert hm; decide

/-! ### Documents -/

theorem elementLines_rows {k : Nat} {t : Str} {f : Str → Except Exc Mapping} {g : Str → List Str} : ∀ {ids l : List Str},
    (∀ id ∈ ids, ∀ m, f id = .ok m → RowMark k (Template.subst t m) (g id) ∧ g id ≠ [] ∧ '\r' ∉ Template.subst t m) →
    elementLines t f ids = .ok l → ∃ rows : List (Str × List Str), rows.map (·.1) = l ∧ rows.map (·.2) = ids.map g ∧
      ∀ p ∈ rows, (RowMark k p.1 p.2 ∧ p.2 ≠ []) ∧ '\r' ∉ p.1 := by
  intro ids
  induction ids with
  | nil => intro l _ h; injection h with h; subst h; exact ⟨[], rfl, rfl, by simp⟩
  | cons id ids ih =>
    intro l hf h
    unfold elementLines at h
    obtain ⟨m, hm, h⟩ := bind_ok h
    obtain ⟨rest, hr, h⟩ := bind_ok h
    injection h with h
    subst h
    obtain ⟨rows, h1, h2, h3⟩ := ih (fun i hi => hf i (by simp [hi])) hr
    obtain ⟨g1, g2, g3⟩ := hf id (by simp) m hm
    refine ⟨(Template.subst t m, g id) :: rows, by simp [h1], by simp [h2], ?_⟩
    intro p hp
    rcases List.mem_cons.mp hp with rfl | hp
    · exact ⟨⟨g1, g2⟩, g3⟩
    · exact h3 p hp

theorem elementLines_mem {t : Str} {f : Str → Except Exc Mapping} : ∀ {ids l : List Str}, elementLines t f ids = .ok l →
    ∀ id ∈ ids, ∃ m, f id = .ok m := by
  intro ids
  induction ids with
  | nil => intro l _ id hid; cases hid
  | cons i ids ih =>
    intro l h id hid
    unfold elementLines at h
    obtain ⟨m, hm, h⟩ := bind_ok h
    obtain ⟨rest, hr, h⟩ := bind_ok h
    rcases List.mem_cons.mp hid with rfl | hid
    · exact ⟨m, hm⟩
    · exact ih hr id hid

theorem list_length_of_headOk {h : Str} {k : Nat} {titles : List Str} (_ : headOk h k [titles] = true) (hk : titles.length = k)
    {root : XNode} {rows : List (List Str)} (hl : ∀ r ∈ rows, r.length = k) (hr : getRows k root = .ok (titles :: rows)) :
    readTable k root = .ok (titles :: rows) := by
  unfold readTable
  rw [hr]
  simp only [Bind.bind, Except.bind]
  rw [if_pos]
  simp only [List.all_cons, hk, decide_true, Bool.true_and, List.all_eq_true]
  intro r hrr
  simp [hl r hrr]

set_option maxRecDepth 100000 in
theorem charHead_ok : headOk charListHeader 10 [charTitles] = true := by decide +kernel

set_option maxRecDepth 100000 in
theorem charHead_lit : '$' ∉ charListHeader := by decide +kernel

set_option maxRecDepth 100000 in
theorem locHead_ok : headOk (worldListHeader c!"Location list") 5 [worldTitles] = true := by decide +kernel

set_option maxRecDepth 100000 in
theorem locHead_lit : '$' ∉ worldListHeader c!"Location list" := by decide +kernel

set_option maxRecDepth 100000 in
theorem itemHead_ok : headOk (worldListHeader c!"Item list") 5 [worldTitles] = true := by decide +kernel

set_option maxRecDepth 100000 in
theorem itemHead_lit : '$' ∉ worldListHeader c!"Item list" := by decide +kernel

theorem carriable_join {sep : Str} (hs : Carriable sep) : ∀ {l : List Str}, (∀ t ∈ l, Carriable t) → Carriable (Str.join sep l) := by
  intro l
  induction l with
  | nil => intro _ c hc; cases hc
  | cons a l ih =>
    intro h
    cases l with
    | nil => simpa [Str.join] using h a (by simp)
    | cons b l =>
      intro c hc
      have e : Str.join sep (a :: b :: l) = a ++ sep ++ Str.join sep (b :: l) := rfl
      rw [e] at hc
      rcases List.mem_append.mp hc with hc | hc
      · rcases List.mem_append.mp hc with hc | hc
        · exact h a (by simp) c hc
        · exact hs c hc
      · exact ih (fun t ht => h t (by simp [ht])) c hc

theorem carriable_tags {tags : Option (List Str)} (h : ∀ t ∈ tags.getD [], Carriable t) : Carriable (tagString tags) := by
  cases tags with
  | none => intro c hc; cases hc
  | some l => exact carriable_join (by intro c hc; revert c; decide) h

theorem shown_tags (tags : Option (List Str)) : shown (some (tagString tags)) = shownTags tags := by
  cases tags <;> rfl

/-- The cell of a converted text. -/
theorem convCell {t : Option Str} (h : CarriableO t) : CellLines ([] ++ odsConvert t) (Str.split (shown t) c!"\n") ∧
    Str.split (shown t) c!"\n" ≠ [] := ⟨cellLines_conv h, Str.split_ne_nil _ _⟩

theorem idCell {mark id : Str} (hm : mark.all plainChar = true) (h : Plain id) : CellLines (mark ++ id) [mark ++ id] ∧ [mark ++ id] ≠ [] :=
  ⟨cellLines_plain (by rw [List.all_append, hm, plain_all h]; rfl), by simp⟩

/-- A row of the character list. -/
theorem charRow {e : DocEnv} {n : Novel} {id : Str} {c : Character} {m : Mapping} (hc : n.characters.get? id = some c) (hid : Plain id)
    (hx : CharCarriable c) (hm : e.odsBase.character n id = .ok m) :
    RowMark 10 (Template.subst charListRow m) (charCells id c) ∧ '\r' ∉ Template.subst charListRow m := by
  unfold Base.character at hm
  rw [Dict.get!_of hc] at hm
  injection hm with hm
  obtain ⟨x1, x2, x3, x4, x5, x6, x7, x8⟩ := hx
  have hst : Plain (if c.isMajor = some true then c!"Major" else c!"Minor") := by split <;> (intro d hd; revert d; decide)
  have xt : CarriableO (some (tagString c.tags)) := carriable_tags x8
  let vals : List (Field × Str × List Str) :=
    [((c!"CrID:", c!"ID"), id, [c!"CrID:" ++ id]), (([], c!"Title"), odsConvert c.title, Str.split (shown c.title) c!"\n"),
     (([], c!"FullName"), odsConvert c.fullName, Str.split (shown c.fullName) c!"\n"), (([], c!"AKA"), odsConvert c.aka, Str.split (shown c.aka) c!"\n"),
     (([], c!"Desc"), odsConvert c.desc, Str.split (shown c.desc) c!"\n"), (([], c!"Bio"), odsConvert c.bio, Str.split (shown c.bio) c!"\n"),
     (([], c!"Goals"), odsConvert c.goals, Str.split (shown c.goals) c!"\n"),
     (([], c!"Status"), if c.isMajor = some true then c!"Major" else c!"Minor", [if c.isMajor = some true then c!"Major" else c!"Minor"]),
     (([], c!"Tags"), odsConvert (some (tagString c.tags)), Str.split (shown (some (tagString c.tags))) c!"\n"),
     (([], c!"Notes"), odsConvert c.notes, Str.split (shown c.notes) c!"\n")]
  have hvals : ∀ p ∈ vals, '$' ∉ p.1.1 ∧ IsIdent p.1.2 = true ∧ m.get? p.1.2 = some p.2.1 ∧ CellLines (p.1.1 ++ p.2.1) p.2.2 ∧ p.2.2 ≠ [] := by
    subst hm
    simp only [vals, List.mem_cons, List.not_mem_nil, or_false, forall_eq_or_imp, forall_eq]
    refine ⟨?_, ?_, ?_, ?_, ?_, ?_, ?_, ?_, ?_, ?_⟩ <;> refine ⟨by decide, by decide, rfl, ?_⟩
    · exact idCell (by decide) hid
    · exact convCell x1
    · exact convCell x2
    · exact convCell x3
    · exact convCell x4
    · exact convCell x5
    · exact convCell x6
    · exact ⟨cellLines_plain (plain_all hst), by simp⟩
    · exact convCell xt
    · exact convCell x7
  have ht : charListRow = odsRowStart ++ (vals.map (fun p => p.1.1 ++ '$' :: p.1.2)).flatMap odsCell ++ odsRowEnd := rfl
  refine ⟨?_, ?_⟩
  · have := shortRow (m := m) (vals := vals) (by simp [vals]) hvals
    rw [← ht] at this
    have e2 : vals.map (fun p => Str.join c!"\n" p.2.2) = charCells id c := by
      simp only [vals, List.map_cons, List.map_nil, join_nl, shown_tags]
      rfl
    rw [e2] at this
    exact this
  · rw [ht]
    have := shortRow_noCR (m := m) (vals := vals.map (fun p => (p.1, p.2.1))) (by
      intro q hq
      obtain ⟨p, hp, rfl⟩ := List.mem_map.mp hq
      obtain ⟨h1, h2, h3, _⟩ := hvals p hp
      exact ⟨h1, h2, h3⟩) (by
      intro q hq
      obtain ⟨p, hp, rfl⟩ := List.mem_map.mp hq
      revert p
      simp only [vals, List.mem_cons, List.not_mem_nil, or_false, forall_eq_or_imp, forall_eq, List.nil_append]
      refine ⟨fun _ => ?_, fun _ => noCR_conv x1, fun _ => noCR_conv x2, fun _ => noCR_conv x3, fun _ => noCR_conv x4, fun _ => noCR_conv x5,
        fun _ => noCR_conv x6, fun _ => ?_, fun _ => noCR_conv xt, fun _ => noCR_conv x7⟩
      · intro hm
        rcases List.mem_append.mp hm with hm | hm
        · revert hm; decide
        · exact (hid _ hm).2.2.2.2 rfl
      · intro hm; exact (hst _ hm).2.2.2.2 rfl)
    simpa [List.map_map, Function.comp_def] using this

/-- C32 for character lists: the document that is written is well-formed, and a reader gets the titles and one row for every character,
with as many cells as the header row and the texts of the character. -/
theorem C32_characters {e : DocEnv} {n : Novel} {text : Str} (hw : getText (odsCharList e) n = .ok text)
    (hid : ∀ id ∈ n.srtCharacters, Plain id) (hx : ∀ id ∈ n.srtCharacters, ∀ c, n.characters.get? id = some c → CharCarriable c) :
    (∀ id ∈ n.srtCharacters, ∃ c, n.characters.get? id = some c) ∧
    ∃ root, parseDoc text = some root ∧ readTable charTitles.length root =
      .ok (charTitles :: n.srtCharacters.map (fun id => charCells id ((n.characters.get? id).getD {}))) := by
  unfold getText at hw
  obtain ⟨header, h1, hw⟩ := bind_ok hw
  obtain ⟨chapters, h2, hw⟩ := bind_ok hw
  obtain ⟨chars, h3, hw⟩ := bind_ok hw
  obtain ⟨locs, h4, hw⟩ := bind_ok hw
  obtain ⟨items, h5, hw⟩ := bind_ok hw
  obtain ⟨notes, h6, hw⟩ := bind_ok hw
  injection hw with hw
  have e2 : chapters.flatten = [] := chaptersLoop_empty (x := odsCharList e) (by constructor <;> rfl) _ _ _ _ h2
  have e4 := elementLines_empty h4
  have e5 := elementLines_empty h5
  have e6 := elementLines_empty h6
  obtain ⟨hm, _, h1⟩ := bind_ok h1
  injection h1 with h1
  have ehead : header.flatten = charListHeader := by
    subst h1
    rw [List.flatten_singleton]
    exact Template.subst_lit' charHead_lit _
  have hget : ∀ id ∈ n.srtCharacters, ∃ c, n.characters.get? id = some c := by
    intro id hid
    obtain ⟨m, hm⟩ := elementLines_mem h3 id hid
    have hm' : e.odsBase.character n id = .ok m := hm
    unfold Base.character at hm'
    obtain ⟨c, hc, _⟩ := bind_ok hm'
    exact ⟨c, Dict.get!_ok hc⟩
  obtain ⟨rows, r1, r2, r3⟩ := elementLines_rows (k := 10) (t := charListRow) (f := e.odsBase.character n)
    (g := fun id => charCells id ((n.characters.get? id).getD {})) (ids := n.srtCharacters) (l := chars) (by
      intro id hi m hm
      obtain ⟨c, hc⟩ := hget id hi
      obtain ⟨g1, g2⟩ := charRow hc (hid id hi) (hx id hi c hc) hm
      simp only [hc, Option.getD_some]
      exact ⟨g1, by simp [charCells], g2⟩) h3
  obtain ⟨root, p1, p2⟩ := sheet_reads charHead_ok (rows := rows) (fun p hp => (r3 p hp).1) (fun p hp => (r3 p hp).2)
  refine ⟨hget, root, ?_, ?_⟩
  · have ht : text = charListHeader ++ ((rows.map (·.1)).flatten ++ odsFooter) := by
     rw [← hw]
     show (header ++ chapters ++ ([] ++ chars) ++ ([] ++ locs) ++ ([] ++ items) ++ notes ++ [odsFooter]).flatten = _
     simp only [List.nil_append, List.flatten_append, ehead, e2, e4, e5, e6, List.append_nil, List.flatten_singleton, r1, List.append_assoc]
    rw [ht]; exact p1
  · rw [r2] at p2
    refine list_length_of_headOk charHead_ok rfl ?_ p2
    intro r hr
    obtain ⟨id, _, rfl⟩ := List.mem_map.mp hr
    rfl

/-- A row of the location and item lists. -/
theorem worldRow {e : DocEnv} {n : Novel} {mark id : Str} {w : WorldElement} (hmark : '$' ∉ mark) (hmp : Plain mark) (hid : Plain id)
    (hx : WorldCarriable w) :
    RowMark 5 (Template.subst (worldListRow mark) (e.odsBase.world n id w)) (worldCells mark id w) ∧
    '\r' ∉ Template.subst (worldListRow mark) (e.odsBase.world n id w) := by
  obtain ⟨x1, x2, x3, x8⟩ := hx
  have xt : CarriableO (some (tagString w.tags)) := carriable_tags x8
  let vals : List (Field × Str × List Str) :=
    [((mark, c!"ID"), id, [mark ++ id]), (([], c!"Title"), odsConvert w.title, Str.split (shown w.title) c!"\n"),
     (([], c!"Desc"), odsConvert w.desc, Str.split (shown w.desc) c!"\n"), (([], c!"AKA"), odsConvert w.aka, Str.split (shown w.aka) c!"\n"),
     (([], c!"Tags"), odsConvert (some (tagString w.tags)), Str.split (shown (some (tagString w.tags))) c!"\n")]
  have hvals : ∀ p ∈ vals, '$' ∉ p.1.1 ∧ IsIdent p.1.2 = true ∧ (e.odsBase.world n id w).get? p.1.2 = some p.2.1 ∧
      CellLines (p.1.1 ++ p.2.1) p.2.2 ∧ p.2.2 ≠ [] := by
    simp only [vals, List.mem_cons, List.not_mem_nil, or_false, forall_eq_or_imp, forall_eq]
    refine ⟨⟨hmark, by decide, rfl, idCell (plain_all hmp) hid⟩, ?_, ?_, ?_, ?_⟩ <;> refine ⟨by decide, by decide, rfl, ?_⟩
    · exact convCell x1
    · exact convCell x2
    · exact convCell x3
    · exact convCell xt
  have ht : worldListRow mark = odsRowStart ++ (vals.map (fun p => p.1.1 ++ '$' :: p.1.2)).flatMap odsCell ++ odsRowEnd := rfl
  refine ⟨?_, ?_⟩
  · have := shortRow (m := e.odsBase.world n id w) (vals := vals) (by simp [vals]) hvals
    rw [← ht] at this
    have e2 : vals.map (fun p => Str.join c!"\n" p.2.2) = worldCells mark id w := by
      simp only [vals, List.map_cons, List.map_nil, join_nl, shown_tags]
      rfl
    rw [e2] at this
    exact this
  · rw [ht]
    have := shortRow_noCR (m := e.odsBase.world n id w) (vals := vals.map (fun p => (p.1, p.2.1))) (by
      intro q hq
      obtain ⟨p, hp, rfl⟩ := List.mem_map.mp hq
      obtain ⟨h1, h2, h3, _⟩ := hvals p hp
      exact ⟨h1, h2, h3⟩) (by
      intro q hq
      obtain ⟨p, hp, rfl⟩ := List.mem_map.mp hq
      revert p
      simp only [vals, List.mem_cons, List.not_mem_nil, or_false, forall_eq_or_imp, forall_eq, List.nil_append]
      refine ⟨fun _ => ?_, fun _ => noCR_conv x1, fun _ => noCR_conv x2, fun _ => noCR_conv x3, fun _ => noCR_conv xt⟩
      intro hm
      rcases List.mem_append.mp hm with hm | hm
      · exact (hmp _ hm).2.2.2.2 rfl
      · exact (hid _ hm).2.2.2.2 rfl)
    simpa [List.map_map, Function.comp_def] using this

/-- The common part of location and item lists. -/
theorem worldSheet {e : DocEnv} {n : Novel} {mark header : Str} {d : Dict WorldElement} {ids lines : List Str} (hh : headOk header 5 [worldTitles] = true)
    (hmark : '$' ∉ mark) (hmp : Plain mark)
    (hl : elementLines (worldListRow mark) (fun id => do let w ← d.get! id; .ok (e.odsBase.world n id w)) ids = .ok lines)
    (hid : ∀ id ∈ ids, Plain id) (hx : ∀ id ∈ ids, ∀ w, d.get? id = some w → WorldCarriable w) :
    (∀ id ∈ ids, ∃ w, d.get? id = some w) ∧
    ∃ root, parseDoc (header ++ (lines.flatten ++ odsFooter)) = some root ∧ readTable worldTitles.length root =
      .ok (worldTitles :: ids.map (fun id => worldCells mark id ((d.get? id).getD {}))) := by
  have hget : ∀ id ∈ ids, ∃ w, d.get? id = some w := by
    intro id hid
    obtain ⟨m, hm⟩ := elementLines_mem hl id hid
    obtain ⟨c, hc, _⟩ := bind_ok hm
    exact ⟨c, Dict.get!_ok hc⟩
  obtain ⟨rows, r1, r2, r3⟩ := elementLines_rows (k := 5) (t := worldListRow mark) (g := fun id => worldCells mark id ((d.get? id).getD {})) (by
      intro id hi m hm
      obtain ⟨c, hc⟩ := hget id hi
      rw [Dict.get!_of hc] at hm
      injection hm with hm
      rw [← hm]
      obtain ⟨g1, g2⟩ := worldRow (e := e) (n := n) hmark hmp (hid id hi) (hx id hi c hc)
      simp only [hc, Option.getD_some]
      exact ⟨g1, by simp [worldCells], g2⟩) hl
  obtain ⟨root, p1, p2⟩ := sheet_reads hh (rows := rows) (fun p hp => (r3 p hp).1) (fun p hp => (r3 p hp).2)
  refine ⟨hget, root, by rw [← r1]; exact p1, ?_⟩
  rw [r2] at p2
  refine list_length_of_headOk hh rfl ?_ p2
  intro r hr
  obtain ⟨id, _, rfl⟩ := List.mem_map.mp hr
  rfl

/-- C32 for location lists. -/
theorem C32_locations {e : DocEnv} {n : Novel} {text : Str} (hw : getText (odsLocList e) n = .ok text)
    (hid : ∀ id ∈ n.srtLocations, Plain id) (hx : ∀ id ∈ n.srtLocations, ∀ w, n.locations.get? id = some w → WorldCarriable w) :
    (∀ id ∈ n.srtLocations, ∃ w, n.locations.get? id = some w) ∧
    ∃ root, parseDoc text = some root ∧ readTable worldTitles.length root =
      .ok (worldTitles :: n.srtLocations.map (fun id => worldCells c!"LcID:" id ((n.locations.get? id).getD {}))) := by
  unfold getText at hw
  obtain ⟨header, h1, hw⟩ := bind_ok hw
  obtain ⟨chapters, h2, hw⟩ := bind_ok hw
  obtain ⟨chars, h3, hw⟩ := bind_ok hw
  obtain ⟨locs, h4, hw⟩ := bind_ok hw
  obtain ⟨items, h5, hw⟩ := bind_ok hw
  obtain ⟨notes, h6, hw⟩ := bind_ok hw
  injection hw with hw
  have e2 : chapters.flatten = [] := chaptersLoop_empty (x := odsLocList e) (by constructor <;> rfl) _ _ _ _ h2
  have e3 := elementLines_empty h3
  have e5 := elementLines_empty h5
  have e6 := elementLines_empty h6
  obtain ⟨hm, _, h1⟩ := bind_ok h1
  injection h1 with h1
  have ehead : header.flatten = worldListHeader c!"Location list" := by
    subst h1
    rw [List.flatten_singleton]
    exact Template.subst_lit' locHead_lit _
  have ht : text = worldListHeader c!"Location list" ++ (locs.flatten ++ odsFooter) := by
    rw [← hw]
    show (header ++ chapters ++ ([] ++ chars) ++ ([] ++ locs) ++ ([] ++ items) ++ notes ++ [odsFooter]).flatten = _
    simp only [List.nil_append, List.flatten_append, ehead, e2, e3, e5, e6, List.append_nil, List.flatten_singleton, List.append_assoc]
  rw [ht]
  exact worldSheet (e := e) (n := n) locHead_ok (by decide) (by intro c hc; revert c; decide) h4 hid hx

/-- C32 for item lists. -/
theorem C32_items {e : DocEnv} {n : Novel} {text : Str} (hw : getText (odsItemList e) n = .ok text)
    (hid : ∀ id ∈ n.srtItems, Plain id) (hx : ∀ id ∈ n.srtItems, ∀ w, n.items.get? id = some w → WorldCarriable w) :
    (∀ id ∈ n.srtItems, ∃ w, n.items.get? id = some w) ∧
    ∃ root, parseDoc text = some root ∧ readTable worldTitles.length root =
      .ok (worldTitles :: n.srtItems.map (fun id => worldCells c!"ItID:" id ((n.items.get? id).getD {}))) := by
  unfold getText at hw
  obtain ⟨header, h1, hw⟩ := bind_ok hw
  obtain ⟨chapters, h2, hw⟩ := bind_ok hw
  obtain ⟨chars, h3, hw⟩ := bind_ok hw
  obtain ⟨locs, h4, hw⟩ := bind_ok hw
  obtain ⟨items, h5, hw⟩ := bind_ok hw
  obtain ⟨notes, h6, hw⟩ := bind_ok hw
  injection hw with hw
  have e2 : chapters.flatten = [] := chaptersLoop_empty (x := odsItemList e) (by constructor <;> rfl) _ _ _ _ h2
  have e3 := elementLines_empty h3
  have e4 := elementLines_empty h4
  have e6 := elementLines_empty h6
  obtain ⟨hm, _, h1⟩ := bind_ok h1
  injection h1 with h1
  have ehead : header.flatten = worldListHeader c!"Item list" := by
    subst h1
    rw [List.flatten_singleton]
    exact Template.subst_lit' itemHead_lit _
  have ht : text = worldListHeader c!"Item list" ++ (items.flatten ++ odsFooter) := by
    rw [← hw]
    show (header ++ chapters ++ ([] ++ chars) ++ ([] ++ locs) ++ ([] ++ items) ++ notes ++ [odsFooter]).flatten = _
    simp only [List.nil_append, List.flatten_append, ehead, e2, e3, e4, e6, List.append_nil, List.flatten_singleton, List.append_assoc]
  rw [ht]
  exact worldSheet (e := e) (n := n) itemHead_ok (by decide) (by intro c hc; revert c; decide) h5 hid hx

end Verif
