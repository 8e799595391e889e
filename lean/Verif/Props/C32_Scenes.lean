/-
C32 for scene lists.
-/
import Verif.Props.C32_Write
import Verif.Lemmas.Export

namespace Verif
open XNode Spec Template

/-! ### Successful exports make the mapping of every exported scene -/

theorem scenesLoop_maps {x : Exporter} (hx : ManuscriptTemplates x.toTemplates) {n : Novel} {ch : Chapter} {ne : Bool} (ids : List Str)
    (hset : setAside ch.chType = true → ∀ id ∈ ids, ∀ s, n.scenes.get? id = some s → setAside s.scType = true)
    (hne : ne = true → ∀ id ∈ ids, ∀ s, n.scenes.get? id = some s → s.doNotExport = some true) :
    ∀ (first : Bool) (k : Counters) (r : List Str × Counters), scenesLoop x n ch.chType ne first k ids = .ok r →
    ∀ p ∈ exportedOf n ch ids, n.scenes.get? p.1 = some p.2 ∧ ∃ k w l m, x.sceneMapping n p.1 k w l = .ok m := by
  induction ids with
  | nil => intro _ _ _ _ p hp; simp [exportedOf] at hp
  | cons id r ih =>
    intro first k res h p hp
    have ih' := ih (fun hc i hi => hset hc i (List.mem_cons_of_mem _ hi)) (fun hc i hi => hne hc i (List.mem_cons_of_mem _ hi))
    unfold scenesLoop at h
    obtain ⟨s, hs, h⟩ := bind_ok h
    have hs' := Dict.get!_ok hs
    rw [sceneTemplate_manuscript hx (fun hc => hset hc id List.mem_cons_self s hs') (fun hc => hne hc id List.mem_cons_self s hs')] at h
    cases hf : forExport ch s with
    | false =>
      rw [hf] at h
      rw [exportedOf_cons_no hs' hf] at hp
      exact ih' first k res h p hp
    | true =>
      rw [hf] at h
      simp only [if_true] at h
      obtain ⟨m, hm, h⟩ := bind_ok h
      obtain ⟨⟨rest, k2⟩, hr, h⟩ := bind_ok h
      rw [exportedOf_cons_yes hs' hf] at hp
      rcases List.mem_cons.mp hp with rfl | hp
      · exact ⟨hs', _, _, _, m, hm⟩
      · exact ih' false _ _ hr p hp

theorem chaptersLoop_maps {x : Exporter} (hx : ManuscriptTemplates x.toTemplates) {n : Novel} (ids : List Str)
    (hin : ∀ chId ∈ ids, ∀ ch, n.chapters.get? chId = some ch → setAside ch.chType = true →
      ∀ id ∈ ch.srtScenes, ∀ s, n.scenes.get? id = some s → setAside s.scType = true) :
    ∀ (c : Nat) (k : Counters) (ls : List Str), chaptersLoop x n c k ids = .ok ls →
    ∀ p ∈ exported n ids, n.scenes.get? p.1 = some p.2 ∧ ∃ k w l m, x.sceneMapping n p.1 k w l = .ok m := by
  induction ids with
  | nil => intro _ _ _ _ p hp; simp [exported] at hp
  | cons chId r ih =>
    intro c k ls h p hp
    unfold chaptersLoop at h
    obtain ⟨ch, hch, h⟩ := bind_ok h
    have hch' := Dict.get!_ok hch
    obtain ⟨ne, hne, h⟩ := bind_ok h
    obtain ⟨hne1, hne2⟩ := chapterNotExported_spec hne
    have hneAll : ne = true → ∀ id ∈ ch.srtScenes, ∀ s, n.scenes.get? id = some s → s.doNotExport = some true := by
      intro e id hid s hs
      rw [e] at hne1
      have := (Bool.and_eq_true_iff.1 hne1.symm).2
      have := List.all_eq_true.1 this id hid
      rw [hs] at this
      simpa using this
    have hset := fun hc => hin chId List.mem_cons_self ch hch' hc
    obtain ⟨head, hhead, h⟩ := bind_ok h
    obtain ⟨⟨sl, k'⟩, hsc, h⟩ := bind_ok h
    obtain ⟨tail, htail, h⟩ := bind_ok h
    obtain ⟨rest, hrest, h⟩ := bind_ok h
    unfold exported at hp
    rw [List.flatMap_cons, hch'] at hp
    rcases List.mem_append.mp hp with hp | hp
    · exact scenesLoop_maps hx ch.srtScenes hset hneAll true _ _ hsc p hp
    · exact ih (fun c hc => hin c (List.mem_cons_of_mem _ hc)) _ _ _ hrest p hp

/-! ### The text of a list of scenes without chapters -/

/-- The texts of scenes made by an exporter without chapter templates and dividers. -/
def rowTexts (x : Exporter) (n : Novel) : List (Str × Scene) → List (Str × Scene) → List Str
  | _, [] => []
  | before, p :: r => filled x.scene (x.sceneMapping n p.1 (before ++ [p]).length (total (·.wordCount) (before ++ [p]))
      (total (·.letterCount) (before ++ [p]))) :: rowTexts x n (before ++ [p]) r

theorem rowTexts_append (x : Exporter) (n : Novel) (a : List (Str × Scene)) : ∀ before b,
    rowTexts x n before (a ++ b) = rowTexts x n before a ++ rowTexts x n (before ++ a) b := by
  induction a with
  | nil => intro before b; simp [rowTexts]
  | cons p a ih => intro before b; simp [rowTexts, ih]

theorem scenesText_rows {x : Exporter} (h1 : x.sceneDivider = []) (h2 : x.appendedScene = []) (n : Novel) (l : List (Str × Scene)) :
    ∀ before first, (scenesText x n before first l).flatten = (rowTexts x n before l).flatten := by
  induction l with
  | nil => intro _ _; rfl
  | cons p l ih =>
    intro before first
    simp only [scenesText, rowTexts, sceneText, h1, h2, ne_eq, not_true_eq_false, decide_false, Bool.and_false, Bool.false_eq_true, if_false,
      List.flatten_append, List.flatten_cons, List.flatten_nil, ih]
    split <;> simp

theorem filled_nil (m : Except Exc Mapping) : filled [] m = [] := by cases m <;> rfl

theorem manuscript_rows {x : Exporter} (h1 : x.sceneDivider = []) (h2 : x.appendedScene = []) (h3 : x.part = []) (h4 : x.chapter = [])
    (h5 : x.chapterEnd = []) (n : Novel) (ids : List Str) : ∀ before,
    (manuscript x n before ids).flatten = (rowTexts x n (exported n before) (exported n ids)).flatten := by
  induction ids with
  | nil => intro before; simp [manuscript, exported, rowTexts]
  | cons id ids ih =>
    intro before
    have e1 : exported n (id :: ids) = exported n [id] ++ exported n ids := by simp [exported]
    have e2 : exported n (before ++ [id]) = exported n before ++ exported n [id] := by simp [exported]
    rw [manuscript, List.flatten_append, ih, e1, e2, rowTexts_append, List.flatten_append]
    congr 1
    unfold chapterText
    cases hc : n.chapters.get? id with
    | none => simp [exported, hc, rowTexts]
    | some ch =>
      have e3 : exported n [id] = exportedIn n ch := by simp [exported, hc]
      simp only [h3, h4, h5, ite_self, filled_nil, if_true]
      rw [e3]
      split
      · simp [scenesText_rows h1 h2]
      · rename_i hsh
        have : exportedIn n ch = [] := by
          simp only [chapterShown, Bool.and_eq_true, Bool.not_eq_true', Bool.not_eq_true] at hsh
          by_cases ha : setAside ch.chType = true
          · exact exportedIn_eq_nil_of_setAside ha
          · have : (ch.srtScenes ≠ [] && ch.srtScenes.all (fun id => (n.scenes.get? id).any (fun s => s.doNotExport == some true))) = true := by
              cases hb : (ch.srtScenes ≠ [] && ch.srtScenes.all (fun id => (n.scenes.get? id).any (fun s => s.doNotExport == some true))) with
              | true => rfl
              | false => exact absurd ⟨by simpa using ha, hb⟩ hsh
            refine exportedIn_eq_nil_of_notExported ?_
            intro i hi s hs
            have := List.all_eq_true.1 (Bool.and_eq_true_iff.1 this).2 i hi
            rw [hs] at this
            simpa using this
        rw [this]; rfl

/-! ### Cells -/

/-- Substitution turns the template of a cell into its text, whatever follows. -/
def CellSub (m : Mapping) (t o : Str) : Prop := ∀ rest, Template.subst (t ++ rest) m = o ++ Template.subst rest m

theorem CellSub.flat {m : Mapping} : ∀ {l : List (Str × Str)}, (∀ p ∈ l, CellSub m p.1 p.2) → CellSub m (l.map (·.1)).flatten (l.map (·.2)).flatten := by
  intro l
  induction l with
  | nil => intro _ rest; rfl
  | cons p l ih =>
    intro h rest
    simp only [List.map_cons, List.flatten_cons, List.append_assoc]
    rw [h p (by simp), ih (fun q hq => h q (by simp [hq]))]

theorem CellSub.append {m : Mapping} {t1 o1 t2 o2 : Str} (h1 : CellSub m t1 o1) (h2 : CellSub m t2 o2) : CellSub m (t1 ++ t2) (o1 ++ o2) := by
  intro rest
  rw [List.append_assoc, h1, h2, List.append_assoc]

theorem CellSub.lit {m : Mapping} {l : Str} (h : '$' ∉ l) : CellSub m l l := fun rest => Template.subst_lit h rest m

/-- A placeholder before a character that cannot belong to its name. -/
theorem CellSub.var {m : Mapping} {name v : Str} {c : Char} {t o : Str} (hn : IsIdent name = true) (hc : idChar c = false)
    (hm : m.get? name = some v) (h : CellSub m (c :: t) o) : CellSub m ('$' :: name ++ c :: t) (v ++ o) := by
  intro rest
  have := Template.subst_var (t := c :: t ++ rest) hn (by intro d hd; injection hd with hd; subst hd; exact hc) hm
  rw [List.append_assoc, List.cons_append, this, h, List.append_assoc]

theorem CellSub.brace {m : Mapping} {name v t o : Str} (hn : IsIdent name = true) (hm : m.get? name = some v) (h : CellSub m t o) :
    CellSub m ('$' :: '{' :: name ++ '}' :: t) (v ++ o) := by
  intro rest
  have := Template.subst_brace (t := t ++ rest) hn hm
  rw [show '$' :: '{' :: name ++ '}' :: t ++ rest = '$' :: '{' :: (name ++ '}' :: (t ++ rest)) by simp, this, h, List.append_assoc]

theorem CellSub.cell {m : Mapping} {attrs name v : Str} (ha : '$' ∉ attrs) (hn : IsIdent name = true) (hm : m.get? name = some v) :
    CellSub m (odsCellWith attrs ('$' :: name)) (odsCellWith attrs v) := fun rest => by
  have := subst_cellWith (lit := []) ha (by simp) hn hm rest
  simpa only [List.nil_append] using this

theorem CellSub.number {m : Mapping} {name v : Str} (hn : IsIdent name = true) (hm : m.get? name = some v) :
    CellSub m (odsNumber ('$' :: name)) (odsNumber v) := by
  have h2 : CellSub m c!"</text:p>\n     </table:table-cell>\n" c!"</text:p>\n     </table:table-cell>\n" := CellSub.lit (by decide)
  have h3 := CellSub.var (c := '<') hn (by decide) hm h2
  have h4 : CellSub m (c!"\">\n      <text:p>" ++ ('$' :: name ++ c!"</text:p>\n     </table:table-cell>\n"))
    (c!"\">\n      <text:p>" ++ (v ++ c!"</text:p>\n     </table:table-cell>\n")) := CellSub.append (CellSub.lit (by decide)) h3
  have h5 := CellSub.var (c := '"') hn (by decide) hm h4
  have h6 : CellSub m (c!"     <table:table-cell office:value-type=\"float\" office:value=\"" ++
      ('$' :: name ++ (c!"\">\n      <text:p>" ++ ('$' :: name ++ c!"</text:p>\n     </table:table-cell>\n"))))
      (c!"     <table:table-cell office:value-type=\"float\" office:value=\"" ++
      (v ++ (c!"\">\n      <text:p>" ++ (v ++ c!"</text:p>\n     </table:table-cell>\n")))) := CellSub.append (CellSub.lit (by decide)) h5
  have e : ∀ w : Str, odsNumber w = c!"     <table:table-cell office:value-type=\"float\" office:value=\"" ++
      (w ++ (c!"\">\n      <text:p>" ++ (w ++ c!"</text:p>\n     </table:table-cell>\n"))) := by
    intro w
    unfold odsNumber odsCellWith
    rw [show c!"     <table:table-cell office:value-type=\"float\" office:value=\"" = c!"     <table:table-cell" ++ c!" office:value-type=\"float\" office:value=\"" from rfl,
      show c!"\">\n      <text:p>" = c!"\"" ++ c!">\n      <text:p>" from rfl]
    generalize c!"     <table:table-cell" = x1
    generalize c!" office:value-type=\"float\" office:value=\"" = x2
    generalize c!"\"" = x3
    generalize c!">\n      <text:p>" = x4
    generalize c!"</text:p>\n     </table:table-cell>\n" = x5
    simp only [List.append_assoc]
  rw [e, e]
  exact h6

/-- Number cells. -/
theorem cellMark_number {v : Str} (h1 : v.all plainAttr = true) (h2 : v.all plainChar = true) : CellMark (odsNumber v) [v] := by
  intro a0
  refine renders_cell (as := [(c!"office:value-type", c!"float"), (c!"office:value", v)]) ?_ rfl (cellLines_plain h2) a0
  have e1 : saxRun .lt c!"table:table-cell office:value-type=\"float\" office:value=\"" =
    (.val c!"table:table-cell".reverse [(c!"office:value-type", c!"float")] c!"office:value".reverse '"' [], []) := rfl
  have e2 := saxRun_valPlain h1 c!"table:table-cell".reverse [(c!"office:value-type", c!"float")] c!"office:value".reverse []
  have e3 : saxRun (.val c!"table:table-cell".reverse [(c!"office:value-type", c!"float")] c!"office:value".reverse '"' (v.reverse ++ [])) c!"\">" =
    (.text [], [.start c!"table:table-cell" [(c!"office:value-type", c!"float"), (c!"office:value", (v.reverse ++ []).reverse)]]) := rfl
  have e4 := saxRun_comp e1 (saxRun_comp e2 e3)
  rw [List.append_nil, List.reverse_reverse] at e4
  have e5 : c!"table:table-cell" ++ (c!" office:value-type=\"float\" office:value=\"" ++ v ++ c!"\"") ++ c!">" =
    c!"table:table-cell office:value-type=\"float\" office:value=\"" ++ (v ++ c!"\">") := by
    rw [show c!"table:table-cell office:value-type=\"float\" office:value=\"" = c!"table:table-cell" ++ c!" office:value-type=\"float\" office:value=\"" from rfl,
      show c!"\">" = c!"\"" ++ c!">" from rfl]
    generalize c!"table:table-cell" = x1
    generalize c!" office:value-type=\"float\" office:value=\"" = x2
    generalize c!"\"" = x3
    generalize c!">" = x4
    simp only [List.append_assoc]
  rw [e5]
  exact e4

/-! ### The link cell -/

theorem digit_cases {c : Char} (h : Digit c) : c ∈ c!"0123456789" := by
  obtain ⟨h1, h2⟩ := h
  have a : 48 ≤ c.toNat := h1
  have b : c.toNat ≤ 57 := h2
  have e : c = Char.ofNat c.toNat := (Char.ofNat_toNat c).symm
  have : c.toNat = 48 ∨ c.toNat = 49 ∨ c.toNat = 50 ∨ c.toNat = 51 ∨ c.toNat = 52 ∨ c.toNat = 53 ∨ c.toNat = 54 ∨ c.toNat = 55 ∨
    c.toNat = 56 ∨ c.toNat = 57 := by omega
  rcases this with h | h | h | h | h | h | h | h | h | h <;> (rw [e, h]; decide)

theorem digits_plain {t : Str} (h : ∀ c ∈ t, Digit c) : t.all plainAttr = true ∧ t.all plainChar = true := by
  have k1 : ∀ c ∈ c!"0123456789", plainAttr c = true := by decide
  have k2 : ∀ c ∈ c!"0123456789", plainChar c = true := by decide
  constructor <;> rw [List.all_eq_true] <;> intro c hc
  · exact k1 c (digit_cases (h c hc))
  · exact k2 c (digit_cases (h c hc))

theorem digits_ofNat (k : Nat) : ∀ c ∈ Str.ofNat k, Digit c := by
  intro c hc
  have := Str.isDigit_of_mem_ofNat hc
  simp only [Char.isDigit, Bool.and_eq_true, decide_eq_true_eq] at this
  exact ⟨this.1, this.2⟩

/-- The parts of the attributes of the link cell. -/
def linkAttrs (path name id : Str) : Str :=
  c!" table:formula=\"of:=HYPERLINK(&quot;file:///" ++ (path ++ (c!"/" ++ (name ++ (c!"_manuscript.odt#ScID:" ++ (id ++
    (c!"%7Cregion&quot;;&quot;ScID:" ++ (id ++ (c!"&quot;)\" office:value-type=\"string\" office:string-value=\"ScID:" ++ (id ++ c!"\"")))))))))

set_option maxRecDepth 10000 in
theorem link_sub {m : Mapping} {path name id : Str} (h1 : m.get? c!"ProjectPath" = some path) (h2 : m.get? c!"ProjectName" = some name)
    (h3 : m.get? c!"ID" = some id) : CellSub m (odsCellWith sceneLinkAttrs c!"ScID:$ID") (odsCellWith (linkAttrs path name id) (c!"ScID:" ++ id)) := by
  have x0 : CellSub m c!"</text:p>\n     </table:table-cell>\n" c!"</text:p>\n     </table:table-cell>\n" := CellSub.lit (by decide)
  have x1 := CellSub.var (c := '<') (name := c!"ID") (by decide) (by decide) h3 x0
  have x2 := CellSub.append (CellSub.lit (m := m) (l := c!"\">\n      <text:p>ScID:") (by decide)) x1
  have x3 := CellSub.var (c := '"') (name := c!"ID") (by decide) (by decide) h3 x2
  have x4 := CellSub.append (CellSub.lit (m := m) (l := c!"&quot;)\" office:value-type=\"string\" office:string-value=\"ScID:") (by decide)) x3
  have x5 := CellSub.var (c := '&') (name := c!"ID") (by decide) (by decide) h3 x4
  have x6 := CellSub.append (CellSub.lit (m := m) (l := c!"%7Cregion&quot;;&quot;ScID:") (by decide)) x5
  have x7 := CellSub.var (c := '%') (name := c!"ID") (by decide) (by decide) h3 x6
  have x8 := CellSub.append (CellSub.lit (m := m) (l := c!"_manuscript.odt#ScID:") (by decide)) x7
  have x9 := CellSub.brace (name := c!"ProjectName") (by decide) h2 x8
  have x10 := CellSub.append (CellSub.lit (m := m) (l := c!"/") (by decide)) x9
  have x11 := CellSub.var (c := '/') (name := c!"ProjectPath") (by decide) (by decide) h1 x10
  have x12 := CellSub.append (CellSub.lit (m := m) (l := c!"     <table:table-cell table:formula=\"of:=HYPERLINK(&quot;file:///") (by decide)) x11
  have e : ∀ rest, odsCellWith (linkAttrs path name id) (c!"ScID:" ++ id) ++ rest = c!"     <table:table-cell table:formula=\"of:=HYPERLINK(&quot;file:///" ++
      (path ++ (c!"/" ++ (name ++ (c!"_manuscript.odt#ScID:" ++ (id ++ (c!"%7Cregion&quot;;&quot;ScID:" ++ (id ++
      (c!"&quot;)\" office:value-type=\"string\" office:string-value=\"ScID:" ++ (id ++ (c!"\">\n      <text:p>ScID:" ++ (id ++ c!"</text:p>\n     </table:table-cell>\n"))))))))))) ++ rest := by
    intro rest
    unfold odsCellWith linkAttrs
    rw [show c!"     <table:table-cell table:formula=\"of:=HYPERLINK(&quot;file:///" = c!"     <table:table-cell" ++ c!" table:formula=\"of:=HYPERLINK(&quot;file:///" from rfl,
      show c!"\">\n      <text:p>ScID:" = c!"\"" ++ (c!">\n      <text:p>" ++ c!"ScID:") from rfl]
    generalize c!"     <table:table-cell" = y1
    generalize c!" table:formula=\"of:=HYPERLINK(&quot;file:///" = y2
    generalize c!"_manuscript.odt#ScID:" = y3
    generalize c!"%7Cregion&quot;;&quot;ScID:" = y4
    generalize c!"&quot;)\" office:value-type=\"string\" office:string-value=\"ScID:" = y5
    generalize c!"\"" = y6
    generalize c!">\n      <text:p>" = y7
    generalize c!"ScID:" = y8
    generalize c!"/" = y9
    generalize c!"</text:p>\n     </table:table-cell>\n" = y10
    simp only [List.append_assoc]
  intro rest
  rw [e]
  exact x12 rest

set_option maxRecDepth 10000 in
theorem link_start {path name id : Str} (hp : path.all plainAttr = true) (hn : ∀ c ∈ name, xmlLegal c = true ∧ (xmlBlank c = true → c = ' '))
    (hi : id.all plainAttr = true) : ∃ as, saxRun .lt (c!"table:table-cell" ++ linkAttrs path (name.flatMap escChar) id ++ c!">") =
      (.text [], [.start c!"table:table-cell" as]) ∧ as.get? c!"table:number-columns-repeated" = none := by
  have x1 : saxRun .lt c!"table:table-cell table:formula=\"of:=HYPERLINK(&quot;file:///" =
    (.val c!"table:table-cell".reverse [] c!"table:formula".reverse '"' c!"of:=HYPERLINK(\"file:///".reverse, []) := rfl
  have x2 := saxRun_valPlain hp c!"table:table-cell".reverse [] c!"table:formula".reverse c!"of:=HYPERLINK(\"file:///".reverse
  generalize path.reverse ++ c!"of:=HYPERLINK(\"file:///".reverse = a1 at x2
  have x3 := saxRun_valPlain (s := c!"/") (by decide) c!"table:table-cell".reverse [] c!"table:formula".reverse a1
  generalize c!"/".reverse ++ a1 = a2 at x3
  have x4 := saxRun_valEsc hn c!"table:table-cell".reverse [] c!"table:formula".reverse a2
  generalize name.reverse ++ a2 = a3 at x4
  have x5 := saxRun_valPlain (s := c!"_manuscript.odt#ScID:") (by decide) c!"table:table-cell".reverse [] c!"table:formula".reverse a3
  generalize c!"_manuscript.odt#ScID:".reverse ++ a3 = a4 at x5
  have x6 := saxRun_valPlain hi c!"table:table-cell".reverse [] c!"table:formula".reverse a4
  generalize id.reverse ++ a4 = a5 at x6
  have x7 : saxRun (.val c!"table:table-cell".reverse [] c!"table:formula".reverse '"' a5) c!"%7Cregion&quot;;&quot;ScID:" =
    (.val c!"table:table-cell".reverse [] c!"table:formula".reverse '"' (c!"%7Cregion\";\"ScID:".reverse ++ a5), []) := rfl
  generalize c!"%7Cregion\";\"ScID:".reverse ++ a5 = a6 at x7
  have x8 := saxRun_valPlain hi c!"table:table-cell".reverse [] c!"table:formula".reverse a6
  generalize id.reverse ++ a6 = a7 at x8
  have x9 : saxRun (.val c!"table:table-cell".reverse [] c!"table:formula".reverse '"' a7)
      c!"&quot;)\" office:value-type=\"string\" office:string-value=\"ScID:" =
    (.val c!"table:table-cell".reverse [(c!"table:formula", (c!"\")".reverse ++ a7).reverse), (c!"office:value-type", c!"string")]
      c!"office:string-value".reverse '"' c!"ScID:".reverse, []) := rfl
  generalize (c!"\")".reverse ++ a7).reverse = a8 at x9
  have x10 := saxRun_valPlain hi c!"table:table-cell".reverse [(c!"table:formula", a8), (c!"office:value-type", c!"string")]
      c!"office:string-value".reverse c!"ScID:".reverse
  generalize id.reverse ++ c!"ScID:".reverse = a9 at x10
  have x11 : saxRun (.val c!"table:table-cell".reverse [(c!"table:formula", a8), (c!"office:value-type", c!"string")]
      c!"office:string-value".reverse '"' a9) c!"\">" =
      (.text [], [.start c!"table:table-cell" [(c!"table:formula", a8), (c!"office:value-type", c!"string"), (c!"office:string-value", a9.reverse)]]) := rfl
  refine ⟨[(c!"table:formula", a8), (c!"office:value-type", c!"string"), (c!"office:string-value", a9.reverse)], ?_, rfl⟩
  have x := saxRun_comp x1 (saxRun_comp x2 (saxRun_comp x3 (saxRun_comp x4 (saxRun_comp x5 (saxRun_comp x6 (saxRun_comp x7
    (saxRun_comp x8 (saxRun_comp x9 (saxRun_comp x10 x11)))))))))
  have e : c!"table:table-cell" ++ linkAttrs path (name.flatMap escChar) id ++ c!">" = c!"table:table-cell table:formula=\"of:=HYPERLINK(&quot;file:///" ++
      (path ++ (c!"/" ++ (name.flatMap escChar ++ (c!"_manuscript.odt#ScID:" ++ (id ++ (c!"%7Cregion&quot;;&quot;ScID:" ++ (id ++
      (c!"&quot;)\" office:value-type=\"string\" office:string-value=\"ScID:" ++ (id ++ c!"\">"))))))))) := by
    unfold linkAttrs
    rw [show c!"table:table-cell table:formula=\"of:=HYPERLINK(&quot;file:///" = c!"table:table-cell" ++ c!" table:formula=\"of:=HYPERLINK(&quot;file:///" from rfl,
      show c!"\">" = c!"\"" ++ c!">" from rfl]
    generalize c!"table:table-cell" = y1
    generalize c!" table:formula=\"of:=HYPERLINK(&quot;file:///" = y2
    generalize c!"_manuscript.odt#ScID:" = y3
    generalize c!"%7Cregion&quot;;&quot;ScID:" = y4
    generalize c!"&quot;)\" office:value-type=\"string\" office:string-value=\"ScID:" = y5
    generalize c!"\"" = y6
    generalize c!">" = y7
    generalize c!"/" = y9
    simp only [List.append_assoc]
  rw [e]
  exact x

/-! ### The values of the mapping -/

theorem titlesOf_eq {α : Type} {title : α → Option Str} {d : Dict α} : ∀ {ids : List Str} {ts : List (Option Str)},
    titlesOf title d ids = .ok ts → ts = ids.map (fun id => (d.get? id).bind title) := by
  intro ids
  induction ids with
  | nil => intro ts h; injection h with h; subst h; rfl
  | cons id ids ih =>
    intro ts h
    unfold titlesOf at h
    obtain ⟨e, he, h⟩ := bind_ok h
    obtain ⟨l, hl, h⟩ := bind_ok h
    injection h with h
    subst h
    rw [List.map_cons, Dict.get!_ok he, ih hl]; rfl

theorem titlesOf_error {α : Type} {title : α → Option Str} {d : Dict α} : ∀ {ids : List Str} {x : Exc},
    titlesOf title d ids = .error x → ∃ id ∈ ids, d.get? id = none := by
  intro ids
  induction ids with
  | nil => intro x h; cases h
  | cons id ids ih =>
    intro x h
    unfold titlesOf at h
    cases hd : d.get? id with
    | none => exact ⟨id, by simp, hd⟩
    | some e =>
      rw [Dict.get!_of hd] at h
      simp only [Bind.bind, Except.bind] at h
      cases ht : titlesOf title d ids with
      | error y =>
        obtain ⟨i, hi, h2⟩ := ih ht
        exact ⟨i, by simp [hi], h2⟩
      | ok l => rw [ht] at h; cases h

theorem sceneChars_names (n : Novel) (s : Scene) : (sceneChars n s).1 = shownNames (·.title) n.characters s.characters := by
  unfold sceneChars shownNames
  cases s.characters with
  | none => rfl
  | some ids =>
    simp only [Option.getD_some]
    cases ht : titlesOf (fun c : Character => c.title) n.characters ids with
    | error x =>
      obtain ⟨i, hi, h2⟩ := titlesOf_error ht
      rw [if_neg]
      intro hall
      have := List.all_eq_true.mp hall _ (List.mem_map_of_mem (f := fun id => (n.characters.get? id).bind (·.title)) hi)
      rw [h2] at this
      cases this
    | ok ts =>
      have e := titlesOf_eq ht
      subst e
      cases ids with
      | nil => rfl
      | cons i ids => rfl

theorem sceneWorld_names {d : Dict WorldElement} {ids : Option (List Str)} {t : Str} (h : sceneWorld d ids = .ok t) :
    t = shownNames (·.title) d ids := by
  unfold sceneWorld at h
  cases ids with
  | none => injection h with h; subst h; rfl
  | some l =>
    obtain ⟨ts, ht, h⟩ := bind_ok h
    injection h with h
    subst h
    rw [titlesOf_eq ht]
    rfl

theorem statusName_state {i : Option Int} {t : Str} (h : statusName i = .ok t) : t = shownState i ∧ t ∈ statusNames := by
  unfold statusName at h
  cases i with
  | none => cases h
  | some i =>
    simp only at h
    have hi : i = -6 ∨ i = -5 ∨ i = -4 ∨ i = -3 ∨ i = -2 ∨ i = -1 ∨ i = 0 ∨ i = 1 ∨ i = 2 ∨ i = 3 ∨ i = 4 ∨ i = 5 := by
      by_cases h0 : 0 ≤ i
      · rw [if_pos h0] at h
        by_cases h6 : i.toNat < 6
        · omega
        · rw [List.getElem?_eq_none (by simp only [statusNames, List.length_cons, List.length_nil]; omega)] at h; cases h
      · rw [if_neg h0] at h
        by_cases h6 : -6 ≤ i
        · omega
        · rw [if_neg h6] at h; cases h
    rcases hi with rfl | rfl | rfl | rfl | rfl | rfl | rfl | rfl | rfl | rfl | rfl | rfl <;>
      (injection h with h; subst h; exact ⟨rfl, by decide⟩)

theorem hideRating_other {key x : Str} {v : Option Str} {m : Mapping} (h : key ≠ x) : (hideRating key v m).get? x = m.get? x := by
  unfold hideRating
  split
  · exact Dict.get?_set_ne m _ h
  · rfl

theorem hideRating_self {key : Str} {v : Option Str} {m : Mapping} (h : m.get? key = some (pyStr v)) :
    (hideRating key v m).get? key = some (shownRating v) := by
  unfold hideRating
  split
  · rename_i hv; rw [Dict.get?_set_self, hv]; rfl
  · rename_i hv
    rw [h]
    cases v with
    | none => rfl
    | some t =>
      have : t ≠ c!"1" := fun e => hv (by rw [e])
      simp only [pyStr, shownRating, this, if_false]

/-- Cells with different attributes, given by template, text and lines. -/
structure RowCell (m : Mapping) (p : Str × Str × List Str) : Prop where
  sub : CellSub m p.1 p.2.1
  mark : CellMark p.2.1 p.2.2
  ne : p.2.2 ≠ []
  noCR : '\r' ∉ p.2.1

theorem noCR_cellWith {attrs v : Str} (ha : '\r' ∉ attrs) (h : '\r' ∉ v) : '\r' ∉ odsCellWith attrs v := by
  intro hm
  unfold odsCellWith at hm
  rcases List.mem_append.mp hm with hm | hm
  · rcases List.mem_append.mp hm with hm | hm
    · rcases List.mem_append.mp hm with hm | hm
      · rcases List.mem_append.mp hm with hm | hm
        · revert hm; decide
        · exact ha hm
      · revert hm; decide
    · exact h hm
  · revert hm; decide

theorem rowCell_conv {m : Mapping} {name : Str} {t : Option Str} (hn : IsIdent name = true) (hm : m.get? name = some (odsConvert t))
    (h : CarriableO t) : RowCell m (odsCell ('$' :: name), odsCell (odsConvert t), Str.split (shown t) c!"\n") where
  sub := CellSub.cell (by decide) hn hm
  mark := cellMark_text (cellLines_conv h)
  ne := Str.split_ne_nil _ _
  noCR := noCR_cell (noCR_conv h)

theorem rowCell_plain {m : Mapping} {name v : Str} (hn : IsIdent name = true) (hm : m.get? name = some v) (h : Plain v) :
    RowCell m (odsCell ('$' :: name), odsCell v, [v]) where
  sub := CellSub.cell (by decide) hn hm
  mark := cellMark_text (cellLines_plain (plain_all h))
  ne := by simp
  noCR := noCR_cell (fun hm => (h _ hm).2.2.2.2 rfl)

theorem rowCell_number {m : Mapping} {name v : Str} (hn : IsIdent name = true) (hm : m.get? name = some v) (h1 : v.all plainAttr = true)
    (h2 : v.all plainChar = true) : RowCell m (odsNumber ('$' :: name), odsNumber v, [v]) where
  sub := CellSub.number hn hm
  mark := cellMark_number h1 h2
  ne := by simp
  noCR := by
    have hv : '\r' ∉ v := by
      intro hm
      have := List.all_eq_true.mp h2 _ hm
      revert this; decide
    refine noCR_cellWith ?_ hv
    intro hm
    rcases List.mem_append.mp hm with hm | hm
    · rcases List.mem_append.mp hm with hm | hm
      · revert hm; decide
      · exact hv hm
    · revert hm; decide

theorem rowCell_bare {m : Mapping} {name v : Str} (hn : IsIdent name = true) (hm : m.get? name = some v) (h : Plain v) :
    RowCell m (odsCellWith [] ('$' :: name), odsCellWith [] v, [v]) where
  sub := CellSub.cell (by decide) hn hm
  mark := fun a0 => renders_cell (as := []) rfl rfl (cellLines_plain (plain_all h)) a0
  ne := by simp
  noCR := noCR_cellWith (by simp) (fun hm => (h _ hm).2.2.2.2 rfl)

set_option maxRecDepth 10000 in
theorem rowCell_heading {m : Mapping} {name : Str} {t : Option Str} (hn : IsIdent name = true) (hm : m.get? name = some (odsConvert t))
    (h : CarriableO t) : RowCell m (odsHeading ('$' :: name), odsHeading (odsConvert t), Str.split (shown t) c!"\n") where
  sub := CellSub.cell (attrs := c!" table:style-name=\"Heading\" office:value-type=\"string\"") (by decide) hn hm
  mark := fun a0 => renders_cell (attrs := c!" table:style-name=\"Heading\" office:value-type=\"string\"")
    (as := [(c!"table:style-name", c!"Heading"), (c!"office:value-type", c!"string")]) rfl rfl (cellLines_conv h) a0
  ne := Str.split_ne_nil _ _
  noCR := noCR_cellWith (attrs := c!" table:style-name=\"Heading\" office:value-type=\"string\"") (by decide) (noCR_conv h)

set_option maxRecDepth 10000 in
theorem rowCell_title {m : Mapping} {v : Str} (hd : '$' ∉ odsHeading v) (h : v.all plainChar = true) (hc : '\r' ∉ v) :
    RowCell m (odsHeading v, odsHeading v, [v]) where
  sub := CellSub.lit hd
  mark := fun a0 => renders_cell (attrs := c!" table:style-name=\"Heading\" office:value-type=\"string\"")
    (as := [(c!"table:style-name", c!"Heading"), (c!"office:value-type", c!"string")]) rfl rfl (cellLines_plain h) a0
  ne := by simp
  noCR := noCR_cellWith (attrs := c!" table:style-name=\"Heading\" office:value-type=\"string\"") (by decide) hc

set_option maxRecDepth 10000 in
theorem rowCell_link {m : Mapping} {path name id : Str} (h1 : m.get? c!"ProjectPath" = some path)
    (h2 : m.get? c!"ProjectName" = some (name.flatMap escChar)) (h3 : m.get? c!"ID" = some id) (hp : path.all plainAttr = true)
    (hn : ∀ c ∈ name, xmlLegal c = true ∧ (xmlBlank c = true → c = ' ') ∧ c ≠ '\r') (hi : ∀ c ∈ id, Digit c) :
    RowCell m (odsCellWith sceneLinkAttrs c!"ScID:$ID", odsCellWith (linkAttrs path (name.flatMap escChar) id) (c!"ScID:" ++ id), [c!"ScID:" ++ id]) where
  sub := link_sub h1 h2 h3
  mark := fun a0 => by
    obtain ⟨as, ha, hb⟩ := link_start hp (fun c hc => ⟨(hn c hc).1, (hn c hc).2.1⟩) (digits_plain hi).1
    exact renders_cell ha hb (cellLines_plain (by rw [List.all_append, (digits_plain hi).2]; decide)) a0
  ne := by simp
  noCR := by
    have hid : '\r' ∉ id := by
      intro hm
      have := List.all_eq_true.mp (digits_plain hi).2 _ hm
      revert this; decide
    have hpa : '\r' ∉ path := by
      intro hm
      have := List.all_eq_true.mp hp _ hm
      revert this; decide
    have hna : '\r' ∉ name.flatMap escChar := by
      intro hm
      obtain ⟨c, hc, hm⟩ := List.mem_flatMap.mp hm
      exact noCR_escChar (hn c hc).2.2 hm
    refine noCR_cellWith ?_ ?_
    · unfold linkAttrs
      simp only [List.mem_append, not_or]
      refine ⟨by decide, hpa, by decide, hna, by decide, hid, by decide, hid, by decide, hid, by decide⟩
    · simp only [List.mem_append, not_or]
      exact ⟨by decide, hid⟩

/-- A row made of such cells. -/
theorem rowOf {m : Mapping} {items : List (Str × Str × List Str)} {e st : Str} {as : Dict Str} (ind : Nat)
    (hs : saxRun .lt st = (.text [], [.start c!"table:table-row" as])) (hst : '$' ∉ st) (hsr : '\r' ∉ st) (hed : '$' ∉ e) (her : '\r' ∉ e)
    (hne : items ≠ []) (h : ∀ p ∈ items, RowCell m p) (he : ∀ a0, ∃ ns a1, Renders e a0 ns a1) :
    let t := List.replicate ind ' ' ++ '<' :: (st ++ c!"\n" ++ ((items.map (·.1)).flatten ++ (e ++ '<' :: c!"/table:table-row>\n\n")))
    RowMark items.length (Template.subst t m) (items.map (fun p => Str.join c!"\n" p.2.2)) ∧ '\r' ∉ Template.subst t m := by
  intro t
  have hsub : CellSub m t (List.replicate ind ' ' ++ '<' :: (st ++ c!"\n" ++ ((items.map (·.2.1)).flatten ++ (e ++ '<' :: c!"/table:table-row>\n\n")))) := by
    have x1 : CellSub m (List.replicate ind ' ' ++ '<' :: (st ++ c!"\n")) (List.replicate ind ' ' ++ '<' :: (st ++ c!"\n")) := CellSub.lit (by
      simp only [List.mem_append, List.mem_cons, not_or, List.mem_replicate]
      exact ⟨by simp, by decide, hst, by simp⟩)
    have x2 : CellSub m (items.map (·.1)).flatten (items.map (·.2.1)).flatten := by
      have := CellSub.flat (m := m) (l := items.map (fun p => (p.1, p.2.1))) (by
        intro q hq
        obtain ⟨p, hp, rfl⟩ := List.mem_map.mp hq
        exact (h p hp).sub)
      simpa [Function.comp_def] using this
    have x3 : CellSub m (e ++ '<' :: c!"/table:table-row>\n\n") (e ++ '<' :: c!"/table:table-row>\n\n") := CellSub.lit (by
      rw [List.mem_append, not_or]
      exact ⟨hed, by decide⟩)
    have := x1.append (x2.append x3)
    intro rest
    have := this rest
    simp only [t, List.append_assoc, List.cons_append] at this ⊢
    exact this
  have hsub' := hsub []
  rw [List.append_nil, Template.subst_nil, List.append_nil] at hsub'
  rw [hsub']
  constructor
  · have := renders_rowWith (items := items.map (fun p => p.2)) (e := e) ind hs (by simpa using hne) (by
      intro q hq
      obtain ⟨p, hp, rfl⟩ := List.mem_map.mp hq
      exact ⟨(h p hp).mark, (h p hp).ne⟩) he
    simpa [Function.comp_def] using this
  · intro hm
    rcases List.mem_append.mp hm with hm | hm
    · rw [List.mem_replicate] at hm; revert hm; simp
    · rcases List.mem_cons.mp hm with hm | hm
      · revert hm; decide
      rcases List.mem_append.mp hm with hm | hm
      · rcases List.mem_append.mp hm with hm | hm
        · exact hsr hm
        · revert hm; decide
      · rcases List.mem_append.mp hm with hm | hm
        · obtain ⟨s, hs, hx⟩ := List.mem_flatten.mp hm
          obtain ⟨p, hp, rfl⟩ := List.mem_map.mp hs
          exact (h p hp).noCR hx
        · rcases List.mem_append.mp hm with hm | hm
          · exact her hm
          · revert hm; decide

/-! ### The rows of the scene list -/

theorem linkPath_plain {t : Str} (h : ∀ c ∈ t, xmlLegal c = true ∧ c ∉ c!"<&\" \t\n\r") : t.all plainAttr = true := by
  rw [List.all_eq_true]
  intro c hc
  obtain ⟨h1, h2⟩ := h c hc
  simp only [List.mem_cons, List.not_mem_nil, or_false, not_or] at h2
  simp [plainAttr, xmlBlank, h1, h2]

theorem odsConvert_line {t : Str} (h : '\n' ∉ Str.rstrip t) : odsConvert (some t) = (Str.rstrip t).flatMap escChar := by
  rw [odsConvert_eq]
  have : ∀ l : Str, '\n' ∉ l → l.flatMap (fun c => if c = '\n' then c!"</text:p>\n<text:p>" else escChar c) = l.flatMap escChar := by
    intro l
    induction l with
    | nil => intro _; rfl
    | cons c l ih =>
      intro hl
      rw [List.flatMap_cons, List.flatMap_cons, ih (fun x => hl (by simp [x])), if_neg (fun e => hl (by simp [e]))]
  exact this _ h

theorem rating_plain {f : Option Str} (h : ∀ t, f = some t → ∀ c ∈ t, Digit c) :
    (shownRating f).all plainAttr = true ∧ (shownRating f).all plainChar = true := by
  cases f with
  | none => decide
  | some t =>
    unfold shownRating
    simp only
    split
    · decide
    · exact digits_plain (h t rfl)

set_option maxRecDepth 100000 in
/-- A row of the scene list. -/
theorem sceneRow {e : DocEnv} (hl : LinkTarget e.projectPath e.projectName) {n : Novel} {before : List (Str × Scene)} {p : Str × Scene} {m : Mapping}
    (hs : n.scenes.get? p.1 = some p.2) (hid : ∀ c ∈ p.1, Digit c) (hx : SceneCarriable n p.2)
    (hm : (odsSceneList e).sceneMapping n p.1 (before ++ [p]).length (total (·.wordCount) (before ++ [p])) (total (·.letterCount) (before ++ [p])) = .ok m) :
    RowMark 21 (Template.subst sceneListRow m) (sceneCells n before p) ∧ '\r' ∉ Template.subst sceneListRow m := by
  obtain ⟨id, s⟩ := p
  simp only at hs hid hx
  obtain ⟨m1, h1, hm⟩ := bind_ok (a := e.odsBase.scene n id _ _ _) hm
  obtain ⟨s', hs', hm⟩ := bind_ok hm
  rw [Dict.get!_of hs] at hs'
  injection hs' with hs'
  subst hs'
  injection hm with hm
  unfold Base.scene at h1
  rw [Dict.get!_of hs] at h1
  obtain ⟨_, h0, h1⟩ := bind_ok h1
  injection h0 with h0
  subst h0
  obtain ⟨locs, hlocs, h1⟩ := bind_ok h1
  obtain ⟨items, hitems, h1⟩ := bind_ok h1
  obtain ⟨status, hstatus, h1⟩ := bind_ok h1
  injection h1 with h1
  have elocs := sceneWorld_names hlocs
  have eitems := sceneWorld_names hitems
  obtain ⟨estatus, estm⟩ := statusName_state hstatus
  have echars := sceneChars_names n s
  have hst : Plain status := by
    have k : ∀ t ∈ statusNames, t.all plainChar = true := by decide
    intro c hc
    have := List.all_eq_true.mp (k status estm) c hc
    simpa [plainChar, and_assoc] using this
  have oth : ∀ x, c!"Field1" ≠ x → c!"Field2" ≠ x → c!"Field3" ≠ x → c!"Field4" ≠ x → m.get? x = m1.get? x := by
    intro x a1 a2 a3 a4
    rw [← hm, hideRating_other a4, hideRating_other a3, hideRating_other a2, hideRating_other a1]
  have f1 : m.get? c!"Field1" = some (shownRating s.field1) := by
    rw [← hm, hideRating_other (by decide), hideRating_other (by decide), hideRating_other (by decide), hideRating_self (by rw [← h1]; rfl)]
  have f2 : m.get? c!"Field2" = some (shownRating s.field2) := by
    rw [← hm, hideRating_other (by decide), hideRating_other (by decide), hideRating_self (by rw [hideRating_other (by decide), ← h1]; rfl)]
  have f3 : m.get? c!"Field3" = some (shownRating s.field3) := by
    rw [← hm, hideRating_other (by decide), hideRating_self (by rw [hideRating_other (by decide), hideRating_other (by decide), ← h1]; rfl)]
  have f4 : m.get? c!"Field4" = some (shownRating s.field4) := by
    rw [← hm, hideRating_self (by rw [hideRating_other (by decide), hideRating_other (by decide), hideRating_other (by decide), ← h1]; rfl)]
  have hrs : Plain (if s.isReactionScene = some true then c!"R" else c!"A") := by split <;> (intro d hd; revert d; decide)
  have xt : CarriableO (some (tagString s.tags)) := carriable_tags hx.tags
  have hpn : odsConvert (some e.projectName) = (Str.rstrip e.projectName).flatMap escChar := odsConvert_line (by
    intro h
    exact (hl.2 _ h).2.2.2 rfl)
  have r1 := rating_plain (hx.ratings s.field1 (by simp))
  have r2 := rating_plain (hx.ratings s.field2 (by simp))
  have r3 := rating_plain (hx.ratings s.field3 (by simp))
  have r4 := rating_plain (hx.ratings s.field4 (by simp))
  have dn := fun k => digits_plain (digits_ofNat k)
  let cells : List (Str × Str × List Str) :=
    [(odsCellWith sceneLinkAttrs c!"ScID:$ID", odsCellWith (linkAttrs e.projectPath ((Str.rstrip e.projectName).flatMap escChar) id) (c!"ScID:" ++ id), [c!"ScID:" ++ id]),
     (odsCell ('$' :: c!"Title"), odsCell (odsConvert s.title), Str.split (shown s.title) c!"\n"),
     (odsCell ('$' :: c!"Desc"), odsCell (odsConvert s.desc), Str.split (shown s.desc) c!"\n"),
     (odsCell ('$' :: c!"Tags"), odsCell (odsConvert (some (tagString s.tags))), Str.split (shown (some (tagString s.tags))) c!"\n"),
     (odsCell ('$' :: c!"Notes"), odsCell (odsConvert s.notes), Str.split (shown s.notes) c!"\n"),
     (odsCell ('$' :: c!"ReactionScene"), odsCell (if s.isReactionScene = some true then c!"R" else c!"A"), [if s.isReactionScene = some true then c!"R" else c!"A"]),
     (odsCell ('$' :: c!"Goal"), odsCell (odsConvert s.goal), Str.split (shown s.goal) c!"\n"),
     (odsCell ('$' :: c!"Conflict"), odsCell (odsConvert s.conflict), Str.split (shown s.conflict) c!"\n"),
     (odsCell ('$' :: c!"Outcome"), odsCell (odsConvert s.outcome), Str.split (shown s.outcome) c!"\n"),
     (odsNumber ('$' :: c!"SceneNumber"), odsNumber (Str.ofNat (before.length + 1)), [Str.ofNat (before.length + 1)]),
     (odsNumber ('$' :: c!"WordsTotal"), odsNumber (Str.ofNat (total (·.wordCount) (before ++ [(id, s)]))), [Str.ofNat (total (·.wordCount) (before ++ [(id, s)]))]),
     (odsNumber ('$' :: c!"Field1"), odsNumber (shownRating s.field1), [shownRating s.field1]),
     (odsNumber ('$' :: c!"Field2"), odsNumber (shownRating s.field2), [shownRating s.field2]),
     (odsNumber ('$' :: c!"Field3"), odsNumber (shownRating s.field3), [shownRating s.field3]),
     (odsNumber ('$' :: c!"Field4"), odsNumber (shownRating s.field4), [shownRating s.field4]),
     (odsNumber ('$' :: c!"WordCount"), odsNumber (Str.ofNat s.wordCount), [Str.ofNat s.wordCount]),
     (odsNumber ('$' :: c!"LetterCount"), odsNumber (Str.ofNat s.letterCount), [Str.ofNat s.letterCount]),
     (odsCell ('$' :: c!"Status"), odsCell status, [status]),
     (odsCell ('$' :: c!"Characters"), odsCell (sceneChars n s).1, [(sceneChars n s).1]),
     (odsCell ('$' :: c!"Locations"), odsCell locs, [locs]),
     (odsCellWith [] ('$' :: c!"Items"), odsCellWith [] items, [items])]
  have hcells : ∀ p ∈ cells, RowCell m p := by
    simp only [cells, List.mem_cons, List.not_mem_nil, or_false, forall_eq_or_imp, forall_eq]
    refine ⟨?_, ?_, ?_, ?_, ?_, ?_, ?_, ?_, ?_, ?_, ?_, ?_, ?_, ?_, ?_, ?_, ?_, ?_, ?_, ?_, ?_⟩
    · refine rowCell_link ?_ ?_ ?_ (linkPath_plain hl.1) (fun c hc => ⟨(hl.2 c hc).1, by intro hb; have := hl.2 c hc; simp only [xmlBlank, Bool.or_eq_true, decide_eq_true_eq, this.2.2.1, this.2.2.2, or_false] at hb; exact hb, (hl.2 c hc).2.1⟩) hid
      · rw [oth _ (by decide) (by decide) (by decide) (by decide), ← h1]; rfl
      · rw [oth _ (by decide) (by decide) (by decide) (by decide), ← h1, ← hpn]; rfl
      · rw [oth _ (by decide) (by decide) (by decide) (by decide), ← h1]; rfl
    · exact rowCell_conv (by decide) (by rw [oth _ (by decide) (by decide) (by decide) (by decide), ← h1]; rfl) hx.title
    · exact rowCell_conv (by decide) (by rw [oth _ (by decide) (by decide) (by decide) (by decide), ← h1]; rfl) hx.desc
    · exact rowCell_conv (by decide) (by rw [oth _ (by decide) (by decide) (by decide) (by decide), ← h1]; rfl) xt
    · exact rowCell_conv (by decide) (by rw [oth _ (by decide) (by decide) (by decide) (by decide), ← h1]; rfl) hx.notes
    · exact rowCell_plain (by decide) (by rw [oth _ (by decide) (by decide) (by decide) (by decide), ← h1]; rfl) hrs
    · exact rowCell_conv (by decide) (by rw [oth _ (by decide) (by decide) (by decide) (by decide), ← h1]; rfl) hx.goal
    · exact rowCell_conv (by decide) (by rw [oth _ (by decide) (by decide) (by decide) (by decide), ← h1]; rfl) hx.conflict
    · exact rowCell_conv (by decide) (by rw [oth _ (by decide) (by decide) (by decide) (by decide), ← h1]; rfl) hx.outcome
    · refine rowCell_number (by decide) ?_ (dn _).1 (dn _).2
      rw [oth _ (by decide) (by decide) (by decide) (by decide), ← h1]
      show some (dispNumber (before ++ [(id, s)]).length) = _
      rw [List.length_append]; rfl
    · exact rowCell_number (by decide) (by rw [oth _ (by decide) (by decide) (by decide) (by decide), ← h1]; rfl) (dn _).1 (dn _).2
    · exact rowCell_number (by decide) f1 r1.1 r1.2
    · exact rowCell_number (by decide) f2 r2.1 r2.2
    · exact rowCell_number (by decide) f3 r3.1 r3.2
    · exact rowCell_number (by decide) f4 r4.1 r4.2
    · exact rowCell_number (by decide) (by rw [oth _ (by decide) (by decide) (by decide) (by decide), ← h1]; rfl) (dn _).1 (dn _).2
    · exact rowCell_number (by decide) (by rw [oth _ (by decide) (by decide) (by decide) (by decide), ← h1]; rfl) (dn _).1 (dn _).2
    · exact rowCell_plain (by decide) (by rw [oth _ (by decide) (by decide) (by decide) (by decide), ← h1]; rfl) hst
    · exact rowCell_plain (by decide) (by rw [oth _ (by decide) (by decide) (by decide) (by decide), ← h1]; rfl) (by rw [echars]; exact hx.characters)
    · exact rowCell_plain (by decide) (by rw [oth _ (by decide) (by decide) (by decide) (by decide), ← h1]; rfl) (by rw [elocs]; exact hx.locations)
    · exact rowCell_bare (by decide) (by rw [oth _ (by decide) (by decide) (by decide) (by decide), ← h1]; rfl) (by rw [eitems]; exact hx.items)
  have hrow := rowOf (m := m) (items := cells) (e := c!"    ") (st := c!"table:table-row table:style-name=\"ro2\">")
    (as := [(c!"table:style-name", c!"ro2")]) 3 rfl (by decide) (by decide) (by decide) (by decide) (by simp [cells]) hcells
    (fun a0 => ⟨[], List.replicate 4 ' ' ++ a0, saxRun_blank 4 a0⟩)
  have ht : sceneListRow = List.replicate 3 ' ' ++ '<' :: (c!"table:table-row table:style-name=\"ro2\">" ++ c!"\n" ++ ((cells.map (·.1)).flatten ++
    (c!"    " ++ '<' :: c!"/table:table-row>\n\n"))) := rfl
  simp only at hrow
  rw [← ht] at hrow
  refine ⟨?_, hrow.2⟩
  have e2 : cells.map (fun p => Str.join c!"\n" p.2.2) = sceneCells n before (id, s) := by
    simp only [cells, List.map_cons, List.map_nil, join_nl, shown_tags, echars, elocs, eitems, estatus]
    rfl
  rw [← e2]
  exact hrow.1

/-- The beginning of the scene list up to the header row. -/
def scenePrefix : Str :=
  odsHeader ++ odsTableStart c!"Scene list" ++
  [c!"co1", c!"co3", c!"co4", c!"co3", c!"co4", c!"co1", c!"co4", c!"co4", c!"co4", c!"co1", c!"co1", c!"co1", c!"co1", c!"co1", c!"co1",
   c!"co1", c!"co1", c!"co2", c!"co2", c!"co3", c!"co3", c!"co3"].flatMap odsColumn

set_option maxRecDepth 100000 in
theorem sceneHead_ok : headOk scenePrefix 21 [] = true := by decide +kernel

set_option maxRecDepth 100000 in
theorem sceneHead_lit : '$' ∉ scenePrefix := by decide +kernel

set_option maxRecDepth 100000 in
theorem headEnd_renders (a0 : Str) : ∃ ns a1, Renders
    c!"     <table:table-cell table:style-name=\"Heading\" table:number-columns-repeated=\"1003\"/>\n    " a0 ns a1 := by
  have hb : Renders c!"     " a0 [] (List.replicate 5 ' ' ++ a0) := saxRun_blank 5 a0
  have h : saxRun .lt c!"table:table-cell table:style-name=\"Heading\" table:number-columns-repeated=\"1003\"/>\n    " =
      (.text c!"    \n", [.start c!"table:table-cell" [(c!"table:style-name", c!"Heading"), (c!"table:number-columns-repeated", c!"1003")],
        .stop c!"table:table-cell"]) := rfl
  exact ⟨_, _, hb.append (Renders.empty (a0 := List.replicate 5 ' ' ++ a0) h)⟩

/-- The template of the header row. -/
def sceneHeadRow : Str := c!"    <table:table-row table:style-name=\"ro1\">\n" ++ sceneTitles.flatMap odsHeading ++ odsHeadingEnd c!"1003"

theorem sceneListHeader_eq : sceneListHeader = scenePrefix ++ sceneHeadRow := by
  unfold sceneListHeader scenePrefix sceneHeadRow
  generalize odsHeader = x1
  generalize odsTableStart c!"Scene list" = x2
  generalize c!"    <table:table-row table:style-name=\"ro1\">\n" = x3
  generalize sceneTitles.flatMap odsHeading = x4
  generalize odsHeadingEnd c!"1003" = x5
  simp only [List.append_assoc]

set_option maxRecDepth 100000 in
/-- The header row. -/
theorem sceneHeadRow_marks {m : Mapping} {n : Novel} (h1 : m.get? c!"FieldTitle1" = some (odsConvert n.fieldTitle1))
    (h2 : m.get? c!"FieldTitle2" = some (odsConvert n.fieldTitle2)) (h3 : m.get? c!"FieldTitle3" = some (odsConvert n.fieldTitle3))
    (h4 : m.get? c!"FieldTitle4" = some (odsConvert n.fieldTitle4)) (x1 : CarriableO n.fieldTitle1) (x2 : CarriableO n.fieldTitle2)
    (x3 : CarriableO n.fieldTitle3) (x4 : CarriableO n.fieldTitle4) :
    RowMark 21 (Template.subst sceneHeadRow m) (sceneHeads n) ∧ '\r' ∉ Template.subst sceneHeadRow m := by
  let title (v : Str) : Str × Str × List Str := (odsHeading v, odsHeading v, [v])
  let field (name : Str) (t : Option Str) : Str × Str × List Str := (odsHeading ('$' :: name), odsHeading (odsConvert t), Str.split (shown t) c!"\n")
  let cells : List (Str × Str × List Str) :=
    [title c!"Scene link", title c!"Scene title", title c!"Scene description", title c!"Tags", title c!"Scene notes", title c!"A/R",
     title c!"Goal", title c!"Conflict", title c!"Outcome", title c!"Scene", title c!"Words total", field c!"FieldTitle1" n.fieldTitle1,
     field c!"FieldTitle2" n.fieldTitle2, field c!"FieldTitle3" n.fieldTitle3, field c!"FieldTitle4" n.fieldTitle4, title c!"Word count",
     title c!"Letter count", title c!"Status", title c!"Characters", title c!"Locations", title c!"Items"]
  have ht : ∀ v ∈ [c!"Scene link", c!"Scene title", c!"Scene description", c!"Tags", c!"Scene notes", c!"A/R", c!"Goal", c!"Conflict",
      c!"Outcome", c!"Scene", c!"Words total", c!"Word count", c!"Letter count", c!"Status", c!"Characters", c!"Locations", c!"Items"],
      '$' ∉ odsHeading v ∧ v.all plainChar = true ∧ '\r' ∉ v := by decide +kernel
  have hT : ∀ v ∈ [c!"Scene link", c!"Scene title", c!"Scene description", c!"Tags", c!"Scene notes", c!"A/R", c!"Goal", c!"Conflict",
      c!"Outcome", c!"Scene", c!"Words total", c!"Word count", c!"Letter count", c!"Status", c!"Characters", c!"Locations", c!"Items"],
      RowCell m (title v) := fun v hv => rowCell_title (ht v hv).1 (ht v hv).2.1 (ht v hv).2.2
  have hcells : ∀ p ∈ cells, RowCell m p := by
    simp only [cells, List.mem_cons, List.not_mem_nil, or_false, forall_eq_or_imp, forall_eq]
    refine ⟨hT _ (by decide), hT _ (by decide), hT _ (by decide), hT _ (by decide), hT _ (by decide), hT _ (by decide), hT _ (by decide),
      hT _ (by decide), hT _ (by decide), hT _ (by decide), hT _ (by decide), rowCell_heading (by decide) h1 x1, rowCell_heading (by decide) h2 x2,
      rowCell_heading (by decide) h3 x3, rowCell_heading (by decide) h4 x4, hT _ (by decide), hT _ (by decide), hT _ (by decide), hT _ (by decide),
      hT _ (by decide), hT _ (by decide)⟩
  have hrow := rowOf (m := m) (items := cells)
    (e := c!"     <table:table-cell table:style-name=\"Heading\" table:number-columns-repeated=\"1003\"/>\n    ")
    (st := c!"table:table-row table:style-name=\"ro1\">")
    (as := [(c!"table:style-name", c!"ro1")]) 4 rfl (by decide) (by decide) (by decide) (by decide) (by simp [cells]) hcells headEnd_renders
  have ht : sceneHeadRow = List.replicate 4 ' ' ++ '<' :: (c!"table:table-row table:style-name=\"ro1\">" ++ c!"\n" ++ ((cells.map (·.1)).flatten ++
    (c!"     <table:table-cell table:style-name=\"Heading\" table:number-columns-repeated=\"1003\"/>\n    " ++ '<' :: c!"/table:table-row>\n\n"))) := rfl
  simp only at hrow
  rw [← ht] at hrow
  refine ⟨?_, hrow.2⟩
  have e2 : cells.map (fun p => Str.join c!"\n" p.2.2) = sceneHeads n := by
    simp only [cells, title, field, List.map_cons, List.map_nil, join_nl]
    rfl
  rw [← e2]
  exact hrow.1

theorem sceneRows_marks {e : DocEnv} (hl : LinkTarget e.projectPath e.projectName) {n : Novel} : ∀ (l before : List (Str × Scene)),
    (∀ p ∈ l, n.scenes.get? p.1 = some p.2 ∧ ∃ k w c m, (odsSceneList e).sceneMapping n p.1 k w c = .ok m) →
    (∀ p ∈ l, (∀ c ∈ p.1, Digit c) ∧ SceneCarriable n p.2) →
    ∃ rows : List (Str × List Str), rows.map (·.1) = rowTexts (odsSceneList e) n before l ∧ rows.map (·.2) = sceneTable n before l ∧
      ∀ p ∈ rows, (RowMark 21 p.1 p.2 ∧ p.2 ≠ []) ∧ '\r' ∉ p.1 := by
  intro l
  induction l with
  | nil => intro _ _ _; exact ⟨[], rfl, rfl, by simp⟩
  | cons p l ih =>
    intro before h1 h2
    obtain ⟨rows, r1, r2, r3⟩ := ih (before ++ [p]) (fun q hq => h1 q (by simp [hq])) (fun q hq => h2 q (by simp [hq]))
    obtain ⟨hs, k, w, c, m, hm⟩ := h1 p (by simp)
    have hok : ∃ m', (odsSceneList e).sceneMapping n p.1 (before ++ [p]).length (total (·.wordCount) (before ++ [p]))
        (total (·.letterCount) (before ++ [p])) = .ok m' := by
      obtain ⟨m1, g1, hm⟩ := bind_ok (a := e.odsBase.scene n p.1 k w c) hm
      obtain ⟨s, hs', hm⟩ := bind_ok hm
      unfold Base.scene at g1
      obtain ⟨s2, hs2, g1⟩ := bind_ok g1
      obtain ⟨locs, hlocs, g1⟩ := bind_ok g1
      obtain ⟨items, hitems, g1⟩ := bind_ok g1
      obtain ⟨status, hstatus, g1⟩ := bind_ok g1
      cases hc : (odsSceneList e).sceneMapping n p.1 (before ++ [p]).length (total (·.wordCount) (before ++ [p]))
        (total (·.letterCount) (before ++ [p])) with
      | ok m' => exact ⟨m', rfl⟩
      | error x =>
        change (e.odsBase.scene n p.1 _ _ _ >>= _) = _ at hc
        unfold Base.scene at hc
        rw [hs2] at hc
        simp only [Bind.bind, Except.bind, hlocs, hitems, hstatus] at hc
        cases hc
    obtain ⟨m', hm'⟩ := hok
    obtain ⟨g1, g2⟩ := sceneRow hl hs (h2 p (by simp)).1 (h2 p (by simp)).2 hm'
    refine ⟨(Template.subst sceneListRow m', sceneCells n before p) :: rows, ?_, by simp [r2, sceneTable], ?_⟩
    · rw [List.map_cons, rowTexts, r1, hm']
      rfl
    · intro q hq
      rcases List.mem_cons.mp hq with rfl | hq
      · exact ⟨⟨g1, by simp [sceneCells]⟩, g2⟩
      · exact r3 q hq

/-- C32 for scene lists: the document that is written is well-formed, and a reader gets the header row (with the project's titles for the
ratings) and one row for every exported scene in narrative order, with as many cells as the header row and the texts of the scene. -/
theorem C32_scenes_partial {e : DocEnv} {n : Novel} {text : Str} (hw : getText (odsSceneList e) n = .ok text) (hn : Inherits n) (hl : LinkTarget e.projectPath e.projectName)
    (hf : CarriableO n.fieldTitle1 ∧ CarriableO n.fieldTitle2 ∧ CarriableO n.fieldTitle3 ∧ CarriableO n.fieldTitle4)
    (hx : ∀ p ∈ exported n n.srtChapters, (∀ c ∈ p.1, Digit c) ∧ SceneCarriable n p.2) :
    ∃ root, parseDoc text = some root ∧ readTable 21 root = .ok (sceneHeads n :: sceneTable n [] (exported n n.srtChapters)) := by
  unfold getText at hw
  obtain ⟨header, h1, hw⟩ := bind_ok hw
  obtain ⟨chapters, h2, hw⟩ := bind_ok hw
  obtain ⟨chars, h3, hw⟩ := bind_ok hw
  obtain ⟨locs, h4, hw⟩ := bind_ok hw
  obtain ⟨items, h5, hw⟩ := bind_ok hw
  obtain ⟨notes, h6, hw⟩ := bind_ok hw
  injection hw with hw
  have e3 := elementLines_empty h3
  have e4 := elementLines_empty h4
  have e5 := elementLines_empty h5
  have e6 := elementLines_empty h6
  have hmt : ManuscriptTemplates (odsSceneList e).toTemplates := by constructor <;> rfl
  have e2 := getChapters_spec hmt hn h2
  have e2' : chapters.flatten = (rowTexts (odsSceneList e) n [] (exported n n.srtChapters)).flatten := by
    rw [e2]; exact manuscript_rows rfl rfl rfl rfl rfl n n.srtChapters []
  have hmaps := chaptersLoop_maps hmt n.srtChapters (fun chId hc ch hch hs id hid s hsc => hn chId ch id s hc hch hs hid hsc) _ _ _ h2
  obtain ⟨rows, r1, r2, r3⟩ := sceneRows_marks hl (exported n n.srtChapters) [] hmaps hx
  obtain ⟨hm, hm0, h1⟩ := bind_ok h1
  injection h1 with h1
  have hm0' : e.odsBase.header n = .ok hm := hm0
  injection hm0' with hm0'
  have ehead : header.flatten = scenePrefix ++ Template.subst sceneHeadRow hm := by
    subst h1
    rw [List.flatten_singleton]
    show Template.subst sceneListHeader hm = _
    rw [sceneListHeader_eq, Template.subst_lit sceneHead_lit]
  obtain ⟨g1, g2⟩ := sceneHeadRow_marks (m := hm) (n := n) (by rw [← hm0']; rfl) (by rw [← hm0']; rfl) (by rw [← hm0']; rfl) (by rw [← hm0']; rfl)
    hf.1 hf.2.1 hf.2.2.1 hf.2.2.2
  have hall : ∀ p ∈ (Template.subst sceneHeadRow hm, sceneHeads n) :: rows, (RowMark 21 p.1 p.2 ∧ p.2 ≠ []) ∧ '\r' ∉ p.1 := by
    intro q hq
    rcases List.mem_cons.mp hq with rfl | hq
    · exact ⟨⟨g1, by simp [sceneHeads]⟩, g2⟩
    · exact r3 q hq
  obtain ⟨root, p1, p2⟩ := sheet_reads sceneHead_ok (rows := (Template.subst sceneHeadRow hm, sceneHeads n) :: rows) (fun p hp => (hall p hp).1)
    (fun p hp => (hall p hp).2)
  refine ⟨root, ?_, ?_⟩
  · have ht : text = scenePrefix ++ ((((Template.subst sceneHeadRow hm, sceneHeads n) :: rows).map (·.1)).flatten ++ odsFooter) := by
      rw [← hw]
      show (header ++ chapters ++ ([] ++ chars) ++ ([] ++ locs) ++ ([] ++ items) ++ notes ++ [odsFooter]).flatten = _
      rw [List.map_cons, List.flatten_cons, r1]
      simp only [List.nil_append, List.flatten_append, ehead, e2', e3, e4, e5, e6, List.append_nil, List.flatten_singleton, List.append_assoc]
    rw [ht]; exact p1
  · rw [List.nil_append, List.map_cons, r2] at p2
    unfold readTable
    rw [p2]
    simp only [Bind.bind, Except.bind]
    rw [if_pos]
    have hlen : ∀ (l before : List (Str × Scene)), (sceneTable n before l).all (fun row => row.length = 21) = true := by
      intro l
      induction l with
      | nil => intro _; rfl
      | cons p l ih => intro before; simp [sceneTable, ih, sceneCells]
    rw [List.all_cons, hlen]
    rfl

/-! ### A scene list that meets the hypotheses -/

/-- A novel with one exported scene, in a location whose name is given. -/
def demoScenes (place : Str) : Novel :=
  { fieldTitle1 := some c!"A & B",
    chapters := [(c!"1", { title := some c!"C", srtScenes := [c!"2", c!"3"] })], srtChapters := [c!"1"],
    scenes := [(c!"2", { title := some c!"<T>\nx", field1 := some c!"1", field2 := some c!"7", status := some 2, locations := some [c!"5"] }),
      (c!"3", { title := some c!"U", scType := some 3, status := some 1 })],
    locations := [(c!"5", { title := some place })], srtLocations := [c!"5"] }

/-- The environment of the demonstration. -/
def demoListEnv : DocEnv := { projectName := c!"my & novel", projectPath := c!"/d%20e", contentHeader := fun _ => [] }

set_option maxRecDepth 100000 in
/-- All hypotheses of `C32_scenes_partial` hold for the demonstration. -/
theorem demoScenes_written : ∃ text, getText (odsSceneList demoListEnv) (demoScenes c!"Rome") = .ok text ∧
    ∃ root, parseDoc text = some root ∧ (readTable 21 root).toOption.map (fun rows => rows.map (fun r => (r.take 3, r.drop 11))) = some
      [([c!"Scene link", c!"Scene title", c!"Scene description"], [c!"A & B", [], [], [], c!"Word count", c!"Letter count", c!"Status", c!"Characters", c!"Locations", c!"Items"]),
       ([c!"ScID:2", c!"<T>\nx", []], [[], c!"7", c!"None", c!"None", c!"0", c!"0", c!"Draft", [], c!"Rome", []])] := by
  have hm : ∃ text, getText (odsSceneList demoListEnv) (demoScenes c!"Rome") = .ok text := ⟨_, rfl⟩
  obtain ⟨text, ht⟩ := hm
  refine ⟨text, ht, ?_⟩
  have hex : exported (demoScenes c!"Rome") (demoScenes c!"Rome").srtChapters = [(c!"2", { title := some c!"<T>\nx", field1 := some c!"1", field2 := some c!"7", status := some 2, locations := some [c!"5"] })] := by decide +kernel
  obtain ⟨root, h1, h2⟩ := C32_scenes_partial ht (by
      intro chId ch scId s h1 h2 h3 h4 h5
      simp only [demoScenes, List.mem_cons, List.not_mem_nil, or_false] at h1
      subst h1
      injection h2 with h2
      subst h2
      cases h3)
    ⟨by decide, by decide⟩ ⟨by intro d hd; revert d; decide, trivial, trivial, trivial⟩ (by
      rw [hex]
      intro p hp
      simp only [List.mem_cons, List.not_mem_nil, or_false] at hp
      subst hp
      refine ⟨by unfold Digit; decide, ?_⟩
      constructor
      · intro d hd; revert d; decide
      · trivial
      · trivial
      · trivial
      · trivial
      · trivial
      · intro t ht; cases ht
      · intro f hf t ht
        subst ht
        simp only [List.mem_cons, List.not_mem_nil, or_false, Option.some.injEq, reduceCtorEq] at hf
        rcases hf with rfl | rfl <;> (unfold Digit; decide)
      · intro d hd; revert d; decide
      · intro d hd; revert d; decide
      · intro d hd; revert d; decide)
  refine ⟨root, h1, ?_⟩
  rw [h2, hex]
  decide +kernel

set_option maxRecDepth 100000 in
/-- The restriction on the names of characters, locations and items is necessary: they are inserted as they are. A scene list with a
location named `A & B` is not well-formed, so that a spreadsheet program cannot open it. -/
theorem C32_scenes_names : ((getText (odsSceneList demoListEnv) (demoScenes c!"A & B")).toOption.map (fun t => (parseDoc t).isNone)) = some true := by
  decide +kernel

end Verif
