/-
C49: the location and item sheets and back.
-/
import Verif.Lemmas.Sheets3
import Verif.Props.C29_Succeeds

namespace Verif
open Spec Re Template

/-- The title and the author of the project can be in a document. -/
def Spec.TitleFits (n : Novel) : Prop := CarriableO n.title ∧ CarriableO n.authorName

theorem sheet_header (name path : Str) (n : Novel) {x : Exporter} (hx : x.headerMapping = headerWith (plainEnv name path) (plainEnv name path).plainBase)
    (hf : x.fileHeader = titleTemplate) (ht : TitleFits n) {l : List Str} (hl : getFileHeader x n = .ok l) :
    l.flatten = formattedHeader [] ++ ((c!"<text:p text:style-name=\"Title\">" ++ ((n.title.getD []).flatMap escChar ++ c!"</text:p>\n")) ++
      (c!"<text:p text:style-name=\"Subtitle\">" ++ ((n.authorName.getD []).flatMap escChar ++ c!"</text:p>\n"))) := by
  unfold getFileHeader at hl
  rw [hx, hf] at hl
  obtain ⟨m, hm, hl⟩ := bind_ok hl
  injection hl with hl
  rw [← hl, List.flatten_cons, List.flatten_nil, List.append_nil]
  unfold headerWith at hm
  obtain ⟨m0, hm0, hm⟩ := bind_ok hm
  injection hm0 with hm0
  injection hm with hm
  subst hm
  refine subst_title ?_ ?_ ?_
  · rw [Dict.get?_set_self]
    rfl
  · rw [get?_set_other (by decide), ← hm0, ← (odtConvert_title ht.1).1]
    rfl
  · rw [get?_set_other (by decide), ← hm0, ← (odtConvert_title ht.2).1]
    rfl

theorem title_cr {n : Novel} (ht : TitleFits n) : '\r' ∉ formattedHeader [] ++ ((c!"<text:p text:style-name=\"Title\">" ++ ((n.title.getD []).flatMap escChar ++ c!"</text:p>\n")) ++
      (c!"<text:p text:style-name=\"Subtitle\">" ++ ((n.authorName.getD []).flatMap escChar ++ c!"</text:p>\n"))) := by
  have h1 := esc_cr (odtConvert_title ht.1).2
  have h2 := esc_cr (odtConvert_title ht.2).2
  simp only [List.mem_append, not_or]
  exact ⟨head_cr, ⟨by decide, h1, by decide⟩, by decide, h2, by decide⟩

/-- A document with a title, an author and sheets is read as the sheets are. -/
theorem read_sheets {h : Reader} {n m m' : Novel} {body text : Str} {r' : Rd} (ht : TitleFits n) (hd : Deaf h { novel := m }) (hcr : '\r' ∉ body)
    (htext : text = formattedHeader [] ++ (((c!"<text:p text:style-name=\"Title\">" ++ ((n.title.getD []).flatMap escChar ++ c!"</text:p>\n")) ++
      (c!"<text:p text:style-name=\"Subtitle\">" ++ ((n.authorName.getD []).flatMap escChar ++ c!"</text:p>\n"))) ++ (body ++ contentFooter)))
    (hb : ∀ cm acc, ∃ cm' acc', Fed h body acc (idleP [] cm) { novel := m } acc' (idleP [] cm') r') (hn : r'.novel = m') :
    ∃ evs, saxEvents text = some evs ∧ ∀ st info a b, stylesCalls st = .ok a → infoCalls info = .ok b → readOdt h ⟨st, info, evs⟩ m = .ok m' := by
  subst htext
  refine read_sheet hd (Mute.esc (odtConvert_title ht.1).2) (Mute.esc (odtConvert_title ht.2).2) hb hn ?_
  have h1 := title_cr ht
  rw [← List.append_assoc, List.mem_append, not_or]
  refine ⟨h1, ?_⟩
  rw [List.mem_append, not_or]
  exact ⟨hcr, by decide⟩

theorem wr_deaf (w : WorldKind) (m : Novel) : Deaf (worldReader w) { novel := m } := by
  refine ⟨?_, fun _ => rfl, fun _ _ => rfl⟩
  intro t as h1 h2
  show weStart w { novel := m } t as = _
  unfold weStart
  rw [if_neg h1, if_neg h2]

/-- The text of the location sheets. -/
theorem locations_text (name path : Str) {n : Novel} {text : Str} (hw : getText (odtLocations (plainEnv name path)) n = .ok text) (ht : TitleFits n)
    (hx : ElementsFit n.srtLocations n.locations) :
    text = formattedHeader [] ++ (((c!"<text:p text:style-name=\"Title\">" ++ ((n.title.getD []).flatMap escChar ++ c!"</text:p>\n")) ++
      (c!"<text:p text:style-name=\"Subtitle\">" ++ ((n.authorName.getD []).flatMap escChar ++ c!"</text:p>\n"))) ++
      (n.srtLocations.flatMap (fun id => elementText locationKind.mark id ((n.locations.get? id).getD {})) ++ contentFooter)) := by
  unfold getText at hw
  obtain ⟨header, h1, hw⟩ := bind_ok hw
  obtain ⟨chapters, h2, hw⟩ := bind_ok hw
  obtain ⟨chars, h3, hw⟩ := bind_ok hw
  obtain ⟨locs, h4, hw⟩ := bind_ok hw
  obtain ⟨items, h5, hw⟩ := bind_ok hw
  obtain ⟨notes, h6, hw⟩ := bind_ok hw
  injection hw with hw
  have e1 := sheet_header name path n rfl rfl ht h1
  have e2 : chapters.flatten = [] := chaptersLoop_empty (x := odtLocations (plainEnv name path)) (by constructor <;> rfl) _ _ _ _ h2
  have e3 := elementLines_empty h3
  have e5 := elementLines_empty h5
  have e6 := elementLines_empty h6
  have e4 := elements_lines (.inl rfl) (plainEnv name path) n (d := n.locations) (by
    intro id x hx
    show (((plainEnv name path).plainBase.location n id) >>= fun m => _) = _
    unfold Base.location
    rw [Dict.get!_of hx]
    rfl) n.srtLocations hx h4
  rw [← hw]
  show (header ++ chapters ++ ([] ++ chars) ++ ([] ++ locs) ++ ([] ++ items) ++ notes ++ [contentFooter]).flatten = _
  simp only [List.nil_append, List.flatten_append, e1, e2, e3, e4, e5, e6, List.append_nil, List.flatten_singleton, List.append_assoc]
  rfl

/-- Reading the location sheets of a project. -/
theorem read_locations (name path : Str) {n : Novel} {text : Str} (hw : getText (odtLocations (plainEnv name path)) n = .ok text) (ht : TitleFits n)
    (hx : ElementsFit n.srtLocations n.locations) : ∃ evs, saxEvents text = some evs ∧ ∀ m st info a b, stylesCalls st = .ok a → infoCalls info = .ok b →
      readOdt (worldReader locationKind) ⟨st, info, evs⟩ m = .ok (sheetsBack locationKind n.locations n.srtLocations m) := by
  have htext := locations_text name path hw ht hx
  have key : ∀ m, ∃ evs, saxEvents text = some evs ∧ ∀ st info a b, stylesCalls st = .ok a → infoCalls info = .ok b →
      readOdt (worldReader locationKind) ⟨st, info, evs⟩ m = .ok (sheetsBack locationKind n.locations n.srtLocations m) := by
    intro m
    refine read_sheets ht (wr_deaf _ m) (elements_cr (.inl rfl) n.srtLocations hx) htext ?_ (r' := wr (sheetsBack locationKind n.locations n.srtLocations m) [] none) rfl
    intro cm acc
    obtain ⟨acc', f⟩ := Fed.elements (ls := []) (w := locationKind) (.inl rfl) n.srtLocations hx m cm acc
    exact ⟨cm, acc', f⟩
  obtain ⟨evs, g1, _⟩ := key {}
  refine ⟨evs, g1, ?_⟩
  intro m
  obtain ⟨evs', g1', g2'⟩ := key m
  rw [g1] at g1'
  injection g1' with g1'
  subst g1'
  exact g2'

/-- The text of the item sheets. -/
theorem items_text (name path : Str) {n : Novel} {text : Str} (hw : getText (odtItems (plainEnv name path)) n = .ok text) (ht : TitleFits n)
    (hx : ElementsFit n.srtItems n.items) :
    text = formattedHeader [] ++ (((c!"<text:p text:style-name=\"Title\">" ++ ((n.title.getD []).flatMap escChar ++ c!"</text:p>\n")) ++
      (c!"<text:p text:style-name=\"Subtitle\">" ++ ((n.authorName.getD []).flatMap escChar ++ c!"</text:p>\n"))) ++
      (n.srtItems.flatMap (fun id => elementText itemKind.mark id ((n.items.get? id).getD {})) ++ contentFooter)) := by
  unfold getText at hw
  obtain ⟨header, h1, hw⟩ := bind_ok hw
  obtain ⟨chapters, h2, hw⟩ := bind_ok hw
  obtain ⟨chars, h3, hw⟩ := bind_ok hw
  obtain ⟨locs, h4, hw⟩ := bind_ok hw
  obtain ⟨items, h5, hw⟩ := bind_ok hw
  obtain ⟨notes, h6, hw⟩ := bind_ok hw
  injection hw with hw
  have e1 := sheet_header name path n rfl rfl ht h1
  have e2 : chapters.flatten = [] := chaptersLoop_empty (x := odtItems (plainEnv name path)) (by constructor <;> rfl) _ _ _ _ h2
  have e3 := elementLines_empty h3
  have e4 := elementLines_empty h4
  have e6 := elementLines_empty h6
  have e5 := elements_lines (.inr rfl) (plainEnv name path) n (d := n.items) (by
    intro id x hx
    show (((plainEnv name path).plainBase.item n id) >>= fun m => _) = _
    unfold Base.item
    rw [Dict.get!_of hx]
    rfl) n.srtItems hx h5
  rw [← hw]
  show (header ++ chapters ++ ([] ++ chars) ++ ([] ++ locs) ++ ([] ++ items) ++ notes ++ [contentFooter]).flatten = _
  simp only [List.nil_append, List.flatten_append, e1, e2, e3, e4, e5, e6, List.append_nil, List.flatten_singleton, List.append_assoc]
  rfl

/-- Reading the item sheets of a project. -/
theorem read_items (name path : Str) {n : Novel} {text : Str} (hw : getText (odtItems (plainEnv name path)) n = .ok text) (ht : TitleFits n)
    (hx : ElementsFit n.srtItems n.items) : ∃ evs, saxEvents text = some evs ∧ ∀ m st info a b, stylesCalls st = .ok a → infoCalls info = .ok b →
      readOdt (worldReader itemKind) ⟨st, info, evs⟩ m = .ok (sheetsBack itemKind n.items n.srtItems m) := by
  have htext := items_text name path hw ht hx
  have key : ∀ m, ∃ evs, saxEvents text = some evs ∧ ∀ st info a b, stylesCalls st = .ok a → infoCalls info = .ok b →
      readOdt (worldReader itemKind) ⟨st, info, evs⟩ m = .ok (sheetsBack itemKind n.items n.srtItems m) := by
    intro m
    refine read_sheets ht (wr_deaf _ m) (elements_cr (.inr rfl) n.srtItems hx) htext ?_ (r' := wr (sheetsBack itemKind n.items n.srtItems m) [] none) rfl
    intro cm acc
    obtain ⟨acc', f⟩ := Fed.elements (ls := []) (w := itemKind) (.inr rfl) n.srtItems hx m cm acc
    exact ⟨cm, acc', f⟩
  obtain ⟨evs, g1, _⟩ := key {}
  refine ⟨evs, g1, ?_⟩
  intro m
  obtain ⟨evs', g1', g2'⟩ := key m
  rw [g1] at g1'
  injection g1' with g1'
  subst g1'
  exact g2'

/-- The text of the character sheets. -/
theorem characters_text (name path : Str) {n : Novel} {text : Str} (hw : getText (odtCharacters (plainEnv name path)) n = .ok text) (ht : TitleFits n)
    (hx : PersonsFit n.srtCharacters n.characters) :
    text = formattedHeader [] ++ (((c!"<text:p text:style-name=\"Title\">" ++ ((n.title.getD []).flatMap escChar ++ c!"</text:p>\n")) ++
      (c!"<text:p text:style-name=\"Subtitle\">" ++ ((n.authorName.getD []).flatMap escChar ++ c!"</text:p>\n"))) ++
      (n.srtCharacters.flatMap (fun id => personLine id ((n.characters.get? id).getD {})) ++ contentFooter)) := by
  unfold getText at hw
  obtain ⟨header, h1, hw⟩ := bind_ok hw
  obtain ⟨chapters, h2, hw⟩ := bind_ok hw
  obtain ⟨chars, h3, hw⟩ := bind_ok hw
  obtain ⟨locs, h4, hw⟩ := bind_ok hw
  obtain ⟨items, h5, hw⟩ := bind_ok hw
  obtain ⟨notes, h6, hw⟩ := bind_ok hw
  injection hw with hw
  have e1 := sheet_header name path n rfl rfl ht h1
  have e2 : chapters.flatten = [] := chaptersLoop_empty (x := odtCharacters (plainEnv name path)) (by constructor <;> rfl) _ _ _ _ h2
  have e4 := elementLines_empty h4
  have e5 := elementLines_empty h5
  have e6 := elementLines_empty h6
  have e3 := persons_lines (plainEnv name path) n n.srtCharacters hx h3
  rw [← hw]
  show (header ++ chapters ++ ([] ++ chars) ++ ([] ++ locs) ++ ([] ++ items) ++ notes ++ [contentFooter]).flatten = _
  simp only [List.nil_append, List.flatten_append, e1, e2, e3, e4, e5, e6, List.append_nil, List.flatten_singleton, List.append_assoc]

/-- Reading the character sheets of a project. -/
theorem read_characters (name path : Str) {n : Novel} {text : Str} (hw : getText (odtCharacters (plainEnv name path)) n = .ok text) (ht : TitleFits n)
    (hx : PersonsFit n.srtCharacters n.characters) : ∃ evs, saxEvents text = some evs ∧ ∀ m st info a b, stylesCalls st = .ok a → infoCalls info = .ok b →
      readOdt charactersReader ⟨st, info, evs⟩ m = .ok (charactersBack n.characters n.srtCharacters m) := by
  have htext := characters_text name path hw ht hx
  have key : ∀ m, ∃ evs, saxEvents text = some evs ∧ ∀ st info a b, stylesCalls st = .ok a → infoCalls info = .ok b →
      readOdt charactersReader ⟨st, info, evs⟩ m = .ok (charactersBack n.characters n.srtCharacters m) := by
    intro m
    refine read_sheets ht (cr_deaf m) (persons_cr n.srtCharacters hx) htext (r' := cr (charactersBack n.characters n.srtCharacters m) [] none (n.srtCharacters.foldl (fun _ i => some i) none)) ?_ rfl
    intro cm acc
    obtain ⟨acc', f⟩ := Fed.persons (ls := []) n.srtCharacters hx m none cm acc
    exact ⟨cm, acc', f⟩
  obtain ⟨evs, g1, _⟩ := key {}
  refine ⟨evs, g1, ?_⟩
  intro m
  obtain ⟨evs', g1', g2'⟩ := key m
  rw [g1] at g1'
  injection g1' with g1'
  subst g1'
  exact g2'

/-! ### C49 -/

/-- What reading sheets means for the elements: a listed element has the tidied description of the exported project, and is otherwise as
before (an element that did not exist is created); the other elements are as before. -/
def Spec.SheetsRead (ids : List Str) (exported before after : Dict WorldElement) : Prop :=
  ∀ id, after.get? id = if id ∈ ids then some { (before.get? id).getD {} with desc := tidyDesc ((exported.get? id).bind (·.desc)) } else before.get? id

/-- **C49, locations**: the location sheets of a project are a document, and reading it into any project gives every listed location its
description, up to blanks around the lines and white space at the end; if the project has these locations, nothing else changes.
Missing: alternate names with XML special characters, which break the document (see below). -/
theorem C49_locations_partial (name path : Str) (n : Novel) (text : Str) (hw : getText (odtLocations (plainEnv name path)) n = .ok text) (ht : TitleFits n)
    (hx : ElementsFit n.srtLocations n.locations) : ∃ evs, saxEvents text = some evs ∧ ∀ m st info a b, stylesCalls st = .ok a → infoCalls info = .ok b →
      ∃ m', readOdt (worldReader locationKind) ⟨st, info, evs⟩ m = .ok m' ∧ SheetsRead n.srtLocations n.locations m.locations m'.locations ∧
        ((∀ id ∈ n.srtLocations, id ∈ m.locations.keys) → m' = { m with locations := m'.locations } ∧ m'.locations.keys = m.locations.keys) := by
  obtain ⟨evs, h1, h2⟩ := read_locations name path hw ht hx
  refine ⟨evs, h1, ?_⟩
  intro m st info a b ha hb
  refine ⟨_, h2 m st info a b ha hb, fun id => sheetsBack_get (w := locationKind) (.inl rfl) n.locations n.srtLocations m id, ?_⟩
  intro hk
  obtain ⟨d, g1, g2⟩ := sheetsBack_frame (w := locationKind) (.inl rfl) n.locations n.srtLocations m (by
    intro id hid
    obtain ⟨x, hx⟩ := (Dict.mem_keys_iff _ _).1 (hk id hid)
    exact has_of hx)
  rw [g1]
  exact ⟨rfl, g2⟩

/-- **C49, items**: see `C49_locations_partial`. -/
theorem C49_items_partial (name path : Str) (n : Novel) (text : Str) (hw : getText (odtItems (plainEnv name path)) n = .ok text) (ht : TitleFits n)
    (hx : ElementsFit n.srtItems n.items) : ∃ evs, saxEvents text = some evs ∧ ∀ m st info a b, stylesCalls st = .ok a → infoCalls info = .ok b →
      ∃ m', readOdt (worldReader itemKind) ⟨st, info, evs⟩ m = .ok m' ∧ SheetsRead n.srtItems n.items m.items m'.items ∧
        ((∀ id ∈ n.srtItems, id ∈ m.items.keys) → m' = { m with items := m'.items } ∧ m'.items.keys = m.items.keys) := by
  obtain ⟨evs, h1, h2⟩ := read_items name path hw ht hx
  refine ⟨evs, h1, ?_⟩
  intro m st info a b ha hb
  refine ⟨_, h2 m st info a b ha hb, fun id => sheetsBack_get (w := itemKind) (.inr rfl) n.items n.srtItems m id, ?_⟩
  intro hk
  obtain ⟨d, g1, g2⟩ := sheetsBack_frame (w := itemKind) (.inr rfl) n.items n.srtItems m (by
    intro id hid
    obtain ⟨x, hx⟩ := (Dict.mem_keys_iff _ _).1 (hk id hid)
    exact has_of hx)
  rw [g1]
  exact ⟨rfl, g2⟩

/-- The listed elements have tidy descriptions. -/
def Spec.TidyElements (ids : List Str) (d : Dict WorldElement) : Prop := ∀ id ∈ ids, ∃ e t, d.get? id = some e ∧ e.desc = some t ∧ tidy t = t

/-- **C49, locations, unmodified**: exporting the location sheets and importing the unmodified document changes nothing, if the descriptions
are tidy. -/
theorem C49_locations_unmodified_partial (name path : Str) (n : Novel) (text : Str) (hw : getText (odtLocations (plainEnv name path)) n = .ok text) (ht : TitleFits n)
    (hx : ElementsFit n.srtLocations n.locations) (hd : TidyElements n.srtLocations n.locations) :
    ∃ evs, saxEvents text = some evs ∧ ∀ st info a b, stylesCalls st = .ok a → infoCalls info = .ok b → readOdt (worldReader locationKind) ⟨st, info, evs⟩ n = .ok n := by
  obtain ⟨evs, h1, h2⟩ := read_locations name path hw ht hx
  refine ⟨evs, h1, ?_⟩
  intro st info a b ha hb
  rw [h2 n st info a b ha hb]
  exact congrArg _ (sheetsBack_same (w := locationKind) (.inl rfl) n.srtLocations n hd)

/-- **C49, items, unmodified**: see `C49_locations_unmodified_partial`. -/
theorem C49_items_unmodified_partial (name path : Str) (n : Novel) (text : Str) (hw : getText (odtItems (plainEnv name path)) n = .ok text) (ht : TitleFits n)
    (hx : ElementsFit n.srtItems n.items) (hd : TidyElements n.srtItems n.items) :
    ∃ evs, saxEvents text = some evs ∧ ∀ st info a b, stylesCalls st = .ok a → infoCalls info = .ok b → readOdt (worldReader itemKind) ⟨st, info, evs⟩ n = .ok n := by
  obtain ⟨evs, h1, h2⟩ := read_items name path hw ht hx
  refine ⟨evs, h1, ?_⟩
  intro st info a b ha hb
  rw [h2 n st info a b ha hb]
  exact congrArg _ (sheetsBack_same (w := itemKind) (.inr rfl) n.srtItems n hd)

/-- **C49, characters**: the character sheets of a project are a document, and reading it into any project gives every listed character the
description, biography, goals and notes, up to blanks around the lines and white space at the end; if the project has these characters,
nothing else changes. Missing: alternate names and full names with XML special characters, which break the document (see below). -/
theorem C49_characters_partial (name path : Str) (n : Novel) (text : Str) (hw : getText (odtCharacters (plainEnv name path)) n = .ok text) (ht : TitleFits n)
    (hx : PersonsFit n.srtCharacters n.characters) : ∃ evs, saxEvents text = some evs ∧ ∀ m st info a b, stylesCalls st = .ok a → infoCalls info = .ok b →
      ∃ m', readOdt charactersReader ⟨st, info, evs⟩ m = .ok m' ∧
        (∀ id ∈ n.srtCharacters, ∀ c, n.characters.get? id = some c → m'.characters.get? id =
          some { (m.characters.get? id).getD {} with desc := tidyDesc c.desc, bio := tidyDesc c.bio, goals := tidyDesc c.goals, notes := tidyDesc c.notes }) ∧
        (∀ id, id ∉ n.srtCharacters → m'.characters.get? id = m.characters.get? id) ∧
        ((∀ id ∈ n.srtCharacters, id ∈ m.characters.keys) → m' = { m with characters := m'.characters } ∧ m'.characters.keys = m.characters.keys) := by
  obtain ⟨evs, h1, h2⟩ := read_characters name path hw ht hx
  refine ⟨evs, h1, ?_⟩
  intro m st info a b ha hb
  refine ⟨_, h2 m st info a b ha hb, ?_, ?_, ?_⟩
  · intro id hid c hc
    rw [charactersBack_get, if_pos hid, hc]
    rfl
  · intro id hid
    rw [charactersBack_get, if_neg hid]
  · intro hk
    obtain ⟨d, g1, g2⟩ := charactersBack_frame n.characters n.srtCharacters m (by
      intro id hid
      obtain ⟨x, hx⟩ := (Dict.mem_keys_iff _ _).1 (hk id hid)
      exact has_of hx)
    rw [g1]
    exact ⟨rfl, g2⟩

/-- **C49, characters, unmodified**: exporting the character sheets and importing the unmodified document changes nothing, if the texts are
tidy. -/
theorem C49_characters_unmodified_partial (name path : Str) (n : Novel) (text : Str) (hw : getText (odtCharacters (plainEnv name path)) n = .ok text) (ht : TitleFits n)
    (hx : PersonsFit n.srtCharacters n.characters)
    (hd : ∀ id ∈ n.srtCharacters, ∃ c, n.characters.get? id = some c ∧ tidyDesc c.desc = c.desc ∧ tidyDesc c.bio = c.bio ∧ tidyDesc c.goals = c.goals ∧ tidyDesc c.notes = c.notes) :
    ∃ evs, saxEvents text = some evs ∧ ∀ st info a b, stylesCalls st = .ok a → infoCalls info = .ok b → readOdt charactersReader ⟨st, info, evs⟩ n = .ok n := by
  obtain ⟨evs, h1, h2⟩ := read_characters name path hw ht hx
  refine ⟨evs, h1, ?_⟩
  intro st info a b ha hb
  rw [h2 n st info a b ha hb]
  exact congrArg _ (charactersBack_same n.srtCharacters n hd)

/-! ### The sheets are written -/

/-- Every listed character, location, item and project note exists. -/
structure Spec.AllThere (n : Novel) : Prop where
  characters : ∀ id ∈ n.srtCharacters, id ∈ n.characters.keys
  locations : ∀ id ∈ n.srtLocations, id ∈ n.locations.keys
  items : ∀ id ∈ n.srtItems, id ∈ n.items.keys
  notes : ∀ id ∈ n.srtPrjNotes, id ∈ n.projectNotes.keys

theorem elementLines_total {t : Str} {f : Str → Except Exc Mapping} (ids : List Str) (h : ∀ id ∈ ids, ∃ m, f id = .ok m) : ∃ l, elementLines t f ids = .ok l := by
  induction ids with
  | nil => exact ⟨[], rfl⟩
  | cons id ids ih =>
    obtain ⟨m, hm⟩ := h id (by simp)
    obtain ⟨l, hl⟩ := ih (fun i hi => h i (by simp [hi]))
    unfold elementLines
    rw [hm, hl]
    exact ⟨_, rfl⟩

theorem getText_total {x : Exporter} {n : Novel} (hn : Exportable n) (hm : TotalMappings x n) (hc : ∀ id ∈ n.srtCharacters, ∃ m, x.characterMapping n id = .ok m)
    (hl : ∀ id ∈ n.srtLocations, ∃ m, x.locationMapping n id = .ok m) (hi : ∀ id ∈ n.srtItems, ∃ m, x.itemMapping n id = .ok m)
    (hp : ∀ id ∈ n.srtPrjNotes, ∃ m, x.noteMapping n id = .ok m) : ∃ t, getText x n = .ok t := by
  obtain ⟨m, h0⟩ := hm.header
  obtain ⟨ls, h1⟩ := getChapters_total hn hm
  obtain ⟨a, h2⟩ := elementLines_total (t := x.character) _ hc
  obtain ⟨b, h3⟩ := elementLines_total (t := x.location) _ hl
  obtain ⟨c, h4⟩ := elementLines_total (t := x.item) _ hi
  obtain ⟨d, h5⟩ := elementLines_total (t := x.projectNote) _ hp
  unfold getText getFileHeader
  rw [h0, h1, h2, h3, h4, h5]
  exact ⟨_, rfl⟩

theorem sheet_mappings {e : DocEnv} {n : Novel} (hn : Exportable n) {x : Exporter} (h1 : x.headerMapping = headerWith e e.plainBase) (h2 : x.chapterMapping = e.plainBase.chapter)
    (h3 : x.sceneMapping = fun n id k w l => (e.plainBase.scene n id k w l >>= fun m => .ok (Dict.set m c!"sceneTitle" c!"Scene"))) : TotalMappings x n where
  header := by
    rw [h1]
    exact ⟨_, rfl⟩
  chapter id hid k := by
    obtain ⟨ch, hc⟩ := hn.chapters id hid
    rw [h2]
    exact e.plainBase.chapter_total hc k
  scene id hid k w l := by
    obtain ⟨m, hm⟩ := e.plainBase.scene_total hn hid k w l
    rw [h3]
    show ∃ m, (e.plainBase.scene n id k w l >>= fun m => _) = _
    rw [hm]
    exact ⟨_, rfl⟩

theorem character_total (b : Base) {n : Novel} {id : Str} (h : id ∈ n.characters.keys) : ∃ m, b.character n id = .ok m := by
  obtain ⟨x, hx⟩ := (Dict.mem_keys_iff _ _).1 h
  unfold Base.character
  rw [Dict.get!_of hx]
  exact ⟨_, rfl⟩

theorem location_total (b : Base) {n : Novel} {id : Str} (h : id ∈ n.locations.keys) : ∃ m, b.location n id = .ok m := by
  obtain ⟨x, hx⟩ := (Dict.mem_keys_iff _ _).1 h
  unfold Base.location
  rw [Dict.get!_of hx]
  exact ⟨_, rfl⟩

theorem item_total (b : Base) {n : Novel} {id : Str} (h : id ∈ n.items.keys) : ∃ m, b.item n id = .ok m := by
  obtain ⟨x, hx⟩ := (Dict.mem_keys_iff _ _).1 h
  unfold Base.item
  rw [Dict.get!_of hx]
  exact ⟨_, rfl⟩

theorem note_total (b : Base) {n : Novel} {id : Str} (h : id ∈ n.projectNotes.keys) : ∃ m, b.note n id = .ok m := by
  obtain ⟨x, hx⟩ := (Dict.mem_keys_iff _ _).1 h
  unfold Base.note
  rw [Dict.get!_of hx]
  exact ⟨_, rfl⟩

/-- **C49, the sheets are written**: for every consistent project, the character, location and item sheets are produced. -/
theorem C49_written (e : DocEnv) (n : Novel) (hn : Exportable n) (ha : AllThere n) :
    (∃ t, getText (odtCharacters e) n = .ok t) ∧ (∃ t, getText (odtLocations e) n = .ok t) ∧ (∃ t, getText (odtItems e) n = .ok t) := by
  refine ⟨getText_total hn (sheet_mappings (e := e) hn rfl rfl rfl) ?_ ?_ ?_ ?_, getText_total hn (sheet_mappings (e := e) hn rfl rfl rfl) ?_ ?_ ?_ ?_,
    getText_total hn (sheet_mappings (e := e) hn rfl rfl rfl) ?_ ?_ ?_ ?_⟩
  · intro id hid
    obtain ⟨m, hm⟩ := character_total e.plainBase (ha.characters id hid)
    obtain ⟨x, hx⟩ := (Dict.mem_keys_iff _ _).1 (ha.characters id hid)
    show ∃ m, (e.plainBase.character n id >>= fun m => (n.characters.get! id >>= fun c => _)) = _
    rw [hm, Dict.get!_of hx]
    exact ⟨_, rfl⟩
  · exact fun id hid => location_total e.plainBase (ha.locations id hid)
  · exact fun id hid => item_total e.plainBase (ha.items id hid)
  · exact fun id hid => note_total e.plainBase (ha.notes id hid)
  · exact fun id hid => character_total e.plainBase (ha.characters id hid)
  · intro id hid
    obtain ⟨m, hm⟩ := location_total e.plainBase (ha.locations id hid)
    obtain ⟨x, hx⟩ := (Dict.mem_keys_iff _ _).1 (ha.locations id hid)
    show ∃ m, (e.plainBase.location n id >>= fun m => (n.locations.get! id >>= fun c => _)) = _
    rw [hm, Dict.get!_of hx]
    exact ⟨_, rfl⟩
  · exact fun id hid => item_total e.plainBase (ha.items id hid)
  · exact fun id hid => note_total e.plainBase (ha.notes id hid)
  · exact fun id hid => character_total e.plainBase (ha.characters id hid)
  · exact fun id hid => location_total e.plainBase (ha.locations id hid)
  · intro id hid
    obtain ⟨m, hm⟩ := item_total e.plainBase (ha.items id hid)
    obtain ⟨x, hx⟩ := (Dict.mem_keys_iff _ _).1 (ha.items id hid)
    show ∃ m, (e.plainBase.item n id >>= fun m => (n.items.get! id >>= fun c => _)) = _
    rw [hm, Dict.get!_of hx]
    exact ⟨_, rfl⟩
  · exact fun id hid => note_total e.plainBase (ha.notes id hid)

/-! ### Examples -/

/-- A project with two locations and two characters. -/
def sheetExample : Novel :=
  { title := some c!"A & B", authorName := some c!"N. N.",
    chapters := [(c!"1", { title := some c!"C", chLevel := some 0, chType := some 0, srtScenes := [] })], srtChapters := [c!"1"],
    locations := [(c!"1", { title := some c!"Inn <1>", aka := some c!"Tavern", desc := some c!"Old & dark.\n\nBy the road." }), (c!"2", { title := some c!"Wood", desc := some c!"" })],
    srtLocations := [c!"2", c!"1"],
    characters := [(c!"1", { title := some c!"Ann", fullName := some c!"Ann Other", aka := some c!"A", desc := some c!"Tall.", bio := some c!"Born.\nLived.", goals := some c!"a < b", notes := some c!"" })],
    srtCharacters := [c!"1"],
    items := [(c!"1", { title := some c!"Sword", desc := some c!"Sharp." })], srtItems := [c!"1"] }

theorem sheetExample_exportable : Exportable sheetExample where
  chapters id hid := by
    simp only [sheetExample, List.mem_cons, List.not_mem_nil, or_false] at hid
    subst hid
    exact ⟨_, rfl⟩
  scenes id hid := by
    have : narrative sheetExample = [] := by decide
    rw [this] at hid
    cases hid

theorem sheetExample_there : AllThere sheetExample where
  characters := by decide
  locations := by decide
  items := by decide
  notes := by decide

theorem sheetExample_title : TitleFits sheetExample := ⟨(by show Carriable _; unfold Carriable; decide), (by show Carriable _; unfold Carriable; decide)⟩

theorem sheetExample_locations : ElementsFit sheetExample.srtLocations sheetExample.locations := by
  intro id hid
  simp only [sheetExample, List.mem_cons, List.not_mem_nil, or_false] at hid
  rcases hid with rfl | rfl
  · exact ⟨_, rfl, ⟨(by unfold NumId Digit; decide), (by show Carriable _; unfold Carriable; decide), (by intro t h; cases h), (by show Carriable _; unfold Carriable; decide)⟩⟩
  · exact ⟨_, rfl, ⟨(by unfold NumId Digit; decide), (by show Carriable _; unfold Carriable; decide), (by intro t h; cases h; unfold Plain; decide), (by show Carriable _; unfold Carriable; decide)⟩⟩

theorem sheetExample_persons : PersonsFit sheetExample.srtCharacters sheetExample.characters := by
  intro id hid
  simp only [sheetExample, List.mem_cons, List.not_mem_nil, or_false] at hid
  subst hid
  exact ⟨_, rfl, ⟨(by unfold NumId Digit; decide), (by show Carriable _; unfold Carriable; decide), (by intro t h; cases h; unfold Plain; decide), (by intro t h; cases h; unfold Plain; decide), (by show Carriable _; unfold Carriable; decide), (by show Carriable _; unfold Carriable; decide), (by show Carriable _; unfold Carriable; decide), (by show Carriable _; unfold Carriable; decide)⟩⟩

/-- The location sheets of the example are written, and reading them back changes nothing. -/
example : ∃ text evs, getText (odtLocations (plainEnv c!"prj" c!"/p")) sheetExample = .ok text ∧ saxEvents text = some evs ∧
    ∀ st info a b, stylesCalls st = .ok a → infoCalls info = .ok b → readOdt (worldReader locationKind) ⟨st, info, evs⟩ sheetExample = .ok sheetExample := by
  obtain ⟨_, ⟨text, h⟩, _⟩ := C49_written (plainEnv c!"prj" c!"/p") sheetExample sheetExample_exportable sheetExample_there
  obtain ⟨evs, h1, h2⟩ := C49_locations_unmodified_partial c!"prj" c!"/p" sheetExample text h sheetExample_title sheetExample_locations (by
    intro id hid
    simp only [sheetExample, List.mem_cons, List.not_mem_nil, or_false] at hid
    rcases hid with rfl | rfl <;> exact ⟨_, _, rfl, rfl, by decide⟩)
  exact ⟨text, evs, h, h1, h2⟩

/-- The same for its character sheets. -/
example : ∃ text evs, getText (odtCharacters (plainEnv c!"prj" c!"/p")) sheetExample = .ok text ∧ saxEvents text = some evs ∧
    ∀ st info a b, stylesCalls st = .ok a → infoCalls info = .ok b → readOdt charactersReader ⟨st, info, evs⟩ sheetExample = .ok sheetExample := by
  obtain ⟨⟨text, h⟩, _⟩ := C49_written (plainEnv c!"prj" c!"/p") sheetExample sheetExample_exportable sheetExample_there
  obtain ⟨evs, h1, h2⟩ := C49_characters_unmodified_partial c!"prj" c!"/p" sheetExample text h sheetExample_title sheetExample_persons (by
    intro id hid
    simp only [sheetExample, List.mem_cons, List.not_mem_nil, or_false] at hid
    subst hid
    exact ⟨_, rfl, by decide, by decide, by decide, by decide⟩)
  exact ⟨text, evs, h, h1, h2⟩

/-- The styles and meta data of a document without settings. -/
example : (stylesCalls (.elem c!"office:document-styles" [] [.elem c!"office:styles" [] []])).toOption.isSome = true ∧ (infoCalls none).toOption.isSome = true := by decide

/-! ### Counterexamples -/

/-- The description of the only location after export and import, if this succeeds. -/
def descriptionBack (x : WorldElement) : Option (Option Str) :=
  match getText (odtLocations (plainEnv c!"prj" c!"/p")) { locations := [(c!"1", x)], srtLocations := [c!"1"] } with
  | .error _ => none
  | .ok doc => match saxEvents doc with
    | none => none
    | some evs => match readOdt (worldReader locationKind) ⟨.elem c!"office:document-styles" [] [.elem c!"office:styles" [] []], none, evs⟩ { locations := [(c!"1", x)], srtLocations := [c!"1"] } with
      | .error _ => none
      | .ok m => (m.locations.get? c!"1").map (·.desc)

set_option maxRecDepth 100000 in
/-- The path works. -/
example : descriptionBack { title := some c!"T", aka := some c!"X", desc := some c!"a & b\nc" } = some (some c!"a & b\nc") := by decide +kernel

set_option maxRecDepth 100000 in
/-- An alternate name with `&` makes a broken document: the sheets cannot be read. -/
theorem C49_aka_breaks : descriptionBack { title := some c!"T", aka := some c!"X & Y", desc := some c!"a" } = none := by decide +kernel

set_option maxRecDepth 100000 in
/-- Blanks at the beginning of a line are lost. -/
theorem C49_blanks_lost : descriptionBack { title := some c!"T", desc := some c!"a\n  b" } = some (some c!"a\nb") := by decide +kernel

set_option maxRecDepth 100000 in
/-- A missing description becomes an empty one. -/
theorem C49_missing_becomes_empty : descriptionBack { title := some c!"T" } = some (some []) := by decide +kernel

end Verif
