/-
C47: exporting a list and importing it again without changes leaves the project as it is.
-/
import Verif.Props.C32_Scenes
import Verif.Props.C33_Import
import Verif.Props.C01_C03_Lists
import Verif.Props.C29_C30_Export

namespace Verif
open XNode Spec

theorem Dict.modify_same {α : Type} {d : Dict α} {id : Str} {x : α} {f : α → α} (h : d.get? id = some x) (hf : f x = x) : d.modify id f = d := by
  induction d with
  | nil => rfl
  | cons p d ih =>
    obtain ⟨k, v⟩ := p
    simp only [Dict.get?] at h
    simp only [Dict.modify]
    by_cases hk : k = id
    · rw [if_pos hk] at h ⊢
      injection h with h
      rw [h, hf]
    · rw [if_neg hk] at h ⊢
      rw [ih h]

/-- The ID is found in the first cell. -/
theorem searchId_cell {mark id : Str} (hne : id ≠ []) (hd : ∀ c ∈ id, Digit c) : Names mark (mark ++ id) id :=
  ⟨[], [], by simp, hne, hd, (by intro c hc; cases hc), (by intro a c b _ _; simp)⟩

/-- Rows that name elements and do not change them leave everything as it is. -/
theorem rowsLoop_same {α : Type} {mark : Str} {new : α} {upd : List Str → α → α} {d : Dict α} {g : Str → List Str} :
    ∀ (ids l : List Str), (∀ id ∈ ids, id ≠ [] ∧ (∀ c ∈ id, Digit c) ∧ cellAt (g id) 0 = mark ++ id ∧ ∃ x, d.get? id = some x ∧ upd (g id) x = x) →
    rowsLoop mark new upd (ids.map g) (d, l) = .ok (d, l ++ ids) := by
  intro ids
  induction ids with
  | nil => intro l _; simp [rowsLoop]
  | cons id ids ih =>
    intro l h
    obtain ⟨h1, h2, h3, x, h4, h5⟩ := h id (by simp)
    have hn := searchId_cell (mark := mark) h1 h2
    rw [List.map_cons, rowsLoop, h3, if_pos hn.contains, (searchId_iff _ _ _).2 hn]
    simp only [Bind.bind, Except.bind]
    have hh : d.has id = true := by simp [Dict.has, h4]
    rw [hh]
    simp only [if_true]
    rw [Dict.modify_same h4 h5, ih _ (fun i hi => h i (by simp [hi]))]
    simp

theorem rowsLoop_skip {α : Type} {mark : Str} {new : α} {upd : List Str → α → α} {row : List Str} {rows : List (List Str)} {st : Dict α × List Str}
    (h : Str.contains (cellAt row 0) mark = false) : rowsLoop mark new upd (row :: rows) st = rowsLoop mark new upd rows st := by
  rw [rowsLoop, h]; rfl

theorem putCell_kept {t : Option Str} (h : TextKept t) : putCell t (shown t) (shown t) = t ∧ putCell t (shown t) (Str.rstrip (shown t)) = t := by
  cases t with
  | none => exact ⟨rfl, rfl⟩
  | some s =>
    have hs := h s rfl
    simp only [shown, hs, putCell]
    constructor <;> (split <;> rfl)

theorem free_comma {t : Str} (h : ¬ c!", " <:+: t) : ¬ c!", " <:+: (t ++ (c!", ").dropLast) := by
  rintro ⟨a, b, hab⟩
  apply h
  have hab' : a ++ c!", " ++ b = t ++ [','] := hab
  cases hb : b.reverse with
  | nil =>
    have hb : b = [] := by simpa using hb
    subst hb
    have := congrArg List.getLast? hab'
    simp at this
  | cons c r =>
    have hb : b = r.reverse ++ [c] := by
      have := congrArg List.reverse hb
      simpa using this
    subst hb
    rw [← List.append_assoc] at hab'
    exact ⟨a, r.reverse, (List.append_inj_left' hab' rfl)⟩

theorem rstrip_join {l : List Str} (h : ∀ t ∈ l, t ≠ [] ∧ Str.strip t = t) : Str.rstrip (Str.join c!", " l) = Str.join c!", " l := by
  have hr : ∀ s : Str, s ≠ [] → Str.strip s = s → ∃ a c, s = a ++ [c] ∧ Str.isWs c = false := by
    intro s hs hst
    have h2 := ((Str.stripBy_eq_self_iff Str.isWs s).1 hst).2
    cases hsr : s.reverse with
    | nil => exact absurd (by simpa using hsr) hs
    | cons c r =>
      have hsr : s = r.reverse ++ [c] := by
        have := congrArg List.reverse hsr
        simpa using this
      refine ⟨r.reverse, c, hsr, ?_⟩
      have := h2 c (by rw [hsr]; simp)
      simpa using this
  have key : ∀ {l : List Str}, l ≠ [] → (∀ t ∈ l, t ≠ [] ∧ Str.strip t = t) → ∃ a c, Str.join c!", " l = a ++ [c] ∧ Str.isWs c = false := by
    intro l
    induction l with
    | nil => intro h; exact absurd rfl h
    | cons x l ih =>
      intro _ hl
      cases l with
      | nil =>
        obtain ⟨a, c, e, hc⟩ := hr x (hl x (by simp)).1 (hl x (by simp)).2
        exact ⟨a, c, e, hc⟩
      | cons y l =>
        obtain ⟨a, c, e, hc⟩ := ih (by simp) (fun t ht => hl t (by simp [ht]))
        refine ⟨x ++ c!", " ++ a, c, ?_, hc⟩
        show x ++ c!", " ++ Str.join c!", " (y :: l) = _
        rw [e]; simp
  cases l with
  | nil => rfl
  | cons x l =>
    obtain ⟨a, c, e, hc⟩ := key (by simp) h
    rw [e]
    unfold Str.rstrip
    rw [Str.rstripBy_append_single, hc]; rfl

theorem putCellTags_kept {tags : Option (List Str)} (h : TagsKept tags) : putCellTags tags (shownTags tags) = tags := by
  cases tags with
  | none => rfl
  | some l =>
    obtain ⟨hn, hc⟩ := h l rfl
    have e : shownTags (some l) = Str.join c!", " l := rstrip_join (fun t ht => ⟨(hc t ht).1, (hc t ht).2.1⟩)
    rw [e]
    unfold putCellTags
    split
    · congr 1
      exact C03_roundtrip l c!", " (by decide) hn (fun t ht => ⟨(hc t ht).1, (hc t ht).2.1⟩) (fun t ht => free_comma (hc t ht).2.2)
    · rfl

theorem charFromRow_kept {id : Str} {c : Character} (h : CharKept c) : charFromRow (charCells id c) c = c := by
  obtain ⟨h1, h2, h3, h4, h5, h6, h7, h8, b, h9⟩ := h
  have e : charFromRow (charCells id c) c =
    { c with
      title := putCell c.title (shown c.title) (shown c.title)
      fullName := putCell c.fullName (shown c.fullName) (shown c.fullName)
      aka := putCell c.aka (shown c.aka) (shown c.aka)
      desc := putCell c.desc (shown c.desc) (Str.rstrip (shown c.desc))
      bio := putCell c.bio (shown c.bio) (Str.rstrip (shown c.bio))
      goals := putCell c.goals (shown c.goals) (Str.rstrip (shown c.goals))
      isMajor := some (Str.contains (if c.isMajor = some true then c!"Major" else c!"Minor") c!"Major")
      tags := putCellTags c.tags (shownTags c.tags)
      notes := putCell c.notes (shown c.notes) (Str.rstrip (shown c.notes)) } := rfl
  rw [e, (putCell_kept h1).1, (putCell_kept h2).1, (putCell_kept h3).1, (putCell_kept h4).2, (putCell_kept h5).2, (putCell_kept h6).2,
    (putCell_kept h7).2, putCellTags_kept h8]
  have : some (Str.contains (if c.isMajor = some true then c!"Major" else c!"Minor") c!"Major") = c.isMajor := by
    rw [h9]
    cases b
    · rfl
    · rfl
  rw [this]

theorem worldFromRow_kept {mark id : Str} {w : WorldElement} (h : WorldKept w) : worldFromRow (worldCells mark id w) w = w := by
  obtain ⟨h1, h2, h3, h8⟩ := h
  have e : worldFromRow (worldCells mark id w) w =
    { w with
      title := putCell w.title (shown w.title) (Str.rstrip (shown w.title))
      desc := putCell w.desc (shown w.desc) (Str.rstrip (shown w.desc))
      aka := putCell w.aka (shown w.aka) (Str.rstrip (shown w.aka))
      tags := putCellTags w.tags (shownTags w.tags) } := rfl
  rw [e, (putCell_kept h1).2, (putCell_kept h2).2, (putCell_kept h3).2, putCellTags_kept h8]

theorem digits_isPlain {id : Str} (h : ∀ c ∈ id, Digit c) : Plain id := by
  intro c hc
  have := List.all_eq_true.mp (digits_plain h).2 c hc
  simpa [plainChar, and_assoc] using this

/-- **C47 for character lists**: the list that was written can be read, and importing it into the project it came from changes nothing. -/
theorem C47_characters_partial {e : DocEnv} {n : Novel} {text : Str} (hw : getText (odsCharList e) n = .ok text)
    (hid : ∀ id ∈ n.srtCharacters, id ≠ [] ∧ ∀ c ∈ id, Digit c)
    (hx : ∀ id ∈ n.srtCharacters, ∀ c, n.characters.get? id = some c → CharCarriable c ∧ CharKept c) :
    ∃ root, parseDoc text = some root ∧ readCharList root n = .ok n := by
  obtain ⟨hg, root, h1, h2⟩ := C32_characters hw (fun id hi => digits_isPlain (hid id hi).2) (fun id hi c hc => (hx id hi c hc).1)
  refine ⟨root, h1, ?_⟩
  unfold readCharList
  rw [h2]
  simp only [Bind.bind, Except.bind]
  rw [rowsLoop_skip (by decide), rowsLoop_same (g := fun id => charCells id ((n.characters.get? id).getD {}))]
  · simp
  · intro id hi
    obtain ⟨c, hc⟩ := hg id hi
    refine ⟨(hid id hi).1, (hid id hi).2, rfl, c, hc, ?_⟩
    simp only [hc, Option.getD_some]
    exact charFromRow_kept (hx id hi c hc).2

/-- **C47 for location lists**. -/
theorem C47_locations_partial {e : DocEnv} {n : Novel} {text : Str} (hw : getText (odsLocList e) n = .ok text)
    (hid : ∀ id ∈ n.srtLocations, id ≠ [] ∧ ∀ c ∈ id, Digit c)
    (hx : ∀ id ∈ n.srtLocations, ∀ w, n.locations.get? id = some w → WorldCarriable w ∧ WorldKept w) :
    ∃ root, parseDoc text = some root ∧ readLocList root n = .ok n := by
  obtain ⟨hg, root, h1, h2⟩ := C32_locations hw (fun id hi => digits_isPlain (hid id hi).2) (fun id hi c hc => (hx id hi c hc).1)
  refine ⟨root, h1, ?_⟩
  unfold readLocList
  rw [h2]
  simp only [Bind.bind, Except.bind]
  rw [rowsLoop_skip (by decide), rowsLoop_same (g := fun id => worldCells c!"LcID:" id ((n.locations.get? id).getD {}))]
  · simp
  · intro id hi
    obtain ⟨c, hc⟩ := hg id hi
    refine ⟨(hid id hi).1, (hid id hi).2, rfl, c, hc, ?_⟩
    simp only [hc, Option.getD_some]
    exact worldFromRow_kept (hx id hi c hc).2

/-- **C47 for item lists**. -/
theorem C47_items_partial {e : DocEnv} {n : Novel} {text : Str} (hw : getText (odsItemList e) n = .ok text)
    (hid : ∀ id ∈ n.srtItems, id ≠ [] ∧ ∀ c ∈ id, Digit c)
    (hx : ∀ id ∈ n.srtItems, ∀ w, n.items.get? id = some w → WorldCarriable w ∧ WorldKept w) :
    ∃ root, parseDoc text = some root ∧ readItemList root n = .ok n := by
  obtain ⟨hg, root, h1, h2⟩ := C32_items hw (fun id hi => digits_isPlain (hid id hi).2) (fun id hi c hc => (hx id hi c hc).1)
  refine ⟨root, h1, ?_⟩
  unfold readItemList
  rw [h2]
  simp only [Bind.bind, Except.bind]
  rw [rowsLoop_skip (by decide), rowsLoop_same (g := fun id => worldCells c!"ItID:" id ((n.items.get? id).getD {}))]
  · simp
  · intro id hi
    obtain ⟨c, hc⟩ := hg id hi
    refine ⟨(hid id hi).1, (hid id hi).2, rfl, c, hc, ?_⟩
    simp only [hc, Option.getD_some]
    exact worldFromRow_kept (hx id hi c hc).2

/-! ### Scenes -/

theorem statusIndex_shown {i : Int} (h : 0 ≤ i ∧ i ≤ 5) : (match statusIndex (shownState (some i)) with | some j => some j | none => some i) = some i := by
  have : i = 0 ∨ i = 1 ∨ i = 2 ∨ i = 3 ∨ i = 4 ∨ i = 5 := by omega
  rcases this with rfl | rfl | rfl | rfl | rfl | rfl <;> decide

theorem ratingOf_shown {f : Option Str} (h : f ∈ [c!"1", c!"2", c!"3", c!"4", c!"5", c!"6", c!"7", c!"8", c!"9", c!"10"].map some) :
    ratingOf (shownRating f) = f := by
  simp only [List.map_cons, List.map_nil, List.mem_cons, List.not_mem_nil, or_false] at h
  rcases h with rfl | rfl | rfl | rfl | rfl | rfl | rfl | rfl | rfl | rfl <;> decide

theorem sceneFromRow_kept {n : Novel} {before : List (Str × Scene)} {id : Str} {s : Scene} (h : SceneKept s) :
    sceneFromRow (sceneCells n before (id, s)) s = s := by
  have e : sceneFromRow (sceneCells n before (id, s)) s =
    { s with
      title := some (Str.rstrip (shown s.title))
      desc := some (Str.rstrip (shown s.desc))
      tags := putCellTags s.tags (shownTags s.tags)
      notes := putCell s.notes (shown s.notes) (Str.rstrip (shown s.notes))
      isReactionScene := some (Str.contains (Str.lower (if s.isReactionScene = some true then c!"R" else c!"A")) c!"r")
      goal := putCell s.goal (shown s.goal) (Str.rstrip (shown s.goal))
      conflict := putCell s.conflict (shown s.conflict) (Str.rstrip (shown s.conflict))
      outcome := putCell s.outcome (shown s.outcome) (Str.rstrip (shown s.outcome))
      field1 := ratingOf (shownRating s.field1)
      field2 := ratingOf (shownRating s.field2)
      field3 := ratingOf (shownRating s.field3)
      field4 := ratingOf (shownRating s.field4)
      status := match statusIndex (shownState s.status) with | some i => some i | none => s.status } := rfl
  have eset : ∀ {t : Option Str}, TextKept t → t ≠ none → some (Str.rstrip (shown t)) = t := by
    intro t h1 h2
    cases t with
    | none => exact absurd rfl h2
    | some x => simp only [shown, h1 x rfl]
  have er : some (Str.contains (Str.lower (if s.isReactionScene = some true then c!"R" else c!"A")) c!"r") = s.isReactionScene := by
    obtain ⟨b, hb⟩ := h.isReactionScene
    rw [hb]
    cases b <;> decide
  obtain ⟨i, hi, hi2⟩ := h.status
  have est : (match statusIndex (shownState s.status) with | some i => some i | none => s.status) = s.status := by
    rw [hi]; exact statusIndex_shown hi2
  rw [e, eset h.title.1 h.title.2, eset h.desc.1 h.desc.2, putCellTags_kept h.tags, (putCell_kept h.notes).2, (putCell_kept h.goal).2,
    (putCell_kept h.conflict).2, (putCell_kept h.outcome).2, er, ratingOf_shown h.field1, ratingOf_shown h.field2, ratingOf_shown h.field3,
    ratingOf_shown h.field4, est]

theorem rowsLoop_scenes {n : Novel} : ∀ (l before : List (Str × Scene)) (ids : List Str), (∀ p ∈ l, n.scenes.get? p.1 = some p.2) →
    (∀ p ∈ l, (p.1 ≠ [] ∧ ∀ c ∈ p.1, Digit c) ∧ SceneKept p.2) →
    ∃ ids', rowsLoop c!"ScID:" {} sceneFromRow (sceneTable n before l) (n.scenes, ids) = .ok (n.scenes, ids') := by
  intro l
  induction l with
  | nil => intro _ ids _ _; exact ⟨ids, rfl⟩
  | cons p l ih =>
    intro before ids h1 h2
    obtain ⟨id, s⟩ := p
    obtain ⟨⟨h3, h4⟩, h5⟩ := h2 (id, s) (by simp)
    have h6 := h1 (id, s) (by simp)
    have hn := searchId_cell (mark := c!"ScID:") h3 h4
    obtain ⟨ids', hi⟩ := ih (before ++ [(id, s)]) (ids ++ [id]) (fun q hq => h1 q (by simp [hq])) (fun q hq => h2 q (by simp [hq]))
    refine ⟨ids', ?_⟩
    have hc : cellAt (sceneCells n before (id, s)) 0 = c!"ScID:" ++ id := rfl
    rw [sceneTable, rowsLoop, hc, if_pos hn.contains, (searchId_iff _ _ _).2 hn]
    simp only [Bind.bind, Except.bind]
    have hh : n.scenes.has id = true := by simp [Dict.has, h6]
    rw [hh]
    simp only [if_true]
    rw [Dict.modify_same h6 (sceneFromRow_kept h5)]
    exact hi

/-- **C47 for scene lists**. -/
theorem C47_scenes_partial {e : DocEnv} {n : Novel} {text : Str} (hw : getText (odsSceneList e) n = .ok text) (hn : Inherits n)
    (hl : LinkTarget e.projectPath e.projectName)
    (hf : CarriableO n.fieldTitle1 ∧ CarriableO n.fieldTitle2 ∧ CarriableO n.fieldTitle3 ∧ CarriableO n.fieldTitle4)
    (hx : ∀ p ∈ exported n n.srtChapters, (p.1 ≠ [] ∧ ∀ c ∈ p.1, Digit c) ∧ SceneCarriable n p.2 ∧ SceneKept p.2) :
    ∃ root, parseDoc text = some root ∧ readSceneList root n = .ok n := by
  obtain ⟨root, h1, h2⟩ := C32_scenes_partial hw hn hl hf (fun p hp => ⟨(hx p hp).1.2, (hx p hp).2.1⟩)
  refine ⟨root, h1, ?_⟩
  obtain ⟨ids, hi⟩ := rowsLoop_scenes (n := n) (exported n n.srtChapters) [] [] (fun p hp => by
    obtain ⟨hs, _⟩ := (C29_exported n).2 p.1 p.2 |>.1 hp
    exact hs) (fun p hp => ⟨(hx p hp).1, (hx p hp).2.2⟩)
  unfold readSceneList
  have h2' : readTable sceneTitles.length root = .ok (sceneHeads n :: sceneTable n [] (exported n n.srtChapters)) := h2
  rw [h2']
  simp only [Bind.bind, Except.bind]
  rw [rowsLoop_skip (row := sceneHeads n) (by rw [show cellAt (sceneHeads n) 0 = c!"Scene link" from rfl]; decide), hi]

/-! ### What is lost -/

/-- The statement without restrictions on the texts, for character lists. -/
def C47_any : Prop := ∀ (e : DocEnv) (n : Novel) (text : Str) (root : XNode), getText (odsCharList e) n = .ok text → parseDoc text = some root →
  readCharList root n = .ok n

set_option maxRecDepth 100000 in
/-- The restrictions are necessary: a tag with a comma and a blank in it comes back as two tags, and trailing blanks of a text are
lost. Both survive in the project file. -/
theorem C47_false : ¬ C47_any := by
  intro h
  let n : Novel := { characters := [(c!"1", { title := some c!"A ", tags := some [c!"x, y"], isMajor := some true })], srtCharacters := [c!"1"] }
  let n' : Novel := { characters := [(c!"1", { title := some c!"A", tags := some [c!"x", c!"y"], isMajor := some true })], srtCharacters := [c!"1"] }
  have hm : ∃ text, getText (odsCharList ⟨[], [], fun _ => []⟩) n = .ok text := ⟨_, rfl⟩
  obtain ⟨text, ht⟩ := hm
  obtain ⟨_, root, h1, h2⟩ := C32_characters ht (by
    intro id hid
    simp only [n, List.mem_cons, List.not_mem_nil, or_false] at hid
    subst hid
    intro c hc; revert c; decide) (by
    intro id hid c hc
    simp only [n, List.mem_cons, List.not_mem_nil, or_false] at hid
    subst hid
    injection hc with hc; subst hc
    refine ⟨?_, trivial, trivial, trivial, trivial, trivial, trivial, ?_⟩
    · intro d hd; revert d; decide
    · intro t ht
      simp only [Option.getD_some, List.mem_cons, List.not_mem_nil, or_false] at ht
      subst ht; intro d hd; revert d; decide)
  have h3 := h _ n text root ht h1
  have h4 : readCharList root n = .ok n' := by
    unfold readCharList
    rw [h2]
    rfl
  rw [h4] at h3
  injection h3 with h3
  have : n'.characters = n.characters := by rw [h3]
  revert this
  decide

/-- A character with all kinds of texts that meets the hypotheses. -/
example : CharKept { title := some c!"A & <B>", desc := some c!"x\n\ny", tags := some [c!"a,b", c!"c d"], isMajor := some false } := by
  constructor
  all_goals first | (intro s hs; injection hs with hs; subst hs; decide) | (intro s hs; cases hs; done) | skip
  · exact ⟨false, rfl⟩

end Verif
