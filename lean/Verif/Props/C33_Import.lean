/-
C33: importing a spreadsheet changes only what the table contains.
-/
import Verif.Model.OdsRead
import Verif.Spec.Ods
import Verif.Lemmas.Text3
import Verif.Props.C01_C03_Lists
import Verif.Lemmas.Export
import Verif.Lemmas.Ini2
import Verif.Props.C22_Example

namespace Verif
open Verif.Spec

/-! ### The ID in the first cell -/

theorem isDig_iff (c : Char) : Str.isDig c = true ↔ Digit c := by
  unfold Str.isDig Digit; simp

theorem takeWhile_digits {id b : Str} (hid : ∀ c ∈ id, Digit c) (hb : ∀ c, b.head? = some c → ¬ Digit c) :
    (id ++ b).takeWhile Str.isDig = id := by
  induction id with
  | nil =>
    cases b with
    | nil => rfl
    | cons c b =>
      have : Str.isDig c = false := by
        cases h : Str.isDig c with
        | false => rfl
        | true => exact absurd ((isDig_iff c).1 h) (hb c rfl)
      simp [this]
  | cons c id ih =>
    have := (isDig_iff c).2 (hid c (by simp))
    simp only [List.cons_append, List.takeWhile_cons, this, if_true, ih (fun d hd => hid d (by simp [hd]))]

/-- The place where the ID is found. -/
theorem hit_iff (mark s : Str) : (mark.isPrefixOf s = true ∧ (s.drop mark.length).takeWhile Str.isDig ≠ []) ↔
    ∃ c b, s = mark ++ c :: b ∧ Digit c := by
  rw [List.isPrefixOf_iff_prefix]
  constructor
  · rintro ⟨⟨t, rfl⟩, h⟩
    rw [List.drop_left] at h
    cases t with
    | nil => exact absurd rfl h
    | cons c b =>
      refine ⟨c, b, rfl, (isDig_iff c).1 ?_⟩
      cases hc : Str.isDig c with
      | true => rfl
      | false => simp [hc] at h
  · rintro ⟨c, b, rfl, hc⟩
    refine ⟨List.prefix_append _ _, ?_⟩
    rw [List.drop_left]
    simp [(isDig_iff c).2 hc]

theorem not_digit_dropWhile (s : Str) : ∀ c, (s.dropWhile Str.isDig).head? = some c → ¬ Digit c := by
  intro c hc hd
  have := Str.dropWhile_head Str.isDig s c hc
  rw [(isDig_iff c).2 hd] at this
  cases this

theorem searchId_iff (mark : Str) : ∀ (s id : Str), searchId mark s = .ok id ↔ Names mark s id := by
  intro s
  induction s with
  | nil =>
    intro id
    constructor
    · intro h; cases h
    · rintro ⟨a, b, h, hne, _⟩
      have := congrArg List.length h
      have hl := List.length_pos_iff.2 hne
      simp only [List.length_append, List.length_nil] at this
      omega
  | cons c cs ih =>
    intro id
    unfold searchId
    by_cases hh : mark.isPrefixOf (c :: cs) = true ∧ ((c :: cs).drop mark.length).takeWhile Str.isDig ≠ []
    · rw [if_pos hh]
      have hh' := (hit_iff _ _).1 hh
      constructor
      · intro h
        injection h with h
        obtain ⟨x, b, hx, hd⟩ := hh'
        have hdrop : (c :: cs).drop mark.length = x :: b := by rw [hx, List.drop_left]
        refine ⟨[], (x :: b).dropWhile Str.isDig, ?_, ?_, ?_, not_digit_dropWhile _, fun _ _ _ _ _ => Nat.zero_le _⟩
        · rw [List.nil_append, ← h, hdrop, List.append_assoc, List.takeWhile_append_dropWhile, hx]
        · rw [← h]; exact hh.2
        · intro d hd
          rw [← h] at hd
          have hall := List.all_takeWhile (p := Str.isDig) (l := (c :: cs).drop mark.length)
          rw [List.all_eq_true] at hall
          exact (isDig_iff d).1 (hall d hd)
      · rintro ⟨a, b, hs, hne, hid, hb, hmin⟩
        obtain ⟨x, b', hx, hd⟩ := hh'
        have ha : a = [] := by
          have := hmin [] x b' (by rw [hx]; rfl) hd
          exact List.eq_nil_of_length_eq_zero (by simpa using this)
        subst ha
        rw [hs, List.nil_append, List.append_assoc, List.drop_left, takeWhile_digits hid hb]
    · rw [if_neg hh, ih id]
      have hno : ¬ ∃ x b, c :: cs = mark ++ x :: b ∧ Digit x := fun h => hh ((hit_iff _ _).2 h)
      constructor
      · rintro ⟨a, b, hs, hne, hid, hb, hmin⟩
        refine ⟨c :: a, b, by rw [hs]; simp, hne, hid, hb, ?_⟩
        intro a' x b' hx hd
        cases a' with
        | nil => exact absurd ⟨x, b', by simpa using hx, hd⟩ hno
        | cons y a' =>
          simp only [List.cons_append, List.cons.injEq] at hx
          have := hmin a' x b' (by simpa using hx.2) hd
          simpa using this
      · rintro ⟨a, b, hs, hne, hid, hb, hmin⟩
        cases a with
        | nil =>
          cases id with
          | nil => exact absurd rfl hne
          | cons x id => exact absurd ⟨x, id ++ b, by simpa using hs, hid x (by simp)⟩ hno
        | cons y a =>
          simp only [List.cons_append, List.cons.injEq] at hs
          refine ⟨a, b, hs.2, hne, hid, hb, ?_⟩
          intro a' x b' hx hd
          have := hmin (c :: a') x b' (by rw [hx]; simp) hd
          simpa using this

theorem Spec.Names.unique {mark s id id' : Str} (h : Names mark s id) (h' : Names mark s id') : id = id' := by
  have h1 := (searchId_iff mark s id).2 h
  rw [(searchId_iff mark s id').2 h'] at h1
  injection h1 with h1
  exact h1.symm

theorem Spec.Names.contains {mark s id : Str} (h : Names mark s id) : Str.contains s mark = true := by
  obtain ⟨a, b, rfl, _⟩ := h
  rw [contains_iff]
  exact ⟨a, id ++ b, by simp⟩

theorem cellAt_zero (row : List Str) (mark id : Str) : Names mark (cellAt row 0) id ↔ RowOf mark row id := by
  unfold RowOf cellAt
  cases row with
  | nil =>
    simp only [List.head?_nil]
    constructor
    · rintro ⟨a, b, h, hne, _⟩
      have := congrArg List.length h
      have hl := List.length_pos_iff.2 hne
      simp only [List.length_append, List.getD_nil, List.length_nil] at this
      omega
    · rintro ⟨t, h, _⟩; cases h
  | cons t r => simp

theorem cellAt_col (row : List Str) (i : Nat) : cellAt row i = col row i := by
  unfold cellAt col
  rw [List.getD_eq_getElem?_getD]

/-! ### The loop over the rows -/

/-- The rows that name an element. -/
theorem rowsLoop_ok {α : Type} {mark : Str} {new : α} {upd : List Str → α → α} : ∀ {rows : List (List Str)} {d : Dict α} {l : List Str} {r : Dict α × List Str},
    rowsLoop mark new upd rows (d, l) = .ok r →
    (∃ ids, r.2 = l ++ ids ∧ RowIds mark rows ids) ∧
    (∀ id, (∀ row ∈ rows, ¬ RowOf mark row id) → r.1.get? id = d.get? id) ∧
    (∀ a row b id, rows = a ++ row :: b → RowOf mark row id → (∀ x ∈ b, ¬ RowOf mark x id) →
      ∃ mid, r.1.get? id = some (upd row mid) ∧ ((∀ x ∈ a, ¬ RowOf mark x id) → mid = (d.get? id).getD new)) := by
  intro rows
  induction rows with
  | nil =>
    intro d l r h
    injection h with h
    subst h
    exact ⟨⟨[], by simp, .nil⟩, fun _ _ => rfl, fun a row b id h => by simp at h⟩
  | cons row rows ih =>
    intro d l r h
    unfold rowsLoop at h
    by_cases hc : Str.contains (cellAt row 0) mark = true
    · rw [if_pos hc] at h
      obtain ⟨id, hid, h⟩ := bind_ok h
      have hrow : RowOf mark row id := (cellAt_zero _ _ _).1 ((searchId_iff _ _ _).1 hid)
      have huniq : ∀ id', RowOf mark row id' → id' = id := fun id' h' =>
        Names.unique ((cellAt_zero _ _ _).2 h') ((searchId_iff _ _ _).1 hid)
      obtain ⟨⟨ids, hids, hr⟩, h1, h2⟩ := ih h
      have hget : ∀ x, ((if d.has id then d else d.set id new).modify id (upd row)).get? x =
          if x = id then some (upd row ((d.get? id).getD new)) else d.get? x := by
        intro x
        rw [Dict.get?_modify]
        have hin : (if d.has id then d else d.set id new).get? id = some ((d.get? id).getD new) := by
          unfold Dict.has
          cases hg : d.get? id with
          | none => simp
          | some v => simp [hg]
        by_cases hx : x = id
        · subst hx
          rw [if_pos rfl, if_pos rfl, hin]; rfl
        · rw [if_neg (Ne.symm hx), if_neg hx]
          split
          · rfl
          · rw [Dict.get?_set_ne _ _ (Ne.symm hx)]
      refine ⟨⟨id :: ids, by rw [hids]; simp, .named hrow hr⟩, ?_, ?_⟩
      · intro x hx
        rw [h1 x (fun y hy => hx y (by simp [hy])), hget, if_neg]
        rintro rfl
        exact hx row (by simp) hrow
      · intro a row' b x heq hx hb
        cases a with
        | nil =>
          simp only [List.nil_append, List.cons.injEq] at heq
          obtain ⟨rfl, rfl⟩ := heq
          have := huniq x hx
          subst this
          refine ⟨(d.get? x).getD new, ?_, fun _ => rfl⟩
          rw [h1 x hb, hget, if_pos rfl]
        | cons y a =>
          simp only [List.cons_append, List.cons.injEq] at heq
          obtain ⟨rfl, rfl⟩ := heq
          obtain ⟨mid, hm1, hm2⟩ := h2 a row' b x rfl hx hb
          refine ⟨mid, hm1, fun ha => ?_⟩
          rw [hm2 (fun z hz => ha z (by simp [hz])), hget, if_neg]
          rintro rfl
          exact ha row (by simp) hrow
    · rw [if_neg hc] at h
      have hno : ∀ id, ¬ RowOf mark row id := fun id h' =>
        hc (((cellAt_zero _ _ _).2 h').contains)
      obtain ⟨⟨ids, hids, hr⟩, h1, h2⟩ := ih h
      refine ⟨⟨ids, hids, .skip ?_ hr⟩, ?_, ?_⟩
      · intro t ht hi
        apply hc
        rw [contains_iff]
        cases row with
        | nil => cases ht
        | cons z row => injection ht with ht; subst ht; exact hi
      · intro x hx
        exact h1 x (fun y hy => hx y (by simp [hy]))
      · intro a row' b x heq hx hb
        cases a with
        | nil =>
          simp only [List.nil_append, List.cons.injEq] at heq
          obtain ⟨rfl, rfl⟩ := heq
          exact absurd hx (hno x)
        | cons y a =>
          simp only [List.cons_append, List.cons.injEq] at heq
          obtain ⟨rfl, rfl⟩ := heq
          obtain ⟨mid, hm1, hm2⟩ := h2 a row' b x rfl hx hb
          exact ⟨mid, hm1, fun ha => hm2 (fun z hz => ha z (by simp [hz]))⟩

/-! ### The attributes -/

theorem putCell_spec (old : Option Str) (cell value : Str) (hv : cell = [] → value = []) :
    TextCell cell value old (putCell old cell value) := by
  unfold TextCell putCell isSetCell
  by_cases hc : cell = []
  · subst hc
    rw [hv rfl]
    match old with
    | none => simp
    | some [] => simp
    | some (c :: s) => simp
  · simp [hc]

theorem putCellTags_spec (old : Option (List Str)) (cell : Str) : TagsCell cell old (putCellTags old cell) := by
  unfold TagsCell putCellTags
  by_cases hc : cell = []
  · subst hc
    have h0 : stringToList (some []) exportDivider = [] := by decide
    rw [h0]
    match old with
    | none => simp
    | some [] => simp
    | some (c :: s) => simp
  · refine ⟨fun _ => ?_, fun h => absurd h hc⟩
    obtain ⟨parts, hp, _⟩ := C02_segments_exist_unique c!", " cell (by decide)
    exact ⟨_, parts, by simp [hc]; rfl, hp, C02_string_to_list cell c!", " parts (by decide) hp⟩

theorem charFromRow_spec (row : List Str) (c : Character) : CharUpdated row c (charFromRow row c) := by
  constructor <;> simp only [charFromRow, cellAt_col]
  · exact putCell_spec _ _ _ id
  · exact putCell_spec _ _ _ id
  · exact putCell_spec _ _ _ id
  · exact putCell_spec _ _ _ (fun h => by rw [h]; rfl)
  · exact putCell_spec _ _ _ (fun h => by rw [h]; rfl)
  · exact putCell_spec _ _ _ (fun h => by rw [h]; rfl)
  · exact ⟨_, rfl, contains_iff _ _⟩
  · exact putCellTags_spec _ _
  · exact putCell_spec _ _ _ (fun h => by rw [h]; rfl)

theorem worldFromRow_spec (row : List Str) (e : WorldElement) : WorldUpdated row e (worldFromRow row e) := by
  constructor <;> simp only [worldFromRow, cellAt_col]
  · exact putCell_spec _ _ _ (fun h => by rw [h]; rfl)
  · exact putCell_spec _ _ _ (fun h => by rw [h]; rfl)
  · exact putCell_spec _ _ _ (fun h => by rw [h]; rfl)
  · exact putCellTags_spec _ _

theorem ratingOf_spec (cell : Str) : ratingOf cell = some (ratingValue cell) := by
  unfold ratingOf ratingValue
  by_cases h : cell ∈ sceneRatings
  · have h' := h
    unfold sceneRatings at h'
    rw [if_pos h, if_pos h']
    simp only [sceneRatings, List.mem_cons, List.not_mem_nil, or_false] at h
    rcases h with rfl | rfl | rfl | rfl | rfl | rfl | rfl | rfl | rfl <;> rfl
  · have h' := h
    unfold sceneRatings at h'
    rw [if_neg h, if_neg h']

theorem statusIndex_spec (cell : Str) : statusIndex cell = stateNames.lookup cell := by
  unfold statusIndex stateNames
  simp only [List.findIdx?_cons, List.findIdx?_nil, List.lookup]
  by_cases h1 : c!"Outline" = cell
  · subst h1; decide
  by_cases h2 : c!"Draft" = cell
  · subst h2; decide
  by_cases h3 : c!"1st Edit" = cell
  · subst h3; decide
  by_cases h4 : c!"2nd Edit" = cell
  · subst h4; decide
  by_cases h5 : c!"Done" = cell
  · subst h5; decide
  have e : ∀ a : Str, a ≠ cell → (cell == a) = false := fun a ha => by simp [Ne.symm ha]
  simp only [decide_eq_false h1, decide_eq_false h2, decide_eq_false h3, decide_eq_false h4, decide_eq_false h5, e _ h1, e _ h2, e _ h3,
    e _ h4, e _ h5]
  rfl

theorem lower_contains_r (s : Str) : Str.contains (Str.lower s) c!"r" = true ↔ 'R' ∈ s ∨ 'r' ∈ s := by
  rw [contains_iff]
  have : c!"r" <:+: Str.lower s ↔ 'r' ∈ Str.lower s := by
    constructor
    · rintro ⟨a, b, h⟩; rw [← h]; simp
    · intro h
      obtain ⟨a, b, h⟩ := List.append_of_mem h
      exact ⟨a, b, by rw [h]; simp⟩
  rw [this]
  unfold Str.lower
  rw [List.mem_map]
  constructor
  · rintro ⟨c, hc, hr⟩
    unfold Str.lowerChar at hr
    split at hr
    · rename_i hA
      left
      have hc1 : c.toNat ≤ 90 := hA.2
      have hc0 : 65 ≤ c.toNat := hA.1
      have h2 : (Char.ofNat (c.toNat + 32)).toNat = c.toNat + 32 := by
        exact toNat_ofNat_small (by omega)
      rw [hr] at h2
      have h3 : c.toNat = 'R'.toNat := by
        have : ('r' : Char).toNat = 114 := rfl
        have h4 : ('R' : Char).toNat = 82 := rfl
        omega
      have : c = 'R' := Char.toNat_inj.1 h3
      exact this ▸ hc
    · right; exact hr ▸ hc
  · rintro (h | h)
    · exact ⟨'R', h, by decide⟩
    · exact ⟨'r', h, by decide⟩

theorem sceneFromRow_spec (row : List Str) (s : Scene) : SceneUpdated row s (sceneFromRow row s) := by
  constructor <;> simp only [sceneFromRow, cellAt_col, ratingOf_spec]
  · exact putCellTags_spec _ _
  · exact putCell_spec _ _ _ (fun h => by rw [h]; rfl)
  · exact ⟨_, rfl, lower_contains_r _⟩
  · exact putCell_spec _ _ _ (fun h => by rw [h]; rfl)
  · exact putCell_spec _ _ _ (fun h => by rw [h]; rfl)
  · exact putCell_spec _ _ _ (fun h => by rw [h]; rfl)
  · rw [statusIndex_spec]
    exact ⟨fun i hi => by rw [hi], fun hn => by rw [hn]⟩

theorem imported_of_loop {α : Type} {mark : Str} {new : α} {upd : List Str → α → α} {rel : List Str → α → α → Prop}
    (hrel : ∀ row e, rel row e (upd row e)) {rows : List (List Str)} {d : Dict α} {r : Dict α × List Str}
    (h : rowsLoop mark new upd rows (d, []) = .ok r) : Imported mark new rel rows d r.1 ∧ RowIds mark rows r.2 := by
  obtain ⟨⟨ids, hids, hr⟩, h1, h2⟩ := rowsLoop_ok h
  refine ⟨⟨h1, ?_⟩, by rw [hids]; simpa using hr⟩
  intro a row b id heq hrow hb
  obtain ⟨mid, hm1, hm2⟩ := h2 a row b id heq hrow hb
  exact ⟨mid, _, hm1, hrel row mid, hm2⟩

/-! ### C33 -/

/-- **C33, character lists**: nothing but the characters and their order changes; characters no row names stay as they are, and the
attributes of the others become what their row says. The order becomes that of the rows: characters no row names are left out of it. -/
theorem C33_characters (root : XNode) (n m : Novel) (h : readCharList root n = .ok m) :
    ∃ rows, readTable 10 root = .ok rows ∧ Imported c!"CrID:" {} CharUpdated rows n.characters m.characters ∧
      RowIds c!"CrID:" rows m.srtCharacters ∧
      m = { n with characters := m.characters, srtCharacters := m.srtCharacters } := by
  obtain ⟨rows, h1, h⟩ := bind_ok h
  obtain ⟨r, h2, h⟩ := bind_ok h
  injection h with h
  subst h
  obtain ⟨h3, h4⟩ := imported_of_loop charFromRow_spec h2
  exact ⟨rows, h1, h3, h4, rfl⟩

/-- **C33, location lists.** -/
theorem C33_locations (root : XNode) (n m : Novel) (h : readLocList root n = .ok m) :
    ∃ rows, readTable 5 root = .ok rows ∧ Imported c!"LcID:" {} WorldUpdated rows n.locations m.locations ∧
      RowIds c!"LcID:" rows m.srtLocations ∧
      m = { n with locations := m.locations, srtLocations := m.srtLocations } := by
  obtain ⟨rows, h1, h⟩ := bind_ok h
  obtain ⟨r, h2, h⟩ := bind_ok h
  injection h with h
  subst h
  obtain ⟨h3, h4⟩ := imported_of_loop worldFromRow_spec h2
  exact ⟨rows, h1, h3, h4, rfl⟩

/-- **C33, item lists.** -/
theorem C33_items (root : XNode) (n m : Novel) (h : readItemList root n = .ok m) :
    ∃ rows, readTable 5 root = .ok rows ∧ Imported c!"ItID:" {} WorldUpdated rows n.items m.items ∧
      RowIds c!"ItID:" rows m.srtItems ∧ m = { n with items := m.items, srtItems := m.srtItems } := by
  obtain ⟨rows, h1, h⟩ := bind_ok h
  obtain ⟨r, h2, h⟩ := bind_ok h
  injection h with h
  subst h
  obtain ⟨h3, h4⟩ := imported_of_loop worldFromRow_spec h2
  exact ⟨rows, h1, h3, h4, rfl⟩

/-- **C33, scene lists** (partial): nothing but the scenes changes, not even the assignment of scenes to chapters. Missing: an empty cell
sets the title, the description and the ratings of a scene even if they were unset, see `C33_false`. -/
theorem C33_scenes_partial (root : XNode) (n m : Novel) (h : readSceneList root n = .ok m) :
    ∃ rows, readTable 21 root = .ok rows ∧ Imported c!"ScID:" {} SceneUpdated rows n.scenes m.scenes ∧
      m = { n with scenes := m.scenes } := by
  obtain ⟨rows, h1, h⟩ := bind_ok h
  obtain ⟨r, h2, h⟩ := bind_ok h
  injection h with h
  subst h
  obtain ⟨h3, _⟩ := imported_of_loop sceneFromRow_spec h2
  exact ⟨rows, h1, h3, rfl⟩

/-! ### Examples and counterexamples -/

/-- A cell with one paragraph. -/
def exCell (s : Str) : XNode := .elem c!"table:table-cell" [] [.elem c!"text:p" [] [.text s]]

/-- A table in a document. -/
def exTable (rows : List (List Str)) : XNode :=
  .elem c!"office:document-content" [] [.elem c!"office:body" [] [.elem c!"office:spreadsheet" [] [.elem c!"table:table" []
    (rows.map (fun r => .elem c!"table:table-row" [] (r.map exCell)))]]]

/-- A list of two characters. -/
def exChars : XNode := exTable [charTitles,
  [c!"CrID:2", c!"Ann", c!"", c!"", c!"new", c!"", c!"", c!"Major", c!"x, y", c!""],
  [c!"CrID:7", c!"Bob", c!"", c!"", c!"", c!"", c!"", c!"Minor", c!"", c!"n"]]

/-- A novel with three characters. -/
def exCharNovel : Novel :=
  { title := some c!"T"
    characters := [(c!"1", { title := some c!"Eve" }), (c!"2", { title := some c!"Anna", aka := some c!"A", bio := some c!"b" }),
      (c!"3", { title := some c!"Zoe" })]
    srtCharacters := [c!"1", c!"2", c!"3"] }

/-- The hypothesis is met: one character is updated (a value is cleared, an unset one stays unset), one is new; the others keep their
attributes but are not in the sorted list any more. -/
example : readCharList exChars exCharNovel = .ok
    { title := some c!"T"
      characters := [(c!"1", { title := some c!"Eve" }),
        (c!"2", { title := some c!"Ann", aka := some c!"", bio := some c!"", desc := some c!"new", isMajor := some true,
                  tags := some [c!"x", c!"y"] }),
        (c!"3", { title := some c!"Zoe" }),
        (c!"7", { title := some c!"Bob", notes := some c!"n", isMajor := some false })]
      srtCharacters := [c!"2", c!"7"] } := rfl

/-- Importing a list takes the characters that are not listed out of the sorted list; they are not deleted, but no longer shown or saved
in order. -/
theorem C33_unlisted_leave_order : ∃ (root : XNode) (n m : Novel), readCharList root n = .ok m ∧ c!"3" ∈ n.srtCharacters ∧
    m.characters.get? c!"3" = n.characters.get? c!"3" ∧ n.characters.get? c!"3" ≠ none ∧ c!"3" ∉ m.srtCharacters :=
  ⟨exChars, exCharNovel, _, rfl, by decide, rfl, by decide, by decide⟩

/-- A scene list with one scene that has empty cells only. -/
def exScenes : XNode := exTable [sceneTitles, c!"ScID:1" :: List.replicate 20 []]

/-- **C33 is false of scene lists**: an empty cell sets an unset attribute (title, description, ratings). -/
theorem C33_false : ∃ (root : XNode) (n m : Novel) (rows : List (List Str)) (s s' : Scene), readSceneList root n = .ok m ∧
    readTable 21 root = .ok rows ∧ n.scenes.get? c!"1" = some s ∧ m.scenes.get? c!"1" = some s' ∧
    (∀ row ∈ rows, RowOf c!"ScID:" row c!"1" → col row 1 = [] ∧ col row 2 = [] ∧ col row 11 = []) ∧
    s.title = none ∧ s'.title = some [] ∧ s.desc = none ∧ s'.desc = some [] ∧ s.field1 = none ∧ s'.field1 = some c!"1" := by
  refine ⟨exScenes, { scenes := [(c!"1", {})] }, _, [sceneTitles, c!"ScID:1" :: List.replicate 20 []], {}, _, rfl, rfl, rfl, rfl, ?_, rfl, rfl, rfl, rfl, rfl, rfl⟩
  intro row hrow h
  simp only [List.mem_cons, List.not_mem_nil, or_false] at hrow
  rcases hrow with rfl | rfl
  · have := (searchId_iff _ _ _).2 ((cellAt_zero _ _ _).2 h)
    exact absurd (congrArg Except.toOption this) (by decide)
  · exact ⟨rfl, rfl, rfl⟩

/-- A mark without a number makes the import fail with an `AttributeError` instead of an error message. -/
theorem C33_bad_id : ∃ root n, readCharList root n = .error .attributeError ∧ (readTable 10 root).toOption ≠ none :=
  ⟨exTable [c!"CrID:x" :: List.replicate 9 []], {}, rfl, by decide⟩

/-- The IDs of a table are those its rows name. -/
theorem Spec.RowIds.mem {mark : Str} {rows : List (List Str)} {ids : List Str} (h : RowIds mark rows ids) :
    ∀ id, id ∈ ids ↔ ∃ row ∈ rows, RowOf mark row id := by
  induction h with
  | nil => simp
  | @named row rows id ids h1 _ ih =>
    intro x
    rw [List.mem_cons, ih x]
    constructor
    · rintro (rfl | ⟨r, hr, h⟩)
      · exact ⟨row, by simp, h1⟩
      · exact ⟨r, by simp [hr], h⟩
    · rintro ⟨r, hr, h⟩
      rcases List.mem_cons.1 hr with rfl | hr
      · left
        exact ((cellAt_zero _ _ _).2 h).unique ((cellAt_zero _ _ _).2 h1)
      · exact .inr ⟨r, hr, h⟩
  | @skip row rows ids h1 _ ih =>
    intro x
    rw [ih x]
    constructor
    · rintro ⟨r, hr, h⟩; exact ⟨r, by simp [hr], h⟩
    · rintro ⟨r, hr, h⟩
      rcases List.mem_cons.1 hr with rfl | hr
      · obtain ⟨t, ht, hn⟩ := h
        exact absurd ((contains_iff _ _).1 hn.contains) (h1 t ht)
      · exact ⟨r, hr, h⟩

/-- **C33 is false of the saved project**: the characters no row names are deleted from the project file. Stated for every table and every
project: after importing the list `root`, saving and reading the project again, the characters are exactly those the rows name. -/
theorem C33_deletes_unlisted (lib : PyLib) (sl sc : Str) (root : XNode) (n n' m : Novel) (tree : Option Elem) (out x : Elem)
    (hi : readCharList root n = .ok n') (ht : ProjectTree (tree.getD newRoot).kids) (hn : GoodIds n')
    (hw : writeTree sl sc n' tree = .ok out) (hr : Reloaded out x) (hm : readTree lib x = .ok m) :
    ∃ rows, readTable 10 root = .ok rows ∧
      ∀ id, (∃ c, m.characters.get? id = some c) ↔ ∃ row ∈ rows, RowOf c!"CrID:" row id := by
  obtain ⟨rows, h1, _, h3, _⟩ := C33_characters root n n' hi
  refine ⟨rows, h1, fun id => ?_⟩
  have hb := (readBack lib sl sc n' m tree out x ht hn hw hr hm).characters
  rw [← h3.mem id, ← Dict.mem_keys_iff, hb.2.1]

/-- The novel after importing `exChars`. -/
def exImported : Novel := ((readCharList exChars exCharNovel).toOption).getD {}

theorem exImported_eq : readCharList exChars exCharNovel = .ok exImported := rfl

theorem exImported_good : GoodIds exImported where
  sound := ⟨by decide, by decide, by decide, by decide, by decide, by decide⟩
  locations := ⟨by decide, goodId_of (by decide)⟩
  items := ⟨by decide, goodId_of (by decide)⟩
  characters := ⟨by decide, goodId_of (by decide)⟩
  notes := ⟨by decide, goodId_of (by decide)⟩
  scenes := goodId_of (by decide)
  chapters := goodId_of (by decide)

/-- The hypotheses of `C33_deletes_unlisted` are met: Eve and Zoe are gone from the project. -/
theorem exImported_back (lib : PyLib) : ∃ out m, writeTree c!"en" c!"GB" exImported none = .ok out ∧
    readTree lib (reload out) = .ok m ∧ m.srtCharacters = [c!"2", c!"7"] ∧ m.characters.get? c!"1" = none ∧
    m.characters.get? c!"3" = none := by
  have hw : ∃ out, writeTree c!"en" c!"GB" exImported none = .ok out := by
    have : (match writeTree c!"en" c!"GB" exImported none with | .ok _ => true | .error _ => false) = true := by decide +kernel
    cases h : writeTree c!"en" c!"GB" exImported none with
    | error e => rw [h] at this; cases this
    | ok o => exact ⟨o, rfl⟩
  obtain ⟨out, hw⟩ := hw
  have hrl : Reloaded out (reload out) := by
    refine reloaded_reload _ ?_
    have hk : (match writeTree c!"en" c!"GB" exImported none with | .ok o => literalB o | .error _ => false) = true := by
      decide +kernel
    rw [hw] at hk
    exact hk
  obtain ⟨m, hm⟩ : ∃ m, readTree lib (reload out) = .ok m := by
    refine C45_readable lib _ _ exImported none _ _ projectTree_newRoot exImported_good hw hrl ?_
    intro id s old hs _
    cases hs
  have hst := C22_structure lib _ _ exImported m none _ _ projectTree_newRoot exImported_good hw hrl hm
  have hnone : ∀ id, id ∉ [c!"2", c!"7"] → m.characters.get? id = none := by
    intro id hid
    rw [Dict.get?_eq_none_iff, hst.characters.2]
    exact hid
  exact ⟨out, m, hw, hm, hst.characters.1, hnone _ (by decide), hnone _ (by decide)⟩

end Verif
