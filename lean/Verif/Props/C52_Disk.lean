/-
C52: from one project file to the next. A project that is saved can be opened again, and opening and saving it, again and again, does not change the novel.
-/
import Verif.Lemmas.Disk5
import Verif.Props.C51_Writable
import Verif.Props.C20_Settled
import Verif.Props.C19_C21_File

namespace Verif
open Xml Spec Elem

theorem loadFile_ok {lib : PyLib} {s : Str} {x : Elem} {n : Novel} : loadFile lib s = some (x, n) ↔ parseXml (parserInput s) = some x ∧ readTree lib x = .ok n := by
  unfold loadFile
  constructor
  · intro h
    split at h
    · cases h
    · rename_i y hy
      split at h
      · cases h
      · rename_i m hm
        cases h
        exact ⟨hy, hm⟩
  · rintro ⟨h1, h2⟩
    rw [h1]
    dsimp only
    rw [h2]

theorem saveFile_ok {sl sc : Str} {n : Novel} {tree : Option Elem} {s : Str} :
    saveFile sl sc n tree = some s ↔ ∃ out, writeTree sl sc n tree = .ok out ∧ s = fileText (!n.chapters.isEmpty) out := by
  unfold saveFile
  constructor
  · intro h
    split at h
    · cases h
    · rename_i out ho
      cases h
      exact ⟨out, ho, rfl⟩
  · rintro ⟨out, h1, rfl⟩
    rw [h1]

/-- C52 (saving): a project with texts a file can carry, saved to a tree with texts a file can carry, makes a well-formed file; the file has the same tree, and whatever novel
is read from it has the same chapters, scenes, characters, locations, items and notes, in the same order. -/
theorem C52_saved (sl sc : Str) (n : Novel) (tree : Option Elem) (s : Str) (hn : StorableNovel n) (hid : GoodIds n) (hl : Simple sl) (hc : Simple sc)
    (ht : ProjectTree (tree.getD newRoot).kids) (hx : KeepableTree (tree.getD newRoot)) (hs : saveFile sl sc n tree = some s) :
    ∃ out z, writeTree sl sc n tree = .ok out ∧ parseXml (parserInput s) = some z ∧ Reloaded out z ∧ KeepableTree z ∧
      ∀ lib m, readTree lib z = .ok m → SameStructure n m := by
  obtain ⟨out, hw, rfl⟩ := saveFile_ok.1 hs
  obtain ⟨_, _, z, z1, z2, _, z4⟩ := saved_parses (!n.chapters.isEmpty) hn hid.1.scKeys hl hc hx hw
  exact ⟨out, z, hw, z1, z2, z4, fun lib m hm => C22_structure lib sl sc n m tree out z ht hid hw z2 hm⟩

/-- One step: the file can be opened, saved and opened again, with the same novel. -/
theorem C52_resaved_partial (lib : PyLib) (sl sc s : Str) (x : Elem) (n : Novel) (h : loadFile lib s = some (x, n)) (ht : RegularTree x.kids) (hx : KeepableTree x)
    (hset : SettledNovel lib n) (hn : StorableNovel n) (hl : Simple sl) (hc : Simple sc) :
    ∃ s' z, resaved lib sl sc s = some s' ∧ loadFile lib s' = some (z, n) ∧ RegularTree z.kids ∧ KeepableTree z := by
  obtain ⟨h1, h2⟩ := loadFile_ok.1 h
  obtain ⟨out, hw⟩ := C51_settled_partial lib sl sc x n ht h2 hset
  obtain ⟨_, _, z, z1, z2, _, z4⟩ := saved_parses (tree := some x) (!n.chapters.isEmpty) hn hset.ids.1.scKeys hl hc hx hw
  refine ⟨_, z, ?_, loadFile_ok.2 ⟨z1, C20_stable_partial lib sl sc x out z n ht.tree ht.node ht.distinct h2 hset hw z2⟩,
    tree_regular sl sc n (some x) out z ht hset.ids (settled_languages hset) hw z2, z4⟩
  unfold resaved
  rw [h]
  exact saveFile_ok.2 ⟨out, hw, rfl⟩

/-- C52: opening a settled project file and saving it any number of times, on systems with any locales, always works, and the novel in the file never changes. -/
theorem C52_cycles_partial (lib : PyLib) (ls : List (Str × Str)) (s : Str) (x : Elem) (n : Novel) (h : loadFile lib s = some (x, n)) (ht : RegularTree x.kids) (hx : KeepableTree x)
    (hset : SettledNovel lib n) (hn : StorableNovel n) (hl : ∀ p ∈ ls, Simple p.1 ∧ Simple p.2) :
    ∃ s' z, resavedAll lib ls s = some s' ∧ loadFile lib s' = some (z, n) ∧ RegularTree z.kids ∧ KeepableTree z := by
  induction ls generalizing s x with
  | nil => exact ⟨s, x, rfl, h, ht, hx⟩
  | cons p r ih =>
    obtain ⟨s1, z1, a1, a2, a3, a4⟩ := C52_resaved_partial lib p.1 p.2 s x n h ht hx hset hn (hl p (by simp)).1 (hl p (by simp)).2
    obtain ⟨s2, z2, b1, b2⟩ := ih s1 z1 a2 a3 a4 (fun q hq => hl q (by simp [hq]))
    refine ⟨s2, z2, ?_, b2⟩
    rw [resavedAll, a1]
    exact b1

/-! ### The example -/

def safeCdataB (s : Str) : Bool := s.all (fun c => xmlLegal c && c != '\r' && c != '|') && !Str.contains s c!"]]>" && !Str.contains (c!"[CDATA[" ++ s) c!"[CDATA[ \n" &&
  !Str.contains (s ++ c!"]]") c!"\n]]"

theorem safeCdata_b {s : Str} (h : safeCdataB s = true) : SafeCdata s := by
  unfold safeCdataB at h
  simp only [Bool.and_eq_true, Bool.not_eq_true'] at h
  exact safeCdata_of h.1.1.1 h.1.1.2 h.1.2 h.2

theorem cdataText_b {v : Option Str} (h : v.all safeCdataB = true) : CdataText v := by
  intro s hs
  subst hs
  exact safeCdata_b h

theorem cdataTexts_b {l : List (Option Str)} (h : l.all (fun v => v.all safeCdataB) = true) : ∀ v ∈ l, CdataText v :=
  fun v hv => cdataText_b (List.all_eq_true.1 h v hv)

theorem simpleTexts_b {l : List (Option Str)} (h : l.all (fun v => v.all simpleB) = true) : ∀ v ∈ l, SimpleText v := by
  intro v hv s hs
  subst hs
  exact simple_of (List.all_eq_true.1 h _ hv)

theorem rawTexts_b {l : List (Option Str)} (h : l.all (fun v => v.all simpleB) = true) : ∀ v ∈ l, RawText v :=
  fun v hv s hs => (simpleTexts_b h v hv s hs).safePlain

theorem tagsText_b {v : Option (List Str)} (h : v.all (fun l => safeCdataB (Str.join c!";" l)) = true) : TagsText v := by
  intro s hs
  subst hs
  exact safeCdata_b h

theorem simples_b {l : List Str} (h : l.all simpleB = true) : ∀ v ∈ l, Simple v := fun v hv => simple_of (List.all_eq_true.1 h v hv)

theorem custom_b {v : Option Str} (h : v.all (fun t => simpleB (ywConvert (some t))) = true) : ∀ t, v = some t → Simple (ywConvert (some t)) := by
  intro s hs
  subst hs
  exact simple_of h

theorem Spec.Simple.safeRaw {s : Str} (h : Simple s) : SafeRaw s := h.safePlain.raw

def storableSceneB (s : Scene) : Bool :=
  [s.title, s.desc, s.notes, s.goal, s.outcome, s.image, s.sceneContent].all (fun v => v.all safeCdataB) &&
  [s.conflict, s.field1, s.field2, s.field3, s.field4, s.lastsDays, s.lastsHours, s.lastsMinutes].all (fun v => v.all simpleB) &&
  s.tags.all (fun l => safeCdataB (Str.join c!";" l)) && [s.date, s.time, s.day].all (fun v => v.all simpleB) &&
  [s.scnArcs, (s.kwVar.get? c!"Field_SceneArcs").join, (s.kwVar.get? c!"Field_SceneMode").join].all (fun v => v.all (fun t => simpleB (ywConvert (some t)))) &&
  [s.characters, s.locations, s.items].all (fun l => (l.getD []).all simpleB)

theorem storableScene_b {s : Scene} (h : storableSceneB s = true) : StorableScene s := by
  unfold storableSceneB at h
  simp only [Bool.and_eq_true] at h
  obtain ⟨⟨⟨⟨⟨h1, h2⟩, h3⟩, h4⟩, h5⟩, h6⟩ := h
  have h5' := List.all_eq_true.1 h5
  refine ⟨cdataTexts_b h1, rawTexts_b h2, tagsText_b h3, simpleTexts_b h4, ?_, ?_, ?_⟩
  · intro v hv t ht
    exact (custom_b (h5' v (by simp only [List.mem_cons, List.not_mem_nil, or_false] at hv ⊢; rcases hv with h | h <;> simp [h])) t ht).safeCdata
  · intro t ht
    exact (custom_b (h5' _ (by simp)) t ht).safePlain
  · intro l hl
    exact simples_b (List.all_eq_true.1 h6 l hl)

def storableElementB (w : WorldElement) : Bool :=
  [w.title, w.desc, w.image, w.aka].all (fun v => v.all safeCdataB) && w.tags.all (fun l => safeCdataB (Str.join c!";" l)) &&
  (w.kwVar.get? c!"Field_Link").join.all (fun t => simpleB (ywConvert (some t)))

theorem storableElement_b {w : WorldElement} (h : storableElementB w = true) : StorableElement w := by
  unfold storableElementB at h
  simp only [Bool.and_eq_true] at h
  exact ⟨cdataTexts_b h.1.1, tagsText_b h.1.2, fun t ht => (custom_b h.2 t ht).safeRaw⟩

def storableCharacterB (w : Character) : Bool :=
  [w.title, w.desc, w.image, w.aka, w.notes, w.bio, w.goals, w.fullName].all (fun v => v.all safeCdataB) && w.tags.all (fun l => safeCdataB (Str.join c!";" l)) &&
  [c!"Field_Link", c!"Field_BirthDate", c!"Field_DeathDate"].all (fun f => (w.kwVar.get? f).join.all (fun t => simpleB (ywConvert (some t))))

theorem storableCharacter_b {w : Character} (h : storableCharacterB w = true) : StorableCharacter w := by
  unfold storableCharacterB at h
  simp only [Bool.and_eq_true] at h
  exact ⟨cdataTexts_b h.1.1, tagsText_b h.1.2, fun f hf t ht => (custom_b (List.all_eq_true.1 h.2 f hf) t ht).safeRaw⟩

theorem dict_all {α : Type} {d : Dict α} {f : Str × α → Bool} (h : List.all d f = true) {k : Str} {v : α} (hk : d.get? k = some v) : f (k, v) = true :=
  List.all_eq_true.1 h _ (mem_of_get? hk)

def storableB (n : Novel) : Bool :=
  [n.title, n.desc, n.authorName, n.authorBio, n.fieldTitle1, n.fieldTitle2, n.fieldTitle3, n.fieldTitle4].all (fun v => v.all safeCdataB) &&
  [n.languageCode, n.countryCode].all (fun v => v.all simpleB) && (languagesToSave n).all simpleB &&
  List.all n.scenes (fun p => simpleB p.1 && storableSceneB p.2) &&
  (n.srtChapters.all simpleB && List.all n.chapters (fun p => p.2.title.all safeCdataB && p.2.desc.all safeCdataB && p.2.srtScenes.all simpleB)) &&
  (n.srtLocations.all simpleB && List.all n.locations (fun p => storableElementB p.2)) &&
  (n.srtItems.all simpleB && List.all n.items (fun p => storableElementB p.2)) &&
  (n.srtCharacters.all simpleB && List.all n.characters (fun p => storableCharacterB p.2)) &&
  (n.srtPrjNotes.all simpleB && List.all n.projectNotes (fun p => p.2.title.all safeCdataB && p.2.desc.all safeCdataB))

theorem storable_b {n : Novel} (h : storableB n = true) : StorableNovel n := by
  unfold storableB at h
  simp only [Bool.and_eq_true] at h
  obtain ⟨⟨⟨⟨⟨⟨⟨⟨h1, h2⟩, h3⟩, h4⟩, h5⟩, h6⟩, h7⟩, h8⟩, h9⟩ := h
  refine ⟨cdataTexts_b h1, simpleTexts_b h2, simples_b h3, ?_, ?_, ?_, ?_, ?_, ?_⟩
  · intro id s hs
    have := dict_all h4 hs
    simp only [Bool.and_eq_true] at this
    exact ⟨simple_of this.1, storableScene_b this.2⟩
  · intro id hid
    refine ⟨simples_b h5.1 id hid, fun c hc => ?_⟩
    have := dict_all h5.2 hc
    simp only [Bool.and_eq_true] at this
    exact ⟨cdataText_b this.1.1, cdataText_b this.1.2, simples_b this.2⟩
  · exact fun id hid => ⟨simples_b h6.1 id hid, fun w hw => storableElement_b (dict_all h6.2 hw)⟩
  · exact fun id hid => ⟨simples_b h7.1 id hid, fun w hw => storableElement_b (dict_all h7.2 hw)⟩
  · exact fun id hid => ⟨simples_b h8.1 id hid, fun w hw => storableCharacter_b (dict_all h8.2 hw)⟩
  · intro id hid
    refine ⟨simples_b h9.1 id hid, fun w hw => ?_⟩
    have := dict_all h9.2 hw
    simp only [Bool.and_eq_true] at this
    exact ⟨cdataText_b this.1, cdataText_b this.2⟩

theorem st_storable : StorableNovel stPrj := storable_b (by decide +kernel)

theorem keepable_newRoot : KeepableTree newRoot := by
  refine ⟨?_, by decide, ?_⟩
  · show GoodTree SafePlain newRoot
    unfold newRoot
    have hn : ∀ t ∈ [c!"YWRITER7", c!"PROJECT", c!"LOCATIONS", c!"ITEMS", c!"CHARACTERS", c!"PROJECTNOTES", c!"SCENES", c!"CHAPTERS"], IsName t ∧ t ∉ cdataTags := by
      intro t ht
      simp only [List.mem_cons, List.not_mem_nil, or_false] at ht
      rcases ht with rfl | rfl | rfl | rfl | rfl | rfl | rfl | rfl <;> exact ⟨isName_of (by decide), by decide⟩
    have e : ∀ t, IsName t ∧ t ∉ cdataTags → ∀ ks, GoodTreeL SafePlain ks → GoodTree SafePlain (node t none none ks) := by
      intro t ht ks hk
      rw [GoodTree, if_neg ht.2]
      exact ⟨ht.1, safePlain_nil, safePlain_nil, hk⟩
    refine e _ (hn _ (by simp)) _ ?_
    simp only [GoodTreeL, and_true]
    exact ⟨e _ (hn _ (by simp)) _ trivial, e _ (hn _ (by simp)) _ trivial, e _ (hn _ (by simp)) _ trivial, e _ (hn _ (by simp)) _ trivial, e _ (hn _ (by simp)) _ trivial,
      e _ (hn _ (by simp)) _ trivial, e _ (hn _ (by simp)) _ trivial⟩
  · intro c hc
    cases hc

def safePlainB (s : Str) : Bool := s.all (fun c => xmlLegal c && c != '\r' && c != '|' && c != '<' && c != '>' && c != '&') && !Str.contains s c!"[CDATA[ \n" && !Str.contains s c!"\n]]"

theorem safePlain_b {s : Str} (h : safePlainB s = true) : SafePlain s := by
  unfold safePlainB at h
  simp only [Bool.and_eq_true, Bool.not_eq_true'] at h
  refine ⟨fun c hc => ?_, (contains_false_iff _ _).1 h.1.2, (contains_false_iff _ _).1 h.2⟩
  have := List.all_eq_true.1 h.1.1 c hc
  simp only [Bool.and_eq_true, bne_iff_ne] at this
  exact ⟨⟨this.1.1.1.1.1, this.1.1.1.1.2, this.1.1.1.2⟩, this.1.1.2, this.1.2, this.2⟩

mutual
def goodB : Elem → Bool
  | node t x y ks => (!t.isEmpty && t.all nameChar) && (if t ∈ cdataTags then safeCdataB (x.getD []) && ks.isEmpty else safePlainB (x.getD [])) && safePlainB (y.getD []) && goodBL ks
def goodBL : List Elem → Bool
  | [] => true
  | e :: r => goodB e && goodBL r
end

mutual
theorem good_b : ∀ (e : Elem), goodB e = true → GoodTree SafePlain e
  | node t x y ks, h => by
    rw [goodB] at h
    simp only [Bool.and_eq_true] at h
    rw [GoodTree]
    refine ⟨isName_of (by simp only [Bool.and_eq_true]; exact h.1.1.1), ?_, safePlain_b h.1.2, goodL_b ks h.2⟩
    have h2 := h.1.1.2
    split
    · rename_i hc
      rw [if_pos hc, Bool.and_eq_true, List.isEmpty_iff] at h2
      exact ⟨safeCdata_b h2.1, h2.2⟩
    · rename_i hc
      rw [if_neg hc] at h2
      exact safePlain_b h2
theorem goodL_b : ∀ (l : List Elem), goodBL l = true → GoodTreeL SafePlain l
  | [], _ => trivial
  | e :: r, h => by
    rw [goodBL, Bool.and_eq_true] at h
    exact ⟨good_b e h.1, goodL_b r h.2⟩
end

theorem st_keepable : KeepableTree stTree :=
  ⟨good_b _ (by decide +kernel), by decide +kernel, by
    have h : stTree.tail.getD [] = c!"\n" := by decide +kernel
    unfold BlankTail
    rw [h]
    intro c hc
    simp at hc
    simp [hc]⟩

/-- The example, saved to its own tree, makes a file that meets the hypotheses of the theorem about any number of cycles. -/
theorem st_file : ∃ s z, saveFile c!"en" c!"GB" stPrj (some stTree) = some s ∧ loadFile exLib s = some (z, stPrj) ∧ RegularTree z.kids ∧ KeepableTree z := by
  obtain ⟨out, hw⟩ := C51_settled_partial exLib c!"en" c!"GB" stTree stPrj st_regular st_read st_settled
  obtain ⟨_, _, z, z1, z2, _, z4⟩ := saved_parses (sl := c!"en") (sc := c!"GB") (tree := some stTree) (!stPrj.chapters.isEmpty) st_storable st_settled.ids.1.scKeys (simple_of (by decide)) (simple_of (by decide))
    st_keepable hw
  exact ⟨_, z, saveFile_ok.2 ⟨out, hw, rfl⟩, loadFile_ok.2 ⟨z1, C20_stable_partial exLib c!"en" c!"GB" stTree out z stPrj st_regular.tree st_regular.node st_regular.distinct st_read st_settled hw z2⟩,
    tree_regular c!"en" c!"GB" stPrj (some stTree) out z st_regular st_settled.ids (settled_languages st_settled) hw z2, z4⟩

/-- A German and then an Austrian author open and save the file of the example: the novel is the same. -/
theorem st_travels : ∃ s s' z, saveFile c!"en" c!"GB" stPrj (some stTree) = some s ∧ resavedAll exLib [(c!"de", c!"DE"), (c!"de", c!"AT")] s = some s' ∧ loadFile exLib s' = some (z, stPrj) := by
  obtain ⟨s, z, h1, h2, h3, h4⟩ := st_file
  obtain ⟨s', z', a1, a2, _⟩ := C52_cycles_partial exLib [(c!"de", c!"DE"), (c!"de", c!"AT")] s z stPrj h2 h3 h4 st_settled st_storable (by
    intro p hp
    simp only [List.mem_cons, List.not_mem_nil, or_false] at hp
    rcases hp with rfl | rfl <;> exact ⟨simple_of (by decide), simple_of (by decide)⟩)
  exact ⟨s, s', z', h1, a1, a2⟩

/-- A project file with a foreign element in which an ampersand is escaped as it must be. -/
def foreignFile : Str := c!"<YWRITER7><PROJECT><Path>R&amp;D</Path></PROJECT><LOCATIONS></LOCATIONS><ITEMS></ITEMS><CHARACTERS></CHARACTERS><SCENES></SCENES><CHAPTERS></CHAPTERS></YWRITER7>"

set_option maxRecDepth 100000 in
/-- The condition on the tree is needed: the file can be opened and saved, but what is saved is not well-formed any more. -/
theorem C52_foreign_false : ∃ s', resaved exLib c!"en" c!"GB" foreignFile = some s' ∧ loadFile exLib s' = none := by
  have h : (match resaved exLib c!"en" c!"GB" foreignFile with | none => false | some s' => (parseXml (parserInput s')).isNone) = true := by decide +kernel
  cases hs : resaved exLib c!"en" c!"GB" foreignFile with
  | none => rw [hs] at h; cases h
  | some s' =>
    rw [hs] at h
    refine ⟨s', rfl, ?_⟩
    unfold loadFile
    rw [Option.isNone_iff_eq_none.1 h]

end Verif
