/-
The whole project tree: what is written can be carried.
-/
import Verif.Lemmas.Disk3
import Verif.Lemmas.Export
import Verif.Lemmas.Yw7Sections

namespace Verif
open Xml Elem Spec

theorem goodTree_raw_tag {R : Str → Prop} {e : Elem} (h : GoodTree R e) (hk : e.kids ≠ []) : e.tag ∉ cdataTags := by
  cases e with
  | node t x y ks =>
    rw [GoodTree] at h
    intro ht
    rw [tag_node] at ht
    have := h.2.1
    rw [if_pos ht] at this
    exact hk this.2

/-! ### Project variables -/

theorem createId_simple (els : List Str) : Simple (createId els) := by
  obtain ⟨n, _, h, _⟩ := createIdLoop_some (createIdLoop_eq els)
  rw [h]
  exact simple_ofNat n

theorem scanVar_good {R : Str → Prop} {lng ctr : Option Str} (hl : CdataText lng) (hc : CdataText ctr) {st st' : PvState} {e : Elem} (h : scanVar lng ctr st e = .ok st')
    (hs : GoodL R st.out) (he : GoodTree R e) : GoodL R st'.out ∧ ∀ l ∈ st'.languages, l ∈ st.languages := by
  have hout : GoodL R (st.out ++ [e]) := hs.append (.one he)
  have hmod : ∀ v, CdataText v → hasTag c!"Desc" e.kids = true → GoodL R (st.out ++ [e.mapKids (modFirst c!"Desc" (setText v))]) := by
    intro v hv hd
    refine hs.append (.one (goodTree_mapKids he (goodTree_raw_tag he ?_) ((goodTree_kids he).setText (hv.ok (by decide)))))
    intro h0
    rw [h0] at hd
    exact absurd hd (by decide)
  unfold scanVar at h
  split at h
  · cases h
    exact ⟨hout, fun l hl => hl⟩
  · split at h
    · rename_i idEl tEl _ _
      dsimp only at h
      split at h
      · cases h
      · rename_i title _
        split at h
        · cases h
          refine ⟨hout, ?_⟩
          intro l hl
          dsimp only at hl
          split at hl
          · exact List.mem_of_mem_erase hl
          · exact hl
        · split at h
          · split at h
            · rename_i hd
              cases h
              exact ⟨hmod lng hl hd, fun l hl => hl⟩
            · cases h
          · split at h
            · split at h
              · rename_i hd
                cases h
                exact ⟨hmod ctr hc hd, fun l hl => hl⟩
              · cases h
            · cases h
              exact ⟨hout, fun l hl => hl⟩
    · cases h

theorem scanVars_good {R : Str → Prop} {lng ctr : Option Str} (hl : CdataText lng) (hc : CdataText ctr) {ks : List Elem} {st st' : PvState} (h : scanVars lng ctr st ks = .ok st')
    (hs : GoodL R st.out) (he : GoodL R ks) : GoodL R st'.out ∧ ∀ l ∈ st'.languages, l ∈ st.languages := by
  induction ks generalizing st with
  | nil =>
    unfold scanVars at h
    cases h
    exact ⟨hs, fun l hl => hl⟩
  | cons e r ih =>
    unfold scanVars at h
    split at h
    · cases h
    · rename_i st1 h1
      obtain ⟨a1, a2⟩ := scanVar_good hl hc h1 hs (he e (by simp))
      obtain ⟨b1, b2⟩ := ih h a1 (fun x hx => he x (by simp [hx]))
      exact ⟨b1, fun l hl => a2 l (b2 l hl)⟩

theorem GoodL.addVar {R : Str → Prop} (hR : Raws R) {p : List Str × List Elem} {t : Str} {d : Option Str} (ht : SafeCdata t) (hd : CdataText d) (h : GoodL R p.2) : GoodL R (addVar t d p).2 := by
  unfold Verif.addVar
  refine h.append (.one (goodTree_node hR ⟨isName_of (by decide), by decide⟩ ?_))
  intro e he
  simp only [List.mem_cons, List.not_mem_nil, or_false] at he
  rcases he with rfl | rfl | rfl | rfl
  · exact goodTree_leaf hR (RawText.ok hR (fun s hs => by cases hs; exact (createId_simple _).safePlain) (by decide) (by decide))
  · exact goodTree_leaf hR (CdataText.ok (fun s hs => by cases hs; exact ht) (by decide))
  · exact goodTree_leaf hR (hd.ok (by decide))
  · exact goodTree_leaf hR (CdataText.ok (fun s hs => by cases hs; exact (simple_of (by decide)).safeCdata) (by decide))

theorem safeCdata_around {a b code : Str} (ha : (a ++ b).all (fun c => xmlLegal c && c != '\r' && c != '|' && c != ']' && c != '\n') = true) (h : Simple code) : SafeCdata (a ++ code ++ b) := by
  have hab : ∀ c ∈ a ++ b, safeChar c ∧ c ≠ ']' ∧ c ≠ '\n' := by
    intro c hc
    have := List.all_eq_true.1 ha c hc
    simp only [Bool.and_eq_true, bne_iff_ne, ne_eq] at this
    exact ⟨⟨this.1.1.1.1, this.1.1.1.2, this.1.1.2⟩, this.1.2, this.2⟩
  refine safeCdata_of_chars ?_
  intro c hc
  rcases List.mem_append.1 hc with hc | hc
  · rcases List.mem_append.1 hc with hc | hc
    · exact hab c (List.mem_append_left _ hc)
    · exact ⟨(h c hc).1, fun e => (h c hc).2 (by simp [e]), fun e => (h c hc).2 (by simp [e])⟩
  · exact hab c (List.mem_append_right _ hc)

theorem GoodL.addLang {R : Str → Prop} (hR : Raws R) {p : List Str × List Elem} {code : Str} (hc : Simple code) (h : GoodL R p.2) : GoodL R (addLang p code).2 := by
  unfold Verif.addLang
  refine GoodL.addVar hR ?_ ?_ (GoodL.addVar hR ?_ ?_ h)
  · have := safeCdata_around (a := c!"/lang=") (b := []) (by decide) hc
    rw [List.append_nil] at this
    exact this
  · intro s hs
    cases hs
    exact safeCdata_around (a := c!"<HTM </SPAN> /HTM>") (b := []) (code := []) (by decide) (by intro c hc; cases hc)
  · have := safeCdata_around (a := c!"lang=") (b := []) (by decide) hc
    rw [List.append_nil] at this
    exact this
  · intro s hs
    cases hs
    exact safeCdata_around (a := c!"<HTM <SPAN LANG=\"") (b := c!"\"> /HTM>") (by decide) hc

theorem GoodL.buildVars {R : Str → Prop} (hR : Raws R) {langs : List Str} {lng ctr : Option Str} {ks out : List Elem} (hla : ∀ l ∈ langs, Simple l) (hl : CdataText lng) (hc : CdataText ctr)
    (ho : buildVars langs lng ctr ks = .ok out) (h : GoodL R ks) : GoodL R out := by
  unfold Verif.buildVars at ho
  split at ho
  · cases ho
  · rename_i st hst
    dsimp only at ho
    cases ho
    obtain ⟨a1, a2⟩ := scanVars_good hl hc hst (by intro e he; cases he) h
    have hlan : ∀ l ∈ st.languages, Simple l := fun l hl' => hla l (a2 l hl')
    have hp : ∀ p : List Str × List Elem, GoodL R p.2 → ∀ ls : List Str, (∀ l ∈ ls, Simple l) → GoodL R (ls.foldl Verif.addLang p).2 := by
      intro p hp ls
      induction ls generalizing p with
      | nil => intro _; exact hp
      | cons l r ih => intro hls; exact ih _ (hp.addLang hR (hls l (by simp))) (fun x hx => hls x (by simp [hx]))
    refine hp _ ?_ _ hlan
    split
    · split
      · exact a1
      · exact GoodL.addVar hR (simple_of (by decide)).safeCdata hl a1
    · refine GoodL.addVar hR (simple_of (by decide)).safeCdata hc ?_
      split
      · exact a1
      · exact GoodL.addVar hR (simple_of (by decide)).safeCdata hl a1

/-! ### Scenes and chapters -/

theorem oldEntry_good {R : Str → Prop} (hR : Raws R) {tag id : Str} {ks : List Elem} {prev : Dict Elem} (hp : prevDict [] (sel tag ks) = .ok prev) (hn : IsName tag ∧ tag ∉ cdataTags)
    (hid : Simple id) (h : GoodL R ks) : GoodTree R ((prev.get? id).getD (node tag none none [leaf c!"ID" (some id)])) ∧
      ((prev.get? id).getD (node tag none none [leaf c!"ID" (some id)])).tag = tag := by
  cases hg : prev.get? id with
  | none => exact ⟨goodTree_node hR hn (.idLeaf hR hid), rfl⟩
  | some e =>
    rcases prevDict_mem hp hg with h1 | ⟨h1, h2⟩
    · exact absurd h1 (by simp [Dict.get?])
    · obtain ⟨h3, h4⟩ := List.mem_filter.1 h1
      exact ⟨h e h3, by simpa using h4⟩

theorem GoodL.buildScenes {R : Str → Prop} (hR : Raws R) {n : Novel} {ks out : List Elem} (hs : ∀ p ∈ n.scenes, Simple p.1 ∧ SceneTexts p.2) (ho : buildScenes n ks = .ok out) (h : GoodL R ks) :
    GoodL R out := by
  unfold Verif.buildScenes at ho
  split at ho
  · cases ho
  · rename_i prev hprev
    split at ho
    · cases ho
    · rename_i es hes
      cases ho
      refine (h.filter _).append ?_
      intro e he
      obtain ⟨p, h1, h2⟩ := mapE_mem' hes e he
      obtain ⟨h3, h4⟩ := hs p h1
      obtain ⟨g1, g2⟩ := oldEntry_good hR hprev ⟨isName_of (by decide), by decide⟩ h3 h
      dsimp only at h2
      split at h2
      · cases h2
      · rename_i k hk
        cases h2
        exact goodTree_mapKids g1 (by rw [g2]; decide) (GoodL.buildScene hR h4 hk (goodTree_kids g1))

theorem GoodL.buildChapters {R : Str → Prop} (hR : Raws R) {n : Novel} {ks out : List Elem}
    (hs : ∀ id ∈ n.srtChapters, Simple id ∧ ∀ c, n.chapters.get? id = some c → CdataText c.title ∧ CdataText c.desc ∧ ∀ s ∈ c.srtScenes, Simple s) (ho : buildChapters n ks = .ok out) (h : GoodL R ks) :
    GoodL R out := by
  unfold Verif.buildChapters at ho
  split at ho
  · cases ho
  · rename_i prev hprev
    split at ho
    · cases ho
    · rename_i es hes
      cases ho
      refine (h.filter _).append ?_
      intro e he
      obtain ⟨id, h1, h2⟩ := mapE_mem' hes e he
      obtain ⟨h3, h4⟩ := hs id h1
      obtain ⟨g1, g2⟩ := oldEntry_good hR hprev ⟨isName_of (by decide), by decide⟩ h3 h
      split at h2
      · cases h2
      · rename_i c hc
        obtain ⟨c1, c2, c3⟩ := h4 c hc
        dsimp only at h2
        split at h2
        · cases h2
        · rename_i k hk
          cases h2
          exact goodTree_mapKids g1 (by rw [g2]; decide) (GoodL.buildChapter hR c1 c2 c3 hk (goodTree_kids g1))

theorem GoodL.finishScenes {R : Str → Prop} {n : Novel} {ks out : List Elem} (hs : ∀ p ∈ n.scenes, CdataText p.2.sceneContent) (ho : finishScenes n ks = .ok out) (h : GoodL R ks) :
    GoodL R out := by
  intro e he
  obtain ⟨a, h1, h2⟩ := mapE_mem' ho e he
  split at h2
  · cases h2
  · rename_i id hid
    split at h2
    · cases h2
    · rename_i s hsc
      split at h2
      · cases h2
      · cases h2
        refine goodTree_mapKids (h a h1) (goodTree_raw_tag (h a h1) ?_) ((goodTree_kids (h a h1)).finishScene (hs _ (mem_of_get? hsc)))
        intro h0
        rw [idOf_ok_iff, h0] at hid
        cases hid

/-! ### The root -/

/-- The texts of a novel as they are given to the file. -/
structure RootTexts (sl sc : Str) (n : Novel) : Prop where
  texts : ∀ v ∈ [n.title, n.desc, n.authorName, n.authorBio, n.fieldTitle1, n.fieldTitle2, n.fieldTitle3, n.fieldTitle4], CdataText v
  locale : ∀ v ∈ [(n.checkLocale sl sc).languageCode, (n.checkLocale sl sc).countryCode], CdataText v
  languages : ∀ l ∈ n.languages.getD [], Simple l
  scenes : ∀ p ∈ n.scenes, Simple p.1 ∧ SceneTexts p.2
  chapters : ∀ id ∈ n.srtChapters, Simple id ∧ ∀ c, n.chapters.get? id = some c → CdataText c.title ∧ CdataText c.desc ∧ ∀ s ∈ c.srtScenes, Simple s
  locations : ∀ id ∈ n.srtLocations, Simple id ∧ ∀ w, n.locations.get? id = some w → StorableElement w
  items : ∀ id ∈ n.srtItems, Simple id ∧ ∀ w, n.items.get? id = some w → StorableElement w
  characters : ∀ id ∈ n.srtCharacters, Simple id ∧ ∀ w, n.characters.get? id = some w → StorableCharacter w
  notes : ∀ id ∈ n.srtPrjNotes, Simple id ∧ ∀ w, n.projectNotes.get? id = some w → CdataText w.title ∧ CdataText w.desc

/-- Each of the lists that are replaced exists at most once. -/
def ListsOnce (rk : List Elem) : Prop := ∀ p ∈ rebuiltLists, (sel p.1 rk).length ≤ 1

theorem ListsOnce.section {t : Str} {f : List Elem → Except Exc (List Elem)} {rk out : List Elem} (h : ListsOnce rk) (ho : onSection t f rk = .ok out) : ListsOnce out := by
  intro p hp
  rw [onSection_length ho]
  exact h p hp

theorem hasTag_false_sel {t : Str} {ks : List Elem} (h : hasTag t ks = false) : sel t ks = [] := by
  unfold hasTag at h
  rw [find_eq] at h
  cases hs : sel t ks with
  | nil => rfl
  | cons a r => rw [hs] at h; cases h

theorem ListsOnce.addSection {rk : List Elem} {t : Str} (h : ListsOnce rk) :
    ListsOnce (if hasTag t rk then rk else rk ++ [node t none none []]) := by
  split
  · exact h
  · rename_i hn
    intro p hp
    have h0 := hasTag_false_sel (by simpa using hn)
    by_cases hpt : t = p.1
    · have : sel p.1 (rk ++ [node t none none []]) = [node t none none []] := by
        rw [← hpt]
        have := sel_append_self rk (node t none none [])
        rw [tag_node, h0] at this
        exact this
      rw [this]
      simp
    · have : sel p.1 (rk ++ [node t none none []]) = sel p.1 rk := by
        simp [sel, List.filter_append, hpt]
      rw [this]
      exact h p hp

theorem ListsOnce.removeFirst {rk : List Elem} (t : Str) (h : ListsOnce rk) : ListsOnce (removeFirst t rk) := by
  intro p hp
  refine Nat.le_trans ?_ (h p hp)
  by_cases hpt : t = p.1
  · rw [← hpt, sel_removeFirst_self]
    simp
  · have := filter_removeFirst (p := fun u => decide (u = p.1)) (t := t) (by simp [hpt]) rk
    unfold sel
    rw [this]
    exact Nat.le_refl _

theorem Secs.append {R : Str → Prop} {D : List (Str × Str)} {a b : List Elem} (h : Secs R D a) (h' : Secs R D b) : Secs R D (a ++ b) := by
  intro e he
  rcases List.mem_append.1 he with he | he
  · exact h e he
  · exact h' e he

theorem Secs.addSection {R : Str → Prop} (hR : Raws R) {D : List (Str × Str)} {rk : List Elem} {t : Str} (ht : IsName t ∧ t ∉ cdataTags) (h : Secs R D rk) :
    Secs R D (if hasTag t rk then rk else rk ++ [node t none none []]) := by
  split
  · exact h
  · refine h.append ?_
    intro e he
    rw [List.mem_singleton] at he
    subst he
    exact goodTree_node hR ht (by intro e he; cases he)

theorem Secs.vars {R : Str → Prop} (hR : Raws R) {D : List (Str × Str)} (hD : ∀ p ∈ D, p ∈ rebuiltLists) {sl sc : Str} {n : Novel} (hn : RootTexts sl sc n) {rk out : List Elem} (h : Secs R D rk)
    (ho : buildProjectVars sl sc n rk = .ok out) : Secs R D out := by
  unfold buildProjectVars at ho
  split at ho
  · cases ho; exact h
  · refine (h.addSection hR ⟨isName_of (by decide), by decide⟩).section ho ?_ (by decide) ?_
    · intro p hp
      have : ∀ p ∈ rebuiltLists, p.1 ≠ c!"PROJECTVARS" := by decide
      exact this p (hD p hp)
    · intro ks ks' hk hg
      exact GoodL.buildVars hR hn.languages (hn.locale _ (by simp)) (hn.locale _ (by simp)) hk hg

theorem listsOnce_vars {sl sc : Str} {n : Novel} {rk out : List Elem} (h : ListsOnce rk) (ho : buildProjectVars sl sc n rk = .ok out) : ListsOnce out := by
  unfold buildProjectVars at ho
  split at ho
  · cases ho; exact h
  · exact (h.addSection).section ho

theorem listsOnce_notes {n : Novel} {rk out : List Elem} (h : ListsOnce rk) (ho : buildNotes n rk = .ok out) : ListsOnce out := by
  unfold buildNotes at ho
  split at ho
  · cases ho; exact h.removeFirst _
  · exact (h.addSection).section ho

theorem Secs.removeFirst {R : Str → Prop} {D : List (Str × Str)} {rk : List Elem} (t : Str) (h : Secs R D rk) : Secs R D (removeFirst t rk) := fun e he => h e (mem_removeFirst he)

/-- The first and the last steps. -/
theorem secs_rest {R : Str → Prop} (hR : Raws R) {D : List (Str × Str)} (hD : ∀ p ∈ D, p ∈ rebuiltLists) {sl sc : Str} {n : Novel} (hn : RootTexts sl sc n) {rk k1 k2 k3 out : List Elem} (h : Secs R D rk)
    (h1 : buildProjectVars sl sc n rk = .ok k1) (h2 : onSection c!"SCENES" (buildScenes n) k1 = .ok k2) (h3 : onSection c!"CHAPTERS" (buildChapters n) k2 = .ok k3)
    (h4 : onSection c!"SCENES" (finishScenes n) k3 = .ok out) : Secs R D out := by
  have hs : ∀ p ∈ D, p.1 ≠ c!"SCENES" := fun p hp => (by decide : ∀ p ∈ rebuiltLists, p.1 ≠ c!"SCENES") p (hD p hp)
  have hc : ∀ p ∈ D, p.1 ≠ c!"CHAPTERS" := fun p hp => (by decide : ∀ p ∈ rebuiltLists, p.1 ≠ c!"CHAPTERS") p (hD p hp)
  refine Secs.section (Secs.section (Secs.section (h.vars hR hD hn h1) h2 hs (by decide) ?_) h3 hc (by decide) ?_) h4 hs (by decide) ?_
  · intro ks ks' hk hg
    exact GoodL.buildScenes hR hn.scenes hk hg
  · intro ks ks' hk hg
    exact GoodL.buildChapters hR hn.chapters hk hg
  · intro ks ks' hk hg
    exact GoodL.finishScenes (fun p hp => (hn.scenes p hp).2.texts _ (by simp)) hk hg

/-- What is kept in the tree needs no escaping, and all that is written can be carried. -/
theorem buildRoot_good {sl sc : Str} {n : Novel} (hn : RootTexts sl sc n) {rk out : List Elem} (h : Secs SafePlain rebuiltLists rk) (ho : ListsOnce rk) (hb : buildRoot sl sc n rk = .ok out) :
    Secs SafePlain rebuiltLists out ∧ GoodL SafeRaw out ∧ ListsOnce out := by
  unfold buildRoot at hb
  obtain ⟨k1, b1, hb⟩ := bind_ok hb
  obtain ⟨k2, b2, hb⟩ := bind_ok hb
  obtain ⟨k3, b3, hb⟩ := bind_ok hb
  obtain ⟨k4, b4, hb⟩ := bind_ok hb
  obtain ⟨k5, b5, hb⟩ := bind_ok hb
  obtain ⟨k6, b6, hb⟩ := bind_ok hb
  obtain ⟨k7, b7, hb⟩ := bind_ok hb
  obtain ⟨k8, b8, hb⟩ := bind_ok hb
  have o1 := ho.section b1
  have o2 := o1.section b2
  have o3 := o2.section b3
  have o4 := o3.section b4
  have o5 := listsOnce_notes o4 b5
  have o6 := listsOnce_vars o5 b6
  have o7 := o6.section b7
  have o8 := o7.section b8
  refine ⟨?_, ?_, o8.section hb⟩
  · have hR : Raws SafePlain := fun s h => h
    have s1 : Secs SafePlain rebuiltLists k1 := h.section b1 (by decide) (by decide) (fun ks ks' hk hg => by cases hk; exact hg.buildProject hR hn.texts)
    have s2 := s1.rebuild b2 (by decide)
    have s3 := s2.rebuild b3 (by decide)
    have s4 := s3.rebuild b4 (by decide)
    have s5 : Secs SafePlain rebuiltLists k5 := by
      unfold buildNotes at b5
      split at b5
      · cases b5; exact s4.removeFirst _
      · exact (s4.addSection hR ⟨isName_of (by decide), by decide⟩).rebuild b5 (by decide)
    exact secs_rest hR (fun p hp => hp) hn s5 b6 b7 b8 hb
  · have hR : Raws SafeRaw := fun s h => h.raw
    have h' : Secs SafeRaw rebuiltLists rk := fun e he => goodTree_mono hR _ (h e he)
    have s1 : Secs SafeRaw rebuiltLists k1 := h'.section b1 (by decide) (by decide) (fun ks ks' hk hg => by cases hk; exact hg.buildProject hR hn.texts)
    have s2 : Secs SafeRaw [(c!"ITEMS", c!"ITEM"), (c!"CHARACTERS", c!"CHARACTER"), (c!"PROJECTNOTES", c!"PROJECTNOTE")] k2 := by
      refine s1.rebuilt b2 ?_ (by decide) (o1 (c!"LOCATIONS", c!"LOCATION") (by decide)) (by decide) ?_ ⟨isName_of (by decide), by decide⟩ ?_
      · intro u v
        unfold rebuiltLists
        simp only [List.mem_cons, List.not_mem_nil, or_false, ne_eq]
        constructor
        · rintro (h | h | h) <;> simp [h]
        · rintro ⟨h | h | h | h, h'⟩ <;> simp_all
      · intro v hv
        unfold rebuiltLists at hv
        simpa using hv
      · intro id hid a ha
        exact GoodL.buildWorld ((hn.locations id hid).2 a ha) (.idLeaf hR (hn.locations id hid).1)
    have s3 : Secs SafeRaw [(c!"CHARACTERS", c!"CHARACTER"), (c!"PROJECTNOTES", c!"PROJECTNOTE")] k3 := by
      refine s2.rebuilt b3 ?_ (by decide) (o2 (c!"ITEMS", c!"ITEM") (by decide)) (by decide) ?_ ⟨isName_of (by decide), by decide⟩ ?_
      · intro u v
        simp only [List.mem_cons, List.not_mem_nil, or_false, ne_eq]
        constructor
        · rintro (h | h) <;> simp [h]
        · rintro ⟨h | h | h, h'⟩ <;> simp_all
      · intro v hv
        simpa using hv
      · intro id hid a ha
        exact GoodL.buildWorld ((hn.items id hid).2 a ha) (.idLeaf hR (hn.items id hid).1)
    have s4 : Secs SafeRaw [(c!"PROJECTNOTES", c!"PROJECTNOTE")] k4 := by
      refine s3.rebuilt b4 ?_ (by decide) (o3 (c!"CHARACTERS", c!"CHARACTER") (by decide)) (by decide) ?_ ⟨isName_of (by decide), by decide⟩ ?_
      · intro u v
        simp only [List.mem_cons, List.not_mem_nil, or_false, ne_eq]
        constructor
        · rintro h; simp [h]
        · rintro ⟨h | h, h'⟩ <;> simp_all
      · intro v hv
        simpa using hv
      · intro id hid a ha
        exact GoodL.buildCharacter ((hn.characters id hid).2 a ha) (.idLeaf hR (hn.characters id hid).1)
    have s5 : Secs SafeRaw [] k5 := by
      unfold buildNotes at b5
      split at b5
      · cases b5
        intro e he
        by_cases het : e.tag = c!"PROJECTNOTES"
        · exfalso
          have hl : (sel c!"PROJECTNOTES" k4).length ≤ 1 := o4 (c!"PROJECTNOTES", c!"PROJECTNOTE") (by decide)
          have hm : e ∈ sel c!"PROJECTNOTES" (removeFirst c!"PROJECTNOTES" k4) := List.mem_filter.2 ⟨he, by simp [het]⟩
          rw [sel_removeFirst_self] at hm
          cases hs : sel c!"PROJECTNOTES" k4 with
          | nil => rw [hs] at hm; cases hm
          | cons a r =>
            rw [hs] at hm hl
            have : r = [] := List.length_eq_zero_iff.1 (by simp only [List.length_cons] at hl; omega)
            rw [this] at hm
            cases hm
        · have := s4 e (mem_removeFirst he)
          rw [withoutLists_of (by intro p hp; rw [List.mem_singleton] at hp; subst hp; exact fun h => het h.symm)] at this
          rw [withoutLists_of (by intro p hp; cases hp)]
          exact this
      · refine (s4.addSection hR ⟨isName_of (by decide), by decide⟩).rebuilt b5 ?_ (by decide) ((o4.addSection) (c!"PROJECTNOTES", c!"PROJECTNOTE") (by decide)) (by decide) ?_ ⟨isName_of (by decide), by decide⟩ ?_
        · intro u v
          simp
        · intro v hv
          simpa using hv
        · intro id hid a ha
          obtain ⟨n1, n2⟩ := (hn.notes id hid).2 a ha
          exact GoodL.buildNote n1 n2 (.idLeaf hR (hn.notes id hid).1)
    have := secs_rest hR (D := []) (by intro p hp; cases hp) hn s5 b6 b7 b8 hb
    intro e he
    have := this e he
    rw [withoutLists_of (by intro p hp; cases hp)] at this
    exact this

end Verif
