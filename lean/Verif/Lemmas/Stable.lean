/-
Saving and reloading a scene that was read from the same element.
-/
import Verif.Spec.Settled
import Verif.Props.C20_Cycles

namespace Verif
open Xml Elem Spec

theorem saved_same {v : Option Str} (h : NotEmpty v) : saved v v = v := by
  unfold saved
  cases v with
  | none => rfl
  | some t =>
    cases t with
    | nil => exact absurd rfl h
    | cons c t => rfl

/-- Two scene elements that are read in the same way. -/
structure SceneAgrees (lib : PyLib) (a b c : List Str) (ks r : List Elem) : Prop where
  texts : ∀ t ∈ [c!"Title", c!"Desc", c!"Notes", c!"Goal", c!"Outcome", c!"ImageFile", c!"SceneContent", c!"Conflict", c!"Field1", c!"Field2", c!"Field3", c!"Field4",
    c!"LastsDays", c!"LastsHours", c!"LastsMinutes"], textOf t r = textOf t ks
  flags : ∀ t ∈ [c!"AppendToPrev", c!"ReactionScene", c!"SubPlot"], hasTag t r = hasTag t ks
  export' : readDoNotExport r = readDoNotExport ks
  status : readStatus lib r = readStatus lib ks
  start : readStart lib r = readStart lib ks
  tags : readTags r = readTags ks
  characters : readIds c!"Characters" c!"CharID" a r = readIds c!"Characters" c!"CharID" a ks
  locations : readIds c!"Locations" c!"LocID" b r = readIds c!"Locations" c!"LocID" b ks
  items : readIds c!"Items" c!"ItemID" c r = readIds c!"Items" c!"ItemID" c ks
  arcs : customOf c!"Field_SceneArcs" r = customOf c!"Field_SceneArcs" ks
  mode : customOf c!"Field_SceneMode" r = customOf c!"Field_SceneMode" ks

theorem SceneAgrees.read {lib : PyLib} {a b c : List Str} {ks r : List Elem} {s : Scene} (h : SceneAgrees lib a b c ks r) (hs : readScene lib a b c ks = .ok s) :
    readScene lib a b c r = .ok { s with scType := some (readSceneType r) } := by
  unfold readScene at hs ⊢
  rw [h.status, h.start]
  cases h1 : readStatus lib ks with
  | error x => rw [h1] at hs; cases hs
  | ok st =>
    rw [h1] at hs
    cases h2 : readStart lib ks with
    | error x => rw [h2] at hs; cases hs
    | ok d =>
      rw [h2] at hs
      obtain ⟨d1, d2, d3⟩ := d
      dsimp only at hs ⊢
      rw [h.texts c!"Title" (by simp), h.texts c!"Desc" (by simp), h.texts c!"Notes" (by simp), h.texts c!"Goal" (by simp), h.texts c!"Outcome" (by simp),
        h.texts c!"ImageFile" (by simp), h.texts c!"SceneContent" (by simp), h.texts c!"Conflict" (by simp), h.texts c!"Field1" (by simp), h.texts c!"Field2" (by simp),
        h.texts c!"Field3" (by simp), h.texts c!"Field4" (by simp), h.texts c!"LastsDays" (by simp), h.texts c!"LastsHours" (by simp), h.texts c!"LastsMinutes" (by simp),
        h.flags c!"AppendToPrev" (by simp), h.flags c!"ReactionScene" (by simp), h.flags c!"SubPlot" (by simp), h.export', h.tags, h.characters, h.locations, h.items,
        h.arcs, h.mode]
      cases h3 : textOf c!"SceneContent" ks with
      | none =>
        rw [h3] at hs
        cases hs
        rfl
      | some t =>
        rw [h3] at hs
        cases hs
        rfl

/-- What is read from the `Fields` of a saved scene. -/
theorem customs_saved {s : Scene} {ks out r : List Elem} (hk : SceneElement ks) (hs : sceneOut s ks = .ok out) (hr : ReloadedL out r) :
    customOf c!"Field_SceneArcs" r = readText (some (ywConvert (s.kwVar.get? c!"Field_SceneArcs").join)) ∧
    ((∀ t, (s.kwVar.get? c!"Field_SceneMode").join = some t → Carriable t) → customOf c!"Field_SceneMode" r = readText (s.kwVar.get? c!"Field_SceneMode").join) := by
  obtain ⟨u, ty, _, _, hf⟩ := scene_Unused hs
  have hlen : (sel c!"Fields" r).length ≤ 1 := by
    rw [length_reloaded (hr.sel c!"Fields"), hf]
    exact fieldsOnce_customSel (fieldsOnce_customSel (fieldsOnce_sceneTypeSel hk.fieldsOnce))
  have hkids := reloaded_headKids (hr.sel c!"Fields")
  rw [hf, headKids_customSel, headKids_customSel, headKids_sceneTypeSel'] at hkids
  have hplain : ∀ t ∈ [c!"Field_SceneArcs", c!"Field_SceneMode"],
      (sel t (headKids (sel c!"Fields" ks))).length ≤ 1 ∧
      ∀ e ∈ sel t (headKids (sel c!"Fields" ks)), e.kids = [] := by
    intro t ht
    have hfl := hk.fields
    cases hsel : sel c!"Fields" ks with
    | nil => simp [headKids, sel]
    | cons f q =>
      rw [hsel] at hfl
      refine hfl f (by simp) t ?_
      simp only [List.mem_cons, List.not_mem_nil, or_false] at ht ⊢
      rcases ht with rfl | rfl <;> simp
  have hty : ∀ t, c!"Field_SceneType" ≠ t → ∀ l, sel t (sceneTypeKids ty l) = sel t l := by
    intro t ht l
    cases ty with
    | none => exact sel_removeFirst_ne ht l
    | some v => exact sel_putAlways_ne ht (some v) l
  constructor
  · rw [customOf_eq hlen]
    refine textOf_customKids_cdata hkids (fk := sceneTypeKids ty (headKids (sel c!"Fields" ks))) ?_ ?_ (by decide)
    · exact (touches_customKids _ _).sel_ne (by decide) _
    · rw [hty _ (by decide)]; exact hplain _ (by simp)
  · intro hv
    rw [customOf_eq hlen]
    exact textOf_customKids hkids
      (fk := customKids c!"Field_SceneArcs" (s.kwVar.get? c!"Field_SceneArcs").join
        (sceneTypeKids ty (headKids (sel c!"Fields" ks)))) rfl
      (by
        rw [(touches_customKids _ _).sel_ne (by decide), hty _ (by decide)]
        exact hplain _ (by simp)) (by decide) hv

theorem readScene_kwVar {lib : PyLib} {a b c : List Str} {ks : List Elem} {s : Scene} (hs : readScene lib a b c ks = .ok s) :
    s.kwVar = [(c!"Field_SceneArcs", customOf c!"Field_SceneArcs" ks), (c!"Field_SceneMode", customOf c!"Field_SceneMode" ks)] ∧
    s.scnArcs = customOf c!"Field_SceneArcs" ks ∧ s.scnMode = (customOf c!"Field_SceneMode" ks).bind lib.int ∧ s.sceneContent = textOf c!"SceneContent" ks := by
  unfold readScene at hs
  cases h1 : readStatus lib ks with
  | error x => rw [h1] at hs; cases hs
  | ok st =>
    rw [h1] at hs
    cases h2 : readStart lib ks with
    | error x => rw [h2] at hs; cases hs
    | ok d =>
      rw [h2] at hs
      obtain ⟨d1, d2, d3⟩ := d
      dsimp only at hs
      cases h3 : textOf c!"SceneContent" ks with
      | none =>
        rw [h3] at hs
        cases hs
        exact ⟨rfl, rfl, rfl, rfl⟩
      | some t =>
        rw [h3] at hs
        cases hs
        exact ⟨rfl, rfl, rfl, rfl⟩

/-- The fields of a scene that was read. -/
structure SceneRead (lib : PyLib) (a b c : List Str) (r : List Elem) (x : Scene) : Prop where
  title : x.title = textOf c!"Title" r
  desc : x.desc = textOf c!"Desc" r
  notes : x.notes = textOf c!"Notes" r
  goal : x.goal = textOf c!"Goal" r
  outcome : x.outcome = textOf c!"Outcome" r
  image : x.image = textOf c!"ImageFile" r
  content : x.sceneContent = textOf c!"SceneContent" r
  conflict : x.conflict = textOf c!"Conflict" r
  field1 : x.field1 = textOf c!"Field1" r
  field2 : x.field2 = textOf c!"Field2" r
  field3 : x.field3 = textOf c!"Field3" r
  field4 : x.field4 = textOf c!"Field4" r
  lastsDays : x.lastsDays = textOf c!"LastsDays" r
  lastsHours : x.lastsHours = textOf c!"LastsHours" r
  lastsMinutes : x.lastsMinutes = textOf c!"LastsMinutes" r
  tags : x.tags = readTags r
  append : x.appendToPrev = some (hasTag c!"AppendToPrev" r)
  reaction : x.isReactionScene = some (hasTag c!"ReactionScene" r)
  subPlot : x.isSubPlot = some (hasTag c!"SubPlot" r)
  characters : x.characters = readIds c!"Characters" c!"CharID" a r
  locations : x.locations = readIds c!"Locations" c!"LocID" b r
  items : x.items = readIds c!"Items" c!"ItemID" c r
  scType : x.scType = some (readSceneType r)
  export' : x.doNotExport = some (readDoNotExport r)
  status : readStatus lib r = .ok x.status
  start : readStart lib r = .ok (x.date, x.time, x.day)

theorem readScene_read {lib : PyLib} {a b c : List Str} {r : List Elem} {x : Scene} (h : readScene lib a b c r = .ok x) : SceneRead lib a b c r x := by
  obtain ⟨y, e, _, h1, h2, h3, h4, h5, h6, h7, h8, h9, h10, h11, h12, h13, h14, h15, h16, h17, h18, h19, h20, h21, h22, h23, h24, h25, _, _⟩ := readScene_ok h
  have h0 := (readScene_kwVar h).2.2.2
  cases hc : textOf c!"SceneContent" r with
  | none =>
    rw [hc] at e h0
    subst e
    exact ⟨h1, h2, h3, h4, h5, h6, h0.trans hc.symm, h7, h8, h9, h10, h11, h12, h13, h14, h15, h16, h17, h18, h19, h20, h21, h22, h23, h24.symm, h25.symm⟩
  | some t =>
    rw [hc] at e h0
    subst e
    exact ⟨h1, h2, h3, h4, h5, h6, h0.trans hc.symm, h7, h8, h9, h10, h11, h12, h13, h14, h15, h16, h17, h18, h19, h20, h21, h22, h23, h24.symm, h25.symm⟩

theorem find_of_reloaded_none {out r : List Elem} {t : Str} (hr : ReloadedL out r) (h : sel t out = []) : find t r = none := by
  have := reloaded_sel_nil hr h
  rw [find_of_sel, this]
  rfl

theorem readStart_unset {lib : PyLib} {ks : List Elem} {date day : Option Str} (hd : date = none) (h : readStart lib ks = .ok (date, none, day)) :
    find c!"SpecificDateTime" ks = none ∧ find c!"Hour" ks = none ∧ find c!"Minute" ks = none ∧ (day = none → find c!"Day" ks = none) := by
  subst hd
  unfold readStart at h
  cases h0 : find c!"SpecificDateTime" ks with
  | some e =>
    rw [h0] at h
    dsimp only at h
    split at h
    · cases h
    · split at h <;> cases h
  | none =>
    rw [h0] at h
    dsimp only at h
    split at h
    · cases h
    · rename_i dy hdy
      split at h
      · cases h
      · rename_i hr hhr
        split at h
        · cases h
        · rename_i mi hmi
          split at h
          · cases h
          · rename_i hn
            cases h
            have hr0 : hr = none := by
              cases hr with
              | none => rfl
              | some v => exact absurd (Or.inl rfl) hn
            have mi0 : mi = none := by
              cases mi with
              | none => rfl
              | some v => exact absurd (Or.inr rfl) hn
            subst hr0 mi0
            refine ⟨rfl, ?_, ?_, ?_⟩
            · unfold readHM at hhr
              cases hh : find c!"Hour" ks with
              | none => rfl
              | some e =>
                rw [hh] at hhr
                dsimp only at hhr
                split at hhr <;> cases hhr
            · unfold readHM at hmi
              cases hh : find c!"Minute" ks with
              | none => rfl
              | some e =>
                rw [hh] at hmi
                dsimp only at hmi
                split at hmi <;> cases hmi
            · rintro rfl
              unfold readDay at hdy
              cases hh : find c!"Day" ks with
              | none => rfl
              | some e =>
                rw [hh] at hdy
                dsimp only at hdy
                split at hdy <;> cases hdy

theorem sel_nil_of_find {t : Str} {ks : List Elem} (h : find t ks = none) : sel t ks = [] := by
  rw [find_of_sel] at h
  exact List.head?_eq_none_iff.1 h

/-- The start of a scene that was read from the same element. -/
theorem start_stable {lib : PyLib} {s : Scene} {ks out r : List Elem} (hk : SceneElement ks) (hs : sceneOut s ks = .ok out) (hr : ReloadedL out r)
    (h0 : readStart lib ks = .ok (s.date, s.time, s.day)) (h : SettledStart lib s.date s.time s.day) : readStart lib r = readStart lib ks := by
  rw [h0]
  rcases h with ⟨d, t, h1, h2, h3, h4, h5, h6⟩ | ⟨h1, h2, h3⟩ | ⟨h1, y, h2, h3, h4, h5, h6 | ⟨t, hh, mm, h6, h7⟩⟩
  · rw [C17_specific lib s ks out r d t hk hs hr h1 h2 h4 h5 h6, h1, h2, h3]
  · rw [h1, h2, h3] at h0 ⊢
    obtain ⟨g1, g2, g3, g4⟩ := readStart_unset rfl h0
    have hsel := C17_unset s ks out hs h2 h3
    have key : ∀ t ∈ [c!"SpecificDateTime", c!"Day", c!"Hour", c!"Minute"], find t r = none := by
      intro t ht
      refine find_of_reloaded_none hr ?_
      simp only [List.mem_cons, List.not_mem_nil, or_false] at ht
      rcases ht with rfl | rfl | rfl | rfl
      · rw [hsel _ (by decide), sel_nil_of_find g1]
      · rw [hsel _ (by decide), sel_nil_of_find (g4 rfl)]
      · rw [hsel _ (by decide), sel_nil_of_find g2]
      · rw [hsel _ (by decide), sel_nil_of_find g3]
    unfold readStart readDay readHM
    rw [key _ (by simp), key c!"Day" (by simp), key c!"Hour" (by simp), key c!"Minute" (by simp)]
    rfl
  · rw [h1, h6, h2] at h0 ⊢
    obtain ⟨g1, g2, g3, -⟩ := readStart_unset rfl h0
    obtain ⟨a, mid, hp, hsel⟩ := scene_dates hs
    unfold putStart at hp
    rw [h1, h6, h2] at hp
    have hf : falsy (some y) = false := by cases y with | nil => exact absurd rfl h3 | cons c q => rfl
    simp only [reduceCtorEq, false_and, if_false, hf, Bool.false_eq_true, Except.ok.injEq] at hp
    obtain ⟨a1, o1⟩ := hsel c!"SpecificDateTime" (by decide)
    obtain ⟨a2, o2⟩ := hsel c!"Day" (by decide)
    obtain ⟨a3, o3⟩ := hsel c!"Hour" (by decide)
    obtain ⟨a4, o4⟩ := hsel c!"Minute" (by decide)
    subst hp
    simp (disch := decide) only [sel_putAlways_ne, sel_removeFirst_ne, sel_removeFirst_self, sel_putAlways, a1, a2, a3, a4] at o1 o2 o3 o4
    rw [sel_nil_of_find g1] at o1
    rw [sel_nil_of_find g2] at o3
    rw [sel_nil_of_find g3] at o4
    have ht := textOf_alwaysSel hr o2 (dates_plain hk (by decide)).2 (.inr (by
      intro v hv
      cases hv
      exact h4))
    have ht : textOf c!"Day" r = some y := by
      rw [ht]
      exact readText_ne h3
    unfold readStart
    rw [find_of_reloaded_none hr o1, readDay_text ht]
    unfold readHM
    rw [find_of_reloaded_none hr o3, find_of_reloaded_none hr o4]
    simp only [h5, if_true, Option.isSome_none, Bool.false_eq_true, or_self, if_false]
  · exact C17_relative_minutes_partial lib s ks out r y t hh mm hk hs hr h1 h2 h6 h7 h4 h3 h5

theorem syncScene_mode (s : Scene) : ((syncScene s).kwVar.get? c!"Field_SceneMode").join = match s.scnMode with
    | none => (s.kwVar.get? c!"Field_SceneMode").join
    | some m => if m = 0 then none else some (Str.ofInt m) := by
  unfold syncScene
  dsimp only
  rw [Dict.get?_set_ne _ _ (by decide)]
  cases s.scnMode with
  | none =>
    dsimp only
    cases s.scnArcs with
    | none => rfl
    | some a => rw [Dict.get?_set_ne _ _ (by decide)]
  | some m =>
    dsimp only
    rw [Dict.get?_set_self]
    rfl

theorem syncScene_arcs (s : Scene) : ((syncScene s).kwVar.get? c!"Field_SceneArcs").join = match s.scnArcs with
    | none => (s.kwVar.get? c!"Field_SceneArcs").join
    | some a => some a := by
  unfold syncScene
  dsimp only
  rw [Dict.get?_set_ne _ _ (by decide)]
  cases s.scnMode with
  | none =>
    dsimp only
    cases s.scnArcs with
    | none => rfl
    | some a => rw [Dict.get?_set_self]; rfl
  | some m =>
    dsimp only
    rw [Dict.get?_set_ne _ _ (by decide)]
    cases s.scnArcs with
    | none => rfl
    | some a => rw [Dict.get?_set_self]; rfl

theorem ywConvert_plain {t : Str} (h : ∀ c ∈ t, c ∉ ['&', '<', '>', '\'', '"']) : ywConvert (some t) = t := by
  rw [ywConvert_eq]
  induction t with
  | nil => rfl
  | cons c t ih =>
    have hc := h c (by simp)
    simp only [List.mem_cons, List.not_mem_nil, or_false, not_or] at hc
    obtain ⟨h1, h2, h3, h4, h5⟩ := hc
    rw [List.flatMap_cons, ih (fun d hd => h d (by simp [hd]))]
    unfold escChar
    rw [if_neg h1, if_neg h3, if_neg h2, if_neg h4, if_neg h5]
    rfl

theorem readList_same {o : Option (List Str)} (h : o ≠ some []) : readList (o.getD []) = o := by
  unfold readList
  cases o with
  | none => rfl
  | some l =>
    have : l ≠ [] := fun e => h (by rw [e])
    simp only [Option.getD_some, this, if_false]

theorem readIds_ne (t sub : Str) (known : List Str) (ks : List Elem) : readIds t sub known ks ≠ some [] := by
  unfold readIds
  split
  · intro h; cases h
  · dsimp only
    split
    · intro h; cases h
    · rename_i hn
      intro h
      injection h with h
      exact hn h

theorem readIds_known {t sub : Str} {known : List Str} {ks : List Elem} : ∀ i ∈ (readIds t sub known ks).getD [], i ∈ known := by
  intro i hi
  unfold readIds at hi
  split at hi
  · cases hi
  · dsimp only at hi
    split at hi
    · cases hi
    · have := (List.mem_filter.1 hi).2
      simpa using this

/-- **A scene that was read and is saved into the same element is read as before**, except for the type, which is the saved one. -/
theorem scene_stable {lib : PyLib} {a b c : List Str} {ks out r : List Elem} {s0 x : Scene} {ty : Option Nat} (hk : SceneElement ks) (h0 : readScene lib a b c ks = .ok s0)
    (hset : SettledScene lib s0) (ha : ∀ i ∈ a, GoodId i) (hb : ∀ i ∈ b, GoodId i) (hs : sceneOut (syncScene { s0 with scType := ty }) ks = .ok out) (hr : ReloadedL out r)
    (hx : readScene lib a b c r = .ok x) : x = { s0 with scType := some (ty.getD 0) } := by
  have f := readScene_read h0
  have g := readScene_read hx
  have t1 := C15_texts lib a b c _ x ks out r hk hs hr hx
  have t2 := C15_plain_partial lib a b c _ x ks out r hk hs hr hx
  obtain ⟨m1, m2, m3, m4, m5, m6, m7⟩ := C15_metadata lib a b c _ x ks out r hk hs hr hx
  obtain ⟨k1, k2, k3⟩ := C13_scene_type _ ks out r hk hs hr
  obtain ⟨c1, c2⟩ := customs_saved hk hs hr
  obtain ⟨w1, w2, w3, -⟩ := readScene_kwVar h0
  have hor : ∀ {v : Option Str} {t : Str}, v = textOf t ks → PlainText v → ∀ u, v.or (textOf t ks) = some u → PlainStr u := by
    intro v t hv hp u hu
    rw [← hv] at hu
    cases v with
    | none => cases hu
    | some w =>
      cases hu
      exact (hp _ rfl).2
  have hp := hset.plain
  have t2 := t2 ⟨hor (v := s0.conflict) f.conflict (hp s0.conflict (by simp)), hor (v := s0.field1) f.field1 (hp s0.field1 (by simp)), hor (v := s0.field2) f.field2 (hp s0.field2 (by simp)), hor (v := s0.field3) f.field3 (hp s0.field3 (by simp)), hor (v := s0.field4) f.field4 (hp s0.field4 (by simp)),
    hor (v := s0.lastsDays) f.lastsDays (hp s0.lastsDays (by simp)), hor (v := s0.lastsHours) f.lastsHours (hp s0.lastsHours (by simp)), hor (v := s0.lastsMinutes) f.lastsMinutes (hp s0.lastsMinutes (by simp))⟩
  have sv : ∀ {v w : Option Str} {t : Str}, w = textOf t r → v = textOf t ks → w = saved (textOf t ks) v → NotEmpty v → textOf t r = textOf t ks := by
    intro v w t h1 h2 h3 h4
    rw [← h1, h3, ← h2]
    exact saved_same h4
  have pn : ∀ {v : Option Str}, PlainText v → NotEmpty v := by
    intro v h e
    exact (h _ e).1 rfl
  have htx := hset.texts
  have agree : SceneAgrees lib a b c ks r := by
    refine ⟨?_, ?_, ?_, ?_, ?_, ?_, ?_, ?_, ?_, ?_, ?_⟩
    · intro t ht
      simp only [List.mem_cons, List.not_mem_nil, or_false] at ht
      rcases ht with rfl | rfl | rfl | rfl | rfl | rfl | rfl | rfl | rfl | rfl | rfl | rfl | rfl | rfl | rfl
      · exact sv g.title f.title t1.title (htx s0.title (by simp))
      · exact sv g.desc f.desc t1.desc (htx s0.desc (by simp))
      · exact sv g.notes f.notes t1.notes (htx s0.notes (by simp))
      · exact sv g.goal f.goal t1.goal (htx s0.goal (by simp))
      · exact sv g.outcome f.outcome t1.outcome (htx s0.outcome (by simp))
      · exact sv g.image f.image t1.image (htx s0.image (by simp))
      · exact sv g.content f.content t1.content (htx s0.sceneContent (by simp))
      · exact sv g.conflict f.conflict t2.conflict (pn (hp s0.conflict (by simp)))
      · exact sv g.field1 f.field1 t2.field1 (pn (hp s0.field1 (by simp)))
      · exact sv g.field2 f.field2 t2.field2 (pn (hp s0.field2 (by simp)))
      · exact sv g.field3 f.field3 t2.field3 (pn (hp s0.field3 (by simp)))
      · exact sv g.field4 f.field4 t2.field4 (pn (hp s0.field4 (by simp)))
      · exact sv g.lastsDays f.lastsDays t2.lastsDays (pn (hp s0.lastsDays (by simp)))
      · exact sv g.lastsHours f.lastsHours t2.lastsHours (pn (hp s0.lastsHours (by simp)))
      · exact sv g.lastsMinutes f.lastsMinutes t2.lastsMinutes (pn (hp s0.lastsMinutes (by simp)))
    · intro t ht
      simp only [List.mem_cons, List.not_mem_nil, or_false] at ht
      rcases ht with rfl | rfl | rfl
      · have e : s0.appendToPrev.getD false = hasTag c!"AppendToPrev" ks := by rw [f.append]; rfl
        exact (Option.some.inj (g.append.symm.trans m1)).trans e
      · have e : s0.isReactionScene.getD false = hasTag c!"ReactionScene" ks := by rw [f.reaction]; rfl
        exact (Option.some.inj (g.reaction.symm.trans m2)).trans e
      · have e : s0.isSubPlot.getD false = hasTag c!"SubPlot" ks := by rw [f.subPlot]; rfl
        exact (Option.some.inj (g.subPlot.symm.trans m3)).trans e
    · exact k2 _ f.export'
    · rw [g.status, f.status]
      cases hst : s0.status with
      | none => exact absurd hst hset.status
      | some i => rw [m4 i hst]
    · exact start_stable hk hs hr f.start hset.start
    · rw [← g.tags, ← f.tags]
      cases htg : s0.tags with
      | none =>
        have e1 : textOf c!"Tags" ks = none := by
          have := f.tags
          rw [htg] at this
          unfold readTags at this
          cases h : textOf c!"Tags" ks with
          | none => rfl
          | some t => rw [h] at this; cases this
        have e2 := textOf_textSel hr (scene_Tags hs) (plainOnce_leaf hk.plain (by decide)) (.inl (by decide))
        have e3 : (syncScene { s0 with scType := ty }).tags = none := htg
        rw [e3] at e2
        have e4 : (sel c!"Tags" ks).head?.bind Elem.text = none := by
          have : textOf c!"Tags" ks = (sel c!"Tags" ks).head?.bind Elem.text := textOf_eq _ _
          rw [← this, e1]
        rw [e4] at e2
        rw [g.tags]
        unfold readTags
        rw [e2]
        rfl
      | some l =>
        obtain ⟨q1, q2⟩ := hset.tags l htg
        rw [m5 l htg q2.1 q2.2]
        unfold readList
        rw [if_neg q1]
    · rw [← g.characters, ← f.characters]
      rw [m6 (by
        intro i hi
        have : i ∈ a := readIds_known (t := c!"Characters") (sub := c!"CharID") (ks := ks) i (by rw [← f.characters]; exact hi)
        exact ⟨this, ha i this⟩)]
      exact readList_same (by rw [f.characters]; exact readIds_ne _ _ _ _)
    · rw [← g.locations, ← f.locations]
      rw [m7 (by
        intro i hi
        have : i ∈ b := readIds_known (t := c!"Locations") (sub := c!"LocID") (ks := ks) i (by rw [← f.locations]; exact hi)
        exact ⟨this, hb i this⟩)]
      exact readList_same (by rw [f.locations]; exact readIds_ne _ _ _ _)
    · rw [← g.items, ← f.items, C16_items_lost lib a b c _ x ks out r hk hs hr hx, hset.items]
    · rw [c1, syncScene_arcs, ← w2]
      dsimp only
      cases har : s0.scnArcs with
      | none =>
        have : (s0.kwVar.get? c!"Field_SceneArcs").join = none := by
          rw [w1, ← w2, har]
          rfl
        dsimp only
        rw [this]
        rfl
      | some t =>
        obtain ⟨q1, q2⟩ := hset.arcs t har
        dsimp only
        rw [ywConvert_plain q2]
        exact readText_ne q1
    · have hm : ((syncScene { s0 with scType := ty }).kwVar.get? c!"Field_SceneMode").join = customOf c!"Field_SceneMode" ks := by
        rw [syncScene_mode]
        dsimp only
        have hkw : (s0.kwVar.get? c!"Field_SceneMode") = some (customOf c!"Field_SceneMode" ks) := by
          rw [w1]
          rfl
        cases hmo : s0.scnMode with
        | none => 
          dsimp only
          rw [hkw]
          rfl
        | some m =>
          obtain ⟨q1, q2⟩ := hset.mode m hmo
          dsimp only
          rw [if_neg q1]
          rw [hkw] at q2
          injection q2 with q2
          exact q2.symm
      have hcar : ∀ t, customOf c!"Field_SceneMode" ks = some t → t ≠ [] ∧ Carriable t := by
        intro t ht
        refine hset.modeText t ?_
        rw [w1, ← ht]
        rfl
      rw [hm] at c2
      rw [c2 (fun t ht => (hcar t ht).2)]
      cases hcu : customOf c!"Field_SceneMode" ks with
      | none => rfl
      | some t => exact readText_ne (hcar t hcu).1
  have := agree.read h0
  rw [this] at hx
  injection hx with hx
  rw [← hx, k1]
  rfl

end Verif
