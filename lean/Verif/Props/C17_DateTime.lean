/-
C17: date, time and duration of a scene survive save and reload. (The duration is part of
`C15_plain_partial`.)
-/
import Verif.Props.C15_C16_Scenes

namespace Verif
open Xml Elem Spec

/-- Only the scene start step touches the elements of the scene start. -/
theorem scene_dates {s : Scene} {ks out : List Elem} (h : sceneOut s ks = .ok out) :
    ∃ a mid, putStart s.date s.time s.day a = .ok mid ∧
      ∀ t ∈ dateTags, sel t a = sel t ks ∧ sel t out = sel t mid := by
  obtain ⟨u, ty, mid, _, h2, h3⟩ := sceneOut_ok h
  refine ⟨_, mid, h2, ?_⟩
  intro t ht
  subst h3
  simp only [dateTags, List.mem_cons, List.not_mem_nil, or_false] at ht
  rcases ht with rfl | rfl | rfl | rfl | rfl
  all_goals
    refine ⟨by frameA, ?_⟩
    rw [sel_finishScene_ne (by decide)]
    frameB

/-- The elements of the scene start are the way yWriter writes them. -/
theorem dates_plain {ks : List Elem} (hk : SceneElement ks) {t : Str} (ht : t ∈ dateTags) :
    (sel t ks).length ≤ 1 ∧ ∀ e ∈ sel t ks, e.kids = [] := by
  refine hk.plain t ?_
  simp only [dateTags, List.mem_cons, List.not_mem_nil, or_false] at ht
  rcases ht with rfl | rfl | rfl | rfl | rfl <;> decide

theorem find_of_sel {t : Str} {r : List Elem} : find t r = (sel t r).head? := find_eq t r

/-- Reading of a start whose `SpecificDateTime` element has a text. -/
theorem readStart_specific {lib : PyLib} {r : List Elem} {v d t : Str}
    (h : textOf c!"SpecificDateTime" r = some v) (hl : lib.fromIso v = some (d, t)) :
    readStart lib r = .ok (some d, some t, none) := by
  unfold readStart
  unfold textOf at h
  cases hf : find c!"SpecificDateTime" r with
  | none => rw [hf] at h; simp at h
  | some e =>
    rw [hf] at h
    simp only [Option.bind_some] at h
    simp only [h, hl]

/-- What `SpecificDateTime` contains after saving a date and a time. -/
theorem specific_written {s : Scene} {ks out r : List Elem} {d t : Str} (hk : SceneElement ks)
    (hs : sceneOut s ks = .ok out) (hr : ReloadedL out r) (hd : s.date = some d) (ht : s.time = some t)
    (hne : d ≠ [] ∨ t ≠ []) (hpl : PlainStr (d ++ ' ' :: t)) :
    textOf c!"SpecificDateTime" r = some (d ++ ' ' :: t) ∨
    ((d ++ ' ' :: t).count ':' < 2 ∧
      textOf c!"SpecificDateTime" r = some (d ++ ' ' :: t ++ c!":00")) := by
  obtain ⟨a, mid, hp, hsel⟩ := scene_dates hs
  obtain ⟨ha, ho⟩ := hsel c!"SpecificDateTime" (by decide)
  unfold putStart at hp
  rw [hd, ht] at hp
  simp only at hp
  have hne2 : d ++ ' ' :: t ≠ c!" " := by
    intro he
    cases d with
    | nil => simp at he hne; exact hne he
    | cons c q => simp at he
  rw [if_neg hne2] at hp
  have hpl2 : PlainStr (d ++ ' ' :: t ++ c!":00") := by
    intro c hc
    rw [List.mem_append] at hc
    rcases hc with hc | hc
    · exact hpl c hc
    · simp only [List.mem_cons, List.not_mem_nil, or_false] at hc
      rcases hc with rfl | rfl | rfl <;> decide
  have hlf := (dates_plain hk (t := c!"SpecificDateTime") (by decide)).2
  cases hh : hasTag c!"SpecificDateTime" a with
  | true =>
    rw [hh] at hp
    simp only [if_true, Except.ok.injEq] at hp
    subst hp
    rw [sel_setText, ha] at ho
    have hne3 : sel c!"SpecificDateTime" ks ≠ [] := by rw [← ha]; exact (hasTag_iff _ _).1 hh
    have key : ∀ v : Str, PlainStr v → v ≠ [] → sel c!"SpecificDateTime" out
        = setHead v (sel c!"SpecificDateTime" ks) → textOf c!"SpecificDateTime" r = some v := by
      intro v hv hvn he
      rw [textOf_alwaysSel hr (v := some v) (l := sel c!"SpecificDateTime" ks) ?_ hlf
        (Or.inr (by intro w hw; simp at hw; subst hw; exact hv))]
      · exact readText_ne hvn
      · rw [he]
        cases hq : sel c!"SpecificDateTime" ks with
        | nil => exact absurd hq hne3
        | cons e q => rfl
    split at ho
    · rename_i hc
      exact Or.inr ⟨hc, key _ hpl2 (by simp) ho⟩
    · exact Or.inl (key _ hpl (by simp) ho)
  | false =>
    left
    rw [hh] at hp
    simp only [Bool.false_eq_true, if_false, Except.ok.injEq] at hp
    subst hp
    have h0 : sel c!"SpecificDateTime" a = [] := by
      rw [hasTag_eq] at hh
      simpa using hh
    rw [sel_removeFirst_ne (by decide), sel_removeFirst_ne (by decide), sel_removeFirst_ne (by decide)] at ho
    have h1 : sel c!"SpecificDateTime" out = [leaf c!"SpecificDateTime" (some (d ++ ' ' :: t))] := by
      rw [ho]
      unfold sel at h0 ⊢
      rw [List.filter_append, List.filter_append, h0]
      rfl
    rw [textOf_alwaysSel hr (v := some (d ++ ' ' :: t)) (l := []) h1 (by simp)
      (Or.inr (by intro w hw; simp at hw; subst hw; exact hpl))]
    exact readText_ne (by simp)

/-- **C17, specific date and time**: a date and a time that `fromisoformat` accepts in full form (with
seconds) are read back as saved, and no day is read, whatever the scene element contained before. -/
theorem C17_specific (lib : PyLib) (s : Scene) (ks out r : List Elem) (d t : Str) (hk : SceneElement ks)
    (hs : sceneOut s ks = .ok out) (hr : ReloadedL out r) (hd : s.date = some d) (ht : s.time = some t)
    (hpl : PlainStr (d ++ ' ' :: t)) (hcol : 2 ≤ (d ++ ' ' :: t).count ':')
    (hiso : lib.fromIso (d ++ ' ' :: t) = some (d, t)) :
    readStart lib r = .ok (some d, some t, none) := by
  have hne : d ≠ [] ∨ t ≠ [] := by
    cases d with
    | cons c q => exact Or.inl (by simp)
    | nil =>
      cases t with
      | cons c q => exact Or.inr (by simp)
      | nil => exact absurd hcol (by decide)
  rcases specific_written hk hs hr hd ht hne hpl with h | ⟨h, _⟩
  · exact readStart_specific h hiso
  · omega

theorem sel_removeDateTime {t : Str} (ht : t ∈ dateTags) {ks : List Elem} (h : (sel t ks).length ≤ 1) :
    sel t (removeDateTime ks) = [] := by
  have h0 := tail_of_le_one h
  unfold removeDateTime
  simp only [dateTags, List.mem_cons, List.not_mem_nil, or_false] at ht
  rcases ht with rfl | rfl | rfl | rfl | rfl
  all_goals
    simp (disch := decide) only [sel_removeFirst_ne, sel_removeFirst_self]
    exact h0

theorem readStart_none {lib : PyLib} {r : List Elem} (h : ∀ t ∈ dateTags, sel t r = []) :
    readStart lib r = .ok (none, none, none) := by
  unfold readStart readDay readHM
  simp only [find_eq, h c!"SpecificDateTime" (by decide), h c!"Day" (by decide), h c!"Hour" (by decide),
    h c!"Minute" (by decide), List.head?_nil]
  rfl

/-- **C17, clearing**: saving empty date and time, or empty day and time, leaves no start behind. -/
theorem C17_cleared (lib : PyLib) (s : Scene) (ks out r : List Elem) (hk : SceneElement ks)
    (hs : sceneOut s ks = .ok out) (hr : ReloadedL out r)
    (h : (s.date = some [] ∧ s.time = some []) ∨
      (s.date = none ∧ (s.day = some [] ∧ (s.time = none ∨ s.time = some []) ∨
        s.day = none ∧ s.time = some []))) :
    readStart lib r = .ok (none, none, none) := by
  obtain ⟨a, mid, hp, hsel⟩ := scene_dates hs
  have hmid : mid = removeDateTime a := by
    unfold putStart at hp
    rcases h with ⟨h1, h2⟩ | ⟨h1, ⟨h2, h3 | h3⟩ | ⟨h2, h3⟩⟩
    · rw [h1, h2] at hp; simpa using hp.symm
    · rw [h1, h2, h3] at hp; simpa [falsy] using hp.symm
    · rw [h1, h2, h3] at hp; simpa [falsy] using hp.symm
    · rw [h1, h2, h3] at hp; simpa [falsy] using hp.symm
  refine readStart_none ?_
  intro t ht
  obtain ⟨ha, ho⟩ := hsel t ht
  refine reloaded_sel_nil hr ?_
  rw [ho, hmid]
  exact sel_removeDateTime ht (by rw [ha]; exact (dates_plain hk ht).1)

/-- A time in the form `hh:mm:ss`. -/
def HMS (t hh mm ss : Str) : Prop :=
  t = hh ++ ':' :: (mm ++ ':' :: ss) ∧ hh.length = 2 ∧ mm.length = 2 ∧ ':' ∉ hh ∧ ':' ∉ mm ∧ ':' ∉ ss ∧
  PlainStr hh ∧ PlainStr mm

theorem split_hms {t hh mm ss : Str} (h : HMS t hh mm ss) : Str.split t c!":" = [hh, mm, ss] := by
  obtain ⟨rfl, _, _, h1, h2, h3, _⟩ := h
  have := Str.split_join c!":" (by decide) [hh, mm, ss] (by simp) (by
    intro x hx
    refine (Str.freeOf_singleton ':' x).2 ?_
    simp only [List.mem_cons, List.not_mem_nil, or_false] at hx
    rcases hx with rfl | rfl | rfl <;> assumption)
  simpa [Str.join] using this

theorem zfill2_two {s : Str} (h : s.length = 2) : zfill2 s = s := by
  match s, h with
  | [a, b], _ => rfl

/-- What a relative start looks like after saving: `v` are the values of day, hour and minute. -/
theorem readStart_relative {lib : PyLib} {out r : List Elem} {vd vh vm : Option Str} {ld lh lm : List Elem}
    (hr : ReloadedL out r) (h0 : sel c!"SpecificDateTime" out = [])
    (hd : sel c!"Day" out = alwaysSel c!"Day" vd ld) (hh : sel c!"Hour" out = alwaysSel c!"Hour" vh lh)
    (hm : sel c!"Minute" out = alwaysSel c!"Minute" vm lm)
    (hld : ∀ e ∈ ld, e.kids = []) (hlh : ∀ e ∈ lh, e.kids = []) (hlm : ∀ e ∈ lm, e.kids = []) :
    find c!"SpecificDateTime" r = none ∧
    (∀ s, vd = some s → PlainStr s → s ≠ [] → textOf c!"Day" r = some s) ∧
    (∀ s, vh = some s → PlainStr s → s ≠ [] → textOf c!"Hour" r = some s) ∧
    (∀ s, vm = some s → PlainStr s → s ≠ [] → textOf c!"Minute" r = some s) := by
  refine ⟨?_, ?_, ?_, ?_⟩
  · rw [find_eq, reloaded_sel_nil hr h0]; rfl
  · intro s hs hp hn; subst hs
    rw [textOf_alwaysSel hr hd hld (Or.inr (by intro w hw; simp at hw; subst hw; exact hp))]
    exact readText_ne hn
  · intro s hs hp hn; subst hs
    rw [textOf_alwaysSel hr hh hlh (Or.inr (by intro w hw; simp at hw; subst hw; exact hp))]
    exact readText_ne hn
  · intro s hs hp hn; subst hs
    rw [textOf_alwaysSel hr hm hlm (Or.inr (by intro w hw; simp at hw; subst hw; exact hp))]
    exact readText_ne hn

theorem readDay_text {lib : PyLib} {r : List Elem} {s : Str} (h : textOf c!"Day" r = some s) :
    readDay lib r = .ok (some (if (lib.int s).isSome then s else [])) := by
  unfold readDay
  unfold textOf at h
  cases hf : find c!"Day" r with
  | none => rw [hf] at h; simp at h
  | some e =>
    rw [hf] at h; simp only [Option.bind_some] at h
    simp only [h]

theorem readHM_text {t : Str} {r : List Elem} {s : Str} (h : textOf t r = some s) :
    readHM t r = .ok (some (zfill2 s)) := by
  unfold readHM
  unfold textOf at h
  cases hf : find t r with
  | none => rw [hf] at h; simp at h
  | some e =>
    rw [hf] at h; simp only [Option.bind_some] at h
    simp only [h]

/-- The scene start elements after saving a relative start. -/
theorem relative_written {s : Scene} {ks out : List Elem} {y t hh mm ss : Str} (hk : SceneElement ks)
    (hs : sceneOut s ks = .ok out) (hd : s.date = none) (hy : s.day = some y) (hyn : y ≠ [])
    (ht : s.time = some t) (hhms : HMS t hh mm ss) :
    sel c!"SpecificDateTime" out = [] ∧
    sel c!"Day" out = alwaysSel c!"Day" (some y) (sel c!"Day" ks) ∧
    sel c!"Hour" out = alwaysSel c!"Hour" (some hh) (sel c!"Hour" ks) ∧
    sel c!"Minute" out = alwaysSel c!"Minute" (some mm) (sel c!"Minute" ks) := by
  obtain ⟨a, mid, hp, hsel⟩ := scene_dates hs
  unfold putStart at hp
  rw [hd, ht, hy] at hp
  have hf : falsy (some y) = false := by cases y with | nil => exact absurd rfl hyn | cons c q => rfl
  simp only [reduceCtorEq, false_and, if_false, hf, Bool.false_eq_true, false_and, split_hms hhms,
    Except.ok.injEq] at hp
  obtain ⟨a1, o1⟩ := hsel c!"SpecificDateTime" (by decide)
  obtain ⟨a2, o2⟩ := hsel c!"Day" (by decide)
  obtain ⟨a3, o3⟩ := hsel c!"Hour" (by decide)
  obtain ⟨a4, o4⟩ := hsel c!"Minute" (by decide)
  subst hp
  refine ⟨?_, ?_, ?_, ?_⟩
  · rw [o1]
    simp (disch := decide) only [sel_putAlways_ne, sel_removeFirst_ne, sel_removeFirst_self]
    rw [a1]; exact tail_of_le_one (dates_plain hk (by decide)).1
  · rw [o2]
    simp (disch := decide) only [sel_putAlways_ne, sel_removeFirst_ne, sel_putAlways, a2]
  · rw [o3]
    simp (disch := decide) only [sel_putAlways_ne, sel_removeFirst_ne, sel_putAlways, a3]
  · rw [o4]
    simp (disch := decide) only [sel_putAlways_ne, sel_removeFirst_ne, sel_putAlways, a4]

/-- **C17, relative day and time**: the day and the time are read back as saved, except that the seconds
are lost; no date is read, whatever the scene element contained before. -/
theorem C17_relative_partial (lib : PyLib) (s : Scene) (ks out r : List Elem) (y t hh mm ss : Str)
    (hk : SceneElement ks) (hs : sceneOut s ks = .ok out) (hr : ReloadedL out r) (hd : s.date = none)
    (hy : s.day = some y) (ht : s.time = some t) (hhms : HMS t hh mm ss)
    (hyp : PlainStr y) (hyn : y ≠ []) (hyi : (lib.int y).isSome) :
    readStart lib r = .ok (none, some (hh ++ ':' :: (mm ++ c!":00")), some y) := by
  obtain ⟨h0, h1, h2, h3⟩ := relative_written hk hs hd hy hyn ht hhms
  obtain ⟨g0, g1, g2, g3⟩ := readStart_relative (lib := lib) hr h0 h1 h2 h3 (dates_plain hk (by decide)).2
    (dates_plain hk (by decide)).2 (dates_plain hk (by decide)).2
  obtain ⟨_, l1, l2, _, _, _, p1, p2⟩ := hhms
  have n1 : hh ≠ [] := by intro h; subst h; simp at l1
  have n2 : mm ≠ [] := by intro h; subst h; simp at l2
  unfold readStart
  rw [g0, readDay_text (g1 y rfl hyp hyn), readHM_text (g2 hh rfl p1 n1), readHM_text (g3 mm rfl p2 n2)]
  simp only [hyi, if_true, zfill2_two l1, zfill2_two l2, Option.isSome_some, or_self, Option.getD_some]

/-- With zero seconds the relative start is read back exactly. -/
theorem C17_relative_minutes_partial (lib : PyLib) (s : Scene) (ks out r : List Elem) (y t hh mm : Str)
    (hk : SceneElement ks) (hs : sceneOut s ks = .ok out) (hr : ReloadedL out r) (hd : s.date = none)
    (hy : s.day = some y) (ht : s.time = some t) (hhms : HMS t hh mm c!"00")
    (hyp : PlainStr y) (hyn : y ≠ []) (hyi : (lib.int y).isSome) :
    readStart lib r = .ok (s.date, s.time, s.day) := by
  rw [C17_relative_partial lib s ks out r y t hh mm c!"00" hk hs hr hd hy ht hhms hyp hyn hyi, hd, ht, hy,
    hhms.1]

/-- **C17, nothing to save**: without date or without time, and without day and time, the start in the
file is kept as it is; in particular a date without a time is not saved. -/
theorem C17_unset (s : Scene) (ks out : List Elem) (hs : sceneOut s ks = .ok out)
    (ht : s.time = none) (hy : s.day = none) :
    ∀ t ∈ dateTags, sel t out = sel t ks := by
  obtain ⟨a, mid, hp, hsel⟩ := scene_dates hs
  have hmid : mid = a := by
    unfold putStart at hp
    rw [ht, hy] at hp
    cases hd : s.date with
    | none => rw [hd] at hp; simpa using hp.symm
    | some d => rw [hd] at hp; simpa using hp.symm
  intro t h
  obtain ⟨h1, h2⟩ := hsel t h
  rw [h2, hmid, h1]

/-! ### What is false -/

/-- A scene with a relative start at 10:30:15 on day 1. -/
def exRel : Scene :=
  { title := some c!"T", day := some c!"1", time := some c!"10:30:15", sceneContent := some c!"Text" }

/-- The seconds of a relative time are lost: the full statement of C17 is false. -/
theorem C17_false (lib : PyLib) : ∃ (out r : List Elem), sceneOut exRel [leaf c!"ID" (some c!"1")] = .ok out ∧
    ReloadedL out r ∧ readStart lib r = .ok (none, some c!"10:30:00", some c!"1") := by
  have hs : ∃ out, sceneOut exRel [leaf c!"ID" (some c!"1")] = .ok out ∧ literalBL out = true :=
    ⟨_, rfl, by decide⟩
  obtain ⟨out, hs, hl⟩ := hs
  refine ⟨out, reloadL out, hs, reloadedL_reload out hl, ?_⟩
  have hint : lib.int c!"1" = some 1 := lib.int_str 1
  exact C17_relative_partial lib exRel _ out _ c!"1" c!"10:30:15" c!"10" c!"30" c!"15" (newScene _) hs
    (reloadedL_reload out hl) rfl rfl rfl
    ⟨rfl, rfl, rfl, by decide, by decide, by decide, by unfold PlainStr; decide, by unfold PlainStr; decide⟩
    (by unfold PlainStr; decide) (by decide) (by rw [hint]; rfl)

/-- An invalid `Day` in the file is read as the empty day; if there is a time as well, saving writes an
empty `Day` element, and the next reading ends with a `TypeError`. -/
theorem C17_invalid_day (lib : PyLib) (s : Scene) (ks out r : List Elem) (t hh mm ss : Str)
    (hk : SceneElement ks) (hs : sceneOut s ks = .ok out) (hr : ReloadedL out r) (hd : s.date = none)
    (hy : s.day = some []) (ht : s.time = some t) (hhms : HMS t hh mm ss) :
    readStart lib r = .error .typeError := by
  obtain ⟨a, mid, hp, hsel⟩ := scene_dates hs
  unfold putStart at hp
  rw [hd, ht, hy] at hp
  have hf : falsy (some t) = false := by
    obtain ⟨h, l, _⟩ := hhms
    cases t with
    | nil => exfalso; cases hh with
      | nil => simp at l
      | cons c q => simp at h
    | cons c q => rfl
  simp only [reduceCtorEq, false_and, if_false, hf, Bool.false_eq_true, and_false, split_hms hhms,
    Except.ok.injEq] at hp
  obtain ⟨a1, o1⟩ := hsel c!"SpecificDateTime" (by decide)
  obtain ⟨a2, o2⟩ := hsel c!"Day" (by decide)
  subst hp
  have h0 : sel c!"SpecificDateTime" out = [] := by
    rw [o1]
    simp (disch := decide) only [sel_putAlways_ne, sel_removeFirst_ne, sel_removeFirst_self]
    rw [a1]; exact tail_of_le_one (dates_plain hk (by decide)).1
  have h1 : sel c!"Day" out = alwaysSel c!"Day" (some []) (sel c!"Day" ks) := by
    rw [o2]
    simp (disch := decide) only [sel_putAlways_ne, sel_removeFirst_ne, sel_putAlways, a2]
  have ht := textOf_alwaysSel hr h1 (dates_plain hk (by decide)).2
    (Or.inr (by intro w hw; simp at hw; subst hw; intro c hc; simp at hc))
  have hh : hasTag c!"Day" r = true := by
    rw [hr.hasTag, hasTag_eq, h1]
    cases sel c!"Day" ks <;> rfl
  unfold readStart readDay
  rw [find_eq, reloaded_sel_nil hr h0]
  unfold hasTag at hh
  unfold textOf at ht
  cases hf : find c!"Day" r with
  | none => rw [hf] at hh; simp at hh
  | some e =>
    rw [hf] at ht
    simp only [Option.bind_some, saved, Option.some_or, readText_nil] at ht
    simp only [List.head?_nil, ht]

/-- ... and this happens: an element with an invalid day and an hour is read as such a scene. -/
example (lib : PyLib) (h : lib.int c!"x" = none) :
    readStart lib [leaf c!"Day" (some c!"x"), leaf c!"Hour" (some c!"9")]
      = .ok (none, some c!"09:00:00", some []) := by
  unfold readStart readDay
  simp [find, leaf, h, readHM, zfill2]

/-- A day together with an empty time cannot be saved. -/
theorem C17_empty_time_fails (s : Scene) (ks : List Elem) (y : Str) (hd : s.date = none)
    (hy : s.day = some y) (hyn : y ≠ []) (ht : s.time = some []) (hty : s.scType.getD 0 ≤ 3) :
    sceneOut s ks = .error .valueError := by
  unfold sceneOut buildScene
  have hlt : s.scType.getD 0 < scTypeEncoding.length := Nat.lt_succ_of_le hty
  rw [List.getElem?_eq_getElem hlt]
  generalize scTypeEncoding[s.scType.getD 0] = p
  obtain ⟨u, ty⟩ := p
  have hf : falsy (some y) = false := by cases y with | nil => exact absurd rfl hyn | cons c q => rfl
  have : putStart s.date s.time s.day (buildSceneA s u ty ks) = .error .valueError := by
    unfold putStart
    rw [hd, ht, hy]
    simp [hf, Str.split, Str.splitGo]
  simp only [this]

/-! ### The scene can be read -/

/-- A saved scene with a status and either a full specific start or a relative start can be read. -/
theorem C15_readable (lib : PyLib) (chrs locs itms : List Str) (s : Scene) (r : List Elem)
    (i : Int) (st : Option Str × Option Str × Option Str) (ks out : List Elem) (hk : SceneElement ks)
    (hs : sceneOut s ks = .ok out) (hr : ReloadedL out r) (hi : s.status = some i)
    (hst : readStart lib r = .ok st) : ∃ x, readScene lib chrs locs itms r = .ok x := by
  have hpl : PlainStr (Str.ofInt i) := plainStr_ofInt i
  have ht := textOf_alwaysSel hr (scene_Status hs) (hk.plain _ (by decide)).2
    (Or.inr (by rw [hi]; intro v hv; simp only [Option.map_some, Option.some_or, Option.some.injEq] at hv; subst hv; exact hpl))
  rw [hi] at ht
  simp only [Option.map_some, saved, Option.some_or, readText_ne (ofInt_ne_nil i)] at ht
  have hstat : readStatus lib r = .ok (some i) := by
    unfold readStatus
    unfold textOf at ht
    cases hf : find c!"Status" r with
    | none => rw [hf] at ht; simp at ht
    | some el =>
      rw [hf] at ht
      simp only [Option.bind_some] at ht
      simp only [ht, lib.int_str]
  obtain ⟨d, t, y⟩ := st
  unfold readScene
  rw [hstat, hst]
  exact ⟨_, rfl⟩

/-! ### A concrete case -/

/-- A scene element with previous content: a Notes scene with unknown elements. -/
def exOld : List Elem :=
  [leaf c!"ID" (some c!"7"), leaf c!"Title" (some c!"Old"), leaf c!"Foreign" (some c!"x"),
   leaf c!"Unused" (some c!"-1"), leaf c!"Status" (some c!"1"), leaf c!"ExportCondSpecific" none,
   node c!"Fields" none none [leaf c!"Field_SceneType" (some c!"1"), leaf c!"Field_Foreign" (some c!"y")],
   leaf c!"SpecificDateTime" (some c!"2000-01-01 00:00:00"), leaf c!"SceneContent" (some c!"Old text"),
   node c!"Characters" none none [leaf c!"CharID" (some c!"1")]]

/-- A scene that replaces it: a Todo scene with markup characters in its texts. -/
def exNew : Scene :=
  { title := some c!"R&D <1>", desc := some c!"", sceneContent := some c!"Some [i]text[/i] & more",
    scType := some 2, doNotExport := some false, status := some 4, tags := some [c!"a b", c!"c"],
    goal := some c!"x > y", conflict := some c!"none", field1 := some c!"3", isSubPlot := some true,
    characters := some [c!"2", c!"1"], items := some [c!"5"], day := some c!"1",
    time := some c!"08:05:00" }

/-- The hypotheses of the theorems of C13, C15, C16 and C17 are met by this case, and the scene can be
read. -/
theorem scene_example (lib : PyLib) : ∃ out x, SceneElement exOld ∧ PlainValues exOld exNew ∧
    sceneOut exNew exOld = .ok out ∧ ReloadedL out (reloadL out) ∧
    readScene lib [c!"1", c!"2"] [] [c!"5"] (reloadL out) = .ok x := by
  have hk : SceneElement exOld := by
    constructor
    · unfold PlainOnce; decide
    · decide
    · decide
    · unfold PlainOnce; decide
  have hp : PlainValues exOld exNew := by
    constructor <;> intro v hv <;> revert v hv <;> unfold PlainStr <;> decide
  have hs : ∃ out, sceneOut exNew exOld = .ok out ∧ literalBL out = true := ⟨_, rfl, by decide⟩
  obtain ⟨out, hs, hl⟩ := hs
  have hr := reloadedL_reload out hl
  have hint : lib.int c!"1" = some 1 := lib.int_str 1
  have hst := C17_relative_partial lib exNew _ out _ c!"1" c!"08:05:00" c!"08" c!"05" c!"00" hk hs hr
    rfl rfl rfl ⟨rfl, rfl, rfl, by decide, by decide, by decide, by unfold PlainStr; decide, by unfold PlainStr; decide⟩
    (by unfold PlainStr; decide) (by decide) (by rw [hint]; rfl)
  obtain ⟨x, hx⟩ := C15_readable lib [c!"1", c!"2"] [] [c!"5"] exNew _ 4 _ exOld out hk hs hr rfl hst
  exact ⟨out, x, hk, hp, hs, hr, hx⟩

end Verif
