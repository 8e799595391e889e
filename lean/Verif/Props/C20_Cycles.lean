/-
C20: repeated save/reload cycles; the custom fields of scenes; what other programs find in the file.
-/
import Verif.Props.C38_Project
import Verif.Props.C15_C16_Scenes

namespace Verif
open Xml Elem Spec

theorem fieldsOnce_customSel {field : Str} {v : Option Str} {l : List Elem} (h : l.length ≤ 1) :
    (customSel field v l).length ≤ 1 := by
  match l, h with
  | [], _ =>
    match v with
    | none => simp [customSel, onFieldsSel]
    | some [] => simp [customSel, onFieldsSel]
    | some (c :: r) => simp [customSel, onFieldsSel, ensureSel]
  | [f], _ =>
    match v with
    | none => simp [customSel, onFieldsSel]
    | some [] => simp [customSel, onFieldsSel]
    | some (c :: r) => simp [customSel, onFieldsSel, ensureSel]

theorem fieldsOnce_sceneTypeSel {ty : Option Str} {l : List Elem} (h : l.length ≤ 1) :
    (sceneTypeSel ty l).length ≤ 1 := by
  match l, h with
  | [], _ => cases ty <;> simp [sceneTypeSel, onFieldsSel, ensureSel]
  | [f], _ => cases ty <;> simp [sceneTypeSel, onFieldsSel, ensureSel]

/-- The kids of the `Fields` element after the scene type has been stored. -/
def sceneTypeKids (ty : Option Str) (l : List Elem) : List Elem :=
  match ty with
  | none => removeFirst c!"Field_SceneType" l
  | some v => putAlways c!"Field_SceneType" (some v) l

theorem headKids_sceneTypeSel' (ty : Option Str) (l : List Elem) :
    headKids (sceneTypeSel ty l) = sceneTypeKids ty (headKids l) := by
  rw [headKids_sceneTypeSel]; cases ty <;> rfl

/-- What is read back of the arcs and the mode of a scene. The value of the arcs is escaped *and* put
into a CDATA section, so that the escaped text is read back; the mode 0 is not saved. -/
theorem C20_custom (lib : PyLib) (a b c : List Str) (s x : Scene) (ks out r : List Elem)
    (hk : SceneElement ks) (hs : sceneOut (syncScene s) ks = .ok out) (hr : ReloadedL out r)
    (hx : readScene lib a b c r = .ok x) :
    (∀ arcs, s.scnArcs = some arcs → x.scnArcs = readText (some (ywConvert (some arcs)))) ∧
    (∀ m, s.scnMode = some m → x.scnMode = if m = 0 then none else some m) := by
  obtain ⟨y, e, _, _, _, _, _, _, _, _, _, _, _, _, _, _, _, _, _, _, _, _, _, _, _, _, _, _, h1, h2⟩ := readScene_ok hx
  obtain ⟨u, ty, _, _, hf⟩ := scene_Unused hs
  have hlen : (sel c!"Fields" r).length ≤ 1 := by
    rw [length_reloaded (hr.sel c!"Fields"), hf]
    exact fieldsOnce_customSel (fieldsOnce_customSel (fieldsOnce_sceneTypeSel hk.fieldsOnce))
  have hkids := reloaded_headKids (hr.sel c!"Fields")
  rw [hf, headKids_customSel, headKids_customSel, headKids_sceneTypeSel'] at hkids
  have hx1 : x.scnArcs = y.scnArcs ∧ x.scnMode = y.scnMode := by
    rw [e]; split <;> exact ⟨rfl, rfl⟩
  have hplain : ∀ t ∈ [c!"Field_SceneArcs", c!"Field_SceneMode"],
      (sel t (headKids (sel c!"Fields" ks))).length ≤ 1 ∧
      ∀ e ∈ sel t (headKids (sel c!"Fields" ks)), e.kids = [] := by
    intro t ht
    have hfl := hk.fields
    cases hsel : sel c!"Fields" ks with
    | nil => simp [headKids, sel]
    | cons f q =>
      rw [hsel] at hfl
      refine hfl f (by simp) t ?_
      simp only [List.mem_cons, List.not_mem_nil, or_false] at ht ⊢
      rcases ht with rfl | rfl <;> simp
  have hty : ∀ t, c!"Field_SceneType" ≠ t → ∀ l, sel t (sceneTypeKids ty l) = sel t l := by
    intro t ht l
    cases ty with
    | none => exact sel_removeFirst_ne ht l
    | some v => exact sel_putAlways_ne ht (some v) l
  constructor
  · intro arcs harcs
    rw [hx1.1, h1, customOf_eq hlen]
    have hv : ((syncScene s).kwVar.get? c!"Field_SceneArcs").join = some arcs := by
      unfold syncScene
      simp only [harcs]
      rw [Dict.get?_set_ne _ _ (by decide)]
      cases s.scnMode with
      | none => simp only [Dict.get?_set_self]; rfl
      | some m => simp only; rw [Dict.get?_set_ne _ _ (by decide), Dict.get?_set_self]; rfl
    rw [hv] at hkids
    refine textOf_customKids_cdata (v := some arcs) hkids
      (fk := sceneTypeKids ty (headKids (sel c!"Fields" ks))) ?_ ?_ (by decide)
    · exact (touches_customKids _ _).sel_ne (by decide) _
    · rw [hty _ (by decide)]; exact hplain _ (by simp)
  · intro m hm
    rw [hx1.2, h2, customOf_eq hlen]
    have hv : ((syncScene s).kwVar.get? c!"Field_SceneMode").join = if m = 0 then none else some (Str.ofInt m) := by
      unfold syncScene
      simp only [hm]
      rw [Dict.get?_set_ne _ _ (by decide), Dict.get?_set_self]
      simp
    rw [hv] at hkids
    have := textOf_customKids (v := if m = 0 then none else some (Str.ofInt m)) hkids
      (fk := customKids c!"Field_SceneArcs" ((syncScene s).kwVar.get? c!"Field_SceneArcs").join
        (sceneTypeKids ty (headKids (sel c!"Fields" ks)))) rfl
      (by
        rw [(touches_customKids _ _).sel_ne (by decide), hty _ (by decide)]
        exact hplain _ (by simp)) (by decide)
      (by
        intro t ht
        split at ht
        · cases ht
        · cases ht
          intro ch hch
          have := plainStr_ofInt m ch hch
          exact ⟨this.1, this.2.1⟩)
    rw [this]
    split
    · rfl
    · rw [readText_ne (ofInt_ne_nil m)]
      exact lib.int_str m

namespace Spec

/-- `s` is saved into a scene element (any well-formed one), the file is loaded, and `x` is read from it. -/
def SavedAndRead (lib : PyLib) (s x : Scene) : Prop :=
  ∃ a b c ks out r, SceneElement ks ∧ sceneOut (syncScene s) ks = .ok out ∧ ReloadedL out r ∧
    readScene lib a b c r = .ok x

/-- `k` times saved and read. -/
inductive Cycles (lib : PyLib) : Nat → Scene → Scene → Prop
  | zero (s) : Cycles lib 0 s s
  | succ {k s x y} : Cycles lib k s x → SavedAndRead lib x y → Cycles lib (k + 1) s y

/-- The characters that are special in XML. -/
def special (c : Char) : Bool := c = '&' || c = '<' || c = '>' || c = '\'' || c = '"'

end Spec

theorem escChar_length (c : Char) : (escChar c).length ≥ 1 ∧ (special c = true → (escChar c).length ≥ 4 ∧ '&' ∈ escChar c) := by
  unfold escChar special
  by_cases h1 : c = '&'
  · simp [h1]
  · by_cases h2 : c = '>'
    · simp [h2]
    · by_cases h3 : c = '<'
      · simp [h3]
      · by_cases h4 : c = '\''
        · simp [h4]
        · by_cases h5 : c = '"'
          · simp [h5]
          · simp [h1, h2, h3, h4, h5]

theorem esc_length (t : Str) : (t.flatMap escChar).length ≥ t.length ∧
    (t.any special = true → (t.flatMap escChar).length ≥ t.length + 3 ∧ (t.flatMap escChar).any special = true) := by
  induction t with
  | nil => simp
  | cons c r ih =>
    obtain ⟨h1, h2⟩ := escChar_length c
    obtain ⟨i1, i2⟩ := ih
    rw [List.flatMap_cons]
    refine ⟨by simp only [List.length_append, List.length_cons]; omega, ?_⟩
    intro h
    rw [List.any_cons, Bool.or_eq_true] at h
    simp only [List.length_append, List.length_cons, List.any_append, Bool.or_eq_true]
    rcases h with h | h
    · obtain ⟨h3, h4⟩ := h2 h
      exact ⟨by omega, Or.inl (List.any_eq_true.2 ⟨'&', h4, by decide⟩)⟩
    · obtain ⟨h3, h4⟩ := i2 h
      exact ⟨by omega, Or.inr h4⟩

/-- **C20 does not hold for the arcs of scenes**: if the arcs contain a character that is special in XML,
they grow by at least three characters with each save/reload cycle. -/
theorem C20_arcs_grow (lib : PyLib) (k : Nat) (s x : Scene) (arcs : Str) (ha : s.scnArcs = some arcs)
    (hsp : arcs.any special = true) (hc : Cycles lib k s x) :
    ∃ t, x.scnArcs = some t ∧ t.any special = true ∧ t.length ≥ arcs.length + 3 * k := by
  induction hc with
  | zero s => exact ⟨arcs, ha, hsp, by omega⟩
  | @succ k s x y _ hxy ih =>
    obtain ⟨t, t1, t2, t3⟩ := ih ha
    obtain ⟨a, b, c, ks, out, r, hk, ho, hr, hx⟩ := hxy
    have h := (C20_custom lib a b c x y ks out r hk ho hr hx).1 t t1
    obtain ⟨g1, g2⟩ := (esc_length t).2 t2
    refine ⟨t.flatMap escChar, ?_, g2, by omega⟩
    rw [h, ywConvert_eq]
    exact readText_ne (by intro hn; rw [hn] at g2; cases g2)

/-- **C20 does not hold for the items of scenes**: a saved scene has lost its items. -/
theorem C20_items_lost (lib : PyLib) (s x : Scene) (h : SavedAndRead lib s x) : x.items = none := by
  obtain ⟨a, b, c, ks, out, r, hk, ho, hr, hx⟩ := h
  exact C16_items_lost lib a b c _ x ks out r hk ho hr hx

/-- The hypotheses can be met: a new scene with the arcs `A & B` is saved and read, and has other arcs. -/
example (lib : PyLib) : ∃ x, SavedAndRead lib { title := some c!"T", scnArcs := some c!"A & B" } x ∧
    x.scnArcs = some c!"A &amp; B" := by
  have h : ∃ out, sceneOut (syncScene { title := some c!"T", scnArcs := some c!"A & B" })
      [leaf c!"ID" (some c!"1")] = .ok out ∧ literalBL out = true ∧
      ∃ x, readScene lib [] [] [] (reloadL out) = .ok x ∧ x.scnArcs = some c!"A &amp; B" :=
    ⟨_, rfl, by decide +kernel, _, rfl, rfl⟩
  obtain ⟨out, h1, h2, x, h3, h4⟩ := h
  exact ⟨x, ⟨[], [], [], _, out, _, newScene c!"1", h1, reloadedL_reload _ h2, h3⟩, h4⟩

end Verif
