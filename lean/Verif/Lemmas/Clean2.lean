/-
The texts of a novel that was read (for C72).
-/
import Verif.Lemmas.Clean

namespace Verif
open Spec Elem Xml

/-- All texts in a list of trees. -/
def CleanKids (ks : List Elem) : Prop := ∀ e ∈ ks, CleanTree e

theorem find_clean {ks : List Elem} (hk : CleanKids ks) {t : Str} {e : Elem} (h : find t ks = some e) : CarriableO e.text ∧ CleanKids e.kids := by
  have := CleanTree_iff.1 (hk e (List.mem_of_find?_eq_some h))
  exact ⟨this.1, this.2.2⟩

theorem textOf_clean {ks : List Elem} (hk : CleanKids ks) (t : Str) : CarriableO (Verif.textOf t ks) := by
  unfold Verif.textOf
  cases h : find t ks with
  | none => trivial
  | some e => exact (find_clean hk h).1

theorem customOf_clean {ks : List Elem} (hk : CleanKids ks) (t : Str) : CarriableO (customOf t ks) := by
  unfold customOf
  have key : ∀ (l : List Elem) (acc : Option Str), (∀ e ∈ l, CleanTree e) → CarriableO acc →
      CarriableO (l.foldl (fun acc f => match find t f.kids with | some e => e.text | none => acc) acc) := by
    intro l
    induction l with
    | nil => exact fun acc _ h => h
    | cons f l ih =>
      intro acc hl ha
      rw [List.foldl_cons]
      refine ih _ (fun e he => hl e (List.mem_cons_of_mem _ he)) ?_
      have hf := (CleanTree_iff.1 (hl f List.mem_cons_self)).2.2
      split
      · rename_i e he
        exact (find_clean hf he).1
      · exact ha
  exact key _ _ (fun e he => hk e (List.mem_filter.1 he).1) trivial

theorem strip_clean {t : Str} (h : Carriable t) : Carriable (Str.strip t) := by
  refine carriable_sub h (fun c hc => ?_)
  unfold Str.strip Str.stripBy at hc
  obtain ⟨u, hu, _⟩ := Str.rstripBy_prefix Str.isWs (Str.lstripBy Str.isWs t)
  have : c ∈ Str.lstripBy Str.isWs t := by
    rw [hu]
    exact List.mem_append_left _ hc
  unfold Str.lstripBy at this
  exact (List.dropWhile_sublist _).subset this

theorem stringToListLoop_legal (l : List Str) : ∀ acc : List Str, (∀ t ∈ l, Carriable t) → (∀ t ∈ acc, Carriable t) → ∀ t ∈ stringToListLoop acc l, Carriable t := by
  induction l with
  | nil => exact fun acc _ h => h
  | cons e l ih =>
    intro acc hl ha
    unfold stringToListLoop
    dsimp only
    have hl' : ∀ t ∈ l, Carriable t := fun t ht => hl t (List.mem_cons_of_mem _ ht)
    split
    · refine ih _ hl' ?_
      intro t ht
      rcases List.mem_append.1 ht with ht | ht
      · exact ha t ht
      · rw [List.mem_singleton] at ht
        rw [ht]
        exact strip_clean (hl e List.mem_cons_self)
    · exact ih _ hl' ha

theorem readTags_clean {ks : List Elem} (hk : CleanKids ks) : CleanTags (readTags ks) := by
  have := textOf_clean hk c!"Tags"
  unfold readTags
  intro t ht
  cases h : Verif.textOf c!"Tags" ks with
  | none => rw [h] at ht; cases ht
  | some s =>
    rw [h] at ht this
    simp only [Option.map_some, Option.getD_some] at ht
    obtain ⟨u, hu, rfl⟩ := List.mem_map.1 ht
    refine strip_clean (stringToListLoop_legal _ [] ?_ (fun t ht => by cases ht) u hu)
    intro v hv
    exact carriable_sub this (fun c hc => (mem_of_mem_split hv hc).1)

theorem cleanTexts_cons {v : Option Str} {l : List (Option Str)} (h1 : CarriableO v) (h2 : CleanTexts l) : CleanTexts (v :: l) := by
  intro w hw
  rcases List.mem_cons.1 hw with rfl | hw
  · exact h1
  · exact h2 w hw

theorem cleanTexts_nil : CleanTexts [] := fun v hv => by cases hv

theorem readScene_clean {lib : PyLib} {chrs locs itms : List Str} {ks : List Elem} {s : Scene} (hk : CleanKids ks) (h : readScene lib chrs locs itms ks = .ok s) : CleanScene s := by
  have ht := textOf_clean hk
  have hc := customOf_clean hk c!"Field_SceneArcs"
  have hg := readTags_clean hk
  unfold readScene at h
  split at h
  · cases h
  · split at h
    · cases h
    · dsimp only at h
      split at h
      · cases h
        refine ⟨?_, hg⟩
        repeat' refine cleanTexts_cons ?_ ?_
        all_goals first | exact ht _ | exact hc | exact cleanTexts_nil | trivial
      · rename_i t e
        cases h
        have hx := ht c!"SceneContent"
        rw [e] at hx
        refine ⟨?_, hg⟩
        unfold Scene.setContent
        repeat' refine cleanTexts_cons ?_ ?_
        all_goals first | exact ht _ | exact hc | exact hx | exact cleanTexts_nil

theorem readChapter_clean {ss : List Str} {ks : List Elem} (hk : CleanKids ks) : CleanTexts [(readChapter ss ks).title, (readChapter ss ks).desc] :=
  cleanTexts_cons (textOf_clean hk _) (cleanTexts_cons (textOf_clean hk _) cleanTexts_nil)

theorem readWorld_clean {ks : List Elem} (hk : CleanKids ks) : CleanElement (readWorld ks) := by
  refine ⟨?_, readTags_clean hk⟩
  repeat' refine cleanTexts_cons ?_ ?_
  all_goals first | exact textOf_clean hk _ | exact cleanTexts_nil

theorem readCharacter_clean {ks : List Elem} (hk : CleanKids ks) : CleanCharacter (readCharacter ks) := by
  refine ⟨?_, readTags_clean hk⟩
  repeat' refine cleanTexts_cons ?_ ?_
  all_goals first | exact textOf_clean hk _ | exact cleanTexts_nil

/-- All entries of a dictionary, with their keys. -/
def AllEntries {α : Type} (P : Str → α → Prop) (d : Dict α) : Prop := ∀ k v, d.get? k = some v → P k v

theorem AllEntries.set {α : Type} {P : Str → α → Prop} {d : Dict α} (h : AllEntries P d) {k : Str} {v : α} (hv : P k v) : AllEntries P (d.set k v) := by
  intro x w hw
  rw [Dict.get?_set] at hw
  split at hw
  · rename_i e
    cases hw
    subst e
    exact hv
  · exact h x w hw

theorem idOf_clean {e : Elem} (he : CleanTree e) {id : Str} (h : idOf e = .ok id) : Carriable id := by
  unfold idOf at h
  split at h
  · cases h
  · rename_i i hi
    have := (find_clean (CleanTree_iff.1 he).2.2 hi).1
    split at h
    · cases h
    · rename_i s hs
      injection h with h
      rw [hs, h] at this
      exact this

theorem readEntries_clean {α : Type} {P : α → Prop} {f : List Elem → Except Exc α} (hf : ∀ ks a, CleanKids ks → f ks = .ok a → P a) (es : List Elem) (he : CleanKids es) :
    ∀ acc r, AllEntries (fun k v => Carriable k ∧ P v) acc.2 → readEntries f acc es = .ok r → AllEntries (fun k v => Carriable k ∧ P v) r.2 := by
  induction es with
  | nil =>
    intro acc r ha h
    unfold readEntries at h
    injection h with h
    rw [← h]
    exact ha
  | cons e es ih =>
    intro acc r ha h
    unfold readEntries at h
    split at h
    · cases h
    · rename_i id hid
      split at h
      · cases h
      · rename_i a hfa
        exact ih (fun x hx => he x (List.mem_cons_of_mem _ hx)) _ r
          (ha.set ⟨idOf_clean (he e List.mem_cons_self) hid, hf _ a (CleanTree_iff.1 (he e List.mem_cons_self)).2.2 hfa⟩) h

theorem readSection_clean {α : Type} {P : α → Prop} {f : List Elem → Except Exc α} (hf : ∀ ks a, CleanKids ks → f ks = .ok a → P a) {t : Str} {d : Dict α} {rk : List Elem} (hk : CleanKids rk)
    {r : List Str × Dict α} (hd : AllEntries (fun k v => Carriable k ∧ P v) d) (h : readSection t f d rk = .ok r) : AllEntries (fun k v => Carriable k ∧ P v) r.2 := by
  unfold readSection at h
  split at h
  · cases h
  · rename_i e he
    exact readEntries_clean hf _ (find_clean hk he).2 _ r hd h

theorem readNotes_clean (es : List Elem) (he : CleanKids es) : ∀ acc : List Str × Dict BasicElement, AllEntries (fun k w => Carriable k ∧ CleanTexts [w.title, w.desc]) acc.2 →
    AllEntries (fun k (w : BasicElement) => Carriable k ∧ CleanTexts [w.title, w.desc]) (readNotes acc es).2 := by
  induction es with
  | nil => exact fun acc h => h
  | cons e es ih =>
    intro acc ha
    have hes : CleanKids es := fun x hx => he x (List.mem_cons_of_mem _ hx)
    have hk := (CleanTree_iff.1 (he e List.mem_cons_self)).2.2
    unfold readNotes
    split
    · split
      · exact ha
      · exact ih hes acc ha
    · rename_i i hi
      split
      · exact ha
      · rename_i id hid
        have hc := (find_clean hk hi).1
        rw [hid] at hc
        have hset := ha.set (k := id) (v := ({ title := Verif.textOf c!"Title" e.kids, desc := Verif.textOf c!"Desc" e.kids } : BasicElement))
          ⟨hc, cleanTexts_cons (textOf_clean hk _) (cleanTexts_cons (textOf_clean hk _) cleanTexts_nil)⟩
        dsimp only
        split
        · exact hset
        · exact ih hes _ hset

theorem readOver_clean {ks : List Elem} (hk : CleanKids ks) (t : Str) {old : Option Str} (h : CarriableO old) : CarriableO (readOver t old ks) := by
  unfold readOver
  split
  · exact h
  · rename_i e he
    exact (find_clean hk he).1

/-- The novel that is read from a clean tree is clean. -/
theorem readTree_clean {lib : PyLib} {root : Elem} {n : Novel} (hr : CleanTree root) (h0 : readTree lib root = .ok n) : CleanNovel n := by
  have hk : CleanKids root.kids := (CleanTree_iff.1 hr).2.2
  have h := h0
  unfold readTree readRoot at h
  cases hf : Xml.find c!"PROJECT" root.kids with
  | none => rw [hf] at h; cases h
  | some prj =>
  rw [hf] at h
  obtain ⟨pk, hp, h⟩ := bind_ok h
  injection hp with hp
  subst hp
  have hpk := (find_clean hk hf).2
  obtain ⟨l, hl, h⟩ := bind_ok h
  obtain ⟨i, hi, h⟩ := bind_ok h
  obtain ⟨c, hc, h⟩ := bind_ok h
  obtain ⟨s, hs, h⟩ := bind_ok h
  obtain ⟨ch, hch, h⟩ := bind_ok h
  have nov : ∀ {α : Type} {P : Str → α → Prop}, AllEntries P ([] : Dict α) := fun k v hv => by cases hv
  have cl := readSection_clean (P := CleanElement) (fun ks a hk ha => by cases ha; exact readWorld_clean hk) hk nov hl
  have ci := readSection_clean (P := CleanElement) (fun ks a hk ha => by cases ha; exact readWorld_clean hk) hk nov hi
  have cc := readSection_clean (P := CleanCharacter) (fun ks a hk ha => by cases ha; exact readCharacter_clean hk) hk nov hc
  have cs := readSection_clean (P := CleanScene) (fun ks a hk ha => readScene_clean hk ha) hk nov hs
  have cch := readSection_clean (P := fun c : Chapter => CleanTexts [c.title, c.desc]) (fun ks a hk ha => by cases ha; exact readChapter_clean hk) hk nov hch
  obtain ⟨e1, _, e3⟩ := C39_effect _ _ h
  refine ⟨?_, ?_, ?_, ?_, ?_, ?_, ?_⟩
  · rw [e1]
    repeat' refine cleanTexts_cons ?_ ?_
    all_goals first | exact readOver_clean hpk _ trivial | exact cleanTexts_nil
  · intro id x hx
    rw [e3] at hx
    dsimp only at hx
    cases hg : s.2.get? id with
    | none => rw [hg] at hx; cases hx
    | some s0 =>
      rw [hg] at hx
      simp only [Option.map_some, Option.some.injEq] at hx
      obtain ⟨f1, f2⟩ := cs id s0 hg
      split at hx
      · rw [← hx]; exact ⟨f1, f2⟩
      · rw [← hx]; exact ⟨f1, ⟨f2.texts, f2.tags⟩⟩
  · rw [e1]; exact cch
  · rw [e1]; exact cl
  · rw [e1]; exact ci
  · rw [e1]; exact cc
  · rw [e1]
    refine readNotes_clean _ ?_ _ nov
    split
    · exact fun e he => by cases he
    · rename_i e he
      exact (find_clean hk he).2

end Verif
