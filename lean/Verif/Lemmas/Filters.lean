/-
For C75: exports with filters.
-/
import Verif.Spec.Filters
import Verif.Lemmas.Export
import Verif.Model.OdtSheets
import Verif.Model.OdsWrite

namespace Verif
open Spec

theorem scenesFiltered_eq (f : Filters) (x : Exporter) (n : Novel) (ct : Option Nat) (ne : Bool) : ∀ (l : List Str) (first : Bool) (k : Counters),
    scenesFiltered f x n ct ne first k l = scenesLoop x n ct ne first k (l.filter f.scene) := by
  intro l
  induction l with
  | nil => intro first k; rfl
  | cons id r ih =>
    intro first k
    rw [scenesFiltered]
    cases h : f.scene id with
    | false =>
      rw [if_pos rfl, List.filter_cons_of_neg (by rw [h]; decide)]
      exact ih _ _
    | true =>
      rw [if_neg (by decide), List.filter_cons_of_pos h, scenesLoop]
      simp only [ih]
      rfl

theorem elementsFiltered_eq (a : Str → Bool) (t : Str) (m : Str → Except Exc Mapping) : ∀ l : List Str,
    elementsFiltered a t m l = elementLines t m (l.filter a) := by
  intro l
  induction l with
  | nil => rfl
  | cons id r ih =>
    rw [elementsFiltered]
    cases h : a id with
    | false =>
      rw [if_neg (by decide), List.filter_cons_of_neg (by rw [h]; decide)]
      exact ih
    | true =>
      rw [if_pos rfl, List.filter_cons_of_pos h, elementLines]
      simp only [ih]

theorem scenesLoop_congr {x : Exporter} {n m : Novel} (ct : Option Nat) (ne : Bool) : ∀ (l : List Str) (first : Bool) (k : Counters),
    (∀ id ∈ l, m.scenes.get? id = n.scenes.get? id ∧ ∀ k w l, x.sceneMapping m id k w l = x.sceneMapping n id k w l) →
    scenesLoop x m ct ne first k l = scenesLoop x n ct ne first k l := by
  intro l
  induction l with
  | nil => intro first k _; rfl
  | cons id r ih =>
    intro first k h
    obtain ⟨h1, h2⟩ := h id (List.mem_cons_self ..)
    have ih' : ∀ first k, scenesLoop x m ct ne first k r = scenesLoop x n ct ne first k r := fun a b => ih a b (fun i hi => h i (List.mem_cons_of_mem _ hi))
    rw [scenesLoop, scenesLoop]
    unfold Dict.get!
    rw [h1]
    simp only [ih', h2]

theorem elementLines_congr {t : Str} {a b : Str → Except Exc Mapping} (h : ∀ id, a id = b id) (l : List Str) : elementLines t a l = elementLines t b l := by
  have : a = b := funext h
  rw [this]

theorem chapterLine_congr {x : Exporter} {n m : Novel} {id : Str} {k : Nat} (h : x.chapterMapping m id k = x.chapterMapping n id k) (t : Option Str) :
    chapterLine x m id k t = chapterLine x n id k t := by
  cases t with
  | none => rfl
  | some t => unfold chapterLine; rw [h]

theorem flags_congr {n m : Novel} : ∀ l : List Str, (∀ s ∈ l, (m.scenes.get? s).map (·.doNotExport) = (n.scenes.get? s).map (·.doNotExport)) →
    chapterNotExported.flags m l = chapterNotExported.flags n l := by
  intro l
  induction l with
  | nil => intro _; rfl
  | cons id r ih =>
    intro h
    have h1 := h id (List.mem_cons_self ..)
    rw [chapterNotExported.flags, chapterNotExported.flags, ih (fun i hi => h i (List.mem_cons_of_mem _ hi))]
    unfold Dict.get!
    rcases e1 : m.scenes.get? id with _ | a <;> rcases e2 : n.scenes.get? id with _ | b <;> simp only [e1, e2] at h1
    · rfl
    · cases h1
    · cases h1
    · rw [Option.map_some, Option.map_some, Option.some.injEq] at h1
      show (chapterNotExported.flags n r >>= fun l => _) = (chapterNotExported.flags n r >>= fun l => _)
      simp only [h1]

theorem notExported_congr {n m : Novel} {l : List Str} (h : ∀ s ∈ l, (m.scenes.get? s).map (·.doNotExport) = (n.scenes.get? s).map (·.doNotExport)) :
    chapterNotExported m l = chapterNotExported n l := by
  unfold chapterNotExported
  rw [flags_congr l h]

/-- The flag of a chapter whose scenes exist. -/
theorem flags_there {n : Novel} : ∀ l : List Str, (∀ s ∈ l, s ∈ n.scenes.keys) → ∃ bs, chapterNotExported.flags n l = .ok bs := by
  intro l
  induction l with
  | nil => intro _; exact ⟨[], rfl⟩
  | cons id r ih =>
    intro h
    obtain ⟨bs, hbs⟩ := ih (fun i hi => h i (List.mem_cons_of_mem _ hi))
    obtain ⟨s, hs⟩ := (Dict.mem_keys_iff _ _).1 (h id (List.mem_cons_self ..))
    rw [chapterNotExported.flags, Dict.get!_of hs, hbs]
    exact ⟨_, rfl⟩

theorem notExported_there {n : Novel} {l : List Str} (h : ∀ s ∈ l, s ∈ n.scenes.keys) :
    ∃ b, chapterNotExported n l = .ok b ∧ (b = true ↔ AllMarked n l) := by
  obtain ⟨bs, hbs⟩ := flags_there l h
  obtain ⟨h1, h2, h3⟩ := flags_spec l bs hbs
  refine ⟨bs ≠ [] && bs.all id, ?_, ?_⟩
  · unfold chapterNotExported
    rw [hbs]
    rfl
  · rw [h3]
    simp only [ne_eq, Bool.and_eq_true, decide_eq_true_eq, List.all_eq_true, AllMarked]
    constructor
    · rintro ⟨a, b⟩
      refine ⟨fun e => a (h2.2 e), fun id hid => ?_⟩
      obtain ⟨s, hs⟩ := h1 id hid
      have := b id hid
      rw [hs] at this
      simp only [Option.any_some, beq_iff_eq] at this
      exact ⟨s, hs, this⟩
    · rintro ⟨a, b⟩
      refine ⟨fun e => a (h2.1 e), fun id hid => ?_⟩
      obtain ⟨s, hs, hd⟩ := b id hid
      rw [hs]
      simp only [Option.any_some, beq_iff_eq]
      exact hd

theorem get?_map_values {α β : Type} (g : α → β) (d : Dict α) (id : Str) : Dict.get? (d.map (fun p => (p.1, g p.2))) id = (d.get? id).map g := by
  induction d with
  | nil => rfl
  | cons p r ih =>
    obtain ⟨k, v⟩ := p
    simp only [List.map_cons, Dict.get?]
    split
    · rfl
    · exact ih

theorem sameFrame_remaining (f : Filters) (n : Novel) : SameFrame n (remaining f n) := ⟨_, _, _, _, _, _, rfl⟩

theorem chapterTemplate_scenes (x : Templates) (ch : Chapter) (l : List Str) (ne : Bool) :
    chapterTemplate x { ch with srtScenes := l } ne = chapterTemplate x ch ne ∧ chapterEndTemplate x { ch with srtScenes := l } ne = chapterEndTemplate x ch ne := ⟨rfl, rfl⟩

theorem chaptersFiltered_remaining {f : Filters} {x : Exporter} (hx : OwnData x) {n : Novel} : ∀ (l : List Str) (k : Nat) (c : Counters),
    (∀ id ∈ l, f.chapter id = true → ∀ ch, n.chapters.get? id = some ch → (∀ s ∈ ch.srtScenes, s ∈ n.scenes.keys) ∧ (AllMarked n (ch.srtScenes.filter f.scene) ↔ AllMarked n ch.srtScenes)) →
    chaptersFiltered f x n k c l = chaptersLoop x (remaining f n) k c (l.filter f.chapter) := by
  intro l
  induction l with
  | nil => intro k c _; rfl
  | cons id r ih =>
    intro k c h
    have ih' := fun k c => ih k c (fun i hi => h i (List.mem_cons_of_mem _ hi))
    rw [chaptersFiltered]
    cases hf : f.chapter id with
    | false =>
      rw [if_pos rfl, List.filter_cons_of_neg (by rw [hf]; decide)]
      exact ih' _ _
    | true =>
      rw [if_neg (by decide), List.filter_cons_of_pos hf, chaptersLoop]
      have hg : (remaining f n).chapters.get? id = (n.chapters.get? id).map (fun ch => { ch with srtScenes := ch.srtScenes.filter f.scene }) :=
        get?_map_values (β := Chapter) (fun ch : Chapter => { ch with srtScenes := ch.srtScenes.filter f.scene }) n.chapters id
      have hline : ∀ d t, chapterLine x (remaining f n) id d t = chapterLine x n id d t := by
        intro d t
        refine chapterLine_congr (hx.chapter n _ id d (sameFrame_remaining f n) ?_) t
        rw [hg, Option.map_map]
        rfl
      cases e : n.chapters.get? id with
      | none =>
        rw [e] at hg
        unfold Dict.get!
        rw [e, hg]
        rfl
      | some ch =>
        obtain ⟨h1, h2⟩ := h id (List.mem_cons_self ..) hf ch e
        rw [e] at hg
        rw [Dict.get!_of e, Dict.get!_of hg]
        obtain ⟨b1, g1, i1⟩ := notExported_there h1
        obtain ⟨b2, g2, i2⟩ := notExported_there (n := n) (l := ch.srtScenes.filter f.scene) (fun s hs => h1 s (List.mem_filter.1 hs).1)
        have hb : b2 = b1 := by
          rw [Bool.eq_iff_iff, i1, i2]
          exact h2
        have g2' : chapterNotExported (remaining f n) (ch.srtScenes.filter f.scene) = .ok b1 := by
          rw [← hb, ← g2]
          exact notExported_congr (fun s _ => rfl)
        have hs : ∀ (c : Counters), scenesFiltered f x n ch.chType b1 true c ch.srtScenes = scenesLoop x (remaining f n) ch.chType b1 true c (ch.srtScenes.filter f.scene) := by
          intro c
          rw [scenesFiltered_eq]
          exact (scenesLoop_congr (n := n) (m := remaining f n) _ _ _ _ _ (fun s _ => ⟨rfl, fun _ _ _ => hx.scene n _ s _ _ _ (sameFrame_remaining f n) rfl⟩)).symm
        show (chapterNotExported n ch.srtScenes >>= _) = (chapterNotExported (remaining f n) (ch.srtScenes.filter f.scene) >>= _)
        rw [g1, g2']
        have okb : ∀ {α β : Type} (a : α) (g : α → Except Exc β), ((Except.ok a : Except Exc α) >>= g) = g a := fun _ _ => rfl
        simp only [okb, hline, hs, ih', chapterTemplate_scenes]

theorem chaptersFiltered_congr {f : Filters} {x : Exporter} (hx : OwnData x) {n m : Novel} (hm : SameFrame n m) : ∀ (l : List Str) (k : Nat) (c : Counters),
    (∀ id ∈ l, f.chapter id = true → m.chapters.get? id = n.chapters.get? id ∧ ∀ ch, n.chapters.get? id = some ch → ∀ s ∈ ch.srtScenes,
      (f.scene s = true → m.scenes.get? s = n.scenes.get? s) ∧ (m.scenes.get? s).map (·.doNotExport) = (n.scenes.get? s).map (·.doNotExport)) →
    chaptersFiltered f x m k c l = chaptersFiltered f x n k c l := by
  intro l
  induction l with
  | nil => intro k c _; rfl
  | cons id r ih =>
    intro k c h
    have ih' := fun k c => ih k c (fun i hi => h i (List.mem_cons_of_mem _ hi))
    rw [chaptersFiltered, chaptersFiltered]
    cases hf : f.chapter id with
    | false => rw [if_pos rfl, if_pos rfl]; exact ih' _ _
    | true =>
      rw [if_neg (by decide), if_neg (by decide)]
      obtain ⟨h1, h2⟩ := h id (List.mem_cons_self ..) hf
      have hline : ∀ d t, chapterLine x m id d t = chapterLine x n id d t := fun d t => chapterLine_congr (hx.chapter n m id d hm (by rw [h1])) t
      unfold Dict.get!
      rw [h1]
      cases e : n.chapters.get? id with
      | none => rfl
      | some ch =>
        have h2' := h2 ch e
        have g : chapterNotExported m ch.srtScenes = chapterNotExported n ch.srtScenes := notExported_congr (fun s hs => (h2' s hs).2)
        have hs : ∀ (b : Bool) (c : Counters), scenesFiltered f x m ch.chType b true c ch.srtScenes = scenesFiltered f x n ch.chType b true c ch.srtScenes := by
          intro b c
          rw [scenesFiltered_eq, scenesFiltered_eq]
          refine scenesLoop_congr _ _ _ _ _ (fun s hs => ?_)
          obtain ⟨hs1, hs2⟩ := List.mem_filter.1 hs
          have e1 := (h2' s hs1).1 hs2
          exact ⟨e1, fun _ _ _ => hx.scene n m s _ _ _ hm e1⟩
        show (chapterNotExported m ch.srtScenes >>= _) = (chapterNotExported n ch.srtScenes >>= _)
        rw [g]
        simp only [hline, hs, ih']

theorem header_congr {x : Exporter} (hx : OwnData x) {n m : Novel} (hm : SameFrame n m) : getFileHeader x m = getFileHeader x n := by
  unfold getFileHeader
  rw [hx.header n m hm]

/-! ### The exporters of the program -/

theorem base_own {b : Base} (hb : ∀ n m, SameFrame n m → b.conv m = b.conv n) :
    (∀ n m, SameFrame n m → b.header m = b.header n) ∧
    (∀ n m id k, SameFrame n m → (m.chapters.get? id).map aloneChapter = (n.chapters.get? id).map aloneChapter → b.chapter m id k = b.chapter n id k) ∧
    (∀ n m id k w l, SameFrame n m → m.scenes.get? id = n.scenes.get? id → b.scene m id k w l = b.scene n id k w l) ∧
    (∀ n m id, SameFrame n m → b.character m id = b.character n id) ∧
    (∀ n m id, SameFrame n m → b.location m id = b.location n id) ∧
    (∀ n m id, SameFrame n m → b.item m id = b.item n id) ∧
    (∀ n m id, SameFrame n m → b.note m id = b.note n id) := by
  refine ⟨?_, ?_, ?_, ?_, ?_, ?_, ?_⟩
  · intro n m h
    have e := hb n m h
    obtain ⟨cs, d, l1, l2, l3, l4, rfl⟩ := h
    unfold Base.header
    rw [e]
  · intro n m id k h hc
    have e := hb n m h
    obtain ⟨cs, d, l1, l2, l3, l4, rfl⟩ := h
    unfold Base.chapter Dict.get!
    rw [e]
    simp only at hc ⊢
    rcases e1 : cs.get? id with _ | a <;> rcases e2 : n.chapters.get? id with _ | b <;> simp only [e1, e2] at hc
    · rfl
    · cases hc
    · cases hc
    · simp only [Option.map_some, Option.some.injEq] at hc
      have t1 : a.title = b.title := by
        have h : (aloneChapter a).title = (aloneChapter b).title := by rw [hc]
        exact h
      have t2 : a.desc = b.desc := by
        have h : (aloneChapter a).desc = (aloneChapter b).desc := by rw [hc]
        exact h
      show Except.ok _ = Except.ok _
      rw [t1, t2]
  · intro n m id k w l h hs
    have e := hb n m h
    obtain ⟨cs, d, l1, l2, l3, l4, rfl⟩ := h
    unfold Base.scene Dict.get!
    rw [e, hs]
    rfl
  · intro n m id h
    have e := hb n m h
    obtain ⟨cs, d, l1, l2, l3, l4, rfl⟩ := h
    unfold Base.character
    rw [e]
  · intro n m id h
    have e := hb n m h
    obtain ⟨cs, d, l1, l2, l3, l4, rfl⟩ := h
    unfold Base.location Base.world
    rw [e]
  · intro n m id h
    have e := hb n m h
    obtain ⟨cs, d, l1, l2, l3, l4, rfl⟩ := h
    unfold Base.item Base.world
    rw [e]
  · intro n m id h
    have e := hb n m h
    obtain ⟨cs, d, l1, l2, l3, l4, rfl⟩ := h
    unfold Base.note
    rw [e]

theorem template_own (name path : Str) (t : Templates) : OwnData (templateExport name path t) := by
  obtain ⟨h1, h2, h3, h4, h5, h6, h7⟩ := base_own (b := templateBase name path) (fun _ _ _ => rfl)
  exact ⟨h1, h2, h3, h4, h5, h6, h7⟩

theorem suppressed_own {b : Base} (hb : ∀ n m, SameFrame n m → b.conv m = b.conv n) (n m : Novel) (id : Str) (k : Nat) (h : SameFrame n m)
    (hc : (m.chapters.get? id).map aloneChapter = (n.chapters.get? id).map aloneChapter) : chapterSuppressed b m id k = chapterSuppressed b n id k := by
  obtain ⟨-, h2, -⟩ := base_own hb
  unfold chapterSuppressed Dict.get!
  rw [h2 n m id k h hc]
  rcases e1 : m.chapters.get? id with _ | a <;> rcases e2 : n.chapters.get? id with _ | b <;> simp only [e1, e2] at hc
  · rfl
  · cases hc
  · cases hc
  · simp only [Option.map_some, Option.some.injEq] at hc
    have t : a.suppressChapterTitle = b.suppressChapterTitle := by
      have h : (aloneChapter a).suppressChapterTitle = (aloneChapter b).suppressChapterTitle := by rw [hc]
      exact h
    show (_ >>= fun m => Except.ok (if a.suppressChapterTitle = some true then Dict.set m c!"Title" [] else m)) = (_ >>= fun m => Except.ok (if b.suppressChapterTitle = some true then Dict.set m c!"Title" [] else m))
    rw [t]

theorem exporterOf_own (e : DocEnv) {b : Base} (hb : ∀ n m, SameFrame n m → b.conv m = b.conv n) (t : Templates) : OwnData (exporterOf e b t) := by
  obtain ⟨h1, h2, h3, h4, h5, h6, h7⟩ := base_own hb
  refine ⟨?_, h2, ?_, h4, h5, h6, h7⟩
  · intro n m h
    show headerWith e b m = headerWith e b n
    unfold headerWith
    rw [h1 n m h]
    obtain ⟨cs, d, l1, l2, l3, l4, rfl⟩ := h
    rfl
  · intro n m id k w l h hs
    show (b.scene m id k w l >>= _) = (b.scene n id k w l >>= _)
    rw [h3 n m id k w l h hs]

theorem plain_conv (e : DocEnv) (n m : Novel) (_ : SameFrame n m) : e.plainBase.conv m = e.plainBase.conv n := rfl

theorem export_conv (e : DocEnv) (n m : Novel) (h : SameFrame n m) : e.exportBase.conv m = e.exportBase.conv n := by
  obtain ⟨cs, d, l1, l2, l3, l4, rfl⟩ := h
  rfl

theorem formatted_conv (e : DocEnv) (n m : Novel) (h : SameFrame n m) : e.formattedBase.conv m = e.formattedBase.conv n := by
  obtain ⟨cs, d, l1, l2, l3, l4, rfl⟩ := h
  rfl

theorem withSummary_own (e : DocEnv) {b : Base} (hb : ∀ n m, SameFrame n m → b.conv m = b.conv n) (t : Templates) : OwnData (withSummary e b t) := by
  have h := exporterOf_own e hb t
  refine ⟨h.header, fun n m id k => suppressed_own hb n m id k, ?_, h.character, h.location, h.item, h.note⟩
  intro n m id k w l hf hs
  show ((exporterOf e b t).sceneMapping m id k w l >>= _) = ((exporterOf e b t).sceneMapping n id k w l >>= _)
  rw [h.scene n m id k w l hf hs]

theorem odsWriter_own (e : DocEnv) (t : Templates) : OwnData (odsWriter e t) := by
  obtain ⟨h1, h2, h3, h4, h5, h6, h7⟩ := base_own (b := e.odsBase) (fun _ _ _ => rfl)
  exact ⟨h1, h2, h3, h4, h5, h6, h7⟩

theorem odsSceneList_own (e : DocEnv) : OwnData (odsSceneList e) := by
  have h := odsWriter_own e { fileHeader := sceneListHeader, scene := sceneListRow, fileFooter := odsFooter }
  refine ⟨h.header, h.chapter, ?_, h.character, h.location, h.item, h.note⟩
  intro n m id k w l hf hs
  have e1 : e.odsBase.scene m id k w l = e.odsBase.scene n id k w l := h.scene n m id k w l hf hs
  show (e.odsBase.scene m id k w l >>= fun a => m.scenes.get! id >>= _) = (e.odsBase.scene n id k w l >>= fun a => n.scenes.get! id >>= _)
  unfold Dict.get!
  rw [e1, hs]

end Verif
