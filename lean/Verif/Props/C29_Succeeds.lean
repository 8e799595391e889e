/-
C29: an export succeeds for every consistent project, so the statements about successful exports are not empty.
-/
import Verif.Props.C29_C30_Export

namespace Verif
open Spec

/-- A project that can be exported: every listed chapter and scene exists, every listed scene has one of the six states and refers only to
existing locations and items. -/
structure Spec.Exportable (n : Novel) : Prop where
  chapters : ∀ id ∈ n.srtChapters, ∃ ch, n.chapters.get? id = some ch
  scenes : ∀ id ∈ narrative n, ∃ s, n.scenes.get? id = some s ∧ (∃ i : Nat, i < 6 ∧ s.status = some (i : Int)) ∧
    (∀ l, s.locations = some l → ∀ x ∈ l, x ∈ n.locations.keys) ∧ (∀ l, s.items = some l → ∀ x ∈ l, x ∈ n.items.keys)

/-- The mappings of the exporter are defined for the listed chapters and scenes. -/
structure TotalMappings (x : Exporter) (n : Novel) : Prop where
  header : ∃ m, x.headerMapping n = .ok m
  chapter : ∀ id ∈ n.srtChapters, ∀ k, ∃ m, x.chapterMapping n id k = .ok m
  scene : ∀ id ∈ narrative n, ∀ k w l, ∃ m, x.sceneMapping n id k w l = .ok m

theorem scenesLoop_total {x : Exporter} {n : Novel} (ids : List Str) (hs : ∀ id ∈ ids, ∃ s, n.scenes.get? id = some s)
    (hm : ∀ id ∈ ids, ∀ k w l, ∃ m, x.sceneMapping n id k w l = .ok m) (ct : Option Nat) (ne : Bool) :
    ∀ first k, ∃ r, scenesLoop x n ct ne first k ids = .ok r := by
  induction ids with
  | nil => intro first k; exact ⟨_, rfl⟩
  | cons id r ih =>
    intro first k
    have ih' := ih (fun i hi => hs i (List.mem_cons_of_mem _ hi)) (fun i hi => hm i (List.mem_cons_of_mem _ hi))
    obtain ⟨s, hs'⟩ := hs id List.mem_cons_self
    unfold scenesLoop
    rw [Dict.get!_of hs']
    simp only [Bind.bind, Except.bind]
    cases ht : sceneTemplate x.toTemplates ct ne first s with
    | none => exact ih' first k
    | some p =>
      obtain ⟨t, counted⟩ := p
      simp only
      obtain ⟨m, hm'⟩ := hm id List.mem_cons_self (if counted = true then (if counted = true then ({ number := k.number + 1, words := k.words + s.wordCount, letters := k.letters + s.letterCount } : Counters) else k).number else 0)
        (if counted = true then ({ number := k.number + 1, words := k.words + s.wordCount, letters := k.letters + s.letterCount } : Counters) else k).words
        (if counted = true then ({ number := k.number + 1, words := k.words + s.wordCount, letters := k.letters + s.letterCount } : Counters) else k).letters
      rw [hm']
      simp only
      obtain ⟨q, hq⟩ := ih' false (if counted = true then ({ number := k.number + 1, words := k.words + s.wordCount, letters := k.letters + s.letterCount } : Counters) else k)
      rw [hq]
      exact ⟨_, rfl⟩

theorem flags_total {n : Novel} (ids : List Str) (hs : ∀ id ∈ ids, ∃ s, n.scenes.get? id = some s) :
    ∃ l, chapterNotExported.flags n ids = .ok l := by
  induction ids with
  | nil => exact ⟨_, rfl⟩
  | cons id r ih =>
    obtain ⟨l, hl⟩ := ih (fun i hi => hs i (List.mem_cons_of_mem _ hi))
    obtain ⟨s, hs'⟩ := hs id List.mem_cons_self
    unfold chapterNotExported.flags
    rw [Dict.get!_of hs', hl]
    exact ⟨_, rfl⟩

theorem chapterLine_total {x : Exporter} {n : Novel} {id : Str} {k : Nat} (h : ∃ m, x.chapterMapping n id k = .ok m) (o : Option Str) :
    ∃ l, chapterLine x n id k o = .ok l := by
  cases o with
  | none => exact ⟨_, rfl⟩
  | some t =>
    obtain ⟨m, hm⟩ := h
    unfold chapterLine
    rw [hm]
    exact ⟨_, rfl⟩

theorem chaptersLoop_total {x : Exporter} {n : Novel} (ids : List Str) (hch : ∀ id ∈ ids, ∃ ch, n.chapters.get? id = some ch ∧
      (∀ i ∈ ch.srtScenes, (∃ s, n.scenes.get? i = some s) ∧ ∀ k w l, ∃ m, x.sceneMapping n i k w l = .ok m))
    (hm : ∀ id ∈ ids, ∀ k, ∃ m, x.chapterMapping n id k = .ok m) : ∀ c k, ∃ ls, chaptersLoop x n c k ids = .ok ls := by
  induction ids with
  | nil => intro c k; exact ⟨_, rfl⟩
  | cons id r ih =>
    intro c k
    have ih' := ih (fun i hi => hch i (List.mem_cons_of_mem _ hi)) (fun i hi => hm i (List.mem_cons_of_mem _ hi))
    obtain ⟨ch, hc, hs⟩ := hch id List.mem_cons_self
    unfold chaptersLoop
    rw [Dict.get!_of hc]
    obtain ⟨fl, hfl⟩ := flags_total (n := n) ch.srtScenes (fun i hi => (hs i hi).1)
    have hne : chapterNotExported n ch.srtScenes = .ok (fl ≠ [] && fl.all _root_.id) := by
      unfold chapterNotExported
      rw [hfl]
      rfl
    simp only [Bind.bind, Except.bind]
    rw [hne]
    simp only
    generalize (decide (fl ≠ []) && fl.all _root_.id) = ne
    generalize chapterTemplate x.toTemplates ch ne = t
    have hd := hm id List.mem_cons_self
    obtain ⟨l1, h1⟩ := chapterLine_total (hd (if t.2 = true then (if t.2 = true then c + 1 else c) else 0)) t.1
    rw [h1]
    simp only
    obtain ⟨⟨l2, k2⟩, h2⟩ := scenesLoop_total (x := x) ch.srtScenes (fun i hi => (hs i hi).1) (fun i hi => (hs i hi).2) ch.chType ne true k
    rw [h2]
    simp only
    obtain ⟨l3, h3⟩ := chapterLine_total (hd (if t.2 = true then (if t.2 = true then c + 1 else c) else 0)) (chapterEndTemplate x.toTemplates ch ne)
    rw [h3]
    simp only
    obtain ⟨l4, h4⟩ := ih' (if t.2 = true then c + 1 else c) k2
    rw [h4]
    exact ⟨_, rfl⟩

theorem getChapters_total {x : Exporter} {n : Novel} (hn : Exportable n) (hm : TotalMappings x n) : ∃ ls, getChapters x n = .ok ls := by
  refine chaptersLoop_total n.srtChapters ?_ hm.chapter 0 {}
  intro id hid
  obtain ⟨ch, hc⟩ := hn.chapters id hid
  refine ⟨ch, hc, fun i hi => ?_⟩
  have hmem : i ∈ narrative n := by
    unfold narrative
    rw [List.mem_flatMap]
    exact ⟨id, hid, by unfold scenesOf; rw [hc]; exact hi⟩
  obtain ⟨s, hs, _⟩ := hn.scenes i hmem
  exact ⟨⟨s, hs⟩, hm.scene i hmem⟩

theorem titlesOf_total {α : Type} {f : α → Option Str} {d : Dict α} (l : List Str) (h : ∀ x ∈ l, x ∈ d.keys) :
    ∃ r, titlesOf f d l = .ok r := by
  induction l with
  | nil => exact ⟨_, rfl⟩
  | cons a r ih =>
    obtain ⟨q, hq⟩ := ih (fun x hx => h x (List.mem_cons_of_mem _ hx))
    obtain ⟨v, hv⟩ := (Dict.mem_keys_iff d a).1 (h a List.mem_cons_self)
    unfold titlesOf
    rw [Dict.get!_of hv, hq]
    exact ⟨_, rfl⟩

theorem sceneWorld_total {d : Dict WorldElement} {o : Option (List Str)} (h : ∀ l, o = some l → ∀ x ∈ l, x ∈ d.keys) :
    ∃ r, sceneWorld d o = .ok r := by
  cases o with
  | none => exact ⟨_, rfl⟩
  | some l =>
    obtain ⟨r, hr⟩ := titlesOf_total (f := fun e : WorldElement => e.title) l (h l rfl)
    simp only [sceneWorld, Bind.bind, Except.bind, hr]
    exact ⟨_, rfl⟩

theorem statusName_total {i : Nat} (h : i < 6) : ∃ s, statusName (some (i : Int)) = .ok s := by
  have : i = 0 ∨ i = 1 ∨ i = 2 ∨ i = 3 ∨ i = 4 ∨ i = 5 := by omega
  rcases this with rfl | rfl | rfl | rfl | rfl | rfl <;> exact ⟨_, rfl⟩

theorem Base.scene_total (b : Base) {n : Novel} (hn : Exportable n) {id : Str} (hid : id ∈ narrative n) (k w l : Nat) :
    ∃ m, b.scene n id k w l = .ok m := by
  obtain ⟨s, hs, ⟨i, hi, hst⟩, hl, hit⟩ := hn.scenes id hid
  obtain ⟨r1, h1⟩ := sceneWorld_total hl
  obtain ⟨r2, h2⟩ := sceneWorld_total hit
  obtain ⟨r3, h3⟩ := statusName_total hi
  unfold Base.scene
  rw [Dict.get!_of hs]
  simp only [Bind.bind, Except.bind, h1, h2, hst, h3]
  exact ⟨_, rfl⟩

theorem Base.chapter_total (b : Base) {n : Novel} {id : Str} {ch : Chapter} (h : n.chapters.get? id = some ch) (k : Nat) :
    ∃ m, b.chapter n id k = .ok m := by
  unfold Base.chapter
  rw [Dict.get!_of h]
  exact ⟨_, rfl⟩

theorem chapterSuppressed_total (b : Base) {n : Novel} {id : Str} {ch : Chapter} (h : n.chapters.get? id = some ch) (k : Nat) :
    ∃ m, chapterSuppressed b n id k = .ok m := by
  obtain ⟨m, hm⟩ := b.chapter_total h k
  unfold chapterSuppressed
  rw [hm, Dict.get!_of h]
  exact ⟨_, rfl⟩

theorem odtExport_total (e : DocEnv) {n : Novel} (hn : Exportable n) : TotalMappings (odtExport e) n where
  header := ⟨_, rfl⟩
  chapter id hid k := by
    obtain ⟨ch, hc⟩ := hn.chapters id hid
    exact chapterSuppressed_total _ hc k
  scene id hid k w l := by
    obtain ⟨m, hm⟩ := e.exportBase.scene_total hn hid k w l
    refine ⟨Dict.set m c!"sceneTitle" c!"Scene", ?_⟩
    show (e.exportBase.scene n id k w l >>= fun m => _) = _
    rw [hm]
    rfl

theorem odtManuscript_total (e : DocEnv) {n : Novel} (hn : Exportable n) : TotalMappings (odtManuscript e) n where
  header := ⟨_, rfl⟩
  chapter id hid k := by
    obtain ⟨ch, hc⟩ := hn.chapters id hid
    exact chapterSuppressed_total _ hc k
  scene id hid k w l := by
    obtain ⟨m, hm⟩ := e.formattedBase.scene_total hn hid k w l
    refine ⟨Dict.set (Dict.set m c!"sceneTitle" c!"Scene") c!"Summary" c!"Summary", ?_⟩
    show ((e.formattedBase.scene n id k w l >>= fun m => _) >>= fun m => _) = _
    rw [hm]
    rfl

/-- **C29, the export succeeds**: for every consistent project, both manuscripts are produced. -/
theorem C29_succeeds (e : DocEnv) (n : Novel) (hn : Exportable n) :
    (∃ t, exportText e n = .ok t) ∧ (∃ t, formattedText (odtManuscript e) n = .ok t) := by
  have key : ∀ x : Exporter, TotalMappings x n → ∃ t, formattedText x n = .ok t := by
    intro x hx
    obtain ⟨m, hm⟩ := hx.header
    obtain ⟨ls, hls⟩ := getChapters_total hn hx
    unfold formattedText getFileHeader
    rw [hm, hls]
    exact ⟨_, rfl⟩
  refine ⟨?_, key _ (odtManuscript_total e hn)⟩
  obtain ⟨t, ht⟩ := key _ (odtExport_total e hn)
  unfold exportText
  rw [ht]
  exact ⟨_, rfl⟩

/-- **C29 in one statement**: for every consistent project in which scenes inherit the type of their chapters (in particular every project read from
a file, `readTree_inherits`), the exported document is the title lines, then exactly the specified chapters and scenes, then the footer,
with quotation and note styles applied. -/
theorem C29_document (e : DocEnv) (n : Novel) (hn : Exportable n) (hi : Inherits n) : ∃ header, getFileHeader (odtExport e) n = .ok header ∧
    exportText e n = .ok (convertNotes n.authorName (quotations (header ++ manuscript (odtExport e) n [] n.srtChapters ++ [contentFooter]).flatten)) := by
  obtain ⟨m, hm⟩ := (odtExport_total e hn).header
  obtain ⟨ls, hls⟩ := getChapters_total hn (odtExport_total e hn)
  have := C29_C30_lines (odtExport e) (odtExport_templates e) n hi ls hls
  refine ⟨_, by unfold getFileHeader; rw [hm]; rfl, ?_⟩
  unfold exportText formattedText getFileHeader
  rw [hm, hls, this]
  rfl

/-- The example project is consistent. -/
example : Exportable exportExample where
  chapters id hid := by
    simp only [exportExample, List.mem_cons, List.not_mem_nil, or_false] at hid
    rcases hid with rfl | rfl | rfl | rfl <;> exact ⟨_, rfl⟩
  scenes id hid := by
    have : narrative exportExample = [c!"1", c!"2", c!"3", c!"4", c!"5", c!"6"] := by decide
    rw [this] at hid
    simp only [List.mem_cons, List.not_mem_nil, or_false] at hid
    rcases hid with rfl | rfl | rfl | rfl | rfl | rfl <;>
      exact ⟨_, rfl, ⟨1, by decide, rfl⟩, (by intro l h; cases h), (by intro l h; cases h)⟩

end Verif
