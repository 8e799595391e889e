/-
Lemmas: when the documents can be made (C73).
-/
import Verif.Spec.States
import Verif.Lemmas.Notes1
import Verif.Props.C55_XrefDoc
import Verif.Props.C67_Travel

namespace Verif
open Spec Template

theorem statusName_ok (o : Option Int) : (∃ x, statusName o = .ok x) ↔ ∃ i : Int, o = some i ∧ -6 ≤ i ∧ i < 6 := by
  cases o with
  | none => simp [statusName]
  | some i =>
    unfold statusName
    constructor
    · rintro ⟨x, h⟩
      refine ⟨i, rfl, ?_⟩
      by_cases h0 : 0 ≤ i
      · simp only [if_pos h0] at h
        cases hg : statusNames[i.toNat]? with
        | none => rw [hg] at h; cases h
        | some y =>
          have := (List.getElem?_eq_some_iff.1 hg).1
          have hl : statusNames.length = 6 := rfl
          omega
      · simp only [if_neg h0] at h
        by_cases h6 : -6 ≤ i
        · omega
        · rw [if_neg h6] at h
          cases h
    · rintro ⟨j, hj, h1, h2⟩
      cases hj
      have key : ∀ k : Nat, k < 6 → ∃ y, statusNames[k]? = some y := fun k hk => ⟨_, List.getElem?_eq_getElem hk⟩
      by_cases h0 : 0 ≤ i
      · obtain ⟨y, hy⟩ := key i.toNat (by omega)
        simp only [if_pos h0, hy]
        exact ⟨_, rfl⟩
      · obtain ⟨y, hy⟩ := key (i + 6).toNat (by omega)
        simp only [if_neg h0, if_pos h1, hy]
        exact ⟨_, rfl⟩

/-- What is known of a project that was read: everything listed is there. -/
structure AllListed (n : Novel) : Prop where
  chapters : ∀ id ∈ n.srtChapters, ∃ ch, n.chapters.get? id = some ch
  scenes : ∀ id ∈ narrative n, ∃ s, n.scenes.get? id = some s ∧
    (∀ l, s.locations = some l → ∀ x ∈ l, x ∈ n.locations.keys) ∧ (∀ l, s.items = some l → ∀ x ∈ l, x ∈ n.items.keys)

theorem Base.scene_iff (b : Base) {n : Novel} (hn : AllListed n) {id : Str} (hid : id ∈ narrative n) {s : Scene} (hs : n.scenes.get? id = some s) (k w l : Nat) :
    (∃ m, b.scene n id k w l = .ok m) ↔ NamedState s := by
  obtain ⟨s', hs', hl, hit⟩ := hn.scenes id hid
  rw [hs] at hs'
  cases hs'
  obtain ⟨r1, h1⟩ := sceneWorld_total hl
  obtain ⟨r2, h2⟩ := sceneWorld_total hit
  unfold Base.scene
  rw [Dict.get!_of hs]
  simp only [Bind.bind, Except.bind, h1, h2]
  unfold NamedState
  rw [← statusName_ok]
  cases h : statusName s.status with
  | error e => simp
  | ok v => simp

/-- The mappings of an exporter work, apart from the states of scenes. -/
structure StateMappings (x : Exporter) (n : Novel) : Prop where
  header : ∃ m, x.headerMapping n = .ok m
  chapter : ∀ id ∈ n.srtChapters, ∀ k, ∃ m, x.chapterMapping n id k = .ok m
  scene : ∀ id ∈ narrative n, ∀ s, n.scenes.get? id = some s → ∀ k w l, (∃ m, x.sceneMapping n id k w l = .ok m) ↔ NamedState s

theorem sceneTemplate_first (x : Templates) (ct : Option Nat) (ne first : Bool) (s : Scene) :
    (sceneTemplate x ct ne first s).isSome = (sceneTemplate x ct ne true s).isSome := by
  unfold sceneTemplate
  repeat' (first | rfl | split)
  all_goals simp_all

theorem scenesLoop_iff {x : Exporter} {n : Novel} (ct : Option Nat) (ne : Bool) (ids : List Str) (hs : ∀ id ∈ ids, ∃ s, n.scenes.get? id = some s)
    (hm : ∀ id ∈ ids, ∀ s, n.scenes.get? id = some s → ∀ k w l, (∃ m, x.sceneMapping n id k w l = .ok m) ↔ NamedState s) :
    ∀ first k, (∃ r, scenesLoop x n ct ne first k ids = .ok r) ↔
      ∀ id ∈ ids, ∀ s, n.scenes.get? id = some s → (sceneTemplate x.toTemplates ct ne true s).isSome = true → NamedState s := by
  induction ids with
  | nil => intro first k; exact ⟨fun _ _ h => (by cases h), fun _ => ⟨_, rfl⟩⟩
  | cons id r ih =>
    intro first k
    have ih' := ih (fun i hi => hs i (List.mem_cons_of_mem _ hi)) (fun i hi => hm i (List.mem_cons_of_mem _ hi))
    obtain ⟨s, hs'⟩ := hs id List.mem_cons_self
    unfold scenesLoop
    rw [Dict.get!_of hs']
    simp only [Bind.bind, Except.bind]
    have hsplit : (∀ i ∈ id :: r, ∀ s, n.scenes.get? i = some s → (sceneTemplate x.toTemplates ct ne true s).isSome = true → NamedState s) ↔
        ((sceneTemplate x.toTemplates ct ne true s).isSome = true → NamedState s) ∧
        ∀ i ∈ r, ∀ s, n.scenes.get? i = some s → (sceneTemplate x.toTemplates ct ne true s).isSome = true → NamedState s := by
      constructor
      · intro h
        exact ⟨h id List.mem_cons_self s hs', fun i hi => h i (List.mem_cons_of_mem _ hi)⟩
      · rintro ⟨h1, h2⟩ i hi s' hg
        rcases List.mem_cons.1 hi with rfl | hi
        · rw [hs'] at hg
          cases hg
          exact h1
        · exact h2 i hi s' hg
    rw [hsplit, ← sceneTemplate_first x.toTemplates ct ne first s]
    cases ht : sceneTemplate x.toTemplates ct ne first s with
    | none =>
      simp only
      rw [ih' first k]
      simp
    | some p =>
      obtain ⟨t, counted⟩ := p
      simp only [Option.isSome_some, forall_const]
      generalize hk' : (if counted = true then ({ number := k.number + 1, words := k.words + s.wordCount, letters := k.letters + s.letterCount } : Counters) else k) = k'
      rw [← hm id List.mem_cons_self s hs' (if counted = true then k'.number else 0) k'.words k'.letters, ← ih' false k']
      cases h1 : x.sceneMapping n id (if counted = true then k'.number else 0) k'.words k'.letters with
      | error e => simp
      | ok m =>
        simp only
        cases h2 : scenesLoop x n ct ne false k' r with
        | error e => simp
        | ok v => simp

theorem chaptersLoop_iff {x : Exporter} {n : Novel} (ids : List Str) (hch : ∀ id ∈ ids, ∃ ch, n.chapters.get? id = some ch ∧
      ∀ i ∈ ch.srtScenes, (∃ s, n.scenes.get? i = some s) ∧ ∀ s, n.scenes.get? i = some s → ∀ k w l, (∃ m, x.sceneMapping n i k w l = .ok m) ↔ NamedState s)
    (hm : ∀ id ∈ ids, ∀ k, ∃ m, x.chapterMapping n id k = .ok m) : ∀ c k, (∃ ls, chaptersLoop x n c k ids = .ok ls) ↔
      ∀ id ∈ ids, ∀ ch, n.chapters.get? id = some ch → ∀ ne, chapterNotExported n ch.srtScenes = .ok ne → ∀ i ∈ ch.srtScenes, ∀ s, n.scenes.get? i = some s →
        (sceneTemplate x.toTemplates ch.chType ne true s).isSome = true → NamedState s := by
  induction ids with
  | nil => intro c k; exact ⟨fun _ _ h => (by cases h), fun _ => ⟨_, rfl⟩⟩
  | cons id r ih =>
    intro c k
    have ih' := ih (fun i hi => hch i (List.mem_cons_of_mem _ hi)) (fun i hi => hm i (List.mem_cons_of_mem _ hi))
    obtain ⟨ch, hc, hs⟩ := hch id List.mem_cons_self
    unfold chaptersLoop
    rw [Dict.get!_of hc]
    obtain ⟨fl, hfl⟩ := flags_total (n := n) ch.srtScenes (fun i hi => (hs i hi).1)
    have hne : chapterNotExported n ch.srtScenes = .ok (fl ≠ [] && fl.all _root_.id) := by
      unfold chapterNotExported
      rw [hfl]
      rfl
    simp only [Bind.bind, Except.bind]
    rw [hne]
    simp only
    generalize (decide (fl ≠ []) && fl.all _root_.id) = ne at hne ⊢
    generalize chapterTemplate x.toTemplates ch ne = t
    have hd := hm id List.mem_cons_self
    obtain ⟨l1, h1⟩ := chapterLine_total (hd (if t.2 = true then (if t.2 = true then c + 1 else c) else 0)) t.1
    rw [h1]
    simp only
    have hsc := scenesLoop_iff (x := x) (n := n) ch.chType ne ch.srtScenes (fun i hi => (hs i hi).1) (fun i hi => (hs i hi).2) true k
    obtain ⟨l3, h3⟩ := chapterLine_total (hd (if t.2 = true then (if t.2 = true then c + 1 else c) else 0)) (chapterEndTemplate x.toTemplates ch ne)
    have hsplit : (∀ id' ∈ id :: r, ∀ ch, n.chapters.get? id' = some ch → ∀ ne, chapterNotExported n ch.srtScenes = .ok ne → ∀ i ∈ ch.srtScenes, ∀ s, n.scenes.get? i = some s →
        (sceneTemplate x.toTemplates ch.chType ne true s).isSome = true → NamedState s) ↔
        (∀ i ∈ ch.srtScenes, ∀ s, n.scenes.get? i = some s → (sceneTemplate x.toTemplates ch.chType ne true s).isSome = true → NamedState s) ∧
        (∀ id' ∈ r, ∀ ch, n.chapters.get? id' = some ch → ∀ ne, chapterNotExported n ch.srtScenes = .ok ne → ∀ i ∈ ch.srtScenes, ∀ s, n.scenes.get? i = some s →
        (sceneTemplate x.toTemplates ch.chType ne true s).isSome = true → NamedState s) := by
      constructor
      · intro h
        exact ⟨h id List.mem_cons_self ch hc ne hne, fun i hi => h i (List.mem_cons_of_mem _ hi)⟩
      · rintro ⟨g1, g2⟩ i hi ch' hg ne' hne'
        rcases List.mem_cons.1 hi with rfl | hi
        · rw [hc] at hg
          cases hg
          rw [hne] at hne'
          cases hne'
          exact g1
        · exact g2 i hi ch' hg ne' hne'
    rw [hsplit, ← hsc]
    cases h2 : scenesLoop x n ch.chType ne true k ch.srtScenes with
    | error e => simp
    | ok v =>
      obtain ⟨l2, k2⟩ := v
      simp only
      rw [h3]
      simp only
      rw [← ih' (if t.2 = true then c + 1 else c) k2]
      cases h4 : chaptersLoop x n (if t.2 = true then c + 1 else c) k2 r with
      | error e => simp
      | ok v => simp

end Verif
