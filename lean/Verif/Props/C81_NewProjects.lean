/-
C81: Every document, whatever is in it, makes a project that is in order and can be saved: a work in progress that is imported, and an outline.
-/
import Verif.Props.C44_Import
import Verif.Props.C80_InOrder

namespace Verif
open Verif.Order Verif.Rd

/-! ### Specification -/

/-- The making of a new project: from a work in progress, whose scenes are split afterwards, or from an outline. -/
inductive Spec.Beginning
  | work (f : OdtFile) | outline (f : OdtFile)

def Spec.Beginning.make : Spec.Beginning → Novel → Except Exc Novel
  | .work f, n => (readFormatted importReader f n).map Prod.fst
  | .outline f, n => readOdt outlineReader f n

/-- A novel in which nothing is listed yet. -/
structure Spec.NothingYet (n : Novel) : Prop where
  empty : Empty n
  characters : n.srtCharacters = []
  locations : n.srtLocations = []
  items : n.srtItems = []
  notes : n.srtPrjNotes = []
  languages : ∀ l, n.languages = some l → l.Nodup

open Spec

namespace Kept

/-- The date and the time of a scene. -/
def startOf (s : Scene) : Option Str × Option Str × Option Str := (s.date, s.time, s.day)

/-- No scene has a date or a time, no language is listed twice, and the world is as it was. -/
structure Plain (n0 n : Novel) : Prop where
  scenes : ∀ k s, n.scenes.get? k = some s → startOf s = (none, none, none)
  langs : ∀ l, n.languages = some l → l.Nodup
  world : n.srtCharacters = n0.srtCharacters ∧ n.srtLocations = n0.srtLocations ∧ n.srtItems = n0.srtItems ∧ n.srtPrjNotes = n0.srtPrjNotes

variable {n0 : Novel}

theorem Plain.move {n m : Novel} (h : Plain n0 n) (hs : ∀ k s, m.scenes.get? k = some s → startOf s = (none, none, none)) (hl : m.languages = n.languages)
    (hw : m.srtCharacters = n.srtCharacters ∧ m.srtLocations = n.srtLocations ∧ m.srtItems = n.srtItems ∧ m.srtPrjNotes = n.srtPrjNotes) : Plain n0 m where
  scenes := hs
  langs := by rw [hl]; exact h.langs
  world := by
    obtain ⟨h1, h2, h3, h4⟩ := hw
    rw [h1, h2, h3, h4]
    exact h.world

theorem Plain.scene {n : Novel} (h : Plain n0 n) (id : Str) {f : Scene → Scene} (hf : ∀ s, startOf (f s) = startOf s) :
    Plain n0 { n with scenes := n.scenes.modify id f } := by
  refine h.move ?_ rfl ⟨rfl, rfl, rfl, rfl⟩
  intro k s e
  have e : (n.scenes.modify id f).get? k = some s := e
  rw [Dict.get?_modify] at e
  split at e
  · obtain ⟨s0, h0, rfl⟩ := Option.map_eq_some_iff.1 e
    rw [hf]; exact h.scenes k s0 h0
  · exact h.scenes k s e

theorem Plain.new {n : Novel} (h : Plain n0 n) (id : Str) {s0 : Scene} (hs : startOf s0 = (none, none, none)) : Plain n0 { n with scenes := n.scenes.set id s0 } := by
  refine h.move ?_ rfl ⟨rfl, rfl, rfl, rfl⟩
  intro k s e
  have e : (n.scenes.set id s0).get? k = some s := e
  rw [Dict.get?_set] at e
  split at e
  · cases e; exact hs
  · exact h.scenes k s e

/-- Whatever a step ends with is plain. -/
def KeepsP (n0 : Novel) (f : Except Exc Rd) : Prop := ∀ r, f = .ok r → Plain n0 r.novel

theorem KeepsP.ok {r : Rd} (h : Plain n0 r.novel) : KeepsP n0 (.ok r) := by intro r' e; cases e; exact h
theorem KeepsP.error (e : Exc) : KeepsP n0 (.error e) := fun _ h => nomatch h

theorem KeepsP.bind {f : Except Exc Rd} {k : Rd → Except Exc Rd} (h : KeepsP n0 f) (hk : ∀ r, Plain n0 r.novel → KeepsP n0 (k r)) : KeepsP n0 (f >>= k) := by
  cases f with
  | error e => exact KeepsP.error e
  | ok r => exact hk r (h r rfl)

theorem KeepsP.ite {c : Prop} [Decidable c] {a b : Except Exc Rd} (h : KeepsP n0 a) (h' : KeepsP n0 b) : KeepsP n0 (if c then a else b) := by
  split
  · exact h
  · exact h'

theorem onScene_plain {r : Rd} (h : Plain n0 r.novel) (id : Str) {f : Scene → Scene} (hf : ∀ s, startOf (f s) = startOf s) : KeepsP n0 (r.onScene id f) := by
  unfold Rd.onScene
  exact KeepsP.ite (KeepsP.ok (h.scene id hf)) (KeepsP.error _)

theorem onChapter_plain {r : Rd} (h : Plain n0 r.novel) (id : Str) (f : Chapter → Chapter) : KeepsP n0 (r.onChapter id f) := by
  unfold Rd.onChapter
  exact KeepsP.ite (KeepsP.ok (h.move h.scenes rfl ⟨rfl, rfl, rfl, rfl⟩)) (KeepsP.error _)

theorem startLanguage_plain {r : Rd} (h : Plain n0 r.novel) (as : List (Str × Option Str)) : Plain n0 (r.startLanguage as).novel := by
  unfold Rd.startLanguage
  rcases as with _ | ⟨⟨k, _ | l⟩, as⟩
  · exact h
  · exact h
  · dsimp only
    split
    · refine ⟨h.scenes, ?_, h.world⟩
      intro x hx
      have hx : some (if l ∈ r.novel.languages.getD [] then r.novel.languages.getD [] else r.novel.languages.getD [] ++ [l]) = some x := hx
      have hn : (r.novel.languages.getD []).Nodup := by
        cases hl : r.novel.languages with
        | none => exact List.nodup_nil
        | some y => exact h.langs y hl
      cases hx
      split
      · exact hn
      · rename_i hm
        rw [List.nodup_append]
        refine ⟨hn, by simp, ?_⟩
        intro a ha b hb
        rw [List.mem_singleton] at hb
        exact fun e => hm (hb ▸ e ▸ ha)
    · exact h

theorem stopLanguage_novel (r : Rd) : r.stopLanguage.novel = r.novel := by
  unfold Rd.stopLanguage
  split <;> rfl

theorem startBody_plain : ∀ (as : List (Str × Option Str)) {r : Rd}, Plain n0 r.novel → Plain n0 (r.startBody as).novel
  | [], _, h => h
  | (k, v) :: as, r, h => by
    rw [Rd.startBody.eq_def]
    dsimp only
    refine startBody_plain as ?_
    rcases v with _ | _ | ⟨c, v⟩
    · exact h
    · exact h
    · dsimp only
      split
      · exact h.move h.scenes rfl ⟨rfl, rfl, rfl, rfl⟩
      · split
        · exact h.move h.scenes rfl ⟨rfl, rfl, rfl, rfl⟩
        · exact h

theorem addChapter_plain {r : Rd} (h : Plain n0 r.novel) (lv : Nat) : Plain n0 (addChapter r lv).novel :=
  h.move h.scenes rfl ⟨rfl, rfl, rfl, rfl⟩

theorem startMeta_plain {r : Rd} (h : Plain n0 r.novel) (as : List (Str × Option Str)) : Plain n0 (startMeta r as).novel := by
  unfold startMeta
  split
  · split
    · exact h.move h.scenes rfl ⟨rfl, rfl, rfl, rfl⟩
    · split
      · exact h.move h.scenes rfl ⟨rfl, rfl, rfl, rfl⟩
      · exact h
  · exact h

theorem imStart_plain {r : Rd} (h : Plain n0 r.novel) (tag : Str) (as : List (Str × Option Str)) : KeepsP n0 (imStart r tag as) := by
  unfold imStart
  refine KeepsP.ite ?_ (KeepsP.ite (KeepsP.ok h) (KeepsP.ite (KeepsP.ok h) (KeepsP.ite (KeepsP.ok (startLanguage_plain h as)) (KeepsP.ite (KeepsP.ok (addChapter_plain h 1))
    (KeepsP.ite (KeepsP.ok (addChapter_plain h 0)) (KeepsP.ite (KeepsP.ok h) (KeepsP.ite (KeepsP.ok (startMeta_plain h as)) (KeepsP.ite (KeepsP.ok h)
    (KeepsP.ite (KeepsP.ok (startBody_plain as h)) (KeepsP.ite (KeepsP.ok h) (KeepsP.ite (KeepsP.ok (startLanguage_plain (r := r.push _) h as))
    (KeepsP.ite (KeepsP.ok h) (KeepsP.ok h)))))))))))))
  unfold imParagraph
  split
  · refine KeepsP.bind ?_ (fun r h => KeepsP.ok (startLanguage_plain h as))
    unfold imNewScene
    exact onChapter_plain (h.new _ rfl) _ _
  · exact KeepsP.ok (startLanguage_plain h as)

theorem imStop_plain {r : Rd} (h : Plain n0 r.novel) (tag : Str) : KeepsP n0 (imStop r tag) := by
  unfold imStop
  refine KeepsP.ite ?_ (KeepsP.ite (KeepsP.ok h) (KeepsP.ite (KeepsP.ok h) (KeepsP.ite (KeepsP.ok ?_) (KeepsP.ite ?_ (KeepsP.ite (KeepsP.ok ?_) (KeepsP.ok h))))))
  · dsimp only
    have h1 : Plain n0 (r.stopLanguage.push c!"\n").novel := by
      show Plain n0 r.stopLanguage.novel
      rw [stopLanguage_novel]; exact h
    split
    · exact KeepsP.ok h1
    · exact onScene_plain h1 _ (fun s => rfl)
  · rw [stopLanguage_novel]; exact h
  · split
    · exact KeepsP.error _
    · exact KeepsP.bind (onChapter_plain h _ _) (fun r h => KeepsP.ok h)
  · exact h.move h.scenes rfl ⟨rfl, rfl, rfl, rfl⟩

theorem import_plain (r : Rd) (c : Call) (r' : Rd) (h : Plain n0 r.novel) (e : importReader r c = .ok r') : Plain n0 r'.novel := by
  have : KeepsP n0 (importReader r c) := by
    cases c with
    | start t as => exact imStart_plain h t as
    | stop t => exact imStop_plain h t
    | data s =>
      refine KeepsP.ok ?_
      unfold imData
      split <;> exact h
    | comment s =>
      refine KeepsP.ok ?_
      unfold imComment
      split
      · exact h
      · split
        · exact h.scene _ (fun s => rfl)
        · exact h
  exact this r' e

theorem olStart_plain {r : Rd} (h : Plain n0 r.novel) (tag : Str) (as : List (Str × Option Str)) : KeepsP n0 (olStart r tag as) := by
  unfold olStart
  refine KeepsP.ite (KeepsP.ok (addChapter_plain h 1)) (KeepsP.ite (KeepsP.ok (addChapter_plain h 0)) (KeepsP.ite ?_ (KeepsP.ite (KeepsP.ok h)
    (KeepsP.ite (KeepsP.ok (startMeta_plain h as)) (KeepsP.ite (KeepsP.ok h) (KeepsP.ite (KeepsP.ok (startBody_plain as h)) (KeepsP.ite (KeepsP.ok h) (KeepsP.ok h))))))))
  unfold olNewScene
  dsimp only
  unfold Rd.listScene
  dsimp only
  split
  · exact KeepsP.error _
  · exact onChapter_plain (h.new _ rfl) _ _

theorem olStop_plain {r : Rd} (h : Plain n0 r.novel) (tag : Str) : KeepsP n0 (olStop r tag) := by
  unfold olStop
  refine KeepsP.ite ?_ (KeepsP.ite ?_ (KeepsP.ite ?_ (KeepsP.ite (KeepsP.ok ?_) (KeepsP.ok h))))
  · dsimp only
    split
    · exact onScene_plain (r := { r with lines := [Str.strip r.text ++ c!"\n"] }) h _ (fun s => rfl)
    · exact onChapter_plain (r := { r with lines := [Str.strip r.text ++ c!"\n"] }) h _ _
    · exact KeepsP.ok h
  · split
    · exact KeepsP.error _
    · exact KeepsP.bind (onChapter_plain h _ _) (fun r h => KeepsP.ok h)
  · split
    · exact KeepsP.error _
    · exact KeepsP.bind (onScene_plain h _ (fun s => rfl)) (fun r h => KeepsP.ok h)
  · exact h.move h.scenes rfl ⟨rfl, rfl, rfl, rfl⟩

theorem outline_plain (r : Rd) (c : Call) (r' : Rd) (h : Plain n0 r.novel) (e : outlineReader r c = .ok r') : Plain n0 r'.novel := by
  have : KeepsP n0 (outlineReader r c) := by
    cases c with
    | start t as => exact olStart_plain h t as
    | stop t => exact olStop_plain h t
    | data s => exact KeepsP.ok h
    | comment s =>
      refine KeepsP.ok ?_
      rw [comment_novel]; exact h
  exact this r' e

theorem numbered_K [S : Starts] {n : Novel} {k j : Nat} (h : Numbered n k j) (hp : Plain n0 n) : K n where
  sound := h.sound
  sc := by
    intro id s e
    obtain ⟨e1, e2, e3⟩ : s.date = none ∧ s.time = none ∧ s.day = none := by
      have := hp.scenes id s e
      exact ⟨congrArg (·.1) this, congrArg (·.2.1) this, congrArg (·.2.2) this⟩
    have h1 := (h.sceneTypes (id, s) (mem_of_get? e)).1
    have h1 : s.scType = some 0 := h1
    exact ⟨by rw [h1]; decide, by rw [e1, e2, e3]; exact Starts.none, fun t ht => h.counts id s t e ht⟩
  ch := by
    intro id c e
    have h1 : c.chType = some 0 := (h.chapterTypes (id, c) (mem_of_get? e)).1
    rw [h1]; decide
  langs := hp.langs

theorem blank_plain {n : Novel} (h : NothingYet n) : Plain n n where
  scenes := by
    intro k s e
    rw [h.empty.scenes] at e
    exact nomatch e
  langs := h.languages
  world := ⟨rfl, rfl, rfl, rfl⟩

theorem blank_world {n m : Novel} (h : NothingYet n)
    (hw : m.srtCharacters = n.srtCharacters ∧ m.srtLocations = n.srtLocations ∧ m.srtItems = n.srtItems ∧ m.srtPrjNotes = n.srtPrjNotes) : W m := by
  obtain ⟨h1, h2, h3, h4⟩ := hw
  rw [h.characters] at h1
  rw [h.locations] at h2
  rw [h.items] at h3
  rw [h.notes] at h4
  exact ⟨by rw [h1]; exact fun _ h => absurd h List.not_mem_nil, by rw [h2]; exact fun _ h => absurd h List.not_mem_nil,
    by rw [h3]; exact fun _ h => absurd h List.not_mem_nil, by rw [h4]; exact fun _ h => absurd h List.not_mem_nil⟩

end Kept

open Kept

/-! ### Theorems -/

/-- Every document that can be read at all makes a project in order. -/
theorem C81_made (d : Beginning) (n m : Novel) (hn : NothingYet n) (h : d.make n = .ok m) : Ordered m := by
  cases d with
  | outline f =>
    have h : readOdt outlineReader f n = .ok m := h
    obtain ⟨_, _, hN⟩ := C44_outline_structure_partial hn.empty h
    have hp := read_inv (P := Plain n) outline_plain (blank_plain hn) h
    exact K_order (numbered_K hN hp) (blank_world hn hp.world)
  | work f =>
    have h : (readFormatted importReader f n).map Prod.fst = .ok m := h
    unfold readFormatted at h
    cases hr : readOdt importReader f { n with languages := some [] } with
    | error x => rw [hr] at h; exact nomatch h
    | ok m1 =>
      rw [hr] at h
      have h : (splitScenes m1).map Prod.fst = .ok m := h
      have hb : NothingYet { n with languages := some [] } :=
        ⟨⟨hn.empty.chapters, hn.empty.scenes, hn.empty.srtChapters⟩, hn.characters, hn.locations, hn.items, hn.notes,
          fun l e => Option.some.inj e ▸ List.nodup_nil⟩
      obtain ⟨_, _, j, hN⟩ := C44_import_structure_partial hb.empty hr
      have hp := read_inv (P := Plain { n with languages := some [] }) import_plain (blank_plain hb) hr
      cases hs : splitScenes m1 with
      | error x => rw [hs] at h; exact nomatch h
      | ok p =>
        rw [hs] at h
        cases h
        refine K_order (split_keeps (numbered_K hN hp) (b := p.2) hs) ?_
        have e := split_stays m1 m1
        have e : splitScenes m1 = (splitScenes m1).map (fun p => (texts m1 p.1, p.2)) := e
        rw [hs] at e
        have e : p = (texts m1 p.1, p.2) := Except.ok.inj e
        have e : p.1 = texts m1 p.1 := congrArg Prod.fst e
        exact blank_world hb (e ▸ hp.world)

/-- The new project can be saved as a new project file. -/
theorem C81_saved (sl sc : Str) (d : Beginning) (n m : Novel) (hn : NothingYet n) (h : d.make n = .ok m) : ∃ out, writeTree sl sc m none = .ok out := by
  have hm := C81_made d n m hn h
  exact C51_writable sl sc m none hm.savable (Ordered_languages hm) savableTree_newRoot

/-- Documents can be imported into the new project one after the other, and it can still be saved. -/
theorem C81_continued (sl sc : Str) (d : Beginning) (ds : List Import) (hd : ∀ d ∈ ds, d.Typed) (n m k : Novel) (hn : NothingYet n)
    (h : d.make n = .ok m) (hl : loadAll ds m = .ok k) : Ordered k ∧ ∃ out, writeTree sl sc k none = .ok out := by
  have hm := C81_made d n m hn h
  exact ⟨C80_sequence ds hd m k hm hl, C80_saved sl sc ds hd m k none hm hl savableTree_newRoot⟩

/-! ### A case -/

/-- The novel of a new project. -/
theorem nothing_new : NothingYet {} := ⟨⟨rfl, rfl, rfl⟩, rfl, rfl, rfl, rfl, fun _ h => nomatch h⟩

/-- A work in progress with a chapter and a scene that is split, and an outline; the documents are read, and the projects can be saved. -/
theorem C81_demo (sl sc : Str) :
    let work : Beginning := .work ⟨plainStyles, none, exHead ++ parEvents c!"Standard" c!"text\n### Two\nmore"⟩
    let outline : Beginning := .outline ⟨plainStyles, none, exHead ++ parEvents c!"Standard" c!"about"⟩
    ((work.make {}).toOption.map fun m => (m.srtChapters, m.scenes.keys)) = some ([c!"1"], [c!"1", c!"2"]) ∧
    ((outline.make {}).toOption.map fun m => (m.srtChapters, m.chapters.map (fun p => p.2.desc))) = some ([c!"1"], [some c!"about\n"]) ∧
    ∀ m, (work.make {} = .ok m ∨ outline.make {} = .ok m) → ∃ out, writeTree sl sc m none = .ok out := by
  refine ⟨?_, ?_, fun m h => ?_⟩
  · set_option maxRecDepth 1000000 in decide +kernel
  · set_option maxRecDepth 1000000 in decide +kernel
  · rcases h with h | h
    · exact C81_saved sl sc _ _ _ nothing_new h
    · exact C81_saved sl sc _ _ _ nothing_new h

end Verif
