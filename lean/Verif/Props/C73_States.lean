/-
C73: which projects can be exported: a document can be made of an opened project if and only if the scenes the program looks at have states with names.
-/
import Verif.Lemmas.States3
import Verif.Props.C72_Clean
import Verif.Props.C68_Links
import Verif.Props.C70_Samples

namespace Verif
open Spec Template Machine Path Prog

/-! ### The exporters -/

section
variable {n : Novel}

/-- An exporter whose mapping of scenes is that of the base class and something that cannot fail. -/
theorem mappings_of {x : Exporter} {b : Base} (hn : AllListed n) (h1 : ∃ m, x.headerMapping n = .ok m)
    (h2 : ∀ id ch k, n.chapters.get? id = some ch → ∃ m, x.chapterMapping n id k = .ok m)
    (h3 : ∀ id ∈ narrative n, ∀ s, n.scenes.get? id = some s → ∀ k w l, (∃ m, x.sceneMapping n id k w l = .ok m) ↔ ∃ m, b.scene n id k w l = .ok m) : StateMappings x n where
  header := h1
  chapter id hid k := by
    obtain ⟨ch, hc⟩ := hn.chapters id hid
    exact h2 id ch k hc
  scene id hid s hs k w l := by rw [h3 id hid s hs, b.scene_iff hn hid hs]

theorem bind_iff {α β : Type} {a : Except Exc α} {f : α → β} : (∃ m, (a >>= fun v => (.ok (f v) : Except Exc β)) = .ok m) ↔ ∃ m, a = .ok m := by
  cases a with
  | error e => simp [Bind.bind, Except.bind]
  | ok v => simp [Bind.bind, Except.bind]

theorem exporterOf_mappings (hn : AllListed n) (e : DocEnv) (b : Base) (t : Templates) : StateMappings (exporterOf e b t) n :=
  mappings_of (b := b) hn ⟨_, rfl⟩ (fun _ _ k hc => b.chapter_total hc k) (fun _ _ _ _ _ _ _ => bind_iff)

theorem withSummary_mappings (hn : AllListed n) (e : DocEnv) (b : Base) (t : Templates) : StateMappings (withSummary e b t) n :=
  mappings_of (b := b) hn ⟨_, rfl⟩ (fun _ _ k hc => chapterSuppressed_total b hc k) (fun _ _ _ _ _ _ _ => bind_iff.trans bind_iff)

theorem odsWriter_mappings (hn : AllListed n) (e : DocEnv) (t : Templates) : StateMappings (odsWriter e t) n :=
  mappings_of (b := e.odsBase) hn ⟨_, rfl⟩ (fun _ _ k hc => e.odsBase.chapter_total hc k) (fun _ _ _ _ _ _ _ => Iff.rfl)

/-- The scenes that are looked at for the documents without notes and to-do scenes. -/
def ExportedNamed (n : Novel) : Prop := ∀ p ∈ exported n n.srtChapters, NamedState p.2

theorem getChapters_plain {x : Exporter} (hn : AllListed n) (hi : Inherits n) (hx : StateMappings x n) (hu : x.unusedScene = []) (hne : x.notExportedScene = [])
    (h1 : x.notesScene = []) (h2 : x.todoScene = []) : (∃ ls, getChapters x n = .ok ls) ↔ ExportedNamed n := by
  rw [getChapters_iff hn hi hx hu hne]
  constructor
  · intro h p hp
    exact h p (Or.inl hp)
  · rintro h p (hp | ⟨hp, _⟩ | ⟨hp, _⟩)
    · exact h p hp
    · exact absurd h1 hp
    · exact absurd h2 hp

theorem plain_text {x : Exporter} {b : Base} (hn : AllListed n) (hi : Inherits n) (ha : AllThere n) (hx : StateMappings x n) (hu : x.unusedScene = []) (hne : x.notExportedScene = [])
    (h1 : x.notesScene = []) (h2 : x.todoScene = [])
    (k1 : x.characterMapping = b.character ∨ ∃ g : Character → Mapping → Mapping, x.characterMapping = fun n id => (b.character n id >>= fun m => (n.characters.get! id >>= fun c => .ok (g c m))))
    (k2 : x.locationMapping = b.location ∨ ∃ g : WorldElement → Mapping → Mapping, x.locationMapping = fun n id => (b.location n id >>= fun m => (n.locations.get! id >>= fun c => .ok (g c m))))
    (k3 : x.itemMapping = b.item ∨ ∃ g : WorldElement → Mapping → Mapping, x.itemMapping = fun n id => (b.item n id >>= fun m => (n.items.get! id >>= fun c => .ok (g c m))))
    (k4 : x.noteMapping = b.note) :
    (∃ t, getText x n = .ok t) ↔ ExportedNamed n := by
  rw [getText_iff hx, getChapters_plain hn hi hx hu hne h1 h2]
  · intro id hid
    obtain ⟨m, hm⟩ := character_total b (ha.characters id hid)
    rcases k1 with k | ⟨g, k⟩
    · rw [k]; exact ⟨m, hm⟩
    · rw [k]
      obtain ⟨c, hc⟩ := (Dict.mem_keys_iff _ _).1 (ha.characters id hid)
      dsimp only
      rw [hm, Dict.get!_of hc]
      exact ⟨_, rfl⟩
  · intro id hid
    obtain ⟨m, hm⟩ := location_total b (ha.locations id hid)
    rcases k2 with k | ⟨g, k⟩
    · rw [k]; exact ⟨m, hm⟩
    · rw [k]
      obtain ⟨c, hc⟩ := (Dict.mem_keys_iff _ _).1 (ha.locations id hid)
      dsimp only
      rw [hm, Dict.get!_of hc]
      exact ⟨_, rfl⟩
  · intro id hid
    obtain ⟨m, hm⟩ := item_total b (ha.items id hid)
    rcases k3 with k | ⟨g, k⟩
    · rw [k]; exact ⟨m, hm⟩
    · rw [k]
      obtain ⟨c, hc⟩ := (Dict.mem_keys_iff _ _).1 (ha.items id hid)
      dsimp only
      rw [hm, Dict.get!_of hc]
      exact ⟨_, rfl⟩
  · intro id hid
    rw [k4]
    exact note_total b (ha.notes id hid)

/-! ### A project that was read -/

theorem readTree_allListed {lib : PyLib} {root : Elem} (h0 : readTree lib root = .ok n) : AllListed n where
  chapters := (readTree_listed h0).1
  scenes id hid := by
    obtain ⟨s, hg⟩ := (readTree_listed h0).2 id hid
    have h := readTree_from h0
    exact ⟨s, hg, fun l hl x hx => h.there.locations x ((h.scenes id s hg).locations l hl x hx), fun l hl x hx => h.there.items x ((h.scenes id s hg).items l hl x hx)⟩

/-- Cross references can be generated for every project that can be opened. -/
theorem readTree_xrefReady {lib : PyLib} {root : Elem} (h0 : readTree lib root = .ok n) : XrefReady n := by
  have h := readTree_from h0
  have hl := readTree_listed h0
  have key : ∀ (f : Scene → Option (List Str)) (ids : List Str), (∀ id s, n.scenes.get? id = some s → ∀ l, f s = some l → ∀ x ∈ l, x ∈ ids) →
      ∀ s ∈ narrative n, ∀ k ∈ refsOf n f s, k ∈ ids := by
    intro f ids hf id hid k hk
    obtain ⟨s, hg⟩ := hl.2 id hid
    unfold refsOf at hk
    rw [hg] at hk
    simp only [Option.bind_some] at hk
    cases hv : f s with
    | none => rw [hv] at hk; cases hk
    | some l => rw [hv] at hk; exact hf id s hg l hv k hk
  exact ⟨h.there.characters, h.there.locations, h.there.items, fun c hc => (Dict.mem_keys_iff _ _).2 (hl.1 c hc), fun s hs => (Dict.mem_keys_iff _ _).2 (hl.2 s hs),
    key _ _ (fun id s hg => (h.scenes id s hg).characters), key _ _ (fun id s hg => (h.scenes id s hg).locations), key _ _ (fun id s hg => (h.scenes id s hg).items)⟩

theorem withLanguages_eq (n : Novel) : ∃ l, n.withLanguages = { n with languages := l } := by
  unfold Novel.withLanguages
  split
  · exact ⟨n.getLanguages.languages, rfl⟩
  · exact ⟨n.languages, rfl⟩

/-! ### The documents -/

theorem odtExport_mappings (hn : AllListed n) (e : DocEnv) : StateMappings (odtExport e) n :=
  mappings_of (b := e.exportBase) hn ⟨_, rfl⟩ (fun _ _ k hc => chapterSuppressed_total e.exportBase hc k) (fun _ _ _ _ _ _ _ => bind_iff)

theorem sceneList_mappings (hn : AllListed n) (e : DocEnv) : StateMappings (odsSceneList e) n := by
  refine mappings_of (b := e.odsBase) hn ⟨_, rfl⟩ (fun _ _ k hc => e.odsBase.chapter_total hc k) (fun id _ s hs k w l => ?_)
  show (∃ m, (e.odsBase.scene n id k w l >>= fun m => (n.scenes.get! id >>= fun s => (.ok (hideRating c!"Field4" s.field4 (hideRating c!"Field3" s.field3 (hideRating c!"Field2" s.field2
        (hideRating c!"Field1" s.field1 m)))) : Except Exc Mapping))) = .ok m) ↔ _
  rw [Dict.get!_of hs]
  exact bind_iff

theorem formatted_plain {x : Exporter} (hn : AllListed n) (hi : Inherits n) (hx : StateMappings x n) (hu : x.unusedScene = []) (hne : x.notExportedScene = [])
    (h1 : x.notesScene = []) (h2 : x.todoScene = []) : (∃ t, formattedText x n = .ok t) ↔ ExportedNamed n := by
  rw [formattedText_iff hx, getChapters_plain hn hi hx hu hne h1 h2]

theorem export_plain (hn : AllListed n) (hi : Inherits n) (e : DocEnv) : (∃ t, exportText e n = .ok t) ↔ ExportedNamed n := by
  have h := formatted_plain hn hi (odtExport_mappings hn e) rfl rfl rfl rfl
  rw [← h]
  exact bind_iff

theorem proof_plain (hn : AllListed n) (hi : Inherits n) (e : DocEnv) : (∃ t, proofText (odtProof e) n = .ok t) ↔ ExportedNamed n := by
  have hx : StateMappings (odtProof e) n := exporterOf_mappings hn e _ _
  rw [proofText_iff hx, getChapters_plain hn hi hx rfl rfl rfl rfl]

theorem notes_text (hn : AllListed n) (hi : Inherits n) (e : DocEnv) : (∃ t, formattedText (odtNotes e) n = .ok t) ↔
    ∀ p : Str × Scene, (p ∈ exported n n.srtChapters ∨ p ∈ asideOf 1 n n.srtChapters) → NamedState p.2 := by
  have hx : StateMappings (odtNotes e) n := withSummary_mappings hn e _ _
  rw [formattedText_iff hx, getChapters_iff hn hi hx rfl rfl]
  constructor
  · rintro h p (hp | hp)
    · exact h p (Or.inl hp)
    · exact h p (Or.inr (Or.inl ⟨(fun h => by cases h), hp⟩))
  · rintro h p (hp | ⟨_, hp⟩ | ⟨hp, _⟩)
    · exact h p (Or.inl hp)
    · exact h p (Or.inr hp)
    · exact absurd rfl hp

theorem todo_text (hn : AllListed n) (hi : Inherits n) (e : DocEnv) : (∃ t, formattedText (odtTodo e) n = .ok t) ↔
    ∀ p : Str × Scene, (p ∈ exported n n.srtChapters ∨ p ∈ asideOf 2 n n.srtChapters) → NamedState p.2 := by
  have hx : StateMappings (odtTodo e) n := withSummary_mappings hn e _ _
  rw [formattedText_iff hx, getChapters_iff hn hi hx rfl rfl]
  constructor
  · rintro h p (hp | hp)
    · exact h p (Or.inl hp)
    · exact h p (Or.inr (Or.inr ⟨(fun h => by cases h), hp⟩))
  · rintro h p (hp | ⟨hp, _⟩ | ⟨_, hp⟩)
    · exact h p (Or.inl hp)
    · exact absurd rfl hp
    · exact h p (Or.inr hp)

/-- `asideOf` and `exported` do not depend on the languages. -/
theorem exported_languages (n : Novel) (l : Option (List Str)) (ids : List Str) : exported { n with languages := l } ids = exported n ids := rfl

theorem AllListed.languages {n : Novel} (h : AllListed n) (l : Option (List Str)) : AllListed { n with languages := l } := ⟨h.chapters, h.scenes⟩

theorem Spec.Inherits.languages {n : Novel} (h : Inherits n) (l : Option (List Str)) : Inherits { n with languages := l } := h

/-- The documents other than the cross reference, the notes and the to-do list. -/
def plainSuffixes : List Str := [c!"", c!"_proof", c!"_manuscript", c!"_brf_synopsis", c!"_scenes", c!"_chapters", c!"_parts", c!"_characters", c!"_items", c!"_locations",
  c!"_charlist", c!"_loclist", c!"_itemlist", c!"_scenelist"]

theorem plain_content (w : Machine) (hn : AllListed n) (hi : Inherits n) (ha : AllThere n) {c : DocClass} (hc : c ∈ exportTargets) (hs : c.suffix.getD [] ∈ plainSuffixes) :
    (∃ t, w.content c n = .ok t) ↔ ExportedNamed n := by
  obtain ⟨l, hl⟩ := withLanguages_eq n
  have hn' := hn.languages l
  have hi' := Spec.Inherits.languages hi l
  have ex : ExportedNamed { n with languages := l } ↔ ExportedNamed n := Iff.rfl
  simp only [exportTargets, List.mem_cons, List.not_mem_nil, or_false] at hc
  rcases hc with h | h | h | h | h | h | h | h | h | h | h | h | h | h | h | h | h <;> subst h
  · show (∃ t, exportText _ n.withLanguages = .ok t) ↔ _
    rw [hl, export_plain hn' hi', ex]
  · show (∃ t, proofText (odtProof _) n.withLanguages = .ok t) ↔ _
    rw [hl, proof_plain hn' hi', ex]
  · show (∃ t, formattedText (odtManuscript _) n.withLanguages = .ok t) ↔ _
    have hx : StateMappings (odtManuscript (formattedEnv w.name w.path)) { n with languages := l } := withSummary_mappings hn' _ _ _
    rw [hl, formatted_plain hn' hi' hx rfl rfl rfl rfl, ex]
  · exact plain_text (b := (plainEnv w.name w.path).plainBase) hn hi ha (exporterOf_mappings hn _ _ _) rfl rfl rfl rfl (Or.inl rfl) (Or.inl rfl) (Or.inl rfl) rfl
  · exact plain_text (b := (plainEnv w.name w.path).plainBase) hn hi ha (exporterOf_mappings hn _ _ _) rfl rfl rfl rfl (Or.inl rfl) (Or.inl rfl) (Or.inl rfl) rfl
  · exact plain_text (b := (plainEnv w.name w.path).plainBase) hn hi ha (exporterOf_mappings hn _ _ _) rfl rfl rfl rfl (Or.inl rfl) (Or.inl rfl) (Or.inl rfl) rfl
  · exact plain_text (b := (plainEnv w.name w.path).plainBase) hn hi ha (exporterOf_mappings hn _ _ _) rfl rfl rfl rfl (Or.inl rfl) (Or.inl rfl) (Or.inl rfl) rfl
  · exact plain_text (x := odtCharacters _) (b := (plainEnv w.name w.path).plainBase) hn hi ha ⟨⟨_, rfl⟩, (exporterOf_mappings hn (plainEnv w.name w.path) _ {}).chapter, (exporterOf_mappings hn (plainEnv w.name w.path) _ {}).scene⟩ rfl rfl rfl rfl
      (Or.inr ⟨_, rfl⟩) (Or.inl rfl) (Or.inl rfl) rfl
  · exact plain_text (x := odtItems _) (b := (plainEnv w.name w.path).plainBase) hn hi ha ⟨⟨_, rfl⟩, (exporterOf_mappings hn (plainEnv w.name w.path) _ {}).chapter, (exporterOf_mappings hn (plainEnv w.name w.path) _ {}).scene⟩ rfl rfl rfl rfl
      (Or.inl rfl) (Or.inl rfl) (Or.inr ⟨_, rfl⟩) rfl
  · exact plain_text (x := odtLocations _) (b := (plainEnv w.name w.path).plainBase) hn hi ha ⟨⟨_, rfl⟩, (exporterOf_mappings hn (plainEnv w.name w.path) _ {}).chapter, (exporterOf_mappings hn (plainEnv w.name w.path) _ {}).scene⟩ rfl rfl rfl rfl
      (Or.inl rfl) (Or.inr ⟨_, rfl⟩) (Or.inl rfl) rfl
  · exact plain_text (x := odsCharList _) (b := (plainEnv w.name w.path).odsBase) hn hi ha (odsWriter_mappings hn _ _) rfl rfl rfl rfl (Or.inl rfl) (Or.inl rfl) (Or.inl rfl) rfl
  · exact plain_text (x := odsLocList _) (b := (plainEnv w.name w.path).odsBase) hn hi ha (odsWriter_mappings hn _ _) rfl rfl rfl rfl (Or.inl rfl) (Or.inl rfl) (Or.inl rfl) rfl
  · exact plain_text (x := odsItemList _) (b := (plainEnv w.name w.path).odsBase) hn hi ha (odsWriter_mappings hn _ _) rfl rfl rfl rfl (Or.inl rfl) (Or.inl rfl) (Or.inl rfl) rfl
  · exact plain_text (x := odsSceneList _) (b := (plainEnv w.name w.path).odsBase) hn hi ha (sceneList_mappings hn _) rfl rfl rfl rfl (Or.inl rfl) (Or.inl rfl) (Or.inl rfl) rfl
  · exact absurd hs (by decide)
  · exact absurd hs (by decide)
  · exact absurd hs (by decide)

theorem document_exact (w : Machine) (hn : AllListed n) (hi : Inherits n) (ha : AllThere n) (hr : XrefReady n) {c : DocClass} (hc : c ∈ exportTargets) :
    (∃ t, w.content c n = .ok t) ↔ ∀ p, Visited (c.suffix.getD []) n p → NamedState p.2 := by
  by_cases hs : c.suffix.getD [] ∈ plainSuffixes
  · rw [plain_content w hn hi ha hc hs]
    unfold Visited
    have h1 : c.suffix.getD [] ≠ c!"_xref" := fun h => absurd hs (by rw [h]; decide)
    have h2 : c.suffix.getD [] ≠ c!"_notes" := fun h => absurd hs (by rw [h]; decide)
    have h3 : c.suffix.getD [] ≠ c!"_todo" := fun h => absurd hs (by rw [h]; decide)
    simp only [if_neg h1, h2, h3, false_and, or_false]
    exact Iff.rfl
  · obtain ⟨l, hl⟩ := withLanguages_eq n
    have hc' : c = odt c!"_xref" ∨ c = odt c!"_notes" ∨ c = odt c!"_todo" := by
      simp only [exportTargets, List.mem_cons, List.not_mem_nil, or_false] at hc
      rcases hc with h | h | h | h | h | h | h | h | h | h | h | h | h | h | h | h | h <;> subst h <;> first | exact absurd (by decide) hs | simp
    rcases hc' with h | h | h <;> subst h
    · show (∃ t, xrefText _ n = .ok t) ↔ _
      rw [xrefText_iff _ hr hn]
      constructor
      · intro h p hp
        have hp' : p.1 ∈ narrative n ∧ n.scenes.get? p.1 = some p.2 ∧ CrossReferenced p.2 := hp
        exact h p.1 hp'.1 p.2 hp'.2.1 hp'.2.2
      · intro h id hid s hs hx
        exact h (id, s) (show _ ∧ _ ∧ _ from ⟨hid, hs, hx⟩)
    · show (∃ t, formattedText (odtNotes _) n.withLanguages = .ok t) ↔ _
      rw [hl, notes_text (hn.languages l) (Spec.Inherits.languages hi l)]
      constructor
      · intro h p hp
        have hp' : p ∈ exported n n.srtChapters ∨ (c!"_notes" = c!"_notes" ∧ p ∈ asideOf 1 n n.srtChapters) ∨ (c!"_notes" = c!"_todo" ∧ p ∈ asideOf 2 n n.srtChapters) := hp
        rcases hp' with hp' | ⟨_, hp'⟩ | ⟨e, _⟩
        · exact h p (Or.inl hp')
        · exact h p (Or.inr hp')
        · exact absurd e (by decide)
      · rintro h p (hp | hp)
        · exact h p (show _ ∨ _ from Or.inl hp)
        · exact h p (show _ ∨ _ from Or.inr (Or.inl ⟨rfl, hp⟩))
    · show (∃ t, formattedText (odtTodo _) n.withLanguages = .ok t) ↔ _
      rw [hl, todo_text (hn.languages l) (Spec.Inherits.languages hi l)]
      constructor
      · intro h p hp
        have hp' : p ∈ exported n n.srtChapters ∨ (c!"_todo" = c!"_notes" ∧ p ∈ asideOf 1 n n.srtChapters) ∨ (c!"_todo" = c!"_todo" ∧ p ∈ asideOf 2 n n.srtChapters) := hp
        rcases hp' with hp' | ⟨e, _⟩ | ⟨_, hp'⟩
        · exact h p (Or.inl hp')
        · exact absurd e (by decide)
        · exact h p (Or.inr hp')
      · rintro h p (hp | hp)
        · exact h p (show _ ∨ _ from Or.inl hp)
        · exact h p (show _ ∨ _ from Or.inr (Or.inr ⟨rfl, hp⟩))

end

/-! ### C73 -/

/-- What the converter does with a project and the suffix of a document. -/
theorem exported_run {ν : Type} (env : Env ν) {base : Str} (hn : HasName base) (hb : '\\' ∉ base) {c : DocClass} (hc : c ∈ exportTargets) {fs : FS} {s : Str}
    (hf : fs (base ++ c!".yw7") = some s) (fl : List Fault) : run env yw7Converter (base ++ c!".yw7") c.suffix fs fl =
      exportFromYw env ⟨yw7Class, some (base ++ c!".yw7")⟩ ⟨c, some (base ++ c.ending)⟩ fs fl := by
  unfold Verif.run
  rw [hf, if_pos Option.isSome_some]
  unfold plan
  rw [yw7_source hn hb]
  have e1 : exportTarget yw7Converter.targets (base ++ c!".yw7") c.suffix = some ⟨c, some (base ++ c.ending)⟩ := C68_written c hc base hn hb
  rw [e1]

/-- A document whose contents cannot be made is not written. -/
theorem writeDoc_fails {ν : Type} (env : Env ν) (d : Doc) (old : Option ν) (n : ν) (fs : FS) (hy : d.cls ≠ yw7Class) {f : OdfFiles} (hf : env.odfFiles d.cls n = .ok f) {e : Exc}
    (he : env.content d.cls n = .error e) : ∃ fs', writeDoc env d old n fs [] = (.err e, fs', []) := by
  unfold writeDoc
  rw [if_neg hy, hf, he]
  have h1 : Ok (fun _ => True) (odfSetUp env.dir (.ok f)) (fun _ _ => True) := by
    show Ok _ (do
      tryExcept (do
        tryExcept (rmtree env.dir) fun _ => Pure.pure ()
        other
        other) fun _ => raise (fileError c!"Cannot create directory" env.dir)
      writeAll env.dir f) _
    refine Ok.bind (Q := fun _ => Have (fun _ => False)) (Ok.tryExcept ?_) fun _ => ?_
    · refine Ok.bind (Q := fun _ => Have (fun _ => False)) (Ok.tryExcept (Ok.step fun fs _ => ⟨(), _, rfl, fun _ h => h.elim⟩)) fun _ => ?_
      exact Ok.bind (other_ok _) fun _ => other_ok _
    · exact Ok.mono (writeAll_ok env.dir f _) (fun _ h => h) (fun _ fs h => trivial)
  obtain ⟨_, fs', h2, _⟩ := h1 fs trivial
  refine ⟨fs', ?_⟩
  unfold odfWrite
  simp only [Bind.bind, Prog.bind, h2]
  rfl

/-- **C73**: of a project that can be opened, a document can be made if and only if all scenes the program looks at have states with names. Nothing else in a project file can make
the generation of a document fail. -/
theorem C73_exact (w : Machine) (s : Str) (x : Elem) (n : Novel) (h : loadFile w.lib s = some (x, n)) (c : DocClass) (hc : c ∈ exportTargets) :
    (∃ t, w.content c n = .ok t) ↔ ∀ p, Visited (c.suffix.getD []) n p → NamedState p.2 := by
  have hr := (loadFile_ok.1 h).2
  exact document_exact w (readTree_allListed hr) (readTree_inherits hr) (readTree_from hr).there (readTree_xrefReady hr) hc

/-- **C73, all documents**: if all scenes of the chapters have states with names, every document can be made. -/
theorem C73_all (w : Machine) (s : Str) (x : Elem) (n : Novel) (h : loadFile w.lib s = some (x, n))
    (hk : ∀ id ∈ narrative n, ∀ sc, n.scenes.get? id = some sc → NamedState sc) (c : DocClass) (hc : c ∈ exportTargets) : ∃ t, w.content c n = .ok t := by
  rw [C73_exact w s x n h c hc]
  intro p hp
  unfold Visited at hp
  split at hp
  · exact hk _ hp.1 _ hp.2.1
  · rcases hp with hp | ⟨_, hp⟩ | ⟨_, hp⟩
    · obtain ⟨h4, chId, ch, h1, h2, h3, _⟩ := ((C29_exported n).2 p.1 p.2).1 hp
      exact hk _ (mem_narrative h1 h2 h3) _ h4
    · obtain ⟨h4, _, chId, ch, h1, h2, h3⟩ := mem_asideOf.1 hp
      exact hk _ (mem_narrative h1 h2 h3) _ h4
    · obtain ⟨h4, _, chId, ch, h1, h2, h3⟩ := mem_asideOf.1 hp
      exact hk _ (mem_narrative h1 h2 h3) _ h4

/-- **C73, one for all**: a list of characters can be made if and only if the manuscript can be made, and the same holds for any two documents other than the cross reference, the
notes and the to-do list: an exported scene without a known state blocks even the documents in which no scenes occur. -/
theorem C73_same (w : Machine) (s : Str) (x : Elem) (n : Novel) (h : loadFile w.lib s = some (x, n)) (c d : DocClass) (hc : c ∈ exportTargets) (hd : d ∈ exportTargets)
    (hc' : c.suffix.getD [] ∉ [c!"_xref", c!"_notes", c!"_todo"]) (hd' : d.suffix.getD [] ∉ [c!"_xref", c!"_notes", c!"_todo"]) :
    (∃ t, w.content c n = .ok t) ↔ ∃ t, w.content d n = .ok t := by
  rw [C73_exact w s x n h c hc, C73_exact w s x n h d hd]
  have key : ∀ a : Str, a ∉ [c!"_xref", c!"_notes", c!"_todo"] → ∀ p, Visited a n p ↔ p ∈ exported n n.srtChapters := by
    intro a ha p
    simp only [List.mem_cons, List.not_mem_nil, or_false, not_or] at ha
    unfold Visited
    simp only [if_neg ha.1, ha.2.1, ha.2.2, false_and, or_false]
  simp only [key _ hc', key _ hd']

/-- **C73, the converter**: when a project is exported and nothing goes wrong outside the program, the converter reports the document as written if and only if all scenes it looks at
have states with names; otherwise it reports an error. -/
theorem C73_run (w : Machine) (base : Str) (hn : HasName base) (hb : '\\' ∉ base) (hd : ¬ InDir w.dir (base ++ c!".yw7")) (s : Str) (x : Elem) (n : Novel)
    (h : loadFile w.lib s = some (x, n)) (c : DocClass) (hc : c ∈ exportTargets) (fs : FS) (hf : fs (base ++ c!".yw7") = some s) (hl : fs (base ++ c!".yw7" ++ c!".lock") = none)
    (hk : fs (base ++ c.ending) = none ∨ w.confirm (base ++ c.ending) = true) :
    ∃ o, (run w.program yw7Converter (base ++ c!".yw7") c.suffix fs []).1 = .ok o ∧
      ((o.newFile = some (base ++ c.ending) ∧ ∀ p, Visited (c.suffix.getD []) n p → NamedState p.2) ∨
       (o.newFile = none ∧ (∃ m, o.how = c!"FAIL: " ++ m) ∧ ∃ p, Visited (c.suffix.getD []) n p ∧ ¬ NamedState p.2)) := by
  have hrun : run w.program yw7Converter (base ++ c!".yw7") c.suffix fs [] =
      exportFromYw w.program ⟨yw7Class, some (base ++ c!".yw7")⟩ ⟨c, some (base ++ c.ending)⟩ fs [] :=
    exported_run w.program hn hb hc hf []
  rw [hrun]
  have hne : c ≠ yw7Class := fun h => by rw [h] at hc; revert hc; decide +kernel
  have hp := targets_plain c hc
  have hnt : ∀ e, '/' ∉ e → ¬ InDir w.program.dir (base ++ e) := fun e he' => target_not_temp (e1 := c!".yw7") (by decide) he' hd
  by_cases hv : ∀ p, Visited (c.suffix.getD []) n p → NamedState p.2
  · have hw := (C73_exact w s x n h c hc).2 hv
    have e := C28_export_succeeds w.program ⟨yw7Class, some (base ++ c!".yw7")⟩ ⟨c, some (base ++ c.ending)⟩ (base ++ c!".yw7") (base ++ c.ending) ((some x, n), false) fs
      w.complete rfl rfl (fun _ => hnt _ hp.1) hk ⟨fun _ => hl, s, hf, w.parse_yw7 h _⟩ (Or.inr ⟨hne, ⟨_, rfl⟩, hw⟩)
    exact ⟨_, e, Or.inl ⟨rfl, hv⟩⟩
  · have hx : ¬ ∃ t, w.content c n = .ok t := fun hh => hv ((C73_exact w s x n h c hc).1 hh)
    obtain ⟨p, hp1⟩ := Classical.not_forall.1 hv
    have hp2 : Visited (c.suffix.getD []) n p ∧ ¬ NamedState p.2 := by
      refine ⟨Classical.byContradiction fun hh => hp1 fun h => absurd h hh, fun hh => hp1 fun _ => hh⟩
    cases hcc : w.content c n with
    | ok t => exact absurd ⟨t, hcc⟩ hx
    | error e =>
      have h1 := check_ok w.program ⟨yw7Class, some (base ++ c!".yw7")⟩ ⟨c, some (base ++ c.ending)⟩ _ _ s fs rfl rfl hf hk
      have h2 := readDoc_ok w.program ⟨yw7Class, some (base ++ c!".yw7")⟩ w.program.empty ((some x, n), false) fs ⟨fun _ => hl, s, hf, w.parse_yw7 h _⟩
      obtain ⟨fs', h3⟩ := writeDoc_fails w.program ⟨c, some (base ++ c.ending)⟩ none (some x, n) fs hne (f := w.otherFiles c n) rfl (e := e) hcc
      refine ⟨{ newFile := none, how := infoHow ('!' :: w.program.describe e) }, ?_, Or.inr ⟨rfl, ⟨_, rfl⟩, p, hp2⟩⟩
      unfold exportFromYw conclude Prog.tryExcept
      simp only [Bind.bind, Prog.bind, h1, h2, h3]
      rfl

/-! ### Examples -/

set_option maxRecDepth 100000 in
/-- The hypotheses are met, and both cases occur: a project with the state 2 (all documents can be made), and one with the state 7 (no document but the cross reference can be made,
not even a list of characters). -/
theorem C73_example (w : Machine) (hw : w.lib = exLib) :
    (∃ x n, loadFile w.lib (statusFile c!"2") = some (x, n) ∧ exported n n.srtChapters ≠ [] ∧ ∀ c ∈ exportTargets, ∃ t, w.content c n = .ok t) ∧
    ∃ x n, loadFile w.lib (statusFile c!"7") = some (x, n) ∧ ∀ c ∈ exportTargets, (∃ t, w.content c n = .ok t) ↔ c.suffix = some c!"_xref" := by
  have e2 : (loadFile exLib (statusFile c!"2")).map (fun p => (exported p.2 p.2.srtChapters).map (fun q => (q.1, q.2.status))) = some [(c!"1", some 2)] := by decide +kernel
  have e3 : (loadFile exLib (statusFile c!"2")).map (fun p => narrative p.2) = some [c!"1"] := by decide +kernel
  have e4 : (loadFile exLib (statusFile c!"2")).map (fun p => (p.2.scenes.get? c!"1").map (·.status)) = some (some (some 2)) := by decide +kernel
  have e7 : (loadFile exLib (statusFile c!"7")).map (fun p => (exported p.2 p.2.srtChapters).map (fun q => (q.1, q.2.status))) = some [(c!"1", some 7)] := by decide +kernel
  have e8 : (loadFile exLib (statusFile c!"7")).map (fun p => narrative p.2) = some [c!"1"] := by decide +kernel
  have e9 : (loadFile exLib (statusFile c!"7")).map (fun p => (p.2.scenes.get? c!"1").map (fun s => (s.characters.getD [] ++ s.locations.getD [] ++ s.items.getD [] ++ s.tags.getD []))) =
    some (some []) := by decide +kernel
  constructor
  · cases h : loadFile exLib (statusFile c!"2") with
    | none => rw [h] at e2; cases e2
    | some p =>
      obtain ⟨x, n⟩ := p
      rw [h] at e2 e3 e4
      simp only [Option.map_some, Option.some.injEq] at e2 e3 e4
      rw [← hw] at h
      refine ⟨x, n, h, (fun he => by rw [he] at e2; cases e2), C73_all w _ x n h ?_⟩
      intro id hid s hs
      rw [e3, List.mem_singleton] at hid
      subst hid
      rw [hs] at e4
      simp only [Option.map_some, Option.some.injEq] at e4
      exact ⟨2, e4, by decide, by decide⟩
  · cases h : loadFile exLib (statusFile c!"7") with
    | none => rw [h] at e7; cases e7
    | some p =>
      obtain ⟨x, n⟩ := p
      rw [h] at e7 e8 e9
      simp only [Option.map_some, Option.some.injEq] at e7 e8 e9
      rw [← hw] at h
      refine ⟨x, n, h, fun c hc => ?_⟩
      rw [C73_exact w _ x n h c hc]
      constructor
      · intro hv
        refine Decidable.byContradiction fun hne => ?_
        cases he : exported n n.srtChapters with
        | nil => rw [he] at e7; cases e7
        | cons q l =>
          rw [he] at e7
          have hs : q.2.status = some 7 := by
            have := congrArg List.head? e7
            simp only [List.map_cons, List.head?_cons, Option.some.injEq, Prod.mk.injEq] at this
            exact this.2
          have hx : c.suffix.getD [] ≠ c!"_xref" := by
            intro hh
            apply hne
            cases hcs : c.suffix with
            | none => rw [hcs] at hh; cases hh
            | some a => rw [hcs] at hh; exact congrArg some hh
          obtain ⟨i, h1, _, h2⟩ := hv q (by unfold Visited; rw [if_neg hx, he]; exact Or.inl (List.mem_cons_self ..))
          rw [hs] at h1
          cases h1
          exact absurd h2 (by decide)
      · intro hs p hp
        rw [hs] at hp
        have hp' : p.1 ∈ narrative n ∧ n.scenes.get? p.1 = some p.2 ∧ CrossReferenced p.2 := hp
        obtain ⟨h1, h2, h3⟩ := hp'
        rw [e8, List.mem_singleton] at h1
        rw [h1] at h2
        rw [h2] at e9
        simp only [Option.map_some, Option.some.injEq, List.append_eq_nil_iff] at e9
        obtain ⟨⟨⟨g1, g2⟩, g3⟩, g4⟩ := e9
        rcases h3 with h3 | h3 | h3 | h3
        · exact absurd g1 h3
        · exact absurd g2 h3
        · exact absurd g3 h3
        · exact absurd g4 h3

end Verif
