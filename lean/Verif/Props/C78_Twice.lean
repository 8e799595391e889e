/-
C78: importing the same document a second time changes nothing more.
-/
import Verif.Lemmas.Twice6
import Verif.Lemmas.Splitter4
import Verif.Props.C33_Import
import Verif.Props.C34_Chunks

namespace Verif
open Spec Twice

/-- The IDs of the scenes and the chapters are distinct, as the keys of a dictionary are. -/
def Spec.DistinctIds (n : Novel) : Prop := n.scenes.keys.Nodup ∧ n.chapters.keys.Nodup

/-! ### Manuscripts and proof reading -/

/-- A manuscript that is read into the project that results from reading it. The list of languages is always built anew. -/
theorem C78_manuscript (type : Nat) (f : OdtFile) (n m : Novel) (hd : DistinctIds n) (h : readOdt (manuscriptReader type) f n = .ok m) :
    readOdt (manuscriptReader type) f { m with languages := n.languages } = .ok m :=
  readOdt_twice (manuscript_tracks type) (fun _ => nofun) hd.1 hd.2 h

/-- The same for a document for proof reading. -/
theorem C78_proof (f : OdtFile) (n m : Novel) (hd : DistinctIds n) (h : readOdt proofReader f n = .ok m) :
    readOdt proofReader f { m with languages := n.languages } = .ok m :=
  proof_twice hd.1 hd.2 h

theorem readOdt_inv' {blank : Option Str → Bool} {P : Rd → Prop} {h : Reader} (ht : Tracks blank P h) (hp : ∀ n, P { novel := n })
    {f : OdtFile} {n m : Novel} (he : readOdt h f n = .ok m) (hi : Twice.Inv n) : Twice.Inv m := by
  simp only [readOdt, Bind.bind, Except.bind] at he
  cases e : feedFile f with
  | error x => simp only [e] at he; exact nomatch he
  | ok cs =>
    simp only [e] at he
    cases e1 : h.run { novel := n } cs with
    | error x => simp only [e1] at he; exact nomatch he
    | ok r =>
      simp only [e1] at he
      cases he
      exact (run_grow ht (hp n) e1).inv hi

theorem sound_inv {n : Novel} (hs : Sound n) (hf : CountsFit n) : Twice.Inv n := by
  refine ⟨fun k s h t ht => hf k s t h ht, fun c hc => (Dict.has_iff _ _).2 (hs.chIn c hc), ?_⟩
  intro c hc ch h s hm
  refine (Dict.has_iff _ _).2 (hs.scIn s ?_)
  unfold narrative
  refine List.mem_flatMap.2 ⟨c, hc, ?_⟩
  simpa only [scenesOf, h] using hm

theorem inv_quiet {m : Novel} (hi : Twice.Inv m) (hq : ∀ id ∈ narrative m, hasHeading (Spec.textOf m.scenes id) = false) : splitScenes m = .ok (m, false) := by
  refine splitScenes_quiet (fun id sc t h ht => hi.fit id sc h t ht) (fun c hc => (Dict.has_iff _ _).1 (hi.listed c hc)) ?_ hq
  intro s hs
  unfold narrative at hs
  obtain ⟨c, hc, hm⟩ := List.mem_flatMap.1 hs
  unfold scenesOf at hm
  cases e : m.chapters.get? c with
  | none => simp only [e] at hm; exact nomatch hm
  | some ch =>
    simp only [e] at hm
    exact (Dict.has_iff _ _).1 (hi.inside c hc ch e s hm)

/-- The import of a manuscript or a document for proof reading, including the search for headings: if no text that has been read contains
a heading, the second import of the document gives the same project as the first one. -/
theorem C78_text_partial (h : Reader) (hh : (∃ type, h = manuscriptReader type) ∨ h = proofReader) (f : OdtFile) (n m : Novel) (hs : Sound n) (hf : CountsFit n)
    (he : readOdt h f { n with languages := some [] } = .ok m) (hq : ∀ id ∈ narrative m, hasHeading (Spec.textOf m.scenes id) = false) :
    readFormatted h f n = .ok (m, false) ∧ readFormatted h f m = .ok (m, false) := by
  have hi : Twice.Inv ({ n with languages := some [] } : Novel) := by
    have := sound_inv hs hf
    exact ⟨this.fit, this.listed, this.inside⟩
  have key : Twice.Inv m ∧ readOdt h f { m with languages := some [] } = .ok m := by
    rcases hh with ⟨type, rfl⟩ | rfl
    · exact ⟨readOdt_inv' (manuscript_tracks type) (fun _ => nofun) he hi, C78_manuscript type f { n with languages := some [] } m ⟨hs.scKeys, hs.chKeys⟩ he⟩
    · exact ⟨readOdt_inv' (proof_tracks n.scenes.keys) (fun _ => trivial)
        ((readProof_eq f { n with languages := some [] }).trans he) hi, C78_proof f { n with languages := some [] } m ⟨hs.scKeys, hs.chKeys⟩ he⟩
  have hsp := inv_quiet key.1 hq
  constructor
  · simp only [readFormatted, he, Bind.bind, Except.bind, hsp]
  · simp only [readFormatted, key.2, Bind.bind, Except.bind, hsp]

/-! ### Descriptions -/

theorem lang_run {h : Reader} (hh : ∀ r r' c, h r c = .ok r' → r'.novel.languages = r.novel.languages) {cs : List Call} {r r' : Rd}
    (he : h.run r cs = .ok r') : r'.novel.languages = r.novel.languages := by
  induction cs generalizing r with
  | nil => cases he; rfl
  | cons c cs ih =>
    simp only [Reader.run, Bind.bind, Except.bind] at he
    cases e : h r c with
    | error x => simp only [e] at he; exact nomatch he
    | ok r1 =>
      simp only [e] at he
      rw [ih he, hh _ _ _ e]

theorem lang_read {h : Reader} (hh : ∀ r r' c, h r c = .ok r' → r'.novel.languages = r.novel.languages) {f : OdtFile} {n m : Novel}
    (he : readOdt h f n = .ok m) : m.languages = n.languages := by
  simp only [readOdt, Bind.bind, Except.bind] at he
  cases e : feedFile f with
  | error x => simp only [e] at he; exact nomatch he
  | ok cs =>
    simp only [e] at he
    cases e1 : h.run { novel := n } cs with
    | error x => simp only [e1] at he; exact nomatch he
    | ok r =>
      simp only [e1] at he
      cases he
      exact lang_run hh e1

theorem onScene_lang {r r' : Rd} {id : Str} {f : Scene → Scene} (h : r.onScene id f = .ok r') : r'.novel.languages = r.novel.languages := by
  unfold Rd.onScene at h
  split at h
  · cases h; rfl
  · exact nomatch h

theorem onChapter_lang {r r' : Rd} {id : Str} {f : Chapter → Chapter} (h : r.onChapter id f = .ok r') : r'.novel.languages = r.novel.languages := by
  unfold Rd.onChapter at h
  split at h
  · cases h; rfl
  · exact nomatch h

theorem bind_ok' {α β : Type} {x : Except Exc α} {k : α → Except Exc β} {b : β} (h : (x >>= k) = .ok b) : ∃ a, x = .ok a ∧ k a = .ok b := by
  cases x with
  | error e => exact nomatch h
  | ok a => exact ⟨a, rfl, h⟩

theorem baseStart_lang {type : Nat} {r r' : Rd} {tag : Str} {as : List (Str × Option Str)} (h : Rd.baseStart type r tag as = .ok r') :
    r'.novel.languages = r.novel.languages := by
  unfold Rd.baseStart at h
  split at h
  · split at h
    · exact nomatch h
    · split at h
      · split at h
        · unfold Rd.startScene at h
          obtain ⟨id, _, h⟩ := bind_ok' h
          obtain ⟨r1, h1, h⟩ := bind_ok' h
          rw [onScene_lang h]
          unfold Rd.ensureScene at h1
          split at h1
          · cases h1; rfl
          · simp only [Rd.listScene] at h1
            split at h1
            · exact nomatch h1
            · have := onChapter_lang h1
              exact this
        · split at h
          · unfold Rd.startChapter at h
            obtain ⟨id, _, h⟩ := bind_ok' h
            rw [onChapter_lang h]
            unfold Rd.ensureChapter
            split <;> rfl
          · cases h; rfl
      · cases h; rfl
  · split at h <;> cases h <;> rfl

theorem baseComment_lang (r : Rd) (s : Str) : (r.baseComment s).novel.languages = r.novel.languages := by
  unfold Rd.baseComment
  split <;> rfl

theorem sceneDesc_lang (r r' : Rd) (c : Call) (h : sceneDescReader r c = .ok r') : r'.novel.languages = r.novel.languages := by
  cases c with
  | start t as => exact baseStart_lang h
  | stop t =>
    simp only [sceneDescReader, sdStop] at h
    split at h
    · split at h
      · obtain ⟨r1, h1, h⟩ := bind_ok' h
        cases h
        have := onScene_lang h1
        exact this
      · split at h <;> cases h <;> rfl
    · split at h <;> cases h <;> rfl
  | data s =>
    simp only [sceneDescReader, sdData] at h
    split at h
    · cases h; rfl
    · split at h
      · cases h; rfl
      · split at h
        · exact nomatch h
        · split at h
          · exact onChapter_lang h
          · cases h; rfl
  | comment s => cases h; exact baseComment_lang r s

theorem chapterDesc_lang (r r' : Rd) (c : Call) (h : chapterDescReader r c = .ok r') : r'.novel.languages = r.novel.languages := by
  cases c with
  | start t as => exact baseStart_lang h
  | stop t =>
    simp only [chapterDescReader, cdStop] at h
    split at h
    · cases h; rfl
    · split at h
      · obtain ⟨r1, h1, h⟩ := bind_ok' h
        cases h
        have := onChapter_lang h1
        exact this
      · split at h
        · cases h; rfl
        · split at h
          · obtain ⟨r1, h1, h⟩ := bind_ok' h
            cases h
            have := onChapter_lang h1
            exact this
          · cases h; rfl
  | data s =>
    simp only [chapterDescReader, Except.ok.injEq] at h
    subst h
    split <;> rfl
  | comment s => cases h; exact baseComment_lang r s

/-- Scene descriptions. -/
theorem C78_sceneDesc (f : OdtFile) (n m : Novel) (hd : DistinctIds n) (h : readOdt sceneDescReader f n = .ok m) :
    readOdt sceneDescReader f m = .ok m := by
  have := readOdt_twice sceneDesc_tracks (fun _ => trivial) hd.1 hd.2 h
  rwa [← lang_read sceneDesc_lang h] at this

/-- Chapter and part descriptions. -/
theorem C78_chapterDesc (f : OdtFile) (n m : Novel) (hd : DistinctIds n) (h : readOdt chapterDescReader f n = .ok m) :
    readOdt chapterDescReader f m = .ok m := by
  have := readOdt_twice chapterDesc_tracks (fun _ => trivial) hd.1 hd.2 h
  rwa [← lang_read chapterDesc_lang h] at this

/-- Characters. -/
theorem C78_characters (f : OdtFile) (n m : Novel) (hd : n.characters.keys.Nodup) (h : readOdt charactersReader f n = .ok m) :
    readOdt charactersReader f m = .ok m :=
  readElements_twice characterKind_laws character_start character_done characters_track hd h

/-- Locations. -/
theorem C78_locations (f : OdtFile) (n m : Novel) (hd : n.locations.keys.Nodup) (h : readOdt (worldReader locationKind) f n = .ok m) :
    readOdt (worldReader locationKind) f m = .ok m :=
  readElements_twice (w := kindOf locationKind) ⟨fun _ _ => rfl, fun _ _ _ => rfl, fun _ => rfl, fun _ _ => rfl⟩ element_start element_done
    (world_tracks _ ⟨fun _ _ => rfl, fun _ _ _ => rfl, fun _ => rfl, fun _ _ => rfl⟩) hd h

/-- Items. -/
theorem C78_items (f : OdtFile) (n m : Novel) (hd : n.items.keys.Nodup) (h : readOdt (worldReader itemKind) f n = .ok m) :
    readOdt (worldReader itemKind) f m = .ok m :=
  readElements_twice (w := kindOf itemKind) ⟨fun _ _ => rfl, fun _ _ _ => rfl, fun _ => rfl, fun _ _ => rfl⟩ element_start element_done
    (world_tracks _ ⟨fun _ _ => rfl, fun _ _ _ => rfl, fun _ => rfl, fun _ _ => rfl⟩) hd h

/-! ### Lists -/

/-- The list of characters. -/
theorem C78_charList (root : XNode) (n m : Novel) (hd : n.characters.keys.Nodup) (h : readCharList root n = .ok m) : readCharList root m = .ok m := by
  unfold readCharList at h
  obtain ⟨rows, h1, h⟩ := bind_ok' h
  obtain ⟨r, h2, h⟩ := bind_ok' h
  cases h
  simp only [readCharList, h1, Bind.bind, Except.bind, loop_twice char_idem hd h2]

/-- The list of locations. -/
theorem C78_locList (root : XNode) (n m : Novel) (hd : n.locations.keys.Nodup) (h : readLocList root n = .ok m) : readLocList root m = .ok m := by
  unfold readLocList at h
  obtain ⟨rows, h1, h⟩ := bind_ok' h
  obtain ⟨r, h2, h⟩ := bind_ok' h
  cases h
  simp only [readLocList, h1, Bind.bind, Except.bind, loop_twice world_idem hd h2]

/-- The list of items. -/
theorem C78_itemList (root : XNode) (n m : Novel) (hd : n.items.keys.Nodup) (h : readItemList root n = .ok m) : readItemList root m = .ok m := by
  unfold readItemList at h
  obtain ⟨rows, h1, h⟩ := bind_ok' h
  obtain ⟨r, h2, h⟩ := bind_ok' h
  cases h
  simp only [readItemList, h1, Bind.bind, Except.bind, loop_twice world_idem hd h2]

/-- The list of scenes. -/
theorem C78_sceneList (root : XNode) (n m : Novel) (hd : n.scenes.keys.Nodup) (h : readSceneList root n = .ok m) : readSceneList root m = .ok m := by
  unfold readSceneList at h
  obtain ⟨rows, h1, h⟩ := bind_ok' h
  obtain ⟨r, h2, h⟩ := bind_ok' h
  cases h
  simp only [readSceneList, h1, Bind.bind, Except.bind, loop_twice scene_idem hd h2]

/-! ### Examples -/

/-- A document with two sections for the same scene, and a section for a chapter without title. -/
def exTwice : OdtFile :=
  ⟨exStyles, none, exSection c!"ChID:7" [c!"Title", c!"More"] ++ exSection c!"ScID:1" [c!"first"] ++ exSection c!"ScID:1" [c!"second"]⟩

/-- The hypotheses hold: the first import changes the project, the second one does not. -/
theorem C78_demo : (readOdt (manuscriptReader 0) exTwice { exChunkNovel with languages := some [] }).toOption.map (fun n =>
      (n.srtChapters, Spec.textOf n.scenes c!"1", (n.chapters.get? c!"7").map (fun c => c.title))) =
    some ([c!"1", c!"7"], c!"second", some (some c!"Title")) ∧
    Sound exChunkNovel ∧ CountsFit exChunkNovel ∧
    (∀ m, readOdt (manuscriptReader 0) exTwice { exChunkNovel with languages := some [] } = .ok m →
      readFormatted (manuscriptReader 0) exTwice exChunkNovel = .ok (m, false) ∧ readFormatted (manuscriptReader 0) exTwice m = .ok (m, false)) := by
  have hs : Sound exChunkNovel := by constructor <;> decide
  have hf : CountsFit exChunkNovel := by
    intro id sc t h ht
    simp only [exChunkNovel, Dict.get?] at h
    split at h
    · cases h; exact nomatch ht
    · exact nomatch h
  refine ⟨by decide, hs, hf, fun m hm => C78_text_partial _ (.inl ⟨0, rfl⟩) _ _ _ hs hf hm ?_⟩
  have : (readOdt (manuscriptReader 0) exTwice { exChunkNovel with languages := some [] }).toOption.map (fun n =>
      decide (∀ id ∈ narrative n, hasHeading (Spec.textOf n.scenes id) = false)) = some true := by decide
  rw [hm] at this
  simp only [Except.toOption, Option.map_some, Option.some.injEq, decide_eq_true_eq] at this
  exact this

/-- A paragraph. -/
def exPar (t : Str) : List Ev := [.start c!"text:p" [(c!"text:style-name", c!"Text_20_body")], .chars t, .stop c!"text:p"]

/-- A manuscript in which a new scene begins within a scene. -/
def exNewScene : OdtFile :=
  ⟨exStyles, none, .start c!"text:section" [(c!"text:name", c!"ScID:1")] :: (exPar c!"one" ++ exPar c!"### Two" ++ exPar c!"two") ++ [.stop c!"text:section"]⟩

/-- The texts of the scenes in their order, after the import of the document as often as given. -/
def exTexts (f : OdtFile) : Nat → Novel → Except Exc (List Str)
  | 0, n => .ok ((narrative n).map (Spec.textOf n.scenes))
  | k + 1, n => do
    let r ← readFormatted (manuscriptReader 0) f n
    exTexts f k r.1

/-- The project with a status for its scene. -/
def exTwiceNovel : Novel := { exChunkNovel with scenes := [(c!"1", { title := some c!"S", status := some 1 })] }

/-- Without the condition the claim is false: each import of a manuscript with a heading in a scene adds the new scene again. -/
theorem C78_false : (exTexts exNewScene 1 exTwiceNovel).toOption = some [c!"one", c!"two"] ∧
    (exTexts exNewScene 2 exTwiceNovel).toOption = some [c!"one", c!"two", c!"two"] ∧
    (exTexts exNewScene 3 exTwiceNovel).toOption = some [c!"one", c!"two", c!"two", c!"two"] := by
  decide +kernel

/-- A list of locations with three rows for the same location: the last one has empty cells, which clear what the second one has set. -/
def exRows : XNode := exTable [worldTitles,
  [c!"LcID:1", c!"Here", c!"a place", c!"", c!"x, y"], [c!"LcID:1", c!"There", c!"", c!"T", c!""], [c!"LcID:1", c!"", c!"", c!"", c!""]]

/-- The hypotheses hold for a list, and the first import changes the project. -/
theorem C78_list_demo : (readLocList exRows {}).toOption.map (fun n => n.locations) =
      some [(c!"1", { title := some [], desc := some [], aka := some [], tags := some [] })] ∧
    (∀ m, readLocList exRows {} = .ok m → readLocList exRows m = .ok m) :=
  ⟨by decide +kernel, fun m hm => C78_locList exRows {} m List.nodup_nil hm⟩

/-- Texts, characters and descriptions: first imports that change the project. -/
theorem C78_more_demo :
    (readOdt sceneDescReader ⟨exStyles, none, exSection c!"ScID:1" [c!"what happens"]⟩ exChunkNovel).toOption.map
      (fun n => (n.scenes.get? c!"1").map (fun s => s.desc)) = some (some (some c!"what happens")) ∧
    (readOdt chapterDescReader ⟨exStyles, none, exSection c!"ChID:1" [c!"what happens"]⟩ exChunkNovel).toOption.map
      (fun n => (n.chapters.get? c!"1").map (fun s => s.desc)) = some (some (some c!"what happens")) ∧
    (readOdt charactersReader ⟨exStyles, none, exSection c!"CrID_desc:1" [] ++ exSection c!"CrID_bio:1" [c!"born"]⟩ exChunkNovel).toOption.map
      (fun n => (n.srtCharacters, (n.characters.get? c!"1").map (fun s => s.bio))) = some ([c!"1"], some (some c!"born")) ∧
    DistinctIds exChunkNovel := by
  refine ⟨by decide +kernel, by decide +kernel, by decide +kernel, by decide, by decide⟩

end Verif
