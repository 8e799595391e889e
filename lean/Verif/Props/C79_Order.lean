/-
C79: Importing documents about different things in any order gives the same project.

The part of a project a document is about: the chapters and scenes with the languages, the characters, the locations, or the items. What an
import does depends on that part alone, and changes nothing else (`C79_local`); so imports of documents about different parts can be exchanged
(`C79_order`), any number of them (`C79_sequence`).
-/
import Verif.Lemmas.Order
import Verif.Props.C78_Twice

namespace Verif
open Verif.Order Verif.Rd

/-! ### Specification -/

/-- What a document is about. -/
inductive Spec.Area
  | texts | characters | locations | items
  deriving DecidableEq

/-- Two projects have the same in this part. -/
def Spec.Agree : Spec.Area → Novel → Novel → Prop
  | .texts, n, m => n.scenes = m.scenes ∧ n.chapters = m.chapters ∧ n.srtChapters = m.srtChapters ∧ n.languages = m.languages ∧
      n.languageCode = m.languageCode ∧ n.countryCode = m.countryCode
  | .characters, n, m => n.characters = m.characters ∧ n.srtCharacters = m.srtCharacters
  | .locations, n, m => n.locations = m.locations ∧ n.srtLocations = m.srtLocations
  | .items, n, m => n.items = m.items ∧ n.srtItems = m.srtItems

/-- Two projects are the same but for this part. -/
def Spec.SameRest : Spec.Area → Novel → Novel → Prop
  | .texts, n, m => m = { n with scenes := m.scenes, chapters := m.chapters, srtChapters := m.srtChapters, languages := m.languages,
                                 languageCode := m.languageCode, countryCode := m.countryCode }
  | .characters, n, m => m = { n with characters := m.characters, srtCharacters := m.srtCharacters }
  | .locations, n, m => m = { n with locations := m.locations, srtLocations := m.srtLocations }
  | .items, n, m => m = { n with items := m.items, srtItems := m.srtItems }

/-- A document that can be imported into a project, with its content: a text document, or the parsed table of a list. -/
inductive Spec.Import
  | manuscript (type : Nat) (f : OdtFile) | proof (f : OdtFile) | sceneDesc (f : OdtFile) | chapterDesc (f : OdtFile)
  | characters (f : OdtFile) | locations (f : OdtFile) | items (f : OdtFile)
  | charList (t : XNode) | locList (t : XNode) | itemList (t : XNode) | sceneList (t : XNode)

open Spec

/-- The kind of the document tells what it is about. -/
def Spec.Import.part : Spec.Import → Spec.Area
  | .manuscript .. | .proof _ | .sceneDesc _ | .chapterDesc _ | .sceneList _ => .texts
  | .characters _ | .charList _ => .characters
  | .locations _ | .locList _ => .locations
  | .items _ | .itemList _ => .items

/-- The import: the text documents with formatting are split into scenes afterwards. -/
def Spec.Import.load : Spec.Import → Novel → Except Exc Novel
  | .manuscript type f, n => (readFormatted (manuscriptReader type) f n).map Prod.fst
  | .proof f, n => (readFormatted proofReader f n).map Prod.fst
  | .sceneDesc f, n => readOdt sceneDescReader f n
  | .chapterDesc f, n => readOdt chapterDescReader f n
  | .characters f, n => readOdt charactersReader f n
  | .locations f, n => readOdt (worldReader locationKind) f n
  | .items f, n => readOdt (worldReader itemKind) f n
  | .charList t, n => readCharList t n
  | .locList t, n => readLocList t n
  | .itemList t, n => readItemList t n
  | .sceneList t, n => readSceneList t n

/-- One import after the other. -/
def Spec.loadAll : List Spec.Import → Novel → Except Exc Novel
  | [], n => .ok n
  | d :: ds, n => do
    let m ← d.load n
    loadAll ds m

/-! ### The part and the rest -/

namespace Order

/-- The part of the second novel with the rest of the first one. -/
def into : Area → Novel → Novel → Novel
  | .texts => texts
  | .characters => chars
  | .locations => locs
  | .items => itms

theorem into_agree {p : Area} {n m : Novel} (h : Agree p n m) : into p m n = m := by
  cases p
  · obtain ⟨h1, h2, h3, h4, h5, h6⟩ := h
    simp only [into, texts, h1, h2, h3, h4, h5, h6]
  all_goals
    obtain ⟨h1, h2⟩ := h
    simp only [into, chars, locs, itms, h1, h2]

theorem agree_into (p : Area) (x n : Novel) : Agree p n (into p x n) := by
  cases p
  · exact ⟨rfl, rfl, rfl, rfl, rfl, rfl⟩
  all_goals exact ⟨rfl, rfl⟩

theorem rest_into (p : Area) (x n : Novel) : SameRest p x (into p x n) := by
  cases p <;> rfl

theorem rest_eq {p : Area} {x m : Novel} (h : SameRest p x m) : into p x m = m := by
  cases p <;> exact h.symm

theorem agree_self (p : Area) (n : Novel) : Agree p n n := by
  cases p
  · exact ⟨rfl, rfl, rfl, rfl, rfl, rfl⟩
  all_goals exact ⟨rfl, rfl⟩

/-- What an import changes is none of another part. -/
theorem agree_other {p q : Area} (hpq : p ≠ q) {n m : Novel} (h : SameRest p n m) : Agree q n m := by
  cases p <;> cases q <;> first | exact absurd rfl hpq | (unfold SameRest at h; rw [h]; first | exact ⟨rfl, rfl, rfl, rfl, rfl, rfl⟩ | exact ⟨rfl, rfl⟩)

/-- Two parts can be exchanged one after the other. -/
theorem into_swap {p q : Area} (hpq : p ≠ q) (n a b : Novel) (ha : SameRest p n a) (hb : SameRest q n b) : into q a b = into p b a := by
  cases p <;> cases q <;> first
    | exact absurd rfl hpq
    | (unfold SameRest at ha hb; rw [ha, hb]; rfl)

theorem load_into (d : Import) (x n : Novel) : d.load (into d.part x n) = (d.load n).map (into d.part x) := by
  have hf : ∀ {h : Reader} (f : OdtFile), (∀ r c, Stays (texts x) (h (via (texts x) r) c) (h r c)) →
      (readFormatted h f (texts x n)).map Prod.fst = ((readFormatted h f n).map Prod.fst).map (texts x) := by
    intro h f hh
    rw [formatted_stays x hh]
    cases readFormatted h f n <;> rfl
  cases d with
  | manuscript type f => exact hf f (manuscript_stays x type)
  | proof f => exact hf f (proof_stays x)
  | sceneDesc f => exact read_stays (sceneDesc_stays x) f n
  | chapterDesc f => exact read_stays (chapterDesc_stays x) f n
  | characters f => exact read_stays (characters_stays x) f n
  | locations f => exact read_stays (world_stays (locs_fits x)) f n
  | items f => exact read_stays (world_stays (itms_fits x)) f n
  | charList t => exact charList_stays x t n
  | locList t => exact locList_stays x t n
  | itemList t => exact itemList_stays x t n
  | sceneList t => exact sceneList_stays x t n

theorem load_rest {d : Import} {n m : Novel} (h : d.load n = .ok m) : SameRest d.part n m := by
  have e := load_into d n n
  rw [into_agree (agree_self _ n), h] at e
  have := rest_into d.part n m
  rwa [← Except.ok.inj (h.symm.trans (h.trans e))] at this

end Order

open Order

/-! ### Theorems -/

/-- An import depends on its part alone: in two projects that agree in this part it fails with the same error, or changes both in this part only,
and in the same way. -/
theorem C79_local (d : Import) (n n' : Novel) (h : Agree d.part n n') :
    (∃ e, d.load n = .error e ∧ d.load n' = .error e) ∨
    (∃ m m', d.load n = .ok m ∧ d.load n' = .ok m' ∧ SameRest d.part n m ∧ SameRest d.part n' m' ∧ Agree d.part m m') := by
  have e := load_into d n' n
  rw [into_agree h] at e
  cases hl : d.load n with
  | error x => exact .inl ⟨x, rfl, by rw [e, hl]; rfl⟩
  | ok m =>
    rw [hl] at e
    exact .inr ⟨m, _, rfl, e, load_rest hl, rest_into _ _ _, agree_into _ _ _⟩

/-- Two documents about different parts: whichever is imported first, the project is the same in the end, and the imports fail in the one order
exactly if they fail in the other one. -/
theorem C79_order (d e : Import) (h : d.part ≠ e.part) (n : Novel) :
    (do let a ← d.load n; e.load a).toOption = (do let b ← e.load n; d.load b).toOption := by
  have one : ∀ (d e : Import), d.part ≠ e.part → ∀ a, d.load n = .ok a → e.load a = (e.load n).map (into e.part a) := by
    intro d e h a ha
    rw [← load_into, into_agree (agree_other h (load_rest ha))]
  cases hd : d.load n with
  | error x =>
    cases he : e.load n with
    | error y => rfl
    | ok b =>
      show none = (d.load b).toOption
      rw [one e d (Ne.symm h) b he, hd]
      rfl
  | ok a =>
    show (e.load a).toOption = _
    rw [one d e h a hd]
    cases he : e.load n with
    | error y => rfl
    | ok b =>
      show some (into e.part a b) = (d.load b).toOption
      rw [one e d (Ne.symm h) b he, hd]
      exact congrArg some (into_swap h n a b (load_rest hd) (load_rest he))

theorem bind_toOption {α β : Type} (x : Except Exc α) (f g : α → Except Exc β) (h : ∀ a, (f a).toOption = (g a).toOption) :
    (x >>= f).toOption = (x >>= g).toOption := by
  cases x with
  | error e => rfl
  | ok a => exact h a

theorem toOption_bind {α β : Type} {x y : Except Exc α} (h : x.toOption = y.toOption) (f : α → Except Exc β) :
    (x >>= f).toOption = (y >>= f).toOption := by
  cases x <;> cases y <;> cases h <;> rfl

/-- Any number of documents, no two of them about the same part: every order gives the same project. -/
theorem C79_sequence (ds es : List Import) (hp : ds.Perm es) (h : ds.Pairwise (fun d e => d.part ≠ e.part)) (n : Novel) :
    (loadAll ds n).toOption = (loadAll es n).toOption := by
  induction hp generalizing n with
  | nil => rfl
  | cons d _ ih =>
    exact bind_toOption _ _ _ (fun a => ih (List.pairwise_cons.1 h).2 a)
  | swap d e l =>
    have hne : e.part ≠ d.part := (List.pairwise_cons.1 h).1 d (List.mem_cons_self ..)
    have := toOption_bind (C79_order e d hne n) (loadAll l)
    simp only [bind_assoc] at this
    exact this
  | trans hp _ ih1 ih2 =>
    exact (ih1 h n).trans (ih2 ((hp.pairwise_iff (fun h => Ne.symm h)).1 h) n)

/-- A document for each part, in two orders; the results are the same, and have something of each document. -/
theorem C79_demo :
    let ds : List Import := [.manuscript 0 ⟨exStyles, none, exSection c!"ScID:1" [c!"new text"]⟩,
      .characters ⟨exStyles, none, exSection c!"CrID_desc:1" [] ++ exSection c!"CrID_bio:1" [c!"born"]⟩, .locList exRows]
    ds.Pairwise (fun d e => d.part ≠ e.part) ∧
    ((loadAll ds exChunkNovel).toOption.map fun m =>
      ((m.scenes.get? c!"1").bind (·.sceneContent), (m.characters.get? c!"1").bind (·.bio), m.srtLocations.length)) =
      some (some c!"new text", some c!"born", 3) ∧
    ((loadAll ds.reverse exChunkNovel).toOption.map fun m =>
      ((m.scenes.get? c!"1").bind (·.sceneContent), (m.characters.get? c!"1").bind (·.bio), m.srtLocations.length)) =
      some (some c!"new text", some c!"born", 3) := by
  refine ⟨?_, ?_, ?_⟩
  · simp [Import.part]
  · set_option maxRecDepth 1000000 in decide +kernel
  · set_option maxRecDepth 1000000 in decide +kernel

/-- Documents about the same part: the last one wins. -/
theorem C79_false :
    let d : Import := .manuscript 0 ⟨exStyles, none, exSection c!"ScID:1" [c!"one"]⟩
    let e : Import := .proof ⟨exStyles, none, exPar c!"[ScID:1]" ++ exPar c!"two" ++ exPar c!"[/ScID]"⟩
    ((loadAll [d, e] exChunkNovel).toOption.bind fun m => (m.scenes.get? c!"1").bind (·.sceneContent)) = some c!"two" ∧
    ((loadAll [e, d] exChunkNovel).toOption.bind fun m => (m.scenes.get? c!"1").bind (·.sceneContent)) = some c!"one" := by
  refine ⟨?_, ?_⟩ <;> (set_option maxRecDepth 1000000 in decide +kernel)

end Verif
