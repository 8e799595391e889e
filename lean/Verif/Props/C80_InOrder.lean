/-
C80: Whatever documents are imported into a project, and in whatever order: the project stays in order, and it can be saved.
-/
import Verif.Lemmas.Sound
import Verif.Lemmas.Sound2
import Verif.Lemmas.Travel5
import Verif.Props.C79_Order

namespace Verif
open Verif.Order Verif.Rd

/-! ### Specification -/

/-- A project is in order: no chapter and no scene is there or listed twice, what is listed exists, the types are the four codes, the dates and
times can be saved, the counts belong to the texts, and no language is listed twice. -/
structure Spec.Ordered (n : Novel) : Prop where
  sound : Sound n
  savable : Savable n
  chTypes : ∀ p ∈ n.chapters, p.2.chType.getD 0 ≤ 3
  counts : CountsFit n
  languages : ∀ l, n.languages = some l → l.Nodup

/-- The type a manuscript gives its new chapters and scenes is one of the four codes. -/
def Spec.Import.Typed : Spec.Import → Prop
  | .manuscript type _ => type ≤ 3
  | _ => True

open Spec

namespace Kept

/-! ### The lists of characters, locations and items -/

/-- Every listed ID exists. -/
def Listed {α : Type} (d : Dict α) (l : List Str) : Prop := ∀ id ∈ l, (d.get? id).isSome

theorem listed_add {α : Type} {d : Dict α} {l : List Str} (h : Listed d l) (id : Str) (a : α) : Listed (d.set id a) (l ++ [id]) := by
  intro k hk
  rw [Dict.isSome_get?_iff, Dict.mem_keys_set]
  rcases List.mem_append.1 hk with hk | hk
  · exact .inr ((Dict.isSome_get?_iff d k).1 (h k hk))
  · exact .inl (List.mem_singleton.1 hk)

theorem listed_modify {α : Type} {d : Dict α} {l : List Str} (h : Listed d l) (id : Str) (f : α → α) : Listed (d.modify id f) l := by
  intro k hk
  rw [Dict.isSome_get?_iff, Dict.keys_modify]
  exact (Dict.isSome_get?_iff d k).1 (h k hk)

/-- The rows of a table: the list has the IDs of the rows, all of which exist. -/
theorem rows_listed {α : Type} {mark : Str} {new : α} {upd : List Str → α → α} : ∀ (rows : List (List Str)) (st r : Dict α × List Str),
    Listed st.1 st.2 → rowsLoop mark new upd rows st = .ok r → Listed r.1 r.2
  | [], _, _, h, e => by cases e; exact h
  | row :: rows, st, r, h, e => by
    rw [rowsLoop.eq_def] at e
    dsimp only at e
    split at e
    · cases hs : searchId mark (cellAt row 0) with
      | error x => rw [hs] at e; exact nomatch e
      | ok id =>
        rw [hs] at e
        refine rows_listed rows _ r (listed_modify ?_ id _) e
        split
        · rename_i hh
          intro k hk
          rcases List.mem_append.1 hk with hk | hk
          · exact h k hk
          · rw [List.mem_singleton.1 hk, Dict.isSome_get?_iff]
            exact (Dict.has_iff _ _).1 hh
        · exact listed_add h id new
    · exact rows_listed rows st r h e

/-- A reader that keeps something about the project. -/
theorem run_inv {P : Novel → Prop} {h : Reader} (hh : ∀ r c r', P r.novel → h r c = .ok r' → P r'.novel) :
    ∀ cs r r', P r.novel → h.run r cs = .ok r' → P r'.novel
  | [], _, _, hp, e => by cases e; exact hp
  | c :: cs, r, r', hp, e => by
    rw [Reader.run] at e
    cases hc : h r c with
    | error x => rw [hc] at e; exact nomatch e
    | ok r1 =>
      rw [hc] at e
      exact run_inv hh cs r1 r' (hh r c r1 hp hc) e

theorem read_inv {P : Novel → Prop} {h : Reader} (hh : ∀ r c r', P r.novel → h r c = .ok r' → P r'.novel) {f : OdtFile} {n m : Novel} (hp : P n)
    (e : readOdt h f n = .ok m) : P m := by
  unfold readOdt at e
  cases hf : feedFile f with
  | error x => rw [hf] at e; exact nomatch e
  | ok cs =>
    rw [hf] at e
    have e : (h.run { novel := n } cs >>= fun r => Except.ok r.novel) = .ok m := e
    cases hr : h.run { novel := n } cs with
    | error x => rw [hr] at e; exact nomatch e
    | ok r =>
      rw [hr] at e
      have : r.novel = m := Except.ok.inj e
      exact this ▸ run_inv hh cs _ r hp hr

theorem comment_novel (r : Rd) (s : Str) : (r.baseComment s).novel = r.novel := by
  unfold Rd.baseComment
  split <;> rfl

theorem characters_listed (r : Rd) (c : Call) (r' : Rd) (h : Listed r.novel.characters r.novel.srtCharacters) (e : charactersReader r c = .ok r') :
    Listed r'.novel.characters r'.novel.srtCharacters := by
  cases c with
  | start t as =>
    have e : crStart r t as = .ok r' := e
    unfold crStart at e
    split at e
    · split at e
      · exact nomatch e
      · dsimp only at e
        split at e
        · split at e
          · cases hf : firstNumber (‹Option Str›.getD []) with
            | error x => rw [hf] at e; exact nomatch e
            | ok id =>
              rw [hf] at e
              have e := Except.ok.inj e
              rw [← e]
              dsimp only
              split
              · exact h
              · exact listed_add h id {}
          · split at e
            · cases e; exact h
            · split at e
              · cases e; exact h
              · split at e <;> (cases e; exact h)
        · cases e; exact h
    · split at e <;> (cases e; exact h)
  | stop t =>
    have e : crStop r t = .ok r' := e
    unfold crStop at e
    split at e
    · cases e; exact h
    · split at e
      · split at e
        · cases e; exact h
        · split at e
          · cases e; exact listed_modify h _ _
          · exact nomatch e
      · split at e <;> (cases e; exact h)
  | data s =>
    have e : Except.ok (if r.sect.isSome then r.push (Str.strip s) else r) = .ok r' := e
    cases e
    split <;> exact h
  | comment s =>
    have e : Except.ok (r.baseComment s) = .ok r' := e
    cases e
    rw [comment_novel]
    exact h

/-- What is known of the two kinds. -/
structure Kind (w : WorldKind) (srt : Novel → List Str) : Prop where
  get_put : ∀ n d, w.get (w.put n d) = d
  srt_put : ∀ n d, srt (w.put n d) = srt n
  srt_add : ∀ n id, srt (w.add n id) = srt n ++ [id]

theorem kind_locations : Kind locationKind (·.srtLocations) := ⟨fun _ _ => rfl, fun _ _ => rfl, fun _ _ => rfl⟩
theorem kind_items : Kind itemKind (·.srtItems) := ⟨fun _ _ => rfl, fun _ _ => rfl, fun _ _ => rfl⟩

theorem world_listed {w : WorldKind} {srt : Novel → List Str} (hw : Kind w srt) (r : Rd) (c : Call) (r' : Rd)
    (h : Listed (w.get r.novel) (srt r.novel)) (e : worldReader w r c = .ok r') : Listed (w.get r'.novel) (srt r'.novel) := by
  cases c with
  | start t as =>
    have e : weStart w r t as = .ok r' := e
    unfold weStart at e
    split at e
    · split at e
      · exact nomatch e
      · dsimp only at e
        split at e
        · cases hf : firstNumber (‹Option Str›.getD []) with
          | error x => rw [hf] at e; exact nomatch e
          | ok id =>
            rw [hf] at e
            have e := Except.ok.inj e
            rw [← e]
            dsimp only
            split
            · exact h
            · rw [hw.get_put, hw.srt_put, hw.srt_add]
              exact listed_add h id {}
        · cases e; exact h
    · split at e <;> (cases e; exact h)
  | stop t =>
    have e : weStop w r t = .ok r' := e
    unfold weStop at e
    split at e
    · cases e; exact h
    · split at e
      · split at e
        · cases e
          show Listed (w.get (w.put _ _)) (srt (w.put _ _))
          rw [hw.get_put, hw.srt_put]
          exact listed_modify h _ _
        · exact nomatch e
      · split at e <;> (cases e; exact h)
  | data s =>
    have e : Except.ok (if r.elId.isSome then r.push (Str.strip s) else r) = .ok r' := e
    cases e
    split <;> exact h
  | comment s =>
    have e : Except.ok (r.baseComment s) = .ok r' := e
    cases e
    rw [comment_novel]
    exact h

/-! ### The table of scenes -/

section
variable [Starts]

/-- A scene that no chapter lists. -/
theorem K_extra {n : Novel} (hk : K n) {id : Str} (h : n.scenes.has id = false) : K { n with scenes := n.scenes.set id {} } where
  sound :=
    { chKeys := hk.sound.chKeys, scKeys := Dict.nodup_keys_set _ _ _ hk.sound.scKeys, chNodup := hk.sound.chNodup, chIn := hk.sound.chIn,
      scNodup := hk.sound.scNodup, scIn := fun s hs => (Dict.mem_keys_set _ _ _ _).2 (.inr (hk.sound.scIn s hs)) }
  sc := by
    intro k s e
    rw [Dict.get?_set] at e
    split at e
    · cases e; exact good_new
    · exact hk.sc k s e
  ch := hk.ch
  langs := hk.langs

theorem rows_keep {n : Novel} : ∀ (rows : List (List Str)) (st r : Dict Scene × List Str), K { n with scenes := st.1 } →
    rowsLoop c!"ScID:" {} sceneFromRow rows st = .ok r → K { n with scenes := r.1 }
  | [], _, _, h, e => by cases e; exact h
  | row :: rows, st, r, h, e => by
    rw [rowsLoop.eq_def] at e
    dsimp only at e
    split at e
    · cases hs : searchId c!"ScID:" (cellAt row 0) with
      | error x => rw [hs] at e; exact nomatch e
      | ok id =>
        rw [hs] at e
        have hn : K { n with scenes := if st.1.has id then st.1 else st.1.set id {} } := by
          split
          · exact h
          · rename_i hh
            exact K_extra h (by simpa using hh)
        exact rows_keep rows _ r (K_scene hn id (f := sceneFromRow row) (fun s g => g)) e
    · exact rows_keep rows st r h e

/-! ### The imports -/

theorem formatted_keeps {h : Reader} (hh : ∀ r c, K r.novel → Keeps (h r c)) {f : OdtFile} {n m : Novel} (hk : K n)
    (e : (readFormatted h f n).map Prod.fst = .ok m) : K m := by
  unfold readFormatted at e
  cases hr : readOdt h f { n with languages := some [] } with
  | error x => rw [hr] at e; exact nomatch e
  | ok m1 =>
    rw [hr] at e
    have k1 : K m1 := read_keeps hh (K_langs (m := { n with languages := some [] }) hk rfl rfl rfl (by intro l e; exact Option.some.inj e ▸ List.nodup_nil)) hr
    cases hs : splitScenes m1 with
    | error x =>
      have : (splitScenes m1).map Prod.fst = .ok m := e
      rw [hs] at this; exact nomatch this
    | ok p =>
      have e : (splitScenes m1).map Prod.fst = .ok m := e
      rw [hs] at e
      cases e
      exact split_keeps k1 hs

theorem load_keeps {d : Import} (hd : d.Typed) {n m : Novel} (hk : K n) (e : d.load n = .ok m) : K m := by
  have other : d.part ≠ .texts → K m := by
    intro h
    obtain ⟨h1, h2, h3, h4, _⟩ := agree_other h (load_rest e)
    exact K_langs hk h1.symm h2.symm h3.symm (fun l hl => hk.langs l (h4.trans hl))
  cases d with
  | manuscript type f => exact formatted_keeps (manuscript_keeps hd) hk e
  | proof f => exact formatted_keeps proof_keeps hk e
  | sceneDesc f => exact read_keeps sceneDesc_keeps hk e
  | chapterDesc f => exact read_keeps chapterDesc_keeps hk e
  | sceneList t =>
    have e : readSceneList t n = .ok m := e
    unfold readSceneList at e
    cases ht : readTable sceneTitles.length t with
    | error x => rw [ht] at e; exact nomatch e
    | ok rows =>
      rw [ht] at e
      have e : (rowsLoop c!"ScID:" {} sceneFromRow rows (n.scenes, []) >>= fun r => Except.ok { n with scenes := r.1 }) = .ok m := e
      cases hr : rowsLoop c!"ScID:" {} sceneFromRow rows (n.scenes, []) with
      | error x => rw [hr] at e; exact nomatch e
      | ok r =>
        rw [hr] at e
        have e := Except.ok.inj e
        exact e ▸ rows_keep rows _ r hk hr
  | characters _ | locations _ | items _ | charList _ | locList _ | itemList _ => exact other (fun h => nomatch h)

end

/-- The condition for saving. -/
instance savableStarts : Starts := ⟨SavableStart, .inr (.inl rfl)⟩

/-- What is kept of the characters, locations and items. -/
structure W (n : Novel) : Prop where
  characters : Listed n.characters n.srtCharacters
  locations : Listed n.locations n.srtLocations
  items : Listed n.items n.srtItems
  notes : Listed n.projectNotes n.srtPrjNotes

theorem rows_world {α : Type} {k : Nat} {mark : Str} {new : α} {upd : List Str → α → α} {t : XNode} {d : Dict α} {F : Dict α × List Str → Novel} {m : Novel}
    (e : (readTable k t >>= fun rows => rowsLoop mark new upd rows (d, []) >>= fun r => Except.ok (F r)) = .ok m) :
    ∃ r : Dict α × List Str, Listed r.1 r.2 ∧ m = F r := by
  cases ht : readTable k t with
  | error x => rw [ht] at e; exact nomatch e
  | ok rows =>
    rw [ht] at e
    have e : (rowsLoop mark new upd rows (d, []) >>= fun r => Except.ok (F r)) = .ok m := e
    cases hr : rowsLoop mark new upd rows (d, []) with
    | error x => rw [hr] at e; exact nomatch e
    | ok r =>
      rw [hr] at e
      exact ⟨r, rows_listed rows _ r (fun _ h => absurd h List.not_mem_nil) hr, (Except.ok.inj e).symm⟩

theorem load_world {d : Import} {n m : Novel} (hw : W n) (e : d.load n = .ok m) : W m := by
  have hr := load_rest e
  cases d with
  | manuscript _ _ | proof _ | sceneDesc _ | chapterDesc _ | sceneList _ =>
    have hr : m = _ := hr
    rw [hr]; exact ⟨hw.characters, hw.locations, hw.items, hw.notes⟩
  | characters f =>
    have := read_inv (P := fun n => Listed n.characters n.srtCharacters) characters_listed hw.characters e
    have hr : m = _ := hr
    rw [hr]; exact ⟨this, hw.locations, hw.items, hw.notes⟩
  | locations f =>
    have := read_inv (P := fun n => Listed n.locations n.srtLocations) (world_listed kind_locations) hw.locations e
    have hr : m = _ := hr
    rw [hr]; exact ⟨hw.characters, this, hw.items, hw.notes⟩
  | items f =>
    have := read_inv (P := fun n => Listed n.items n.srtItems) (world_listed kind_items) hw.items e
    have hr : m = _ := hr
    rw [hr]; exact ⟨hw.characters, hw.locations, this, hw.notes⟩
  | charList t => obtain ⟨r, h, rfl⟩ := rows_world e; exact ⟨h, hw.locations, hw.items, hw.notes⟩
  | locList t => obtain ⟨r, h, rfl⟩ := rows_world e; exact ⟨hw.characters, h, hw.items, hw.notes⟩
  | itemList t => obtain ⟨r, h, rfl⟩ := rows_world e; exact ⟨hw.characters, hw.locations, h, hw.notes⟩

theorem order_K {n : Novel} (h : Ordered n) : K n where
  sound := h.sound
  sc := by
    intro k s e
    have hp : (k, s) ∈ n.scenes := mem_of_get? e
    obtain ⟨h1, h2⟩ := h.savable.scenes (k, s) hp
    exact ⟨h1, h2, fun t ht => h.counts k s t e ht⟩
  ch := by
    exact fun k c e => h.chTypes (k, c) (mem_of_get? e)
  langs := h.languages

theorem K_order {n : Novel} (h : K n) (w : W n) : Ordered n where
  sound := h.sound
  savable :=
    { scKeys := h.sound.scKeys
      chapters := by
        intro id hid
        obtain ⟨c, hc⟩ := (Dict.mem_keys_iff _ _).1 (h.sound.chIn id hid)
        exact ⟨c, hc, h.ch id c hc⟩
      locations := w.locations
      items := w.items
      characters := w.characters
      notes := w.notes
      scenes := by
        intro p hp
        have := h.sc p.1 p.2 (get?_of_mem_nodup h.sound.scKeys hp)
        exact ⟨this.1, this.2.1⟩ }
  chTypes := fun p hp => h.ch p.1 p.2 (get?_of_mem_nodup h.sound.chKeys hp)
  counts := fun id sc t h1 h2 => (h.sc id sc h1).2.2 t h2
  languages := h.langs

end Kept

open Kept

/-! ### Theorems -/

/-- An import that succeeds leaves a project in order that was in order. -/
theorem C80_import (d : Import) (hd : d.Typed) (n m : Novel) (hn : Ordered n) (h : d.load n = .ok m) : Ordered m :=
  K_order (load_keeps hd (order_K hn) h)
    (load_world ⟨hn.savable.characters, hn.savable.locations, hn.savable.items, hn.savable.notes⟩ h)

/-- So do any number of imports, of any documents, in any order. -/
theorem C80_sequence : ∀ (ds : List Import), (∀ d ∈ ds, d.Typed) → ∀ (n m : Novel), Ordered n → loadAll ds n = .ok m → Ordered m
  | [], _, n, m, hn, h => by cases h; exact hn
  | d :: ds, hd, n, m, hn, h => by
    rw [loadAll] at h
    cases e : d.load n with
    | error x => rw [e] at h; exact nomatch h
    | ok a =>
      rw [e] at h
      exact C80_sequence ds (fun d' h' => hd d' (List.mem_cons_of_mem _ h')) a m (C80_import d (hd d (List.mem_cons_self ..)) n a hn e) h

/-- A project in order lists no language twice when it is saved. -/
theorem Ordered_languages {n : Novel} (h : Ordered n) : (savedLanguages n).Nodup := by
  unfold savedLanguages
  cases e : n.languages with
  | some l => exact h.languages l e
  | none =>
    obtain ⟨l, h1, h2, _⟩ := C11_languages n
    simp only [h1]
    exact h2.nodup

/-- A project in order can be saved: as a new file, or over any file with all the sections. -/
theorem C80_saved (sl sc : Str) (ds : List Import) (hd : ∀ d ∈ ds, d.Typed) (n m : Novel) (tree : Option Elem) (hn : Ordered n)
    (h : loadAll ds n = .ok m) (ht : SavableTree (tree.getD newRoot).kids) : ∃ out, writeTree sl sc m tree = .ok out := by
  have hm := C80_sequence ds hd n m hn h
  exact C51_writable sl sc m tree hm.savable (Ordered_languages hm) ht

/-- A project that was opened is in order, if its IDs are distinct, its languages are, and the dates and times can be saved. -/
theorem C80_opened (lib : PyLib) (x : Elem) (n : Novel) (ht : ProjectTree x.kids) (hp : ProjectNode x.kids) (h0 : readTree lib x = .ok n)
    (hn : GoodIds n) (hl : (savedLanguages n).Nodup) (hc : ∀ p ∈ n.scenes, SavableStart p.2.date p.2.time p.2.day) : Ordered n where
  sound := hn.sound
  savable := (read_savable lib x n ht hp h0 hn hc).1
  chTypes := by
    intro p hpm
    obtain ⟨_, _, _, _, c4⟩ := (readFrom h0).chapters
    obtain ⟨e, _, _, h⟩ := c4 p.1 p.2 (get?_of_mem_nodup hn.sound.chKeys hpm)
    rw [h]
    exact readChType_max e.kids
  counts := (readTree_from h0).counts
  languages := by
    intro l e
    unfold savedLanguages at hl
    rw [e] at hl
    exact hl

/-- A project is opened, documents are imported, and the project is saved to the same file: this does not fail, whatever has been imported. -/
theorem C80_opened_saved (lib : PyLib) (sl sc : Str) (x : Elem) (n m : Novel) (ds : List Import) (hd : ∀ d ∈ ds, d.Typed) (ht : ProjectTree x.kids)
    (hp : ProjectNode x.kids) (h0 : readTree lib x = .ok n) (hn : GoodIds n) (hl : (savedLanguages n).Nodup)
    (hc : ∀ p ∈ n.scenes, SavableStart p.2.date p.2.time p.2.day) (h : loadAll ds n = .ok m) :
    ∃ out, writeTree sl sc m (some x) = .ok out :=
  C80_saved sl sc ds hd n m (some x) (C80_opened lib x n ht hp h0 hn hl hc) h (read_savable lib x n ht hp h0 hn hc).2

/-! ### A case -/

/-- A novel with one chapter and one scene. -/
def exOrderNovel : Novel :=
  { chapters := [(c!"1", { title := some c!"One", srtScenes := [c!"1"] })], srtChapters := [c!"1"],
    scenes := [(c!"1", { title := some c!"S", status := some 1 })] }

theorem exOrder_ordered : Ordered exOrderNovel where
  sound := ⟨by decide, by decide, by decide, by decide, by decide, by decide⟩
  savable :=
    { scKeys := by decide
      chapters := by
        intro id h
        have : id = c!"1" := by simpa [exOrderNovel] using h
        subst this
        exact ⟨_, rfl, by decide⟩
      locations := fun _ h => absurd h List.not_mem_nil
      items := fun _ h => absurd h List.not_mem_nil
      characters := fun _ h => absurd h List.not_mem_nil
      notes := fun _ h => absurd h List.not_mem_nil
      scenes := by
        intro p h
        have : p = (c!"1", { title := some c!"S", status := some 1 }) := by simpa [exOrderNovel] using h
        subst this
        exact ⟨by decide, .inr (.inl rfl)⟩ }
  chTypes := by decide
  counts := by
    intro id s t h ht
    have hm := mem_of_get? h
    have : (id, s) = (c!"1", { title := some c!"S", status := some 1 }) := by simpa [exOrderNovel] using hm
    cases this
    exact nomatch ht
  languages := fun _ h => nomatch h

/-- A manuscript with a new chapter and a new scene and a scene that is split, a description of a new character, and a list of locations. -/
def exImports : List Import :=
  [.manuscript 0 ⟨exStyles, none, exSection c!"ChID:7" [c!"x"] ++ exSection c!"ScID:1" [c!"old\n### More\nnew"]⟩,
   .characters ⟨exStyles, none, exSection c!"CrID_desc:1" [] ++ exSection c!"CrID_bio:1" [c!"born"]⟩, .locList exRows]

/-- The imports succeed and change the project, and the result can be saved. -/
theorem C80_demo (sl sc : Str) :
    ((loadAll exImports exOrderNovel).toOption.map fun m => (m.srtChapters, m.scenes.keys, m.srtCharacters, m.srtLocations)) =
      some ([c!"1", c!"7"], [c!"1", c!"2"], [c!"1"], [c!"1", c!"1", c!"1"]) ∧
    ∀ m, loadAll exImports exOrderNovel = .ok m → Ordered m ∧ ∃ out, writeTree sl sc m none = .ok out := by
  refine ⟨?_, fun m h => ?_⟩
  · set_option maxRecDepth 1000000 in decide +kernel
  · have ht : ∀ d ∈ exImports, d.Typed := by
      intro d hd
      simp only [exImports, List.mem_cons, List.not_mem_nil, or_false] at hd
      rcases hd with rfl | rfl | rfl
      · exact Nat.zero_le _
      · trivial
      · trivial
    exact ⟨C80_sequence _ ht _ m exOrder_ordered h, C80_saved sl sc _ ht _ m none exOrder_ordered h savableTree_newRoot⟩

end Verif
