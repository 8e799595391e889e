/-
C82: What has been imported is in the file the project is saved to: if the file is opened again, there are the same chapters with the same scenes,
the same characters, locations and items.
-/
import Verif.Lemmas.GoodIds
import Verif.Props.C81_NewProjects
import Verif.Props.C22_Structure
import Verif.Props.C45_Readable
import Verif.Props.C20_Settled
import Verif.Props.C70_Samples

namespace Verif
open Verif.Order Verif.Rd

/-! ### Specification -/

/-- The IDs the rows of a table begin with. -/
def Spec.namedIn (mark : Str) (rows : List (List Str)) : List Str :=
  (rows.filter (fun row => Str.contains (cellAt row 0) mark)).filterMap (fun row => (searchId mark (cellAt row 0)).toOption)

/-- The list has one row for each element. -/
def Spec.Import.Once : Spec.Import → Prop
  | .charList t => ∀ rows, readTable charTitles.length t = .ok rows → (Spec.namedIn c!"CrID:" rows).Nodup
  | .locList t => ∀ rows, readTable worldTitles.length t = .ok rows → (Spec.namedIn c!"LcID:" rows).Nodup
  | .itemList t => ∀ rows, readTable worldTitles.length t = .ok rows → (Spec.namedIn c!"ItID:" rows).Nodup
  | _ => True

open Spec

namespace Kept

/-! ### The lists of characters, locations and items -/

/-- The list has no repetitions, all its IDs exist and are good ones. -/
structure Fine {α : Type} (d : Dict α) (l : List Str) : Prop where
  listed : Listed d l
  nodup : l.Nodup
  good : ∀ id ∈ l, GoodId id

theorem Fine.add {α : Type} {d : Dict α} {l : List Str} (h : Fine d l) {id : Str} (hid : ¬ d.has id = true) (hg : GoodId id) (a : α) :
    Fine (d.set id a) (l ++ [id]) where
  listed := listed_add h.listed id a
  nodup := by
    rw [List.nodup_append]
    refine ⟨h.nodup, by simp, ?_⟩
    intro x hx y hy
    rw [List.mem_singleton] at hy
    intro e
    refine hid ((Dict.has_iff _ _).2 ?_)
    rw [← hy, ← e]
    exact (Dict.isSome_get?_iff d x).1 (h.listed x hx)
  good := by
    intro k hk
    rcases List.mem_append.1 hk with hk | hk
    · exact h.good k hk
    · exact List.mem_singleton.1 hk ▸ hg

theorem Fine.modify {α : Type} {d : Dict α} {l : List Str} (h : Fine d l) (id : Str) (f : α → α) : Fine (d.modify id f) l :=
  ⟨listed_modify h.listed id f, h.nodup, h.good⟩

theorem firstNumber_good {v id : Str} (h : firstNumber v = .ok id) : GoodId id := by
  refine goodId_digits (firstNumber_ne h) ?_
  rw [← idOf_firstNumber h]
  exact takeWhile_dig _

theorem characters_fine (r : Rd) (c : Call) (r' : Rd) (h : Fine r.novel.characters r.novel.srtCharacters) (e : charactersReader r c = .ok r') :
    Fine r'.novel.characters r'.novel.srtCharacters := by
  cases c with
  | start t as =>
    have e : crStart r t as = .ok r' := e
    unfold crStart at e
    split at e
    · split at e
      · exact nomatch e
      · dsimp only at e
        split at e
        · split at e
          · cases hf : firstNumber (‹Option Str›.getD []) with
            | error x => rw [hf] at e; exact nomatch e
            | ok id =>
              rw [hf] at e
              have e := Except.ok.inj e
              rw [← e]
              dsimp only
              split
              · exact h
              · rename_i hh
                exact h.add hh (firstNumber_good hf) {}
          · split at e
            · cases e; exact h
            · split at e
              · cases e; exact h
              · split at e <;> (cases e; exact h)
        · cases e; exact h
    · split at e <;> (cases e; exact h)
  | stop t =>
    have e : crStop r t = .ok r' := e
    unfold crStop at e
    split at e
    · cases e; exact h
    · split at e
      · split at e
        · cases e; exact h
        · split at e
          · cases e; exact h.modify _ _
          · exact nomatch e
      · split at e <;> (cases e; exact h)
  | data s =>
    have e : Except.ok (if r.sect.isSome then r.push (Str.strip s) else r) = .ok r' := e
    cases e
    split <;> exact h
  | comment s =>
    have e : Except.ok (r.baseComment s) = .ok r' := e
    cases e
    rw [comment_novel]
    exact h

theorem world_fine {w : WorldKind} {srt : Novel → List Str} (hw : Kind w srt) (r : Rd) (c : Call) (r' : Rd)
    (h : Fine (w.get r.novel) (srt r.novel)) (e : worldReader w r c = .ok r') : Fine (w.get r'.novel) (srt r'.novel) := by
  cases c with
  | start t as =>
    have e : weStart w r t as = .ok r' := e
    unfold weStart at e
    split at e
    · split at e
      · exact nomatch e
      · dsimp only at e
        split at e
        · cases hf : firstNumber (‹Option Str›.getD []) with
          | error x => rw [hf] at e; exact nomatch e
          | ok id =>
            rw [hf] at e
            have e := Except.ok.inj e
            rw [← e]
            dsimp only
            split
            · exact h
            · rename_i hh
              rw [hw.get_put, hw.srt_put, hw.srt_add]
              exact h.add hh (firstNumber_good hf) {}
        · cases e; exact h
    · split at e <;> (cases e; exact h)
  | stop t =>
    have e : weStop w r t = .ok r' := e
    unfold weStop at e
    split at e
    · cases e; exact h
    · split at e
      · split at e
        · cases e
          show Fine (w.get (w.put _ _)) (srt (w.put _ _))
          rw [hw.get_put, hw.srt_put]
          exact h.modify _ _
        · exact nomatch e
      · split at e <;> (cases e; exact h)
  | data s =>
    have e : Except.ok (if r.elId.isSome then r.push (Str.strip s) else r) = .ok r' := e
    cases e
    split <;> exact h
  | comment s =>
    have e : Except.ok (r.baseComment s) = .ok r' := e
    cases e
    rw [comment_novel]
    exact h

/-- The list after the rows of a table. -/
theorem rows_named {α : Type} {mark : Str} {new : α} {upd : List Str → α → α} : ∀ (rows : List (List Str)) (st r : Dict α × List Str),
    rowsLoop mark new upd rows st = .ok r → r.2 = st.2 ++ namedIn mark rows ∧
      (∀ k ∈ r.1.keys, k ∈ st.1.keys ∨ GoodId k) ∧ ∀ k ∈ namedIn mark rows, GoodId k
  | [], _, _, e => by cases e; exact ⟨(List.append_nil _).symm, fun k hk => .inl hk, fun _ h => absurd h List.not_mem_nil⟩
  | row :: rows, st, r, e => by
    rw [rowsLoop.eq_def] at e
    dsimp only at e
    split at e
    · rename_i hc
      cases hs : searchId mark (cellAt row 0) with
      | error x => rw [hs] at e; exact nomatch e
      | ok id =>
        rw [hs] at e
        obtain ⟨h1, h2, h3⟩ := rows_named rows _ r e
        have hn : namedIn mark (row :: rows) = id :: namedIn mark rows := by
          unfold namedIn
          rw [List.filter_cons_of_pos (by exact hc), List.filterMap_cons, hs]
          rfl
        rw [hn]
        refine ⟨by rw [h1, List.append_assoc]; rfl, fun k hk => ?_, fun k hk => ?_⟩
        · rcases h2 k hk with hk | hk
          · rw [Dict.keys_modify] at hk
            split at hk
            · exact .inl hk
            · rw [Dict.mem_keys_set] at hk
              rcases hk with rfl | hk
              · exact .inr (searchId_good hs)
              · exact .inl hk
          · exact .inr hk
        · rcases List.mem_cons.1 hk with rfl | hk
          · exact searchId_good hs
          · exact h3 k hk
    · rename_i hc
      have hn : namedIn mark (row :: rows) = namedIn mark rows := by
        unfold namedIn
        rw [List.filter_cons_of_neg (by exact hc)]
      rw [hn]
      exact rows_named rows st r e

theorem list_fine {α : Type} {k : Nat} {mark : Str} {new : α} {upd : List Str → α → α} {t : XNode} {d : Dict α} {F : Dict α × List Str → Novel} {m : Novel}
    (ho : ∀ rows, readTable k t = .ok rows → (namedIn mark rows).Nodup)
    (e : (readTable k t >>= fun rows => rowsLoop mark new upd rows (d, []) >>= fun r => Except.ok (F r)) = .ok m) :
    ∃ r : Dict α × List Str, Fine r.1 r.2 ∧ m = F r := by
  cases ht : readTable k t with
  | error x => rw [ht] at e; exact nomatch e
  | ok rows =>
    rw [ht] at e
    have e : (rowsLoop mark new upd rows (d, []) >>= fun r => Except.ok (F r)) = .ok m := e
    cases hr : rowsLoop mark new upd rows (d, []) with
    | error x => rw [hr] at e; exact nomatch e
    | ok r =>
      rw [hr] at e
      obtain ⟨h1, _, h3⟩ := rows_named rows _ r hr
      have h1 : r.2 = namedIn mark rows := h1
      exact ⟨r, ⟨rows_listed rows _ r (fun _ h => absurd h List.not_mem_nil) hr, h1 ▸ ho rows ht, h1 ▸ h3⟩, (Except.ok.inj e).symm⟩

/-- The characters, locations, items and notes of a project. -/
structure World (n : Novel) : Prop where
  characters : Fine n.characters n.srtCharacters
  locations : Fine n.locations n.srtLocations
  items : Fine n.items n.srtItems
  notes : Fine n.projectNotes n.srtPrjNotes

theorem load_fine {d : Import} (ho : d.Once) {n m : Novel} (hw : World n) (e : d.load n = .ok m) : World m := by
  have hr := load_rest e
  cases d with
  | manuscript _ _ | proof _ | sceneDesc _ | chapterDesc _ | sceneList _ =>
    have hr : m = _ := hr
    rw [hr]; exact ⟨hw.characters, hw.locations, hw.items, hw.notes⟩
  | characters f =>
    have := read_inv (P := fun n => Fine n.characters n.srtCharacters) characters_fine hw.characters e
    have hr : m = _ := hr
    rw [hr]; exact ⟨this, hw.locations, hw.items, hw.notes⟩
  | locations f =>
    have := read_inv (P := fun n => Fine n.locations n.srtLocations) (world_fine kind_locations) hw.locations e
    have hr : m = _ := hr
    rw [hr]; exact ⟨hw.characters, this, hw.items, hw.notes⟩
  | items f =>
    have := read_inv (P := fun n => Fine n.items n.srtItems) (world_fine kind_items) hw.items e
    have hr : m = _ := hr
    rw [hr]; exact ⟨hw.characters, hw.locations, this, hw.notes⟩
  | charList t => obtain ⟨r, h, rfl⟩ := list_fine ho e; exact ⟨h, hw.locations, hw.items, hw.notes⟩
  | locList t => obtain ⟨r, h, rfl⟩ := list_fine ho e; exact ⟨hw.characters, h, hw.items, hw.notes⟩
  | itemList t => obtain ⟨r, h, rfl⟩ := list_fine ho e; exact ⟨hw.characters, hw.locations, h, hw.notes⟩

/-! ### Chapters and scenes -/

theorem changed_ids {x : List Ev} {SR : Scene → Scene → Prop} {CR : Chapter → Chapter → Prop} {n m : Novel}
    (h : OnlyChanged (Occurs c!"ScID" x) (Occurs c!"ChID" x) SR CR n m) (hn : Ids n) : Ids m where
  scenes := by
    obtain ⟨new, h1, h2⟩ := h.newScenes
    intro id hid
    rw [h1] at hid
    exact (List.mem_append.1 hid).elim (hn.scenes id) (fun h => occurs_good (h2 id h).1)
  chapters := by
    obtain ⟨new, h1, h2⟩ := h.order
    intro id hid
    rw [h1] at hid
    exact (List.mem_append.1 hid).elim (hn.chapters id) (fun h => occurs_good (h2 id h).1)

theorem formatted_ids {h : Reader} (hh : ∀ r c, K r.novel → Keeps (h r c)) {f : OdtFile} {n m : Novel} (hk : K n) (hi : Ids n)
    (hr : ∀ n m, Ids n → readOdt h f n = .ok m → Ids m) (e : (readFormatted h f n).map Prod.fst = .ok m) : Ids m := by
  unfold readFormatted at e
  cases hr1 : readOdt h f { n with languages := some [] } with
  | error x => rw [hr1] at e; exact nomatch e
  | ok m1 =>
    rw [hr1] at e
    have k1 : K m1 := read_keeps hh (K_langs (m := { n with languages := some [] }) hk rfl rfl rfl (by intro l e; exact Option.some.inj e ▸ List.nodup_nil)) hr1
    have i1 : Ids m1 := hr { n with languages := some [] } m1 ⟨hi.scenes, hi.chapters⟩ hr1
    have e : (splitScenes m1).map Prod.fst = .ok m := e
    cases hs : splitScenes m1 with
    | error x => rw [hs] at e; exact nomatch e
    | ok p =>
      rw [hs] at e
      cases e
      exact split_ids (b := p.2) k1.sound i1 hs

theorem load_ids {d : Import} (hd : d.Typed) {n m : Novel} (hk : K n) (hi : Ids n) (e : d.load n = .ok m) : Ids m := by
  have other : d.part ≠ .texts → Ids m := by
    intro h
    obtain ⟨h1, _, h3, _⟩ := agree_other h (load_rest e)
    exact ⟨h1 ▸ hi.scenes, h3 ▸ hi.chapters⟩
  cases d with
  | manuscript type f => exact formatted_ids (manuscript_keeps hd) hk hi (fun n m hi e => changed_ids (C35_manuscript type f.styles f.info f.content n m e) hi) e
  | proof f =>
    refine formatted_ids proof_keeps hk hi (fun n m hi e => ?_) e
    obtain ⟨h1, _, h3⟩ := C35_proof f.styles f.info f.content n m e
    have h4 := congrArg Novel.srtChapters h3
    have h4 : m.srtChapters = n.srtChapters := h4
    exact ⟨h1 ▸ hi.scenes, h4 ▸ hi.chapters⟩
  | sceneDesc f => exact changed_ids (C35_sceneDesc f.styles f.info f.content n m e) hi
  | chapterDesc f => exact changed_ids (C35_chapterDesc f.styles f.info f.content n m e) hi
  | sceneList t =>
    have e : readSceneList t n = .ok m := e
    unfold readSceneList at e
    cases ht : readTable sceneTitles.length t with
    | error x => rw [ht] at e; exact nomatch e
    | ok rows =>
      rw [ht] at e
      have e : (rowsLoop c!"ScID:" {} sceneFromRow rows (n.scenes, []) >>= fun r => Except.ok { n with scenes := r.1 }) = .ok m := e
      cases hr : rowsLoop c!"ScID:" {} sceneFromRow rows (n.scenes, []) with
      | error x => rw [hr] at e; exact nomatch e
      | ok r =>
        rw [hr] at e
        have e := Except.ok.inj e
        subst e
        exact ⟨fun k hk => ((rows_named rows _ r hr).2.1 k hk).elim (hi.scenes k) (fun g => g), hi.chapters⟩
  | characters _ | locations _ | items _ | charList _ | locList _ | itemList _ => exact other (fun h => nomatch h)

theorem world_of {n : Novel} (h : Ordered n) (g : GoodIds n) : World n where
  characters := ⟨h.savable.characters, g.characters.1, g.characters.2⟩
  locations := ⟨h.savable.locations, g.locations.1, g.locations.2⟩
  items := ⟨h.savable.items, g.items.1, g.items.2⟩
  notes := ⟨h.savable.notes, g.notes.1, g.notes.2⟩

theorem goodIds_of {n : Novel} (h : Sound n) (w : World n) (i : Ids n) : GoodIds n where
  sound := h
  locations := ⟨w.locations.nodup, w.locations.good⟩
  items := ⟨w.items.nodup, w.items.good⟩
  characters := ⟨w.characters.nodup, w.characters.good⟩
  notes := ⟨w.notes.nodup, w.notes.good⟩
  scenes := i.scenes
  chapters := i.chapters

end Kept

open Kept

/-! ### Theorems -/

/-- Imports keep the IDs distinct and fit for a project file. -/
theorem C82_ids : ∀ (ds : List Import), (∀ d ∈ ds, d.Typed ∧ d.Once) → ∀ (n m : Novel), Ordered n → GoodIds n → loadAll ds n = .ok m → GoodIds m
  | [], _, n, m, _, hg, h => by cases h; exact hg
  | d :: ds, hd, n, m, hn, hg, h => by
    rw [loadAll] at h
    cases e : d.load n with
    | error x => rw [e] at h; exact nomatch h
    | ok a =>
      rw [e] at h
      have h1 := hd d (List.mem_cons_self ..)
      have ha := C80_import d h1.1 n a hn e
      exact C82_ids ds (fun d' h' => hd d' (List.mem_cons_of_mem _ h')) a m ha
        (goodIds_of ha.sound (load_fine h1.2 (world_of hn hg) e) (load_ids h1.1 (order_K hn) ⟨hg.scenes, hg.chapters⟩ e)) h

/-- A project is opened, documents are imported, the project is saved to its file, and the file is opened again: the project has the structure it
had when it was saved, with everything that was imported. -/
theorem C82_kept (lib : PyLib) (sl sc : Str) (x out y : Elem) (n m k : Novel) (ds : List Import) (hd : ∀ d ∈ ds, d.Typed ∧ d.Once)
    (ht : ProjectTree x.kids) (hp : ProjectNode x.kids) (h0 : readTree lib x = .ok n) (hn : GoodIds n) (hl : (savedLanguages n).Nodup)
    (hc : ∀ p ∈ n.scenes, SavableStart p.2.date p.2.time p.2.day) (h : loadAll ds n = .ok m) (hw : writeTree sl sc m (some x) = .ok out)
    (hr : Reloaded out y) (hk : readTree lib y = .ok k) : SameStructure m k :=
  C22_structure lib sl sc m k (some x) out y ht (C82_ids ds hd n m (C80_opened lib x n ht hp h0 hn hl hc) hn h) hw hr hk

/-- The IDs of a new project are distinct and fit for a project file. -/
theorem C82_new (d : Beginning) (n m : Novel) (hn : NothingYet n) (h : d.make n = .ok m) : GoodIds m := by
  have hm := C81_made d n m hn h
  have good : ∀ (k : Nat), ∀ id ∈ ids k, GoodId id := by
    intro k id hid
    obtain ⟨i, _, rfl⟩ := List.mem_map.1 hid
    exact ⟨Str.ofNat_ne_nil _, plainStr_ofNat _⟩
  have hi : ∀ {n k j}, Numbered n k j → Ids n := by
    intro n k j hN
    exact ⟨fun id hid => good _ id (hN.scenes ▸ hid), fun id hid => good _ id (hN.srtChapters ▸ hid)⟩
  have fine : ∀ {α : Type} {d : Dict α} {l : List Str}, l = [] → Fine d l := by
    rintro α d l rfl
    exact ⟨fun _ h => absurd h List.not_mem_nil, List.nodup_nil, fun _ h => absurd h List.not_mem_nil⟩
  cases d with
  | outline f =>
    have h : readOdt outlineReader f n = .ok m := h
    obtain ⟨_, _, hN⟩ := C44_outline_structure_partial hn.empty h
    obtain ⟨h1, h2, h3, h4⟩ := (read_inv (P := Plain n) outline_plain (blank_plain hn) h).world
    exact goodIds_of hm.sound ⟨fine (h1.trans hn.characters), fine (h2.trans hn.locations), fine (h3.trans hn.items), fine (h4.trans hn.notes)⟩ (hi hN)
  | work f =>
    have h : (readFormatted importReader f n).map Prod.fst = .ok m := h
    unfold readFormatted at h
    cases hr : readOdt importReader f { n with languages := some [] } with
    | error x => rw [hr] at h; exact nomatch h
    | ok m1 =>
      rw [hr] at h
      have h : (splitScenes m1).map Prod.fst = .ok m := h
      have hb : NothingYet { n with languages := some [] } :=
        ⟨⟨hn.empty.chapters, hn.empty.scenes, hn.empty.srtChapters⟩, hn.characters, hn.locations, hn.items, hn.notes,
          fun l e => Option.some.inj e ▸ List.nodup_nil⟩
      obtain ⟨_, _, j, hN⟩ := C44_import_structure_partial hb.empty hr
      obtain ⟨h1, h2, h3, h4⟩ := (read_inv (P := Plain { n with languages := some [] }) import_plain (blank_plain hb) hr).world
      cases hs : splitScenes m1 with
      | error x => rw [hs] at h; exact nomatch h
      | ok p =>
        rw [hs] at h
        cases h
        have e : splitScenes m1 = (splitScenes m1).map (fun p => (texts m1 p.1, p.2)) := split_stays m1 m1
        rw [hs] at e
        have e : p = (texts m1 p.1, p.2) := Except.ok.inj e
        have e : p.1 = texts m1 p.1 := congrArg Prod.fst e
        have w : World m1 := ⟨fine (h1.trans hb.characters), fine (h2.trans hb.locations), fine (h3.trans hb.items), fine (h4.trans hb.notes)⟩
        have w' : World (texts m1 p.1) := ⟨w.characters, w.locations, w.items, w.notes⟩
        exact goodIds_of hm.sound (e ▸ w') (split_ids (b := p.2) hN.sound (hi hN) hs)

/-- A new project with anything imported into it is in its file, too. -/
theorem C82_new_kept (lib : PyLib) (sl sc : Str) (b : Beginning) (n a m k : Novel) (out y : Elem) (ds : List Import) (hd : ∀ d ∈ ds, d.Typed ∧ d.Once)
    (hn : NothingYet n) (hb : b.make n = .ok a) (h : loadAll ds a = .ok m) (hw : writeTree sl sc m none = .ok out)
    (hr : Reloaded out y) (hk : readTree lib y = .ok k) : SameStructure m k :=
  C22_structure lib sl sc m k none out y regular_newRoot.tree (C82_ids ds hd a m (C81_made b n a hn hb) (C82_new b n a hn hb) h) hw hr hk

/-! ### New projects can be opened again -/

namespace Kept

/-- The condition that the scenes have no dates and times. -/
def noStarts : Starts := ⟨fun d t y => d = none ∧ t = none ∧ y = none, ⟨rfl, rfl, rfl⟩⟩

theorem made_K [Starts] (d : Beginning) (n m : Novel) (hn : NothingYet n) (h : d.make n = .ok m) : K m := by
  cases d with
  | outline f =>
    have h : readOdt outlineReader f n = .ok m := h
    obtain ⟨_, _, hN⟩ := C44_outline_structure_partial hn.empty h
    exact numbered_K hN (read_inv (P := Plain n) outline_plain (blank_plain hn) h)
  | work f =>
    have h : (readFormatted importReader f n).map Prod.fst = .ok m := h
    unfold readFormatted at h
    cases hr : readOdt importReader f { n with languages := some [] } with
    | error x => rw [hr] at h; exact nomatch h
    | ok m1 =>
      rw [hr] at h
      have h : (splitScenes m1).map Prod.fst = .ok m := h
      have hb : NothingYet { n with languages := some [] } :=
        ⟨⟨hn.empty.chapters, hn.empty.scenes, hn.empty.srtChapters⟩, hn.characters, hn.locations, hn.items, hn.notes,
          fun l e => Option.some.inj e ▸ List.nodup_nil⟩
      obtain ⟨_, _, j, hN⟩ := C44_import_structure_partial hb.empty hr
      have hp := read_inv (P := Plain { n with languages := some [] }) import_plain (blank_plain hb) hr
      cases hs : splitScenes m1 with
      | error x => rw [hs] at h; exact nomatch h
      | ok p =>
        rw [hs] at h
        cases h
        exact split_keeps (numbered_K hN hp) (b := p.2) hs

theorem loadAll_K [Starts] : ∀ (ds : List Import), (∀ d ∈ ds, d.Typed) → ∀ (n m : Novel), K n → loadAll ds n = .ok m → K m
  | [], _, n, m, hn, h => by cases h; exact hn
  | d :: ds, hd, n, m, hn, h => by
    rw [loadAll] at h
    cases e : d.load n with
    | error x => rw [e] at h; exact nomatch h
    | ok a =>
      rw [e] at h
      exact loadAll_K ds (fun d' h' => hd d' (List.mem_cons_of_mem _ h')) a m (load_keeps (hd d (List.mem_cons_self ..)) hn e) h

theorem newRoot_entry {id : Str} {old : List Elem} (h : OldEntry newRoot.kids c!"SCENES" id old) : old = [Elem.leaf c!"ID" (some id)] := by
  rcases h with ⟨s, e, h1, h2, _⟩ | ⟨_, h⟩
  · have h1 : some (Elem.node c!"SCENES" none none []) = some s := h1
    cases h1
    exact absurd h2 List.not_mem_nil
  · exact h

end Kept

/-- A new project with anything imported into it can be saved, the file can be opened, and nothing of the structure is lost. -/
theorem C82_new_opens (lib : PyLib) (sl sc : Str) (b : Beginning) (n a m : Novel) (ds : List Import) (hd : ∀ d ∈ ds, d.Typed ∧ d.Once)
    (hn : NothingYet n) (hb : b.make n = .ok a) (h : loadAll ds a = .ok m) :
    ∃ out, writeTree sl sc m none = .ok out ∧ ∀ y, Reloaded out y → ∃ k, readTree lib y = .ok k ∧ SameStructure m k := by
  obtain ⟨out, hw⟩ := (C81_continued sl sc b ds (fun d h => (hd d h).1) n a m hn hb h).2
  have hk := @loadAll_K noStarts ds (fun d h => (hd d h).1) a m (@made_K noStarts b n a hn hb) h
  have hg := C82_ids ds hd a m (C81_made b n a hn hb) (C82_new b n a hn hb) h
  refine ⟨out, hw, fun y hr => ?_⟩
  obtain ⟨k, e⟩ := C45_readable lib sl sc m none out y regular_newRoot.tree hg hw hr (fun id s old hs ho => by
    cases newRoot_entry ho
    obtain ⟨_, ⟨_, h2, h3⟩, _⟩ := @K.sc noStarts _ hk id s hs
    have hsel : ∀ t ∈ [c!"Status", c!"Day", c!"Hour", c!"Minute"], ∀ e, ¬ e ∈ Xml.sel t [Elem.leaf c!"ID" (some id)] := by
      intro t ht e he
      unfold Xml.sel at he
      obtain ⟨h1, h5⟩ := List.mem_filter.1 he
      rw [List.mem_singleton] at h1
      subst h1
      simp only [List.mem_cons, List.not_mem_nil, or_false] at ht
      rcases ht with rfl | rfl | rfl | rfl <;> exact absurd (of_decide_eq_true h5 : c!"ID" = _) (by simp)
    exact ⟨fun t ht e he => absurd he (hsel t ht e), fun e he => absurd he (hsel _ (by simp) e),
      .inr ⟨fun y e => (nomatch h3.symm.trans e), fun t e => (nomatch h2.symm.trans e)⟩⟩)
  exact ⟨k, e, C82_new_kept lib sl sc b n a m k out y ds hd hn hb h hw hr e⟩

/-! ### Opened projects can be opened again -/

/-- The scenes of the file have regular states, days, hours and minutes. -/
def Spec.RegularScenes (lib : PyLib) (rk : List Elem) : Prop :=
  ∀ sec, Xml.find c!"SCENES" rk = some sec → ∀ e ∈ sec.kids,
    (∀ t ∈ [c!"Status", c!"Day", c!"Hour", c!"Minute"], ∀ x ∈ Xml.sel t e.kids, ∃ v, x.text = some v ∧ v ≠ [] ∧ PlainStr v) ∧
    ∀ x ∈ Xml.sel c!"Status" e.kids, ∀ v, x.text = some v → (lib.int v).isSome

/-- The beginning of a scene can be written and read: a date and a time, or a day that is a number, if there is one, and a time of three parts. -/
def Spec.ReadableStart (date time day : Option Str) : Prop :=
  (date ≠ none ∧ time ≠ none) ∨
    ((∀ y, day = some y → PlainStr y ∧ (y = [] → time = none ∨ time = some [])) ∧ ∀ t, time = some t → t = [] ∨ ∃ h m x, HMS t h m x)

namespace Kept

/-- This condition. -/
def readableStarts : Starts := ⟨ReadableStart, .inr ⟨fun _ e => (nomatch e), fun _ e => (nomatch e)⟩⟩

theorem order_K' [Starts] {n : Novel} (h : Ordered n) (hs : ∀ p ∈ n.scenes, Starts.P p.2.date p.2.time p.2.day) : K n where
  sound := h.sound
  sc := by
    intro k s e
    have hp : (k, s) ∈ n.scenes := mem_of_get? e
    exact ⟨(h.savable.scenes (k, s) hp).1, hs _ hp, fun t ht => h.counts k s t e ht⟩
  ch := fun k c e => h.chTypes (k, c) (mem_of_get? e)
  langs := h.languages

theorem leaf_sel {id : Str} : ∀ t ∈ [c!"Status", c!"Day", c!"Hour", c!"Minute"], ∀ e, ¬ e ∈ Xml.sel t [Elem.leaf c!"ID" (some id)] := by
  intro t ht e he
  unfold Xml.sel at he
  obtain ⟨h1, h5⟩ := List.mem_filter.1 he
  rw [List.mem_singleton] at h1
  subst h1
  simp only [List.mem_cons, List.not_mem_nil, or_false] at ht
  rcases ht with rfl | rfl | rfl | rfl <;> exact absurd (of_decide_eq_true h5 : c!"ID" = _) (by simp)

end Kept

/-- A project is opened, anything is imported, and the project is saved to its file: this succeeds, the file can be opened again, and nothing of the
structure is lost. -/
theorem C82_opens (lib : PyLib) (sl sc : Str) (x : Elem) (n m : Novel) (ds : List Import) (hd : ∀ d ∈ ds, d.Typed ∧ d.Once)
    (ht : ProjectTree x.kids) (hp : ProjectNode x.kids) (h0 : readTree lib x = .ok n) (hn : GoodIds n) (hl : (savedLanguages n).Nodup)
    (hc : ∀ p ∈ n.scenes, SavableStart p.2.date p.2.time p.2.day ∧ ReadableStart p.2.date p.2.time p.2.day) (hx : RegularScenes lib x.kids)
    (h : loadAll ds n = .ok m) :
    ∃ out, writeTree sl sc m (some x) = .ok out ∧ ∀ y, Reloaded out y → ∃ k, readTree lib y = .ok k ∧ SameStructure m k := by
  have ho := C80_opened lib x n ht hp h0 hn hl (fun p h => (hc p h).1)
  obtain ⟨out, hw⟩ := C80_opened_saved lib sl sc x n m ds (fun d h => (hd d h).1) ht hp h0 hn hl (fun p h => (hc p h).1) h
  have hk := @loadAll_K readableStarts ds (fun d h => (hd d h).1) n m (@order_K' readableStarts n ho (fun p h => (hc p h).2)) h
  have hg := C82_ids ds hd n m ho hn h
  refine ⟨out, hw, fun y hr => ?_⟩
  obtain ⟨k, e⟩ := C45_readable lib sl sc m (some x) out y ht hg hw hr (fun id s old hs hold => by
    have hstart := (@K.sc readableStarts _ hk id s hs).2.1
    rcases hold with ⟨sec, e, h1, h2, _, rfl⟩ | ⟨_, rfl⟩
    · exact ⟨(hx sec h1 e h2).1, (hx sec h1 e h2).2, hstart⟩
    · exact ⟨fun t ht e he => absurd he (leaf_sel t ht e), fun e he => absurd he (leaf_sel _ (by simp) e), hstart⟩)
  exact ⟨k, e, C22_structure lib sl sc m k (some x) out y ht hg hw hr e⟩

/-! ### A case -/

/-- A list of two locations. -/
def exTwoRows : XNode := exTable [worldTitles, [c!"LcID:1", c!"Here", c!"a place", c!"", c!"x, y"], [c!"LcID:12", c!"There", c!"", c!"T", c!""]]

/-- The documents of `exImports` with this list. -/
def exKept : List Import := exImports.take 2 ++ [.locList exTwoRows]

theorem exOrder_good : GoodIds exOrderNovel where
  sound := exOrder_ordered.sound
  locations := ⟨List.nodup_nil, fun _ h => absurd h List.not_mem_nil⟩
  items := ⟨List.nodup_nil, fun _ h => absurd h List.not_mem_nil⟩
  characters := ⟨List.nodup_nil, fun _ h => absurd h List.not_mem_nil⟩
  notes := ⟨List.nodup_nil, fun _ h => absurd h List.not_mem_nil⟩
  scenes := by
    intro id h
    have : id = c!"1" := by simpa [exOrderNovel, Dict.keys] using h
    subst this
    exact goodId_digits (by decide) (by decide)
  chapters := by
    intro id h
    have : id = c!"1" := by simpa [exOrderNovel] using h
    subst this
    exact goodId_digits (by decide) (by decide)

theorem exKept_typed : ∀ d ∈ exKept, d.Typed ∧ d.Once := by
  intro d hd
  simp only [exKept, exImports, List.take, List.cons_append, List.nil_append, List.mem_cons, List.not_mem_nil, or_false] at hd
  rcases hd with rfl | rfl | rfl
  · exact ⟨Nat.zero_le _, trivial⟩
  · exact ⟨trivial, trivial⟩
  · refine ⟨trivial, ?_⟩
    have ht : (readTable worldTitles.length exTwoRows).toOption.all (fun rows => decide (namedIn c!"LcID:" rows).Nodup) = true := by
      set_option maxRecDepth 1000000 in decide +kernel
    intro rows hr
    rw [hr] at ht
    exact of_decide_eq_true ht

/-- The imports succeed and change the project, and the IDs are distinct. -/
theorem C82_demo :
    ((loadAll exKept exOrderNovel).toOption.map fun m => (m.srtChapters, m.scenes.keys, m.srtCharacters, m.srtLocations)) =
      some ([c!"1", c!"7"], [c!"1", c!"2"], [c!"1"], [c!"1", c!"12"]) ∧
    ∀ m, loadAll exKept exOrderNovel = .ok m → GoodIds m ∧ ∀ lib sl sc out y k, writeTree sl sc m none = .ok out → Reloaded out y →
      readTree lib y = .ok k → SameStructure m k := by
  have hd := exKept_typed
  refine ⟨?_, fun m h => ?_⟩
  · set_option maxRecDepth 1000000 in decide +kernel
  · have hg := C82_ids exKept hd _ m exOrder_ordered exOrder_good h
    exact ⟨hg, fun lib sl sc out y k hw hr hk => C22_structure lib sl sc m k none out y regular_newRoot.tree hg hw hr hk⟩

/-- The condition on the scenes of a file, to be computed. -/
def regularScenesB (lib : PyLib) (rk : List Elem) : Bool :=
  match Xml.find c!"SCENES" rk with
  | none => true
  | some sec => sec.kids.all (fun e =>
      [c!"Status", c!"Day", c!"Hour", c!"Minute"].all (fun t => (Xml.sel t e.kids).all (fun x =>
        match x.text with | none => false | some v => !v.isEmpty && plainB v)) &&
      (Xml.sel c!"Status" e.kids).all (fun x => match x.text with | none => true | some v => (lib.int v).isSome))

theorem regularScenes_of {lib : PyLib} {rk : List Elem} (h : regularScenesB lib rk = true) : RegularScenes lib rk := by
  intro sec hs e he
  unfold regularScenesB at h
  rw [hs] at h
  have h := List.all_eq_true.1 h e he
  rw [Bool.and_eq_true] at h
  refine ⟨fun t ht x hx => ?_, fun x hx v hv => ?_⟩
  · have := List.all_eq_true.1 (List.all_eq_true.1 h.1 t ht) x hx
    cases hv : x.text with
    | none => rw [hv] at this; exact nomatch this
    | some v =>
      rw [hv] at this
      simp only [Bool.and_eq_true, Bool.not_eq_true', List.isEmpty_eq_false_iff] at this
      exact ⟨v, rfl, this.1, (plainB_iff _).1 this.2⟩
  · have := List.all_eq_true.1 h.2 x hx
    rw [hv] at this
    exact this

/-- The documents are imported into a project with chapters, scenes with dates, days and times, characters, a location, an item and a note, which is
opened from its file and saved to it: the import changes it, and the file can be opened again. -/
theorem C82_opens_demo (sl sc : Str) :
    ((loadAll exKept stPrj).toOption.map fun m => (m.srtChapters, m.scenes.keys, m.srtCharacters, m.srtLocations)) =
      some ([c!"2", c!"1", c!"7"], [c!"1", c!"2", c!"3", c!"4"], [c!"2", c!"1"], [c!"1", c!"12"]) ∧
    ∀ m, loadAll exKept stPrj = .ok m → ∃ out, writeTree sl sc m (some stTree) = .ok out ∧
      ∀ y, Reloaded out y → ∃ k, readTree exLib y = .ok k ∧ SameStructure m k := by
  refine ⟨by set_option maxRecDepth 1000000 in decide +kernel, fun m h => ?_⟩
  refine C82_opens exLib sl sc stTree stPrj m exKept exKept_typed st_regular.tree st_regular.node st_read st_settled.ids (by decide +kernel) ?_
    (regularScenes_of (by decide +kernel)) h
  intro p hp
  refine ⟨(st_savable.scenes p hp).2, ?_⟩
  rcases (st_settled.scenes p.1 p.2 (get?_of_mem_nodup st_settled.ids.sound.scKeys hp)).start with
    ⟨d, t, h1, h2, _⟩ | ⟨_, h2, h3⟩ | ⟨_, y, h1, h4, h5, _, h2⟩
  · exact .inl ⟨by rw [h1]; simp, by rw [h2]; simp⟩
  · exact .inr ⟨fun y e => (nomatch h3.symm.trans e), fun y e => (nomatch h2.symm.trans e)⟩
  · refine .inr ⟨fun z e => ?_, fun t e => ?_⟩
    · rw [h1] at e
      cases e
      exact ⟨h5, fun e => absurd e h4⟩
    · rcases h2 with h2 | ⟨t', hh, mm, h2, h3⟩
      · exact nomatch h2.symm.trans e
      · rw [h2] at e
        cases e
        exact .inr ⟨hh, mm, _, h3⟩

/-- A work in progress and the same documents: the new project can be saved and opened. -/
theorem C82_new_demo (lib : PyLib) (sl sc : Str) :
    let work : Beginning := .work ⟨plainStyles, none, exHead ++ parEvents c!"Standard" c!"text\n### Two\nmore"⟩
    ((do let a ← work.make {}; loadAll exKept a : Except Exc Novel).toOption.map fun m => (m.srtChapters, m.scenes.keys, m.srtCharacters, m.srtLocations)) =
      some ([c!"1", c!"7"], [c!"1", c!"2", c!"3"], [c!"1"], [c!"1", c!"12"]) ∧
    ∀ a m, work.make {} = .ok a → loadAll exKept a = .ok m →
      ∃ out, writeTree sl sc m none = .ok out ∧ ∀ y, Reloaded out y → ∃ k, readTree lib y = .ok k ∧ SameStructure m k :=
  ⟨by set_option maxRecDepth 1000000 in decide +kernel, fun a m h1 h2 => C82_new_opens lib sl sc _ _ a m exKept exKept_typed nothing_new h1 h2⟩

/-- Without the condition the IDs need not be distinct: a list with three rows for one location lists it three times. -/
theorem C82_repeated : (readLocList exRows {}).toOption.map (fun m => m.srtLocations) = some [c!"1", c!"1", c!"1"] := by
  decide +kernel

end Verif
