/-
Lemmas about the sections of the project tree: writing (`buildRoot`) and reading (`readRoot`).
-/
import Verif.Lemmas.Yw7Scene2
import Verif.Lemmas.Yw7Chapter
import Verif.Model.Yw7Read

namespace Verif
open Xml Elem Spec

/-! ### `mapE` -/

theorem mapE_cons_ok {α β : Type} {f : α → Except Exc β} {a : α} {r : List α} {out : List β}
    (h : mapE f (a :: r) = .ok out) : ∃ b bs, f a = .ok b ∧ mapE f r = .ok bs ∧ out = b :: bs := by
  unfold mapE at h
  cases hb : f a with
  | error e => rw [hb] at h; cases h
  | ok b =>
    rw [hb] at h
    simp only at h
    cases hbs : mapE f r with
    | error e => rw [hbs] at h; cases h
    | ok bs => rw [hbs] at h; cases h; exact ⟨b, bs, rfl, rfl, rfl⟩

theorem mapE_cons_of {α β : Type} {f : α → Except Exc β} {a : α} {r : List α} {b : β} {bs : List β}
    (h1 : f a = .ok b) (h2 : mapE f r = .ok bs) : mapE f (a :: r) = .ok (b :: bs) := by
  unfold mapE; rw [h1]; simp only; rw [h2]

theorem mapE_mem {α β : Type} {f : α → Except Exc β} {l : List α} {out : List β}
    (h : mapE f l = .ok out) : ∀ a ∈ l, ∃ b ∈ out, f a = .ok b := by
  induction l generalizing out with
  | nil => simp
  | cons a r ih =>
    obtain ⟨b, bs, h1, h2, rfl⟩ := mapE_cons_ok h
    intro x hx
    rcases List.mem_cons.1 hx with rfl | hx
    · exact ⟨b, by simp, h1⟩
    · obtain ⟨c, hc, hf⟩ := ih h2 x hx
      exact ⟨c, by simp [hc], hf⟩

theorem mapE_mem' {α β : Type} {f : α → Except Exc β} {l : List α} {out : List β}
    (h : mapE f l = .ok out) : ∀ b ∈ out, ∃ a ∈ l, f a = .ok b := by
  induction l generalizing out with
  | nil => unfold mapE at h; cases h; simp
  | cons a r ih =>
    obtain ⟨b, bs, h1, h2, rfl⟩ := mapE_cons_ok h
    intro x hx
    rcases List.mem_cons.1 hx with rfl | hx
    · exact ⟨a, by simp, h1⟩
    · obtain ⟨c, hc, hf⟩ := ih h2 x hx
      exact ⟨c, by simp [hc], hf⟩

/-- Composition of two passes over a list. -/
theorem mapE_mapE {α β γ : Type} {f : α → Except Exc β} {g : β → Except Exc γ} {h : α → γ}
    {l : List α} {out : List β} (hf : mapE f l = .ok out)
    (hg : ∀ a ∈ l, ∀ b, f a = .ok b → g b = .ok (h a)) : mapE g out = .ok (l.map h) := by
  induction l generalizing out with
  | nil => unfold mapE at hf; cases hf; rfl
  | cons a r ih =>
    obtain ⟨b, bs, h1, h2, rfl⟩ := mapE_cons_ok hf
    exact mapE_cons_of (hg a (by simp) b h1) (ih h2 (fun x hx => hg x (by simp [hx])))

/-! ### Sections -/

theorem find_mem {t : Str} {ks : List Elem} {e : Elem} (h : find t ks = some e) : e ∈ ks ∧ e.tag = t := by
  unfold find at h
  exact ⟨List.mem_of_find?_eq_some h, by simpa using List.find?_some h⟩

theorem find_of_sel_eq {t : Str} {a b : List Elem} (h : sel t a = sel t b) : find t a = find t b := by
  rw [find_eq, find_eq, h]

theorem find_append_of_none {t : Str} {ks : List Elem} {e : Elem} (ht : e.tag = t)
    (h : find t ks = none) : find t (ks ++ [e]) = some e := by
  unfold find at h ⊢
  rw [List.find?_append, h]
  simp [ht]

theorem onSection_ok {t : Str} {f : List Elem → Except Exc (List Elem)} {rk out : List Elem}
    (h : onSection t f rk = .ok out) : ∃ e ks, find t rk = some e ∧ f e.kids = .ok ks ∧
      find t out = some (e.mapKids (fun _ => ks)) ∧
      (∀ u, u ≠ t → sel u out = sel u rk) := by
  unfold onSection at h
  cases he : find t rk with
  | none => rw [he] at h; cases h
  | some e =>
    rw [he] at h
    simp only at h
    cases hf : f e.kids with
    | error x => rw [hf] at h; cases h
    | ok ks =>
      rw [hf] at h
      cases h
      refine ⟨e, ks, rfl, hf, ?_, ?_⟩
      · rw [find_eq, sel_modFirst_self t (by simp)]
        rw [find_eq] at he
        cases hs : sel t rk with
        | nil => rw [hs] at he; cases he
        | cons a r => rw [hs] at he; cases he; rfl
      · intro u hu
        exact (touches_modFirst t (by simp)).sel_ne (Ne.symm hu) rk

/-- What `buildRoot` makes of the sections of the root. -/
theorem buildRoot_ok {sl sc : Str} {n : Novel} {rk out : List Elem} (h : buildRoot sl sc n rk = .ok out) :
    (∃ e, find c!"PROJECT" rk = some e ∧ find c!"PROJECT" out = some (e.mapKids (buildProject n))) ∧
    (∃ e ks, find c!"LOCATIONS" rk = some e ∧
      rebuildSection c!"LOCATION" n.locations buildWorld n.srtLocations e.kids = .ok ks ∧
      find c!"LOCATIONS" out = some (e.mapKids (fun _ => ks))) ∧
    (∃ e ks, find c!"ITEMS" rk = some e ∧
      rebuildSection c!"ITEM" n.items buildWorld n.srtItems e.kids = .ok ks ∧
      find c!"ITEMS" out = some (e.mapKids (fun _ => ks))) ∧
    (∃ e ks, find c!"CHARACTERS" rk = some e ∧
      rebuildSection c!"CHARACTER" n.characters buildCharacter n.srtCharacters e.kids = .ok ks ∧
      find c!"CHARACTERS" out = some (e.mapKids (fun _ => ks))) ∧
    (∃ rk2 rk3, buildNotes n rk2 = .ok rk3 ∧ sel c!"PROJECTNOTES" rk2 = sel c!"PROJECTNOTES" rk ∧
      find c!"PROJECTNOTES" out = find c!"PROJECTNOTES" rk3) ∧
    (∃ rk2 rk3, buildProjectVars sl sc n rk2 = .ok rk3 ∧ sel c!"PROJECTVARS" rk2 = sel c!"PROJECTVARS" rk ∧
      sel c!"PROJECTVARS" out = sel c!"PROJECTVARS" rk3) ∧
    (∃ e k1 k2, find c!"SCENES" rk = some e ∧ buildScenes n e.kids = .ok k1 ∧
      finishScenes n k1 = .ok k2 ∧ find c!"SCENES" out = some (e.mapKids (fun _ => k2))) ∧
    (∃ e ks, find c!"CHAPTERS" rk = some e ∧ buildChapters n e.kids = .ok ks ∧
      find c!"CHAPTERS" out = some (e.mapKids (fun _ => ks))) := by
  unfold buildRoot at h
  simp only [bind, Except.bind] at h
  cases h1 : onSection c!"PROJECT" (fun ks => .ok (buildProject n ks)) rk with
  | error x => rw [h1] at h; cases h
  | ok r1 =>
  rw [h1] at h; simp only at h
  cases h2 : onSection c!"LOCATIONS" (rebuildSection c!"LOCATION" n.locations buildWorld n.srtLocations) r1 with
  | error x => rw [h2] at h; cases h
  | ok r2 =>
  rw [h2] at h; simp only at h
  cases h3 : onSection c!"ITEMS" (rebuildSection c!"ITEM" n.items buildWorld n.srtItems) r2 with
  | error x => rw [h3] at h; cases h
  | ok r3 =>
  rw [h3] at h; simp only at h
  cases h4 : onSection c!"CHARACTERS" (rebuildSection c!"CHARACTER" n.characters buildCharacter n.srtCharacters) r3 with
  | error x => rw [h4] at h; cases h
  | ok r4 =>
  rw [h4] at h; simp only at h
  cases h5 : buildNotes n r4 with
  | error x => rw [h5] at h; cases h
  | ok r5 =>
  rw [h5] at h; simp only at h
  cases h6 : buildProjectVars sl sc n r5 with
  | error x => rw [h6] at h; cases h
  | ok r6 =>
  rw [h6] at h; simp only at h
  cases h7 : onSection c!"SCENES" (buildScenes n) r6 with
  | error x => rw [h7] at h; cases h
  | ok r7 =>
  rw [h7] at h; simp only at h
  cases h8 : onSection c!"CHAPTERS" (buildChapters n) r7 with
  | error x => rw [h8] at h; cases h
  | ok r8 =>
  rw [h8] at h; simp only at h
  have n5 : ∀ u, u ≠ c!"PROJECTNOTES" → sel u r5 = sel u r4 := by
    intro u hu
    unfold buildNotes at h5
    split at h5
    · cases h5
      exact sel_removeFirst_ne (Ne.symm hu) r4
    · obtain ⟨e, ks, _, _, _, hs⟩ := onSection_ok h5
      rw [hs u hu]
      split
      · rfl
      · simp [sel, List.filter_append, Ne.symm hu]
  have n6 : ∀ u, u ≠ c!"PROJECTVARS" → sel u r6 = sel u r5 := by
    intro u hu
    unfold buildProjectVars at h6
    split at h6
    · cases h6; rfl
    · obtain ⟨e, ks, _, _, _, hs⟩ := onSection_ok h6
      rw [hs u hu]
      split
      · rfl
      · simp [sel, List.filter_append, Ne.symm hu]
  obtain ⟨e1, k1, a1, b1, c1, n1⟩ := onSection_ok h1
  obtain ⟨e2, k2, a2, b2, c2, n2⟩ := onSection_ok h2
  obtain ⟨e3, k3, a3, b3, c3, n3⟩ := onSection_ok h3
  obtain ⟨e4, k4, a4, b4, c4, n4⟩ := onSection_ok h4
  obtain ⟨e7, k7, a7, b7, c7, n7⟩ := onSection_ok h7
  obtain ⟨e8, k8, a8, b8, c8, n8⟩ := onSection_ok h8
  obtain ⟨e9, k9, a9, b9, c9, n9⟩ := onSection_ok h
  refine ⟨⟨e1, a1, ?_⟩, ⟨e2, k2, ?_, b2, ?_⟩, ⟨e3, k3, ?_, b3, ?_⟩, ⟨e4, k4, ?_, b4, ?_⟩,
    ⟨r4, r5, h5, ?_, ?_⟩, ⟨r5, r6, h6, ?_, ?_⟩, ⟨e7, k7, k9, ?_, b7, ?_, ?_⟩, ⟨e8, k8, ?_, b8, ?_⟩⟩
  · rw [find_eq, n9 _ (by decide), n8 _ (by decide), n7 _ (by decide), n6 _ (by decide), n5 _ (by decide),
      n4 _ (by decide), n3 _ (by decide), n2 _ (by decide), ← find_eq, c1]
    cases b1
    cases e1; rfl
  · rw [find_eq, ← n1 _ (by decide), ← find_eq, a2]
  · rw [find_eq, n9 _ (by decide), n8 _ (by decide), n7 _ (by decide), n6 _ (by decide), n5 _ (by decide),
      n4 _ (by decide), n3 _ (by decide), ← find_eq, c2]
  · rw [find_eq, ← n1 _ (by decide), ← n2 _ (by decide), ← find_eq, a3]
  · rw [find_eq, n9 _ (by decide), n8 _ (by decide), n7 _ (by decide), n6 _ (by decide), n5 _ (by decide),
      n4 _ (by decide), ← find_eq, c3]
  · rw [find_eq, ← n1 _ (by decide), ← n2 _ (by decide), ← n3 _ (by decide), ← find_eq, a4]
  · rw [find_eq, n9 _ (by decide), n8 _ (by decide), n7 _ (by decide), n6 _ (by decide), n5 _ (by decide),
      ← find_eq, c4]
  · rw [n4 _ (by decide), n3 _ (by decide), n2 _ (by decide), n1 _ (by decide)]
  · rw [find_eq, n9 _ (by decide), n8 _ (by decide), n7 _ (by decide), n6 _ (by decide), ← find_eq]
  · rw [n5 _ (by decide), n4 _ (by decide), n3 _ (by decide), n2 _ (by decide), n1 _ (by decide)]
  · rw [n9 _ (by decide), n8 _ (by decide), n7 _ (by decide)]
  · rw [find_eq, ← n1 _ (by decide), ← n2 _ (by decide), ← n3 _ (by decide), ← n4 _ (by decide),
      ← n5 _ (by decide), ← n6 _ (by decide), ← find_eq, a7]
  · rw [find_eq, n8 _ (by decide), ← find_eq, c7] at a9
    cases a9
    cases e7; exact b9
  · rw [find_eq, n8 _ (by decide), ← find_eq, c7] at a9
    cases a9
    rw [c9]
    cases e7; rfl
  · rw [find_eq, ← n1 _ (by decide), ← n2 _ (by decide), ← n3 _ (by decide), ← n4 _ (by decide),
      ← n5 _ (by decide), ← n6 _ (by decide), ← n7 _ (by decide), ← find_eq, a8]
  · rw [find_eq, n9 _ (by decide), ← find_eq, c8]

/-! ### Reloading -/

theorem Spec.ReloadedL.find {ks ks' : List Elem} (h : ReloadedL ks ks') {t : Str} {e : Elem}
    (he : Xml.find t ks = some e) : ∃ e', Xml.find t ks' = some e' ∧ Reloaded e e' := by
  have hs := h.sel t
  rw [find_eq] at he
  rw [find_eq]
  cases hk : Xml.sel t ks with
  | nil => rw [hk] at he; cases he
  | cons a r =>
    rw [hk] at he hs
    cases he
    generalize Xml.sel t ks' = q at hs
    cases hs with
    | cons _ e' _ r' h1 h2 => exact ⟨e', rfl, h1⟩

theorem Spec.ReloadedL.find_none {ks ks' : List Elem} (h : ReloadedL ks ks') {t : Str}
    (he : Xml.find t ks = none) : Xml.find t ks' = none := by
  have hs := h.sel t
  rw [find_eq] at he ⊢
  cases hk : Xml.sel t ks with
  | nil =>
    rw [hk] at hs
    generalize Xml.sel t ks' = q at hs
    cases hs; rfl
  | cons a r => rw [hk] at he; cases he

theorem Spec.ReloadedL.mem {ks ks' : List Elem} (h : ReloadedL ks ks') :
    ∀ e ∈ ks, ∃ e' ∈ ks', Reloaded e e' := by
  induction ks generalizing ks' with
  | nil => simp
  | cons a r ih =>
    cases h with
    | cons _ e' _ r' h1 h2 =>
      intro x hx
      rcases List.mem_cons.1 hx with rfl | hx
      · exact ⟨e', by simp, h1⟩
      · obtain ⟨y, hy, hr⟩ := ih h2 x hx
        exact ⟨y, by simp [hy], hr⟩

theorem Spec.ReloadedL.mem' {ks ks' : List Elem} (h : ReloadedL ks ks') :
    ∀ e' ∈ ks', ∃ e ∈ ks, Reloaded e e' := by
  induction ks generalizing ks' with
  | nil => cases h; simp
  | cons a r ih =>
    cases h with
    | cons _ e' _ r' h1 h2 =>
      intro x hx
      rcases List.mem_cons.1 hx with rfl | hx
      · exact ⟨a, by simp, h1⟩
      · obtain ⟨y, hy, hr⟩ := ih h2 x hx
        exact ⟨y, by simp [hy], hr⟩

/-- The element has the ID, and its ID elements have no children. -/
def HasId (id : Str) (e : Elem) : Prop := idOf e = .ok id ∧ ∀ i ∈ sel c!"ID" e.kids, i.kids = []

theorem idOf_eq (e : Elem) : idOf e = match find c!"ID" e.kids with
    | none => .error .attributeError
    | some _ => match textOf c!"ID" e.kids with
      | none => .error .typeError
      | some s => .ok s := by
  unfold idOf textOf
  cases find c!"ID" e.kids <;> rfl

theorem idOf_ok_iff (e : Elem) (id : Str) : idOf e = .ok id ↔ textOf c!"ID" e.kids = some id := by
  unfold idOf textOf
  cases h : find c!"ID" e.kids with
  | none => simp
  | some i =>
    simp only [Option.bind_some]
    cases i.text <;> simp

theorem HasId.reloaded {id : Str} {e e' : Elem} (h : HasId id e) (hr : Reloaded e e')
    (hid : id ≠ [] ∧ PlainStr id) : HasId id e' := by
  obtain ⟨h1, h2⟩ := h
  rw [idOf_ok_iff] at h1
  refine ⟨?_, ?_⟩
  · rw [idOf_ok_iff]
    have := hr.kids.textOf (t := c!"ID") h2 (Or.inr (by intro s hs; rw [h1] at hs; cases hs; exact hid.2))
    rw [this, h1, readText_ne hid.1]
  · intro i hi
    obtain ⟨j, hj, hrj⟩ := (hr.kids.sel c!"ID").mem' i hi
    have hk := hrj.kids
    rw [h2 j hj] at hk
    cases hik : i.kids with
    | nil => rfl
    | cons _ _ => rw [hik] at hk; cases hk

/-! ### Reading the entries of a section -/

/-- Given distinct IDs, the entries are read one by one in document order. -/
theorem readEntries_ok {α : Type} {f : List Elem → Except Exc α} {ks : List Elem}
    {acc res : List Str × Dict α} (h : readEntries f acc ks = .ok res) :
    ∃ ids, mapE idOf ks = .ok ids ∧ res.1 = acc.1 ++ ids ∧
      ((acc.2.keys ++ ids).Nodup → res.2.keys = acc.2.keys ++ ids ∧
        (∀ id, id ∉ ids → res.2.get? id = acc.2.get? id) ∧
        ∀ e ∈ ks, ∀ id, idOf e = .ok id → ∃ a, f e.kids = .ok a ∧ res.2.get? id = some a) := by
  induction ks generalizing acc with
  | nil =>
    unfold readEntries at h
    cases h
    exact ⟨[], rfl, by simp, by simp⟩
  | cons e r ih =>
    unfold readEntries at h
    cases hi : idOf e with
    | error x => rw [hi] at h; cases h
    | ok id =>
      rw [hi] at h; simp only at h
      cases hf : f e.kids with
      | error x => rw [hf] at h; cases h
      | ok a =>
        rw [hf] at h; simp only at h
        obtain ⟨ids, h1, h2, h3⟩ := ih h
        refine ⟨id :: ids, mapE_cons_of hi h1, by rw [h2]; simp, ?_⟩
        intro hnd
        have hnd' : (acc.2.keys ++ [id] ++ ids).Nodup := by simpa using hnd
        have hnid : id ∉ acc.2.keys := by
          rw [List.append_assoc, List.nodup_append] at hnd'
          intro hm
          exact hnd'.2.2 id hm id (by simp) rfl
        have hnids : id ∉ ids := by
          rw [List.nodup_append] at hnd
          exact (List.nodup_cons.1 hnd.2.1).1
        have hk := Dict.keys_set_of_not_mem acc.2 id a hnid
        simp only at h3
        rw [hk] at h3
        obtain ⟨g1, g2, g3⟩ := h3 hnd'
        refine ⟨by rw [g1]; simp, ?_, ?_⟩
        · intro x hx
          simp only [List.mem_cons, not_or] at hx
          rw [g2 x hx.2, Dict.get?_set_ne _ _ (Ne.symm hx.1)]
        · intro y hy z hz
          rcases List.mem_cons.1 hy with rfl | hy
          · rw [hi] at hz; cases hz
            refine ⟨a, hf, ?_⟩
            rw [g2 id hnids, Dict.get?_set]; simp
          · exact g3 y hy z hz

/-- Reading succeeds if every entry can be read. -/
theorem readEntries_total {α : Type} {f : List Elem → Except Exc α} {ks : List Elem}
    (acc : List Str × Dict α) (h : ∀ e ∈ ks, (∃ id, idOf e = .ok id) ∧ ∃ a, f e.kids = .ok a) :
    ∃ res, readEntries f acc ks = .ok res := by
  induction ks generalizing acc with
  | nil => exact ⟨acc, rfl⟩
  | cons e r ih =>
    obtain ⟨⟨id, hi⟩, a, ha⟩ := h e (by simp)
    unfold readEntries
    rw [hi]; simp only; rw [ha]; simp only
    exact ih _ (fun x hx => h x (by simp [hx]))

end Verif
