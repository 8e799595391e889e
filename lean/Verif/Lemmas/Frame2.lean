/-
Frame conditions of the ODT readers: preservation by the readers' calls.
-/
import Verif.Lemmas.Frame

namespace Verif
open Spec

section
variable {occS occC : Str → Prop} {SR : Scene → Scene → Prop} {CR : Chapter → Chapter → Prop} {n m : Novel}

theorem Spec.OnlyChanged.refl (n : Novel) : OnlyChanged occS occC SR CR n n where
  scenes := fun _ s h => ⟨s, h, .inl rfl⟩
  newScenes := ⟨[], by simp, by simp⟩
  chapters := fun _ c h => ⟨c, h, .inl rfl⟩
  newChapters := ⟨[], by simp, by simp⟩
  order := ⟨[], by simp, by simp⟩
  rest := rfl

/-- Relations that can be composed. -/
def TransRel {α : Type} (R : α → α → Prop) : Prop := ∀ a b c, R a b → R b c → R a c

theorem Spec.OnlyChanged.modScene (h : OnlyChanged occS occC SR CR n m) (ht : TransRel SR) {id : Str} (ho : occS id) (f : Scene → Scene)
    (hf : ∀ s, SR s (f s)) : OnlyChanged occS occC SR CR n { m with scenes := m.scenes.modify id f } where
  scenes := by
    intro k s hk
    obtain ⟨s', h1, h2⟩ := h.scenes k s hk
    show ∃ s'', (m.scenes.modify id f).get? k = some s'' ∧ _
    rw [Dict.get?_modify]
    by_cases hid : id = k
    · subst hid
      refine ⟨f s', by simp [h1], .inr ⟨ho, ?_⟩⟩
      rcases h2 with rfl | h2
      · exact hf _
      · exact ht _ _ _ h2.2 (hf _)
    · exact ⟨s', by simp [hid, h1], h2⟩
  newScenes := by
    show ∃ new, (m.scenes.modify id f).keys = _ ∧ _
    rw [Dict.keys_modify]
    exact h.newScenes
  chapters := h.chapters
  newChapters := h.newChapters
  order := h.order
  rest := h.rest

theorem Spec.OnlyChanged.modChapter (h : OnlyChanged occS occC SR CR n m) (ht : TransRel CR) {id : Str} (ho : occC id) (f : Chapter → Chapter)
    (hf : ∀ c, m.chapters.get? id = some c → CR c (f c)) : OnlyChanged occS occC SR CR n { m with chapters := m.chapters.modify id f } where
  scenes := h.scenes
  newScenes := h.newScenes
  chapters := by
    intro k s hk
    obtain ⟨s', h1, h2⟩ := h.chapters k s hk
    show ∃ s'', (m.chapters.modify id f).get? k = some s'' ∧ _
    rw [Dict.get?_modify]
    by_cases hid : id = k
    · subst hid
      refine ⟨f s', by simp [h1], .inr ⟨ho, ?_⟩⟩
      rcases h2 with rfl | h2
      · exact hf _ h1
      · exact ht _ _ _ h2.2 (hf _ h1)
    · exact ⟨s', by simp [hid, h1], h2⟩
  newChapters := by
    show ∃ new, (m.chapters.modify id f).keys = _ ∧ _
    rw [Dict.keys_modify]
    exact h.newChapters
  order := h.order
  rest := h.rest

theorem keys_set_new {α : Type} {d : Dict α} {k : Str} {v : α} (h : d.get? k = none) : (d.set k v).keys = d.keys ++ [k] := by
  induction d with
  | nil => rfl
  | cons p d ih =>
    obtain ⟨k', v'⟩ := p
    simp only [Dict.get?] at h
    split at h
    · cases h
    · rename_i hk
      simp only [Dict.set, hk, if_false, Dict.keys, List.map_cons, List.cons_append]
      exact congrArg _ (ih h)

/-- A scene the novel does not have is not in the original either. -/
theorem Spec.OnlyChanged.noneScene (h : OnlyChanged occS occC SR CR n m) {id : Str} (hm : m.scenes.get? id = none) : n.scenes.get? id = none := by
  cases hn : n.scenes.get? id with
  | none => rfl
  | some s =>
    obtain ⟨s', h1, _⟩ := h.scenes id s hn
    rw [hm] at h1
    cases h1

/-- A chapter the novel does not have is not in the original either. -/
theorem Spec.OnlyChanged.noneChapter (h : OnlyChanged occS occC SR CR n m) {id : Str} (hm : m.chapters.get? id = none) : n.chapters.get? id = none := by
  cases hn : n.chapters.get? id with
  | none => rfl
  | some s =>
    obtain ⟨s', h1, _⟩ := h.chapters id s hn
    rw [hm] at h1
    cases h1

theorem Spec.OnlyChanged.addScene (h : OnlyChanged occS occC SR CR n m) {id : Str} (ho : occS id) (hm : m.scenes.get? id = none) (s0 : Scene) :
    OnlyChanged occS occC SR CR n { m with scenes := m.scenes.set id s0 } where
  scenes := by
    intro k s hk
    obtain ⟨s', h1, h2⟩ := h.scenes k s hk
    show ∃ s'', (m.scenes.set id s0).get? k = some s'' ∧ _
    rw [Dict.get?_set]
    by_cases hid : id = k
    · subst hid
      rw [hm] at h1
      cases h1
    · exact ⟨s', by simp [hid, h1], h2⟩
  newScenes := by
    obtain ⟨new, h1, h2⟩ := h.newScenes
    refine ⟨new ++ [id], ?_, ?_⟩
    · show (m.scenes.set id s0).keys = _
      rw [keys_set_new hm, h1, List.append_assoc]
    · intro k hk
      rcases List.mem_append.1 hk with hk | hk
      · exact h2 k hk
      · rw [List.mem_singleton] at hk
        subst hk
        exact ⟨ho, h.noneScene hm⟩
  chapters := h.chapters
  newChapters := h.newChapters
  order := h.order
  rest := h.rest

theorem Spec.OnlyChanged.addChapter (h : OnlyChanged occS occC SR CR n m) {id : Str} (ho : occC id) (hm : m.chapters.get? id = none) (c0 : Chapter) :
    OnlyChanged occS occC SR CR n { m with chapters := m.chapters.set id c0, srtChapters := m.srtChapters ++ [id] } where
  scenes := h.scenes
  newScenes := h.newScenes
  chapters := by
    intro k s hk
    obtain ⟨s', h1, h2⟩ := h.chapters k s hk
    show ∃ s'', (m.chapters.set id c0).get? k = some s'' ∧ _
    rw [Dict.get?_set]
    by_cases hid : id = k
    · subst hid
      rw [hm] at h1
      cases h1
    · exact ⟨s', by simp [hid, h1], h2⟩
  newChapters := by
    obtain ⟨new, h1, h2⟩ := h.newChapters
    refine ⟨new ++ [id], ?_, ?_⟩
    · show (m.chapters.set id c0).keys = _
      rw [keys_set_new hm, h1, List.append_assoc]
    · intro k hk
      rcases List.mem_append.1 hk with hk | hk
      · exact h2 k hk
      · rw [List.mem_singleton] at hk
        subst hk
        exact ⟨ho, h.noneChapter hm⟩
  order := by
    obtain ⟨new, h1, h2⟩ := h.order
    refine ⟨new ++ [id], by simp [h1], ?_⟩
    intro k hk
    rcases List.mem_append.1 hk with hk | hk
    · exact h2 k hk
    · rw [List.mem_singleton] at hk
      subst hk
      exact ⟨ho, h.noneChapter hm⟩
  rest := h.rest

end

/-- What the reader's state satisfies. -/
structure Framed (occS occC : Str → Prop) (SR : Scene → Scene → Prop) (CR : Chapter → Chapter → Prop) (n : Novel) (r : Rd) : Prop where
  novel : OnlyChanged occS occC SR CR n r.novel
  scene : ∀ id, r.scId = some id → occS id
  chapter : ∀ id, r.chId = some id → occC id

section
variable {occS occC : Str → Prop} {SR : Scene → Scene → Prop} {CR : Chapter → Chapter → Prop} {n : Novel} {r r' : Rd}

/-- Other parts of the state do not matter. -/
theorem Framed.same (h : Framed occS occC SR CR n r) (h1 : r'.novel = r.novel) (h2 : r'.scId = r.scId) (h3 : r'.chId = r.chId) :
    Framed occS occC SR CR n r' := ⟨h1 ▸ h.novel, h2 ▸ h.scene, h3 ▸ h.chapter⟩

theorem Framed.push (h : Framed occS occC SR CR n r) (s : Str) : Framed occS occC SR CR n (r.push s) := h.same rfl rfl rfl

theorem Framed.stopLanguage (h : Framed occS occC SR CR n r) : Framed occS occC SR CR n r.stopLanguage := by
  unfold Rd.stopLanguage
  split
  · exact h
  · exact h.same rfl rfl rfl

theorem Framed.langs (h : Framed occS occC SR CR n r) (l : Option (List Str)) (a b : Option Str) :
    Framed occS occC SR CR n { r with novel := { r.novel with languages := l, languageCode := a, countryCode := b } } :=
  ⟨⟨h.novel.scenes, h.novel.newScenes, h.novel.chapters, h.novel.newChapters, h.novel.order, h.novel.rest⟩, h.scene, h.chapter⟩

theorem Framed.startLanguage (h : Framed occS occC SR CR n r) (as : List (Str × Option Str)) :
    Framed occS occC SR CR n (r.startLanguage as) := by
  unfold Rd.startLanguage
  split
  · split
    · apply Framed.push
      exact Framed.same (h.langs _ r.novel.languageCode r.novel.countryCode) rfl rfl rfl
    · exact h
  · exact h

theorem Framed.startBody (h : Framed occS occC SR CR n r) (as : List (Str × Option Str)) : Framed occS occC SR CR n (r.startBody as) := by
  induction as generalizing r with
  | nil => exact h
  | cons p as ih =>
    obtain ⟨k, v⟩ := p
    simp only [Rd.startBody]
    apply ih
    rcases v with _ | _ | ⟨c, v⟩
    · exact h
    · exact h
    · dsimp only
      split
      · exact h.langs r.novel.languages _ r.novel.countryCode
      split
      · exact h.langs r.novel.languages r.novel.languageCode _
      · exact h

theorem Framed.onScene (h : Framed occS occC SR CR n r) (ht : TransRel SR) {id : Str} (ho : occS id) {f : Scene → Scene}
    (hf : ∀ s, SR s (f s)) (he : r.onScene id f = .ok r') : Framed occS occC SR CR n r' := by
  unfold Rd.onScene at he
  split at he
  · cases he
    exact ⟨h.novel.modScene ht ho f hf, h.scene, h.chapter⟩
  · cases he

theorem Framed.onChapter (h : Framed occS occC SR CR n r) (ht : TransRel CR) {id : Str} (ho : occC id) {f : Chapter → Chapter}
    (hf : ∀ c, r.novel.chapters.get? id = some c → CR c (f c)) (he : r.onChapter id f = .ok r') : Framed occS occC SR CR n r' := by
  unfold Rd.onChapter at he
  split at he
  · cases he
    exact ⟨h.novel.modChapter ht ho f hf, h.scene, h.chapter⟩
  · cases he

/-- What the relations must allow for the base class. -/
structure BaseOk (type : Nat) (occS : Str → Prop) (SR : Scene → Scene → Prop) (CR : Chapter → Chapter → Prop) (n : Novel) : Prop where
  strans : TransRel SR
  ctrans : TransRel CR
  stype : ∀ s, SR s { s with scType := some type }
  ctype : ∀ c, CR c { c with chType := some type }
  clist : ∀ c id, occS id → n.scenes.get? id = none → CR c { c with srtScenes := c.srtScenes ++ [id] }

theorem Framed.baseStart {type : Nat} (b : BaseOk type occS SR CR n) (h : Framed occS occC SR CR n r) {t : Str} {as : List (Str × Option Str)}
    (hdiv : t = c!"div" → ∃ name, as = [(c!"id", some name)] ∧ (c!"ScID" <+: name → idOf name ≠ [] → occS (idOf name)) ∧ (c!"ChID" <+: name → idOf name ≠ [] → occC (idOf name)))
    (he : Rd.baseStart type r t as = .ok r') : Framed occS occC SR CR n r' := by
  unfold Rd.baseStart at he
  split at he
  · rename_i htag
    obtain ⟨name, rfl, hs, hc⟩ := hdiv htag
    dsimp only [Option.getD] at he
    rw [if_pos rfl] at he
    split at he
    · rename_i hp
      have hp : c!"ScID" <+: name := by
        unfold Str.startsWith at hp
        exact List.isPrefixOf_iff_prefix.1 hp
      unfold Rd.startScene at he
      obtain ⟨id, h1, he⟩ := bind_ok he
      obtain ⟨r1, h2, he⟩ := bind_ok he
      have ho : occS id := by have hne := firstNumber_ne h1; rw [← idOf_firstNumber h1] at hne ⊢; exact hs hp hne
      have hr1 : Framed occS occC SR CR n r1 := by
        have h0 : Framed occS occC SR CR n { r with scId := some id } := ⟨h.novel, by rintro k hk; cases hk; exact ho, h.chapter⟩
        unfold Rd.ensureScene at h2
        split at h2
        · cases h2; exact h0
        · rename_i hhas
          have hnone : r.novel.scenes.get? id = none := by
            unfold Dict.has at hhas
            cases hg : r.novel.scenes.get? id with
            | none => rfl
            | some s => simp [hg] at hhas
          unfold Rd.listScene at h2
          split at h2
          · cases h2
          · rename_i ch hch
            refine Framed.onChapter (r := { r with scId := some id, novel := { r.novel with scenes := r.novel.scenes.set id {} } }) ?_ b.ctrans (h.chapter ch hch) ?_ h2
            · exact ⟨h.novel.addScene ho hnone {}, h0.scene, h.chapter⟩
            · intro c _
              exact b.clist c id ho (h.novel.noneScene hnone)
      exact hr1.onScene b.strans ho b.stype he
    split at he
    · rename_i hp
      have hp : c!"ChID" <+: name := by
        unfold Str.startsWith at hp
        exact List.isPrefixOf_iff_prefix.1 hp
      unfold Rd.startChapter at he
      obtain ⟨id, h1, he⟩ := bind_ok he
      have ho : occC id := by have hne := firstNumber_ne h1; rw [← idOf_firstNumber h1] at hne ⊢; exact hc hp hne
      refine Framed.onChapter ?_ b.ctrans ho (fun c _ => b.ctype c) he
      unfold Rd.ensureChapter
      split
      · exact ⟨h.novel, h.scene, by rintro k hk; cases hk; exact ho⟩
      · rename_i hhas
        have hnone : r.novel.chapters.get? id = none := by
          unfold Dict.has at hhas
          cases hg : r.novel.chapters.get? id with
          | none => rfl
          | some s => simp [hg] at hhas
        exact ⟨h.novel.addChapter ho hnone {}, h.scene, by rintro k hk; cases hk; exact ho⟩
    · cases he; exact h
  · split at he
    · cases he; exact h.push _
    · cases he; exact h

theorem Framed.baseComment (h : Framed occS occC SR CR n r) (s : Str) : Framed occS occC SR CR n (r.baseComment s) := by
  unfold Rd.baseComment
  split
  · exact h.push _
  · exact h

/-- All calls, given that each call preserves the frame. -/
theorem Framed.run {h : Reader} {names : List Str} (hstep : ∀ r r' c, (∀ as, c = .start c!"div" as → ∃ name ∈ names, as = [(c!"id", some name)]) →
    Framed occS occC SR CR n r → h r c = .ok r' → Framed occS occC SR CR n r') {cs : List Call} (hd : DivCalls names cs) {r r' : Rd}
    (hr : Framed occS occC SR CR n r) (he : h.run r cs = .ok r') : Framed occS occC SR CR n r' := by
  induction cs generalizing r with
  | nil => cases he; exact hr
  | cons c cs ih =>
    simp only [Reader.run] at he
    obtain ⟨r1, h1, he⟩ := bind_ok he
    refine ih (fun as hm => hd as (by simp [hm])) (hstep r r1 c ?_ hr h1) he
    intro as hc
    exact hd as (by simp [hc])

/-- Reading a document. -/
theorem Framed.read {h : Reader} {st : XNode} {info : Option XNode} {x : List Ev} {m : Novel}
    (hstep : ∀ r r' c, (∀ as, c = .start c!"div" as → ∃ name ∈ sectionNames x, as = [(c!"id", some name)]) →
      Framed occS occC SR CR n r → h r c = .ok r' → Framed occS occC SR CR n r')
    (he : readOdt h ⟨st, info, x⟩ n = .ok m) : OnlyChanged occS occC SR CR n m := by
  unfold readOdt at he
  obtain ⟨cs, h1, he⟩ := bind_ok he
  obtain ⟨r', h2, he⟩ := bind_ok he
  cases he
  refine (Framed.run hstep (feedFile_div h1) (r := { novel := n }) ⟨OnlyChanged.refl n, ?_, ?_⟩ h2).novel
  · intro id hid; cases hid
  · intro id hid; cases hid

end

/-- The hypothesis of `Framed.baseStart` for a document. -/
theorem div_occurs {x : List Ev} {t : Str} {as : List (Str × Option Str)}
    (hd : ∀ bs, Call.start t as = .start c!"div" bs → ∃ name ∈ sectionNames x, bs = [(c!"id", some name)]) (ht : t = c!"div") :
    ∃ name, as = [(c!"id", some name)] ∧ (c!"ScID" <+: name → idOf name ≠ [] → Occurs c!"ScID" x (idOf name)) ∧ (c!"ChID" <+: name → idOf name ≠ [] → Occurs c!"ChID" x (idOf name)) := by
  subst ht
  obtain ⟨name, hn, e⟩ := hd as rfl
  exact ⟨name, e, fun hp hne => ⟨name, hn, hp, rfl, hne⟩, fun hp hne => ⟨name, hn, hp, rfl, hne⟩⟩

end Verif
