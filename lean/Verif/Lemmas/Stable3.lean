/-
Lemmas: where everything in a novel comes from that was read from a tree.
-/
import Verif.Lemmas.Stable2
import Verif.Props.C22_Structure

namespace Verif
open Xml Spec

theorem readEntries_from {α : Type} {f : List Elem → Except Exc α} {ks : List Elem} {acc res : List Str × Dict α} (h : readEntries f acc ks = .ok res) (id : Str) (a : α)
    (ha : res.2.get? id = some a) : acc.2.get? id = some a ∨ ∃ e ∈ ks, idOf e = .ok id ∧ f e.kids = .ok a := by
  induction ks generalizing acc with
  | nil =>
    unfold readEntries at h
    cases h
    exact .inl ha
  | cons e r ih =>
    unfold readEntries at h
    cases hi : idOf e with
    | error x => rw [hi] at h; cases h
    | ok i =>
      rw [hi] at h
      dsimp only at h
      cases hf : f e.kids with
      | error x => rw [hf] at h; cases h
      | ok b =>
        rw [hf] at h
        dsimp only at h
        rcases ih h with h' | ⟨e', m, h'⟩
        · by_cases hid : id = i
          · subst hid
            rw [Dict.get?_set_self] at h'
            cases h'
            exact .inr ⟨e, by simp, hi, hf⟩
          · rw [Dict.get?_set_ne _ _ (Ne.symm hid)] at h'
            exact .inl h'
        · exact .inr ⟨e', by simp [m], h'⟩

theorem readNotes_prefix (ks : List Elem) (acc : List Str × Dict BasicElement) : ∃ l, (readNotes acc ks).1 = acc.1 ++ l := by
  induction ks generalizing acc with
  | nil => exact ⟨[], by simp [readNotes]⟩
  | cons e r ih =>
    unfold readNotes
    split
    · split
      · exact ⟨[], by simp⟩
      · exact ih acc
    · split
      · exact ⟨[], by simp⟩
      · dsimp only
        split
        · exact ⟨[_], rfl⟩
        · rename_i s _ _
          obtain ⟨l, hl⟩ := ih (acc.1 ++ [s], acc.2.set s { title := textOf c!"Title" e.kids, desc := textOf c!"Desc" e.kids })
          exact ⟨s :: l, by rw [hl]; simp⟩

theorem readNotes_keys (ks : List Elem) (acc : List Str × Dict BasicElement) (h : acc.2.keys = acc.1) (hn : (readNotes acc ks).1.Nodup) :
    (readNotes acc ks).2.keys = (readNotes acc ks).1 := by
  induction ks generalizing acc with
  | nil => exact h
  | cons e r ih =>
    have step : ∀ id b, (acc.1 ++ [id]).Nodup → (acc.2.set id b).keys = acc.1 ++ [id] := by
      intro id b hd
      rw [Dict.keys_set_of_not_mem, h]
      rw [h]
      intro hm
      have := List.nodup_append.1 hd
      exact this.2.2 id hm id (by simp) rfl
    unfold readNotes at hn ⊢
    split
    · rename_i h1
      rw [h1] at hn
      dsimp only at hn
      split
      · exact h
      · rename_i h2
        rw [if_neg h2] at hn
        exact ih acc h hn
    · rename_i i h1
      rw [h1] at hn
      dsimp only at hn
      split
      · exact h
      · rename_i id h2
        rw [h2] at hn
        dsimp only at hn ⊢
        split
        · rename_i h3
          rw [if_pos h3] at hn
          exact step _ _ hn
        · rename_i h3
          rw [if_neg h3] at hn
          refine ih _ (step _ _ ?_) hn
          obtain ⟨l, hl⟩ := readNotes_prefix r (acc.1 ++ [id], acc.2.set id { title := textOf c!"Title" e.kids, desc := textOf c!"Desc" e.kids })
          rw [hl] at hn
          exact (List.nodup_append.1 hn).1

theorem readNotes_from (ks : List Elem) (acc : List Str × Dict BasicElement) (id : Str) (a : BasicElement) (h : (readNotes acc ks).2.get? id = some a) :
    acc.2.get? id = some a ∨ ∃ e ∈ ks, a = { title := textOf c!"Title" e.kids, desc := textOf c!"Desc" e.kids } := by
  induction ks generalizing acc with
  | nil => exact .inl h
  | cons e r ih =>
    have lift : (acc.2.get? id = some a ∨ ∃ e ∈ r, a = { title := textOf c!"Title" e.kids, desc := textOf c!"Desc" e.kids }) →
        (acc.2.get? id = some a ∨ ∃ e' ∈ e :: r, a = { title := textOf c!"Title" e'.kids, desc := textOf c!"Desc" e'.kids }) := by
      rintro (h | ⟨e', m, h⟩)
      · exact .inl h
      · exact .inr ⟨e', by simp [m], h⟩
    have step : ∀ i, (acc.2.set i { title := textOf c!"Title" e.kids, desc := textOf c!"Desc" e.kids }).get? id = some a →
        (acc.2.get? id = some a ∨ ∃ e' ∈ e :: r, a = { title := textOf c!"Title" e'.kids, desc := textOf c!"Desc" e'.kids }) := by
      intro i hi
      by_cases hid : id = i
      · subst hid
        rw [Dict.get?_set_self] at hi
        cases hi
        exact .inr ⟨e, by simp, rfl⟩
      · rw [Dict.get?_set_ne _ _ (Ne.symm hid)] at hi
        exact .inl hi
    unfold readNotes at h
    split at h
    · split at h
      · exact .inl h
      · exact lift (ih acc h)
    · split at h
      · exact .inl h
      · dsimp only at h
        split at h
        · exact step _ h
        · rcases ih _ h with h' | ⟨e', m, h'⟩
          · exact step _ h'
          · exact .inr ⟨e', by simp [m], h'⟩

/-- Where the content of a novel comes from. -/
structure ReadFrom (lib : PyLib) (rk : List Elem) (n : Novel) : Prop where
  locations : (n.srtLocations.Nodup → n.locations.keys = n.srtLocations) ∧ ∀ id w, n.locations.get? id = some w → ∃ ks, w = readWorld ks
  items : (n.srtItems.Nodup → n.items.keys = n.srtItems) ∧ ∀ id w, n.items.get? id = some w → ∃ ks, w = readWorld ks
  characters : (n.srtCharacters.Nodup → n.characters.keys = n.srtCharacters) ∧ ∀ id w, n.characters.get? id = some w → ∃ ks, w = readCharacter ks
  notes : (n.srtPrjNotes.Nodup → n.projectNotes.keys = n.srtPrjNotes) ∧ ∀ id w, n.projectNotes.get? id = some w → ∃ t d, w = { title := t, desc := d }
  scenes : ∃ sec, find c!"SCENES" rk = some sec ∧ ∀ id s, n.scenes.get? id = some s → ∃ e ∈ sec.kids, textOf c!"ID" e.kids = some id ∧
    ∃ x, readScene lib n.srtCharacters n.srtLocations n.srtItems e.kids = .ok x ∧ s = (match governing n id with
      | none => x
      | some ch => { x with scType := typeOf n ch })
  chapters : ∃ sec, find c!"CHAPTERS" rk = some sec ∧ mapE idOf sec.kids = .ok n.srtChapters ∧ (n.srtChapters.Nodup → n.chapters.keys = n.srtChapters) ∧
    ∀ id c, n.chapters.get? id = some c → ∃ e ∈ sec.kids, textOf c!"ID" e.kids = some id ∧ c = readChapter n.scenes.keys e.kids

theorem readSection_from {α : Type} {t : Str} {f : List Elem → Except Exc α} {rk : List Elem} {res : List Str × Dict α} (h : readSection t f [] rk = .ok res) :
    ∃ sec, find t rk = some sec ∧ mapE idOf sec.kids = .ok res.1 ∧ (res.1.Nodup → res.2.keys = res.1) ∧
    ∀ id a, res.2.get? id = some a → ∃ e ∈ sec.kids, textOf c!"ID" e.kids = some id ∧ f e.kids = .ok a := by
  unfold readSection at h
  cases hf : find t rk with
  | none => rw [hf] at h; cases h
  | some sec =>
    rw [hf] at h
    obtain ⟨ids, h1, h2, h3⟩ := readEntries_ok h
    simp only [List.nil_append] at h2
    refine ⟨sec, rfl, by rw [h2]; exact h1, ?_, ?_⟩
    · intro hd
      rw [h2] at hd ⊢
      have := (h3 (by simpa [Dict.keys] using hd)).1
      simpa [Dict.keys] using this
    · intro id a ha
      rcases readEntries_from h id a ha with h' | ⟨e, m, i1, i2⟩
      · cases h'
      · exact ⟨e, m, (idOf_ok_iff _ _).1 i1, i2⟩

theorem readFrom {lib : PyLib} {x : Elem} {m : Novel} (hm : readTree lib x = .ok m) : ReadFrom lib x.kids m := by
  unfold readTree readRoot at hm
  simp only [bind, Except.bind] at hm
  cases hp : find c!"PROJECT" x.kids with
  | none => rw [hp] at hm; cases hm
  | some pe =>
  rw [hp] at hm; simp only at hm
  cases hl : readSection c!"LOCATIONS" (fun ks => .ok (readWorld ks)) (readProject lib {} pe.kids).locations x.kids with
  | error e => rw [hl] at hm; cases hm
  | ok l =>
  rw [hl] at hm; simp only at hm
  cases hi : readSection c!"ITEMS" (fun ks => .ok (readWorld ks)) (readProject lib {} pe.kids).items x.kids with
  | error e => rw [hi] at hm; cases hm
  | ok i =>
  rw [hi] at hm; simp only at hm
  cases hc : readSection c!"CHARACTERS" (fun ks => .ok (readCharacter ks)) (readProject lib {} pe.kids).characters x.kids with
  | error e => rw [hc] at hm; cases hm
  | ok c =>
  rw [hc] at hm; simp only at hm
  cases hs : readSection c!"SCENES" (readScene lib c.1 l.1 i.1) (readProject lib {} pe.kids).scenes x.kids with
  | error e => rw [hs] at hm; cases hm
  | ok s =>
  rw [hs] at hm; simp only at hm
  cases hh : readSection c!"CHAPTERS" (fun ks => .ok (readChapter s.2.keys ks)) (readProject lib {} pe.kids).chapters x.kids with
  | error e => rw [hh] at hm; cases hm
  | ok h =>
  rw [hh] at hm; simp only at hm
  obtain ⟨e1, e2, e3⟩ := C39_effect _ _ hm
  simp only at e2 e3
  have m1 : m.srtLocations = l.1 := by rw [e1]
  have m2 : m.locations = l.2 := by rw [e1]
  have m3 : m.srtItems = i.1 := by rw [e1]
  have m4 : m.items = i.2 := by rw [e1]
  have m5 : m.srtCharacters = c.1 := by rw [e1]
  have m6 : m.characters = c.2 := by rw [e1]
  have m7 : m.srtChapters = h.1 := by rw [e1]
  have m8 : m.chapters = h.2 := by rw [e1]
  have m9 : m.srtPrjNotes = (readNotes ([], []) (match find c!"PROJECTNOTES" x.kids with | none => [] | some e => e.kids)).1 := by
    rw [e1]; rfl
  have m10 : m.projectNotes = (readNotes ([], []) (match find c!"PROJECTNOTES" x.kids with | none => [] | some e => e.kids)).2 := by
    rw [e1]; rfl
  obtain ⟨_, -, -, l3, l4⟩ := readSection_from hl
  obtain ⟨_, -, -, i3, i4⟩ := readSection_from hi
  obtain ⟨_, -, -, c3, c4⟩ := readSection_from hc
  obtain ⟨ss, s1, s2, s3, s4⟩ := readSection_from hs
  obtain ⟨hs', h1, h2, h3, h4⟩ := readSection_from hh
  refine ⟨?_, ?_, ?_, ?_, ?_, ?_⟩
  · rw [m1, m2]
    refine ⟨l3, fun id w hw => ?_⟩
    obtain ⟨e, -, -, h⟩ := l4 id w hw
    injection h with h
    exact ⟨_, h.symm⟩
  · rw [m3, m4]
    refine ⟨i3, fun id w hw => ?_⟩
    obtain ⟨e, -, -, h⟩ := i4 id w hw
    injection h with h
    exact ⟨_, h.symm⟩
  · rw [m5, m6]
    refine ⟨c3, fun id w hw => ?_⟩
    obtain ⟨e, -, -, h⟩ := c4 id w hw
    injection h with h
    exact ⟨_, h.symm⟩
  · rw [m9, m10]
    refine ⟨readNotes_keys _ _ rfl, fun id w hw => ?_⟩
    rcases readNotes_from _ _ id w hw with h | ⟨e, -, h⟩
    · cases h
    · exact ⟨_, _, h⟩
  · refine ⟨ss, s1, ?_⟩
    intro id s' hs'
    rw [e3] at hs'
    cases hg : Dict.get? s.2 id with
    | none => rw [hg] at hs'; cases hs'
    | some y =>
      rw [hg] at hs'
      injection hs' with hs'
      obtain ⟨e, q1, q2, q3⟩ := s4 id y hg
      refine ⟨e, q1, q2, y, by rw [m1, m3, m5]; exact q3, ?_⟩
      rw [← hs']
      have hg := governing_congr (n := m) (m := { readProject lib {} pe.kids with
        srtLocations := l.1, locations := l.2, srtItems := i.1, items := i.2, srtCharacters := c.1, characters := c.2, languageCode := m.languageCode, countryCode := m.countryCode, languages := m.languages, srtPrjNotes := m.srtPrjNotes, projectNotes := m.projectNotes, scenes := s.2, srtChapters := h.1, chapters := h.2 }) m7 m8 id
      rw [hg]
      unfold typeOf
      rw [m8]
      rfl
  · refine ⟨hs', h1, by rw [m7]; exact h2, by rw [m7, m8]; exact h3, ?_⟩
    intro id c' hc'
    rw [m8] at hc'
    obtain ⟨e, q1, q2, q3⟩ := h4 id c' hc'
    injection q3 with q3
    exact ⟨e, q1, q2, by rw [e2]; exact q3.symm⟩

theorem mapE_mem_ids {ks : List Elem} {ids : List Str} (h : mapE idOf ks = .ok ids) {e : Elem} (he : e ∈ ks) {id : Str} (hi : textOf c!"ID" e.kids = some id) : id ∈ ids := by
  induction ks generalizing ids with
  | nil => cases he
  | cons a r ih =>
    unfold mapE at h
    cases h1 : idOf a with
    | error x => rw [h1] at h; cases h
    | ok b =>
      rw [h1] at h
      dsimp only at h
      cases h2 : mapE idOf r with
      | error x => rw [h2] at h; cases h
      | ok bs =>
        rw [h2] at h
        cases h
        rcases List.mem_cons.1 he with rfl | he
        · rw [(idOf_ok_iff _ _).2 hi] at h1
          cases h1
          simp
        · exact List.mem_cons_of_mem _ (ih h2 he)

/-- With distinct IDs, an ID belongs to one entry. -/
theorem entry_unique {ks : List Elem} (h : (ks.map (fun e => textOf c!"ID" e.kids)).Nodup) {e e' : Elem} (he : e ∈ ks) (he' : e' ∈ ks)
    (hi : textOf c!"ID" e.kids = textOf c!"ID" e'.kids) : e = e' := by
  induction ks with
  | nil => cases he
  | cons a r ih =>
    rw [List.map_cons, List.nodup_cons] at h
    rcases List.mem_cons.1 he with rfl | he1 <;> rcases List.mem_cons.1 he' with rfl | he2
    · rfl
    · exact absurd (List.mem_map.2 ⟨e', he2, hi.symm⟩) h.1
    · exact absurd (List.mem_map.2 ⟨e, he1, hi⟩) h.1
    · exact ih h.2 he1 he2

theorem nodup_of_mapE {ks : List Elem} {ids : List Str} (h : mapE idOf ks = .ok ids) : ks.map (fun e => textOf c!"ID" e.kids) = ids.map some := by
  induction ks generalizing ids with
  | nil => cases h; rfl
  | cons a r ih =>
    unfold mapE at h
    cases h1 : idOf a with
    | error x => rw [h1] at h; cases h
    | ok b =>
      rw [h1] at h
      dsimp only at h
      cases h2 : mapE idOf r with
      | error x => rw [h2] at h; cases h
      | ok bs =>
        rw [h2] at h
        cases h
        rw [List.map_cons, List.map_cons, ih h2, (idOf_ok_iff _ _).1 h1]

/-- Dictionaries with the same keys in the same order and the same values are the same. -/
theorem Dict.ext {α : Type} {d e : Dict α} (hk : d.keys = e.keys) (hn : d.keys.Nodup) (h : ∀ id ∈ d.keys, d.get? id = e.get? id) : d = e := by
  induction d generalizing e with
  | nil =>
    cases e with
    | nil => rfl
    | cons q e => cases hk
  | cons p d ih =>
    cases e with
    | nil => cases hk
    | cons q e =>
      obtain ⟨k, a⟩ := p
      obtain ⟨k', b⟩ := q
      simp only [Dict.keys, List.map_cons, List.cons.injEq] at hk
      obtain ⟨rfl, hk⟩ := hk
      simp only [Dict.keys, List.map_cons, List.nodup_cons] at hn
      have h0 := h k (by simp [Dict.keys])
      simp only [Dict.get?, if_true, Option.some.injEq] at h0
      subst h0
      congr 1
      refine ih hk hn.2 ?_
      intro id hid
      have hne : k ≠ id := by
        intro e
        subst e
        exact hn.1 hid
      have := h id (by simp only [Dict.keys, List.map_cons, List.mem_cons]; exact .inr hid)
      simpa only [Dict.get?, if_neg hne] using this

end Verif
