/-
C35 for the documents with descriptions of characters, locations and items, and for proof reading.
-/
import Verif.Props.C35_Frame

namespace Verif
open Spec

/-- A dictionary of elements with its list: only elements in `occ` have changed, in the ways `R` allows; new ones are appended. -/
structure Spec.ElementsChanged {α : Type} (occ : Str → Prop) (R : α → α → Prop) (d d' : Dict α) (l l' : List Str) : Prop where
  kept : ∀ id a, d.get? id = some a → ∃ a', d'.get? id = some a' ∧ (a' = a ∨ (occ id ∧ R a a'))
  new : ∃ new, d'.keys = d.keys ++ new ∧ l' = l ++ new ∧ ∀ id ∈ new, occ id ∧ d.get? id = none

section
variable {α : Type} {occ : Str → Prop} {R : α → α → Prop} {d d' : Dict α} {l l' : List Str}

theorem Spec.ElementsChanged.refl (d : Dict α) (l : List Str) : ElementsChanged occ R d d l l :=
  ⟨fun _ a h => ⟨a, h, .inl rfl⟩, [], by simp, by simp, by simp⟩

theorem Spec.ElementsChanged.mod (h : ElementsChanged occ R d d' l l') (ht : TransRel R) {id : Str} (ho : occ id) (f : α → α) (hf : ∀ a, R a (f a)) :
    ElementsChanged occ R d (d'.modify id f) l l' where
  kept := by
    intro k a hk
    obtain ⟨a', h1, h2⟩ := h.kept k a hk
    rw [Dict.get?_modify]
    by_cases hid : id = k
    · subst hid
      refine ⟨f a', by simp [h1], .inr ⟨ho, ?_⟩⟩
      rcases h2 with rfl | h2
      · exact hf _
      · exact ht _ _ _ h2.2 (hf _)
    · exact ⟨a', by simp [hid, h1], h2⟩
  new := by rw [Dict.keys_modify]; exact h.new

theorem Spec.ElementsChanged.add (h : ElementsChanged occ R d d' l l') {id : Str} (ho : occ id) (hm : d'.get? id = none) (a0 : α) :
    ElementsChanged occ R d (d'.set id a0) l (l' ++ [id]) where
  kept := by
    intro k a hk
    obtain ⟨a', h1, h2⟩ := h.kept k a hk
    rw [Dict.get?_set]
    by_cases hid : id = k
    · subst hid
      rw [hm] at h1
      cases h1
    · exact ⟨a', by simp [hid, h1], h2⟩
  new := by
    obtain ⟨new, h1, h2, h3⟩ := h.new
    refine ⟨new ++ [id], by rw [keys_set_new hm, h1, List.append_assoc], by rw [h2, List.append_assoc], ?_⟩
    intro k hk
    rcases List.mem_append.1 hk with hk | hk
    · exact h3 k hk
    · rw [List.mem_singleton] at hk
      subst hk
      refine ⟨ho, ?_⟩
      cases hn : d.get? k with
      | none => rfl
      | some a =>
        obtain ⟨a', h4, _⟩ := h.kept k a hn
        rw [hm] at h4
        cases h4

end

/-- Invariants of a reader's runs. -/
theorem reader_run_inv {h : Reader} {P : Rd → Prop} {names : List Str}
    (hstep : ∀ r r' c, (∀ as, c = .start c!"div" as → ∃ name ∈ names, as = [(c!"id", some name)]) → P r → h r c = .ok r' → P r')
    {cs : List Call} (hd : DivCalls names cs) {r r' : Rd} (hr : P r) (he : h.run r cs = .ok r') : P r' := by
  induction cs generalizing r with
  | nil => cases he; exact hr
  | cons c cs ih =>
    simp only [Reader.run] at he
    obtain ⟨r1, h1, he⟩ := bind_ok he
    refine ih (fun as hm => hd as (by simp [hm])) (hstep r r1 c ?_ hr h1) he
    intro as hc
    exact hd as (by simp [hc])

theorem readOdt_inv {h : Reader} {P : Rd → Prop} {st : XNode} {info : Option XNode} {x : List Ev} {n m : Novel}
    (hstep : ∀ r r' c, (∀ as, c = .start c!"div" as → ∃ name ∈ sectionNames x, as = [(c!"id", some name)]) → P r → h r c = .ok r' → P r')
    (h0 : P { novel := n }) (he : readOdt h ⟨st, info, x⟩ n = .ok m) : ∃ r, P r ∧ r.novel = m := by
  unfold readOdt at he
  obtain ⟨cs, h1, he⟩ := bind_ok he
  obtain ⟨r', h2, he⟩ := bind_ok he
  cases he
  exact ⟨r', reader_run_inv hstep (feedFile_div h1) h0 h2, rfl⟩

theorem has_false_iff {α : Type} {d : Dict α} {k : Str} (h : ¬ d.has k = true) : d.get? k = none := by
  unfold Dict.has at h
  cases hg : d.get? k with
  | none => rfl
  | some s => simp [hg] at h

/-- What a document may change in a character. -/
def Spec.CharacterRead (c c' : Character) : Prop :=
  ∃ d b g nt, c' = { c with desc := d, bio := b, goals := g, notes := nt }

theorem characterRead_trans : TransRel CharacterRead := by
  rintro a b c ⟨d1, b1, g1, n1, rfl⟩ ⟨d2, b2, g2, n2, rfl⟩
  exact ⟨d2, b2, g2, n2, rfl⟩

/-- **C35**, character descriptions: nothing but the descriptions, biographies, goals and notes of the characters in the document. -/
theorem C35_characters (st : XNode) (info : Option XNode) (x : List Ev) (n m : Novel) (h : readOdt charactersReader ⟨st, info, x⟩ n = .ok m) :
    ElementsChanged (Occurs c!"CrID_desc" x) CharacterRead n.characters m.characters n.srtCharacters m.srtCharacters ∧
    { m with characters := [], srtCharacters := [] } = { n with characters := [], srtCharacters := [] } := by
  suffices hstep : _ from by
    obtain ⟨r, ⟨h1, h2, _⟩, rfl⟩ := readOdt_inv (h := charactersReader) (P := fun r =>
    ElementsChanged (Occurs c!"CrID_desc" x) CharacterRead n.characters r.novel.characters n.srtCharacters r.novel.srtCharacters ∧
    { r.novel with characters := [], srtCharacters := [] } = { n with characters := [], srtCharacters := [] } ∧
    ∀ id, r.elId = some id → Occurs c!"CrID_desc" x id) hstep ⟨.refl _ _, rfl, by intro id hid; cases hid⟩ h
    exact ⟨h1, h2⟩
  · intro r r' c hd hr he
    obtain ⟨k1, k2, k3⟩ := hr
    cases c with
    | start t as =>
      replace he : crStart r t as = .ok r' := he
      unfold crStart at he
      split at he
      · rename_i ht
        subst ht
        obtain ⟨name, hn, rfl⟩ := hd as rfl
        dsimp only [Option.getD] at he
        rw [if_pos rfl] at he
        split at he
        · rename_i hp
          have hp : c!"CrID_desc" <+: name := List.isPrefixOf_iff_prefix.1 hp
          obtain ⟨id, e1, he⟩ := bind_ok he
          have ho : Occurs c!"CrID_desc" x id := ⟨name, hn, hp, idOf_firstNumber e1, firstNumber_ne e1⟩
          cases he
          split
          · exact ⟨k1, k2, by intro k hk; cases hk; exact ho⟩
          · rename_i hh
            exact ⟨k1.add ho (has_false_iff hh) _, k2, by intro k hk; cases hk; exact ho⟩
        split at he
        · cases he; exact ⟨k1, k2, k3⟩
        split at he
        · cases he; exact ⟨k1, k2, k3⟩
        split at he
        · cases he; exact ⟨k1, k2, k3⟩
        · cases he; exact ⟨k1, k2, k3⟩
      split at he
      · cases he; exact ⟨k1, k2, k3⟩
      · cases he; exact ⟨k1, k2, k3⟩
    | stop t =>
      replace he : crStop r t = .ok r' := he
      unfold crStop at he
      cases hel : r.elId with
      | none => rw [hel] at he; cases he; exact ⟨k1, k2, k3⟩
      | some id =>
        rw [hel] at he
        dsimp only at he
        split at he
        · split at he
          · cases he; exact ⟨k1, k2, k3⟩
          · split at he
            · cases he
              refine ⟨k1.mod characterRead_trans (k3 id hel) _ ?_, k2, fun k hk => k3 k (hel.trans hk)⟩
              intro a
              unfold setSection
              split
              · exact ⟨_, _, _, _, rfl⟩
              split
              · exact ⟨_, _, _, _, rfl⟩
              split
              · exact ⟨_, _, _, _, rfl⟩
              · exact ⟨_, _, _, _, rfl⟩
            · cases he
        split at he
        · cases he; exact ⟨k1, k2, fun k hk => k3 k hk⟩
        · cases he; exact ⟨k1, k2, k3⟩
    | data s =>
      cases he
      split
      · exact ⟨k1, k2, k3⟩
      · exact ⟨k1, k2, k3⟩
    | comment s =>
      cases he
      unfold Rd.baseComment
      split
      · exact ⟨k1, k2, k3⟩
      · exact ⟨k1, k2, k3⟩

/-- What a document may change in a location or item. -/
def Spec.ElementRead (c c' : WorldElement) : Prop := ∃ d, c' = { c with desc := d }

theorem elementRead_trans : TransRel ElementRead := by
  rintro a b c ⟨d1, rfl⟩ ⟨d2, rfl⟩
  exact ⟨d2, rfl⟩

theorem world_frame (w : WorldKind) (order : Novel → List Str) (rest : Novel → Novel)
    (l1 : ∀ n d, w.get (w.put n d) = d) (l2 : ∀ n d, order (w.put n d) = order n) (l3 : ∀ n id, order (w.add n id) = order n ++ [id])
    (l4 : ∀ n d, rest (w.put n d) = rest n) (l5 : ∀ n id, rest (w.add n id) = rest n)
    (st : XNode) (info : Option XNode) (x : List Ev) (n m : Novel) (h : readOdt (worldReader w) ⟨st, info, x⟩ n = .ok m) :
    ElementsChanged (Occurs w.mark x) ElementRead (w.get n) (w.get m) (order n) (order m) ∧ rest m = rest n := by
  suffices hstep : _ from by
    obtain ⟨r, ⟨h1, h2, _⟩, rfl⟩ := readOdt_inv (h := worldReader w) (P := fun r =>
    ElementsChanged (Occurs w.mark x) ElementRead (w.get n) (w.get r.novel) (order n) (order r.novel) ∧ rest r.novel = rest n ∧
    ∀ id, r.elId = some id → Occurs w.mark x id) hstep ⟨.refl _ _, rfl, by intro id hid; cases hid⟩ h
    exact ⟨h1, h2⟩
  · intro r r' c hd hr he
    obtain ⟨k1, k2, k3⟩ := hr
    cases c with
    | start t as =>
      replace he : weStart w r t as = .ok r' := he
      unfold weStart at he
      split at he
      · rename_i ht
        subst ht
        obtain ⟨name, hn, rfl⟩ := hd as rfl
        dsimp only [Option.getD] at he
        split at he
        · rename_i hp
          have hp : w.mark <+: name := List.isPrefixOf_iff_prefix.1 hp.2
          obtain ⟨id, e1, he⟩ := bind_ok he
          have ho : Occurs w.mark x id := ⟨name, hn, hp, idOf_firstNumber e1, firstNumber_ne e1⟩
          cases he
          split
          · exact ⟨k1, k2, by intro k hk; cases hk; exact ho⟩
          · rename_i hh
            refine ⟨?_, ?_, by intro k hk; cases hk; exact ho⟩
            · rw [l1, l2, l3]
              exact k1.add ho (has_false_iff hh) _
            · rw [l4, l5]; exact k2
        · cases he; exact ⟨k1, k2, k3⟩
      split at he
      · cases he; exact ⟨k1, k2, k3⟩
      · cases he; exact ⟨k1, k2, k3⟩
    | stop t =>
      replace he : weStop w r t = .ok r' := he
      unfold weStop at he
      cases hel : r.elId with
      | none => rw [hel] at he; cases he; exact ⟨k1, k2, k3⟩
      | some id =>
        rw [hel] at he
        dsimp only at he
        split at he
        · split at he
          · cases he
            refine ⟨?_, ?_, by intro k hk; cases hk⟩
            · rw [l1, l2]
              exact k1.mod elementRead_trans (k3 id hel) _ (fun a => ⟨_, rfl⟩)
            · rw [l4]; exact k2
          · cases he
        split at he
        · cases he; exact ⟨k1, k2, fun k hk => k3 k hk⟩
        · cases he; exact ⟨k1, k2, k3⟩
    | data s =>
      cases he
      split
      · exact ⟨k1, k2, k3⟩
      · exact ⟨k1, k2, k3⟩
    | comment s =>
      cases he
      unfold Rd.baseComment
      split
      · exact ⟨k1, k2, k3⟩
      · exact ⟨k1, k2, k3⟩

/-- **C35**, location descriptions. -/
theorem C35_locations (st : XNode) (info : Option XNode) (x : List Ev) (n m : Novel) (h : readOdt (worldReader locationKind) ⟨st, info, x⟩ n = .ok m) :
    ElementsChanged (Occurs c!"LcID" x) ElementRead n.locations m.locations n.srtLocations m.srtLocations ∧
    { m with locations := [], srtLocations := [] } = { n with locations := [], srtLocations := [] } :=
  world_frame locationKind (·.srtLocations) (fun n => { n with locations := [], srtLocations := [] }) (fun _ _ => rfl) (fun _ _ => rfl)
    (fun _ _ => rfl) (fun _ _ => rfl) (fun _ _ => rfl) st info x n m h

/-- **C35**, item descriptions. -/
theorem C35_items (st : XNode) (info : Option XNode) (x : List Ev) (n m : Novel) (h : readOdt (worldReader itemKind) ⟨st, info, x⟩ n = .ok m) :
    ElementsChanged (Occurs c!"ItID" x) ElementRead n.items m.items n.srtItems m.srtItems ∧
    { m with items := [], srtItems := [] } = { n with items := [], srtItems := [] } :=
  world_frame itemKind (·.srtItems) (fun n => { n with items := [], srtItems := [] }) (fun _ _ => rfl) (fun _ _ => rfl)
    (fun _ _ => rfl) (fun _ _ => rfl) (fun _ _ => rfl) st info x n m h

-- A document with one known and one new location.
example : ∃ m, readOdt (worldReader locationKind) ⟨exStyles, none, exSection c!"LcID:1" [c!"new"] ++ exSection c!"LcID:7" [c!"also"]⟩
      { locations := [(c!"1", { title := some c!"L" }), (c!"2", { title := some c!"M", desc := some c!"old" })], srtLocations := [c!"2", c!"1"] } = .ok m ∧
    m.locations = [(c!"1", { title := some c!"L", desc := some c!"new" }), (c!"2", { title := some c!"M", desc := some c!"old" }),
      (c!"7", { desc := some c!"also" })] ∧ m.srtLocations = [c!"2", c!"1", c!"7"] := ⟨_, rfl, rfl, rfl⟩

end Verif
