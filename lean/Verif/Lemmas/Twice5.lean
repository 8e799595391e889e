/-
The readers for characters, locations and items, in two runs.
-/
import Verif.Lemmas.Twice4

namespace Verif.Twice
open Verif

/-- A kind of elements of a project: the dictionary, and the project with another dictionary and with one more element in the list. -/
structure Kind (α : Type) where
  get : Novel → Dict α
  put : Novel → Dict α → Novel
  add : Novel → Str → Novel

/-- The laws of a kind. -/
structure Kind.Laws {α : Type} (w : Kind α) : Prop where
  getPut : ∀ n d, w.get (w.put n d) = d
  putPut : ∀ n d e, w.put (w.put n d) e = w.put n e
  putGet : ∀ n, w.put n (w.get n) = n
  getAdd : ∀ n k, w.get (w.add n k) = w.get n

/-- A step of a reader for elements of one kind. -/
def E {α : Type} (w : Kind α) (R : α → α → α → Prop) (f : Novel → Except Exc Rd) (n : Novel) : Prop :=
  ∀ r', f n = .ok r' → (∀ k, (w.get n).has k = true → (w.get r'.novel).has k = true) ∧ ((w.get n).keys.Nodup → (w.get r'.novel).keys.Nodup) ∧
    ∀ d m, (∀ k, (w.get r'.novel).has k = true → (w.get m).has k = true) → DMix R (w.get n) d (w.get m) →
      ∃ d', f (w.put m d) = .ok { r' with novel := w.put m d' } ∧ DMix R (w.get r'.novel) d' (w.get m)

theorem E.pure {α : Type} {w : Kind α} {R : α → α → α → Prop} (lines : List Str) (scId chId : Option Str) (language : Str) (skipData : Bool)
    (elId sect : Option Str) (chCount scCount : Nat) (heading : Bool) (n : Novel) :
    E w R (fun n => .ok ⟨n, lines, scId, chId, language, skipData, elId, sect, chCount, scCount, heading⟩) n := by
  intro r' h
  cases h
  exact ⟨fun _ h => h, fun h => h, fun d m _ h => ⟨d, rfl, h⟩⟩

theorem E.error {α : Type} {w : Kind α} {R : α → α → α → Prop} (e : Exc) (n : Novel) : E w R (fun _ => .error e) n := by
  intro r' h
  exact nomatch h

/-- An element that is added if it is not there. -/
theorem E.ensure {α : Type} {w : Kind α} (hw : w.Laws) {R : α → α → α → Prop} (hR : ∀ a m, R a m m) (a0 : α) (r : Rd) (id : Str) (n : Novel) :
    E w R (fun n => .ok { r with novel := if (w.get n).has id = true then n else w.put (w.add n id) ((w.get n).set id a0) }) n := by
  intro r' h
  by_cases hk : (w.get n).has id = true
  · simp only [hk, ↓reduceIte] at h
    cases h
    refine ⟨fun _ h => h, fun h => h, fun d m hg hx => ⟨d, ?_, hx⟩⟩
    have : (w.get (w.put m d)).has id = true := by
      rw [hw.getPut, hx.has]
      exact hg id hk
    simp only [this, ↓reduceIte]
  · simp only [hk] at h
    cases h
    have hk' : (w.get n).get? id = none := by
      simp only [Dict.has, Bool.not_eq_true, Option.isSome_eq_false_iff, Option.isNone_iff_eq_none] at hk
      exact hk
    refine ⟨fun k h => ?_, fun h => ?_, fun d m hg hx => ⟨d, ?_, ?_⟩⟩
    · simp only [Bool.false_eq_true, ↓reduceIte, hw.getPut]
      simp only [Dict.has, Dict.get?_set]
      split
      · rfl
      · exact h
    · simp only [Bool.false_eq_true, ↓reduceIte, hw.getPut]
      rw [Dict.keys_set_of_not_mem _ _ _ ((Dict.get?_eq_none_iff _ _).1 hk')]
      refine List.nodup_append.2 ⟨h, by simp, ?_⟩
      intro x hx y hy e
      simp only [List.mem_cons, List.not_mem_nil, or_false] at hy
      subst hy e
      exact (Dict.get?_eq_none_iff _ _).1 hk' hx
    · have : (w.get (w.put m d)).has id = true := by
        rw [hw.getPut, hx.has]
        refine hg id ?_
        simp only [Bool.false_eq_true, ↓reduceIte, hw.getPut]
        simp [Dict.has]
      simp only [this, ↓reduceIte]
    · simp only [Bool.false_eq_true, ↓reduceIte, hw.getPut]
      exact hx.add hR hk' _

/-- A change of an element that is there. -/
theorem E.change {α : Type} {w : Kind α} (hw : w.Laws) {R : α → α → α → Prop} (r : Rd) (id : Str) {f : α → α}
    (hf : ∀ a b m, R a b m → R (f a) (f b) m) (e : Exc) (n : Novel) :
    E w R (fun n => if (w.get n).has id = true then .ok { r with novel := w.put n ((w.get n).modify id f) } else .error e) n := by
  intro r' h
  by_cases hk : (w.get n).has id = true
  · simp only [hk, ↓reduceIte] at h
    cases h
    simp only [hw.getPut]
    refine ⟨fun k h => by rw [has_modify]; exact h, fun h => by rw [Dict.keys_modify]; exact h, fun d m hg hx => ⟨d.modify id f, ?_, ?_⟩⟩
    · have : d.has id = true := by
        rw [hx.has]
        exact hg id (by rw [has_modify]; exact hk)
      simp only [this, ↓reduceIte, hw.putPut]
    · exact hx.both hk (fun a b m _ _ h => hf a b m h)
  · simp only [hk] at h
    exact nomatch h

/-- Every step of the reader. -/
def ETracks {α : Type} (w : Kind α) (R : α → α → α → Prop) (h : Reader) : Prop :=
  ∀ (r : Rd) (c : Call), E w R (fun n => h { r with novel := n } c) r.novel

theorem eRun_grow {α : Type} {w : Kind α} {R : α → α → α → Prop} {h : Reader} (ht : ETracks w R h) {cs : List Call} {r r' : Rd}
    (he : h.run r cs = .ok r') : (∀ k, (w.get r.novel).has k = true → (w.get r'.novel).has k = true) ∧
      ((w.get r.novel).keys.Nodup → (w.get r'.novel).keys.Nodup) := by
  induction cs generalizing r with
  | nil => cases he; exact ⟨fun _ h => h, fun h => h⟩
  | cons c cs ih =>
    simp only [Reader.run, Bind.bind, Except.bind] at he
    cases e : h r c with
    | error x => simp only [e] at he; exact nomatch he
    | ok r1 =>
      simp only [e] at he
      obtain ⟨h1, h2, _⟩ := ht r c r1 e
      obtain ⟨h3, h4⟩ := ih he
      exact ⟨fun k h => h3 k (h1 k h), h4 ∘ h2⟩

theorem eRun_twice {α : Type} {w : Kind α} {R : α → α → α → Prop} {h : Reader} (ht : ETracks w R h) {cs : List Call} {r r' : Rd}
    (he : h.run r cs = .ok r') {d : Dict α} (hx : DMix R (w.get r.novel) d (w.get r'.novel)) :
    ∃ d', h.run { r with novel := w.put r'.novel d } cs = .ok { r' with novel := w.put r'.novel d' } ∧ DMix R (w.get r'.novel) d' (w.get r'.novel) := by
  induction cs generalizing r d with
  | nil => cases he; exact ⟨d, rfl, hx⟩
  | cons c cs ih =>
    simp only [Reader.run, Bind.bind, Except.bind] at he
    cases e : h r c with
    | error x => simp only [e] at he; exact nomatch he
    | ok r1 =>
      simp only [e] at he
      obtain ⟨d1, e1, h1⟩ := (ht r c r1 e).2.2 d r'.novel (eRun_grow ht he).1 hx
      obtain ⟨d2, e2, h2⟩ := ih he h1
      exact ⟨d2, by simp only [Reader.run, Bind.bind, Except.bind, e1, e2], h2⟩

theorem readElements_twice {α : Type} {w : Kind α} (hw : w.Laws) {R : α → α → α → Prop} (hR : ∀ a m, R a m m) (hD : ∀ b m, R m b m → b = m) {h : Reader}
    (ht : ETracks w R h) {f : OdtFile} {n m : Novel} (hn : (w.get n).keys.Nodup) (he : readOdt h f n = .ok m) : readOdt h f m = .ok m := by
  simp only [readOdt, Bind.bind, Except.bind] at he ⊢
  cases e : feedFile f with
  | error x => simp only [e] at he; exact nomatch he
  | ok cs =>
    simp only [e] at he ⊢
    cases e1 : h.run { novel := n } cs with
    | error x => simp only [e1] at he; exact nomatch he
    | ok r =>
      simp only [e1] at he
      cases he
      obtain ⟨d', e2, h2⟩ := eRun_twice ht e1 (DMix.start hR (w.get n) (w.get r.novel))
      have hk := (eRun_grow ht e1).2 hn
      have := h2.done hk hD
      subst this
      simp only [hw.putGet] at e2
      rw [e2]

/-! ### Characters -/

/-- The fields of a character that the reader changes, and the others. -/
def characterFields : List (Field Character) :=
  [fun a b => a.desc = b.desc, fun a b => a.bio = b.bio, fun a b => a.goals = b.goals, fun a b => a.notes = b.notes,
   fun a b => ({ a with desc := none, bio := none, goals := none, notes := none } : Character) = { b with desc := none, bio := none, goals := none, notes := none }]

theorem character_start (a m : Character) : Mix characterFields a m m := by
  intro E hE
  simp only [characterFields, List.mem_cons, List.not_mem_nil, or_false] at hE
  rcases hE with rfl | rfl | rfl | rfl | rfl <;> exact .inr rfl

theorem character_done (b m : Character) (h : Mix characterFields m b m) : b = m := by
  simp only [Mix, characterFields, List.mem_cons, List.not_mem_nil, or_false, forall_eq_or_imp, forall_eq, or_self] at h
  obtain ⟨h1, h2, h3, h4, h5⟩ := h
  rcases b with ⟨⟨_, _, _, _, _, _⟩, _, _, _, _, _⟩
  rcases m with ⟨⟨_, _, _, _, _, _⟩, _, _, _, _, _⟩
  simp_all

theorem plain_section (s t : Str) : Plain characterFields (setSection s t) := by
  intro E hE
  simp only [characterFields, List.mem_cons, List.not_mem_nil, or_false] at hE
  unfold setSection
  by_cases h1 : s = c!"desc"
  · simp only [h1, ↓reduceIte]
    rcases hE with rfl | rfl | rfl | rfl | rfl <;> first | exact .inl (fun _ _ => rfl) | exact .inr (fun _ _ => ⟨Iff.rfl, Iff.rfl⟩)
  · by_cases h2 : s = c!"bio"
    · simp only [h2, show ¬ c!"bio" = c!"desc" by decide, ↓reduceIte]
      rcases hE with rfl | rfl | rfl | rfl | rfl <;> first | exact .inl (fun _ _ => rfl) | exact .inr (fun _ _ => ⟨Iff.rfl, Iff.rfl⟩)
    · by_cases h3 : s = c!"goals"
      · simp only [h3, show ¬ c!"goals" = c!"desc" by decide, show ¬ c!"goals" = c!"bio" by decide, ↓reduceIte]
        rcases hE with rfl | rfl | rfl | rfl | rfl <;> first | exact .inl (fun _ _ => rfl) | exact .inr (fun _ _ => ⟨Iff.rfl, Iff.rfl⟩)
      · simp only [h1, h2, h3, ↓reduceIte]
        rcases hE with rfl | rfl | rfl | rfl | rfl <;> first | exact .inl (fun _ _ => rfl) | exact .inr (fun _ _ => ⟨Iff.rfl, Iff.rfl⟩)

/-- The characters of a project. -/
def characterKind : Kind Character :=
  { get := fun n => n.characters, put := fun n d => { n with characters := d },
    add := fun n id => { n with srtCharacters := n.srtCharacters ++ [id] } }

theorem characterKind_laws : characterKind.Laws := ⟨fun _ _ => rfl, fun _ _ _ => rfl, fun _ => rfl, fun _ _ => rfl⟩

theorem characters_track : ETracks characterKind (Mix characterFields) charactersReader := by
  intro r c
  cases c with
  | start tag as =>
    by_cases h1 : tag = c!"div"
    · rcases as with _ | ⟨⟨k, v⟩, as⟩
      · simp only [charactersReader, crStart, h1, ↓reduceIte]
        exact E.error _ _
      · by_cases h2 : k = c!"id"
        · by_cases h3 : Str.startsWith (v.getD []) c!"CrID_desc" = true
          · simp only [charactersReader, crStart, h1, h2, h3, ↓reduceIte]
            cases Rd.firstNumber (v.getD []) with
            | error e => exact E.error _ _
            | ok id => exact E.ensure characterKind_laws character_start {} { r with elId := some id, sect := some c!"desc" } id r.novel
          · by_cases h4 : Str.startsWith (v.getD []) c!"CrID_bio" = true
            · simp only [charactersReader, crStart, h1, h2, h3, h4, ↓reduceIte]
              exact E.pure _ _ _ _ _ _ _ _ _ _ _
            · by_cases h5 : Str.startsWith (v.getD []) c!"CrID_goals" = true
              · simp only [charactersReader, crStart, h1, h2, h3, h4, h5, ↓reduceIte]
                exact E.pure _ _ _ _ _ _ _ _ _ _ _
              · by_cases h6 : Str.startsWith (v.getD []) c!"CrID_notes" = true
                · simp only [charactersReader, crStart, h1, h2, h3, h4, h5, h6, ↓reduceIte]
                  exact E.pure _ _ _ _ _ _ _ _ _ _ _
                · simp only [charactersReader, crStart, h1, h2, h3, h4, h5, h6, ↓reduceIte]
                  exact E.pure _ _ _ _ _ _ _ _ _ _ _
        · simp only [charactersReader, crStart, h1, h2, ↓reduceIte]
          exact E.pure _ _ _ _ _ _ _ _ _ _ _
    · by_cases h2 : tag = c!"s"
      · simp only [charactersReader, crStart, h2, show ¬ c!"s" = c!"div" by decide, ↓reduceIte]
        exact E.pure _ _ _ _ _ _ _ _ _ _ _
      · simp only [charactersReader, crStart, h1, h2, ↓reduceIte]
        exact E.pure _ _ _ _ _ _ _ _ _ _ _
  | stop tag =>
    simp only [charactersReader, crStop]
    cases e : r.elId with
    | none => exact E.pure _ _ _ _ _ _ _ _ _ _ _
    | some id =>
      by_cases h1 : tag = c!"div"
      · simp only [h1, ↓reduceIte]
        cases e2 : r.sect with
        | none => exact E.pure _ _ _ _ _ _ _ _ _ _ _
        | some s =>
          exact E.change characterKind_laws { r with lines := [], sect := none, elId := some id } id (fun a b m h => h.plain (plain_section s (Str.rstrip r.text))) .keyError r.novel
      · by_cases h2 : tag = c!"p"
        · simp only [h2, show ¬ c!"p" = c!"div" by decide, ↓reduceIte]
          exact E.pure _ _ _ _ _ _ _ _ _ _ _
        · simp only [h1, h2, ↓reduceIte]
          exact E.pure _ _ _ _ _ _ _ _ _ _ _
  | data s =>
    simp only [charactersReader]
    cases e : r.sect with
    | none => exact E.pure _ _ _ _ _ _ _ _ _ _ _
    | some id => exact E.pure _ _ _ _ _ _ _ _ _ _ _
  | comment s =>
    simp only [charactersReader, Rd.baseComment]
    cases e : r.scId with
    | none => exact E.pure _ _ _ _ _ _ _ _ _ _ _
    | some id => exact E.pure _ _ _ _ _ _ _ _ _ _ _

/-! ### Locations and items -/

/-- The field of a location or an item that the reader changes, and the others. -/
def elementFields : List (Field WorldElement) :=
  [fun a b => a.desc = b.desc, fun a b => ({ a with desc := none } : WorldElement) = { b with desc := none }]

theorem element_start (a m : WorldElement) : Mix elementFields a m m := by
  intro E hE
  simp only [elementFields, List.mem_cons, List.not_mem_nil, or_false] at hE
  rcases hE with rfl | rfl <;> exact .inr rfl

theorem element_done (b m : WorldElement) (h : Mix elementFields m b m) : b = m := by
  simp only [Mix, elementFields, List.mem_cons, List.not_mem_nil, or_false, forall_eq_or_imp, forall_eq, or_self] at h
  obtain ⟨h1, h2⟩ := h
  cases b
  cases m
  simp_all

theorem plain_element (t : Option Str) : Plain elementFields (fun e => { e with desc := t }) := by
  intro E hE
  simp only [elementFields, List.mem_cons, List.not_mem_nil, or_false] at hE
  rcases hE with rfl | rfl <;> first | exact .inl (fun _ _ => rfl) | exact .inr (fun _ _ => ⟨Iff.rfl, Iff.rfl⟩)

/-- The elements of a kind. -/
def kindOf (w : WorldKind) : Kind WorldElement := ⟨w.get, w.put, w.add⟩

theorem world_tracks (w : WorldKind) (hw : (kindOf w).Laws) : ETracks (kindOf w) (Mix elementFields) (worldReader w) := by
  intro r c
  cases c with
  | start tag as =>
    by_cases h1 : tag = c!"div"
    · rcases as with _ | ⟨⟨k, v⟩, as⟩
      · simp only [worldReader, weStart, h1, ↓reduceIte]
        exact E.error _ _
      · by_cases h2 : k = c!"id" ∧ Str.startsWith (v.getD []) w.mark = true
        · simp only [worldReader, weStart, h1, h2, and_self, ↓reduceIte]
          cases Rd.firstNumber (v.getD []) with
          | error e => exact E.error _ _
          | ok id => exact E.ensure hw element_start {} { r with elId := some id } id r.novel
        · simp only [worldReader, weStart, h1, h2, ↓reduceIte]
          exact E.pure _ _ _ _ _ _ _ _ _ _ _
    · by_cases h2 : tag = c!"s"
      · simp only [worldReader, weStart, h2, show ¬ c!"s" = c!"div" by decide, ↓reduceIte]
        exact E.pure _ _ _ _ _ _ _ _ _ _ _
      · simp only [worldReader, weStart, h1, h2, ↓reduceIte]
        exact E.pure _ _ _ _ _ _ _ _ _ _ _
  | stop tag =>
    simp only [worldReader, weStop]
    cases e : r.elId with
    | none => exact E.pure _ _ _ _ _ _ _ _ _ _ _
    | some id =>
      by_cases h1 : tag = c!"div"
      · simp only [h1, ↓reduceIte]
        exact E.change hw { r with lines := [], elId := none } id (f := fun e => { e with desc := some (Str.rstrip r.text) })
          (fun a b m h => h.plain (plain_element (some (Str.rstrip r.text)))) .keyError r.novel
      · by_cases h2 : tag = c!"p"
        · simp only [h2, show ¬ c!"p" = c!"div" by decide, ↓reduceIte]
          exact E.pure _ _ _ _ _ _ _ _ _ _ _
        · simp only [h1, h2, ↓reduceIte]
          exact E.pure _ _ _ _ _ _ _ _ _ _ _
  | data s =>
    simp only [worldReader]
    cases e : r.elId with
    | none => exact E.pure _ _ _ _ _ _ _ _ _ _ _
    | some id => exact E.pure _ _ _ _ _ _ _ _ _ _ _
  | comment s =>
    simp only [worldReader, Rd.baseComment]
    cases e : r.scId with
    | none => exact E.pure _ _ _ _ _ _ _ _ _ _ _
    | some id => exact E.pure _ _ _ _ _ _ _ _ _ _ _

end Verif.Twice
