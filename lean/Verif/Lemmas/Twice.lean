/-
Two dictionaries that are changed in the same way, the second being the result of such changes already.
-/
import Verif.Lemmas.Desc3

namespace Verif.Twice
open Verif

/-- One of the fields of an element: an equivalence that tells whether two elements agree there. -/
abbrev Field (α : Type) := α → α → Prop

/-- Every field of the second element is that of the first one, or that of the last one. -/
def Mix {α : Type} (es : List (Field α)) (a b m : α) : Prop := ∀ E ∈ es, E b a ∨ E b m

/-- The change gives every field a value that does not depend on the element, or keeps it. -/
def Plain {α : Type} (es : List (Field α)) (f : α → α) : Prop :=
  ∀ E ∈ es, (∀ a b, E (f a) (f b)) ∨ ∀ a b, (E (f a) b ↔ E a b) ∧ (E a (f b) ↔ E a b)

theorem Mix.plain {α : Type} {es : List (Field α)} {f : α → α} (hf : Plain es f) {a b m : α} (h : Mix es a b m) : Mix es (f a) (f b) m := by
  intro E hE
  rcases hf E hE with hc | hk
  · exact .inl (hc b a)
  · rcases h E hE with h | h
    · exact .inl (((hk b (f a)).1).2 (((hk b a).2).2 h))
    · exact .inr (((hk b m).1).2 h)

/-- The elements of the second dictionary, compared with those of the first and the last one; one that is not yet in the first dictionary is
that of the last one. -/
structure DMix {α : Type} (R : α → α → α → Prop) (d1 d2 dm : Dict α) : Prop where
  keys : d2.keys = dm.keys
  vals : ∀ k m, dm.get? k = some m → ∃ b, d2.get? k = some b ∧ (d1.get? k = none → b = m) ∧ ∀ a, d1.get? k = some a → R a b m

theorem DMix.start {α : Type} {R : α → α → α → Prop} (hR : ∀ a m, R a m m) (d1 dm : Dict α) : DMix R d1 dm dm :=
  ⟨rfl, fun _ m hm => ⟨m, hm, fun _ => rfl, fun a _ => hR a m⟩⟩

theorem DMix.has {α : Type} {R : α → α → α → Prop} {d1 d2 dm : Dict α} (h : DMix R d1 d2 dm) (k : Str) : d2.has k = dm.has k := by
  have := h.keys
  rw [Bool.eq_iff_iff, Dict.has_iff, Dict.has_iff, this]

theorem DMix.both {α : Type} {R : α → α → α → Prop} {d1 d2 dm : Dict α} (h : DMix R d1 d2 dm) {k : Str} (hk : d1.has k = true) {f g : α → α}
    (hf : ∀ a b m, d1.get? k = some a → dm.get? k = some m → R a b m → R (f a) (g b) m) : DMix R (d1.modify k f) (d2.modify k g) dm := by
  constructor
  · rw [Dict.keys_modify, h.keys]
  · intro x m hm
    obtain ⟨b, hb, hn, hs⟩ := h.vals x m hm
    by_cases e : k = x
    · subst e
      obtain ⟨a, ha⟩ := Option.isSome_iff_exists.1 hk
      refine ⟨g b, by rw [Dict.get?_modify_self, hb]; rfl, ?_, ?_⟩
      · intro h0
        rw [Dict.get?_modify_self, ha] at h0
        exact nomatch h0
      · intro a' ha'
        rw [Dict.get?_modify_self, ha] at ha'
        cases ha'
        exact hf a b m ha hm (hs a ha)
    · refine ⟨b, by rw [Dict.get?_modify_ne _ _ e, hb], ?_, ?_⟩
      · rw [Dict.get?_modify_ne _ _ e]; exact hn
      · rw [Dict.get?_modify_ne _ _ e]; exact hs

theorem DMix.left {α : Type} {R : α → α → α → Prop} {d1 d2 dm : Dict α} (h : DMix R d1 d2 dm) {k : Str} {f : α → α}
    (hf : ∀ a b m, R a b m → R (f a) b m) : DMix R (d1.modify k f) d2 dm := by
  constructor
  · exact h.keys
  · intro x m hm
    obtain ⟨b, hb, hn, hs⟩ := h.vals x m hm
    refine ⟨b, hb, ?_, ?_⟩
    · by_cases e : k = x
      · subst e
        rw [Dict.get?_modify_self]
        intro h0
        exact hn (by simpa using h0)
      · rw [Dict.get?_modify_ne _ _ e]; exact hn
    · by_cases e : k = x
      · subst e
        rw [Dict.get?_modify_self]
        intro a ha
        obtain ⟨a', h1, rfl⟩ := Option.map_eq_some_iff.1 ha
        exact hf _ _ _ (hs a' h1)
      · rw [Dict.get?_modify_ne _ _ e]; exact hs

theorem DMix.add {α : Type} {R : α → α → α → Prop} (hR : ∀ a m, R a m m) {d1 d2 dm : Dict α} (h : DMix R d1 d2 dm) {k : Str}
    (hk : d1.get? k = none) (a0 : α) : DMix R (d1.set k a0) d2 dm := by
  constructor
  · exact h.keys
  · intro x m hm
    obtain ⟨b, hb, hn, hs⟩ := h.vals x m hm
    refine ⟨b, hb, ?_, ?_⟩
    · rw [Dict.get?_set]
      split
      · exact nofun
      · exact hn
    · rw [Dict.get?_set]
      split
      · rename_i e
        subst e
        intro a ha
        cases ha
        rw [hn hk]
        exact hR _ _
      · exact hs

theorem dict_ext {α : Type} : ∀ {a b : Dict α}, a.keys = b.keys → a.keys.Nodup → (∀ k ∈ a.keys, a.get? k = b.get? k) → a = b
  | [], [], _, _, _ => rfl
  | [], _ :: _, h, _, _ => by simp [Dict.keys] at h
  | _ :: _, [], h, _, _ => by simp [Dict.keys] at h
  | (k, v) :: r, (k', v') :: r', h, hn, hg => by
    simp only [Dict.keys, List.map_cons, List.cons.injEq] at h
    obtain ⟨rfl, h⟩ := h
    simp only [Dict.keys, List.map_cons, List.nodup_cons] at hn
    have h1 := hg k (by simp [Dict.keys])
    simp only [Dict.get?, ↓reduceIte, Option.some.injEq] at h1
    subst h1
    congr 1
    refine dict_ext h hn.2 ?_
    intro x hx
    have h2 := hg x (by simp only [Dict.keys, List.map_cons, List.mem_cons]; exact .inr hx)
    have hne : ¬ k = x := by
      rintro rfl
      exact hn.1 hx
    simpa only [Dict.get?, hne, ↓reduceIte] using h2

theorem DMix.done {α : Type} {R : α → α → α → Prop} {d2 dm : Dict α} (h : DMix R dm d2 dm) (hn : dm.keys.Nodup)
    (hR : ∀ b m, R m b m → b = m) : d2 = dm := by
  refine dict_ext h.keys (h.keys ▸ hn) ?_
  intro k hk
  rw [h.keys, Dict.mem_keys_iff] at hk
  obtain ⟨m, hm⟩ := hk
  obtain ⟨b, hb, _, hs⟩ := h.vals k m hm
  rw [hb, hm, hR b m (hs m hm)]

end Verif.Twice
