/-
The sections of the project tree: what is written can be carried.
-/
import Verif.Lemmas.Disk2
import Verif.Lemmas.Yw7Project
import Verif.Lemmas.Globals

namespace Verif
open Xml Elem Spec

/-- All sections are good, apart from the lists in `D`. -/
def Secs (R : Str → Prop) (D : List (Str × Str)) (rk : List Elem) : Prop := ∀ e ∈ rk, GoodTree R (withoutLists D e)

theorem withoutLists_of {D : List (Str × Str)} {e : Elem} (h : ∀ p ∈ D, p.1 ≠ e.tag) : withoutLists D e = e := by
  cases e with
  | node t x y ks =>
    unfold withoutLists
    rw [mapKids]
    congr 1
    rw [List.filter_eq_self]
    intro k _
    rw [tag_node, Bool.not_eq_true', List.contains_eq_mem, decide_eq_false_iff_not]
    intro hm
    exact h _ hm rfl

theorem mem_modFirst_find {t : Str} {f : Elem → Elem} {ks : List Elem} {e : Elem} (h : e ∈ modFirst t f ks) : e ∈ ks ∨ ∃ k, find t ks = some k ∧ e = f k := by
  induction ks with
  | nil => cases h
  | cons k r ih =>
    rw [modFirst] at h
    unfold find at ih ⊢
    rw [List.find?_cons]
    split at h
    · rename_i hk
      rcases List.mem_cons.1 h with rfl | h
      · exact Or.inr ⟨k, by simp [hk], rfl⟩
      · exact Or.inl (by simp [h])
    · rename_i hk
      simp only [hk, decide_false]
      rcases List.mem_cons.1 h with rfl | h
      · exact Or.inl (by simp)
      · rcases ih h with h | h
        · exact Or.inl (by simp [h])
        · exact Or.inr h

theorem mem_modFirst_once {t : Str} {f : Elem → Elem} {ks : List Elem} {e : Elem} (ho : (sel t ks).length ≤ 1) (h : e ∈ modFirst t f ks) :
    (e ∈ ks ∧ e.tag ≠ t) ∨ ∃ k, find t ks = some k ∧ e = f k := by
  induction ks with
  | nil => cases h
  | cons k r ih =>
    rw [modFirst] at h
    unfold find at ih ⊢
    unfold sel at ih ho
    rw [List.find?_cons]
    rw [List.filter_cons] at ho
    split at h
    · rename_i hk
      rcases List.mem_cons.1 h with rfl | h
      · exact Or.inr ⟨k, by simp [hk], rfl⟩
      · simp only [hk, decide_true, if_true, List.length_cons] at ho
        refine Or.inl ⟨by simp [h], ?_⟩
        intro he
        have : (r.filter (fun e => e.tag = t)) = [] := List.length_eq_zero_iff.1 (by omega)
        have hm : e ∈ r.filter (fun e => e.tag = t) := List.mem_filter.2 ⟨h, by simp [he]⟩
        rw [this] at hm
        cases hm
    · rename_i hk
      simp only [hk, decide_false, Bool.false_eq_true, if_false] at ho ⊢
      rcases List.mem_cons.1 h with rfl | h
      · exact Or.inl ⟨by simp, hk⟩
      · rcases ih ho h with ⟨h, h'⟩ | h
        · exact Or.inl ⟨by simp [h], h'⟩
        · exact Or.inr h

theorem onSection_eq {t : Str} {f : List Elem → Except Exc (List Elem)} {rk out : List Elem} (h : onSection t f rk = .ok out) :
    ∃ e ks, find t rk = some e ∧ f e.kids = .ok ks ∧ out = modFirst t (mapKids (fun _ => ks)) rk := by
  unfold onSection at h
  split at h
  · cases h
  · rename_i e he
    split at h
    · cases h
    · rename_i ks hk
      cases h
      exact ⟨e, ks, he, hk, rfl⟩

theorem sel_modFirst_length {t u : Str} {f : Elem → Elem} (hf : ∀ e, (f e).tag = e.tag) (ks : List Elem) : (sel u (modFirst t f ks)).length = (sel u ks).length := by
  induction ks with
  | nil => rfl
  | cons k r ih =>
    rw [modFirst]
    unfold sel at ih ⊢
    split
    · simp only [List.filter_cons, hf]
      split <;> simp
    · simp only [List.filter_cons]
      split
      · simp [ih]
      · exact ih

theorem onSection_length {t u : Str} {f : List Elem → Except Exc (List Elem)} {rk out : List Elem} (h : onSection t f rk = .ok out) : (sel u out).length = (sel u rk).length := by
  obtain ⟨e, ks, _, _, rfl⟩ := onSection_eq h
  exact sel_modFirst_length (fun e => by simp) rk

/-- A section that is not one of the lists. -/
theorem Secs.section {R : Str → Prop} {D : List (Str × Str)} {t : Str} {f : List Elem → Except Exc (List Elem)} {rk out : List Elem} (h : Secs R D rk) (ho : onSection t f rk = .ok out)
    (hD : ∀ p ∈ D, p.1 ≠ t) (ht : t ∉ cdataTags) (hf : ∀ ks ks', f ks = .ok ks' → GoodL R ks → GoodL R ks') : Secs R D out := by
  obtain ⟨e, ks, h1, h2, rfl⟩ := onSection_eq ho
  intro x hx
  rcases mem_modFirst_find hx with hx | ⟨k, hk, rfl⟩
  · exact h x hx
  · rw [h1] at hk
    cases hk
    obtain ⟨hm, he⟩ := find_mem h1
    have hg := h e hm
    rw [withoutLists_of (by rw [he]; exact hD)] at hg
    rw [withoutLists_of (by rw [tag_mapKids, he]; exact hD)]
    exact goodTree_mapKids hg (he ▸ ht) (hf _ _ h2 (goodTree_kids hg))

theorem rebuildSection_eq {α : Type} {tag : Str} {d : Dict α} {f : α → List Elem → List Elem} {ids : List Str} {ks out : List Elem} (h : rebuildSection tag d f ids ks = .ok out) :
    ∃ es, out = ks.filter (fun e => e.tag ≠ tag) ++ es ∧ ∀ e ∈ es, ∃ id ∈ ids, ∃ a, d.get? id = some a ∧ e = node tag none none (f a [leaf c!"ID" (some id)]) := by
  unfold rebuildSection at h
  split at h
  · cases h
  · rename_i es hes
    cases h
    refine ⟨es, rfl, ?_⟩
    intro e he
    obtain ⟨id, h1, h2⟩ := mapE_mem' hes e he
    refine ⟨id, h1, ?_⟩
    split at h2
    · cases h2
    · rename_i a ha
      cases h2
      exact ⟨a, ha, rfl⟩

/-- A list that is replaced: the texts of its entries are not considered. -/
theorem Secs.rebuild {R : Str → Prop} {D : List (Str × Str)} {t tag : Str} {α : Type} {d : Dict α} {f : α → List Elem → List Elem} {ids : List Str} {rk out : List Elem} (h : Secs R D rk)
    (ho : onSection t (rebuildSection tag d f ids) rk = .ok out) (hD : (t, tag) ∈ D) : Secs R D out := by
  obtain ⟨e, ks, h1, h2, rfl⟩ := onSection_eq ho
  obtain ⟨es, rfl, hes⟩ := rebuildSection_eq h2
  intro x hx
  rcases mem_modFirst_find hx with hx | ⟨k, hk, rfl⟩
  · exact h x hx
  · rw [h1] at hk
    cases hk
    obtain ⟨hm, he⟩ := find_mem h1
    have hg := h e hm
    have : withoutLists D (e.mapKids (fun _ => e.kids.filter (fun e => e.tag ≠ tag) ++ es)) = withoutLists D e := by
      cases e with
      | node u x y k =>
        rw [tag_node] at he
        subst he
        unfold withoutLists
        rw [mapKids, mapKids, mapKids]
        congr 1
        simp only [kids_node, tag_node]
        rw [List.filter_append, List.filter_filter]
        have h3 : es.filter (fun k => !D.contains (u, k.tag)) = [] := by
          rw [List.filter_eq_nil_iff]
          intro a ha
          obtain ⟨id, _, b, _, rfl⟩ := hes a ha
          simp [hD]
        rw [h3, List.append_nil]
        refine List.filter_congr ?_
        intro a _
        by_cases ha : a.tag = tag
        · simp [ha, hD]
        · simp [ha]
    rw [this]
    exact hg

/-- A list that is replaced by entries that can be carried. -/
theorem Secs.rebuilt {D D' : List (Str × Str)} {t tag : Str} {α : Type} {d : Dict α} {f : α → List Elem → List Elem} {ids : List Str} {rk out : List Elem} (h : Secs SafeRaw D rk)
    (ho : onSection t (rebuildSection tag d f ids) rk = .ok out) (hD : ∀ u v, (u, v) ∈ D' ↔ (u, v) ∈ D ∧ (u, v) ≠ (t, tag)) (hp : (t, tag) ∈ D) (hone : (sel t rk).length ≤ 1) (ht : t ∉ cdataTags)
    (hu : ∀ v, (t, v) ∈ D → v = tag) (hn : IsName tag ∧ tag ∉ cdataTags)
    (hf : ∀ id ∈ ids, ∀ a, d.get? id = some a → GoodL SafeRaw (f a [leaf c!"ID" (some id)])) : Secs SafeRaw D' out := by
  obtain ⟨e, ks, h1, h2, rfl⟩ := onSection_eq ho
  obtain ⟨es, rfl, hes⟩ := rebuildSection_eq h2
  intro x hx
  rcases mem_modFirst_once hone hx with ⟨hx, hne⟩ | ⟨k, hk, rfl⟩
  · have := h x hx
    have e1 : withoutLists D' x = withoutLists D x := by
      unfold withoutLists
      congr 1
      funext l
      refine List.filter_congr ?_
      intro a _
      congr 1
      rw [List.contains_eq_mem, List.contains_eq_mem, decide_eq_decide, hD]
      constructor
      · exact fun h => h.1
      · intro h
        exact ⟨h, fun h' => hne (Prod.ext_iff.1 h').1⟩
    rw [e1]
    exact this
  · rw [h1] at hk
    cases hk
    obtain ⟨hm, he⟩ := find_mem h1
    have hg := h e hm
    rw [withoutLists_of (by
      intro p hp'
      rw [tag_mapKids, he]
      intro hpt
      obtain ⟨hp1, hp2⟩ := (hD p.1 p.2).1 hp'
      rw [hpt] at hp1 hp2
      exact hp2 (by rw [hu _ hp1]))]
    have hk : GoodL SafeRaw (withoutLists D e).kids := goodTree_kids hg
    have : e.mapKids (fun _ => e.kids.filter (fun e => e.tag ≠ tag) ++ es) = (withoutLists D e).mapKids (fun _ => e.kids.filter (fun e => e.tag ≠ tag) ++ es) := by
      cases e; rfl
    rw [this]
    refine goodTree_mapKids hg (by cases e; exact he ▸ ht) ?_
    refine GoodL.append ?_ ?_
    · intro a ha
      refine hk a ?_
      obtain ⟨ha1, ha2⟩ := List.mem_filter.1 ha
      unfold withoutLists
      rw [kids_mapKids]
      refine List.mem_filter.2 ⟨ha1, ?_⟩
      rw [he, Bool.not_eq_true', List.contains_eq_mem, decide_eq_false_iff_not]
      intro h'
      have h3 : a.tag ≠ tag := by simpa using ha2
      exact h3 (hu _ h')
    · intro a ha
      obtain ⟨id, hid, b, hb, rfl⟩ := hes a ha
      exact goodTree_node (fun s h => h.raw) hn (hf id hid b hb)

end Verif
