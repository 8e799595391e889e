/-
The order of the entries of the cross reference dictionaries (for C55).
-/
import Verif.Spec.XrefDoc
import Verif.Model.OdtXref

namespace Verif
open Spec

theorem distinct_mem (l : List Str) (x : Str) : x ∈ distinct l ↔ x ∈ l := by
  induction l with
  | nil => simp [distinct]
  | cons a l ih =>
    simp only [distinct, List.mem_cons, List.mem_filter, decide_eq_true_eq, ih]
    constructor
    · rintro (h | h)
      · exact .inl h
      · exact .inr h.1
    · rintro (h | h)
      · exact .inl h
      · by_cases e : x = a
        · exact .inl e
        · exact .inr ⟨h, by simpa using e⟩

theorem distinct_snoc (l : List Str) (x : Str) : distinct (l ++ [x]) = if x ∈ l then distinct l else distinct l ++ [x] := by
  induction l with
  | nil => rfl
  | cons a l ih =>
    simp only [List.cons_append, distinct]
    rw [ih]
    by_cases h : x ∈ l
    · rw [if_pos h, if_pos (List.mem_cons_of_mem _ h)]
    · rw [if_neg h]
      by_cases e : x = a
      · subst e
        rw [if_pos List.mem_cons_self]
        congr 1
        rw [List.filter_append]
        simp
      · rw [if_neg (by simp only [List.mem_cons, not_or]; exact ⟨e, h⟩)]
        rw [List.filter_append]
        simp [e]

theorem set_keys {α : Type} {d : Dict α} {l : List Str} (h : d.keys = distinct l) (k : Str) (a : α) : (d.set k a).keys = distinct (l ++ [k]) := by
  rw [distinct_snoc]
  by_cases hk : k ∈ l
  · rw [if_pos hk, Dict.keys_set_of_mem, h]
    rw [h, distinct_mem]
    exact hk
  · rw [if_neg hk, Dict.keys_set_of_not_mem, h]
    rw [h, distinct_mem]
    exact hk

theorem pushTag_keys {d : Dict (List Str)} {l : List Str} (h : d.keys = distinct l) (v t : Str) : (pushTag v d t).keys = distinct (l ++ [t]) := by
  unfold pushTag
  rw [Dict.keys_modify]
  by_cases hk : t ∈ l
  · have : d.has t = true := by rw [Dict.has_iff, h, distinct_mem]; exact hk
    rw [if_pos this, distinct_snoc, if_pos hk, h]
  · have : ¬ d.has t = true := by rw [Dict.has_iff, h, distinct_mem]; exact hk
    rw [if_neg this]
    exact set_keys h t []

theorem pushTags_keys (v : Str) (ts : List Str) {d : Dict (List Str)} {l : List Str} (h : d.keys = distinct l) : (ts.foldl (pushTag v) d).keys = distinct (l ++ ts) := by
  induction ts generalizing d l with
  | nil => rw [List.append_nil]; exact h
  | cons t ts ih =>
    rw [List.foldl_cons, ih (pushTag_keys h v t), List.append_assoc]
    rfl

theorem pushKey_keys {v : Str} (ks : List Str) {d d' : Dict (List Str)} (h : foldE (pushKey v) d ks = .ok d') : d'.keys = d.keys := by
  induction ks generalizing d with
  | nil => cases h; rfl
  | cons k ks ih =>
    unfold foldE at h
    split at h
    · rename_i d1 e
      rw [ih h]
      unfold pushKey at e
      split at e
      · cases e
        rw [Dict.keys_modify]
      · cases e
    · cases h

theorem elements_keys {α : Type} {elements : Dict α} {tags : α → Option (List Str)} (ids : List Str) {a b a' b' : Dict (List Str)} {la lb : List Str}
    (ha : a.keys = distinct la) (hb : b.keys = distinct lb) (h : foldE (xrefElement elements tags) (a, b) ids = .ok (a', b')) :
    a'.keys = distinct (la ++ ids) ∧ b'.keys = distinct (lb ++ ids.flatMap (tagsIn elements tags)) := by
  induction ids generalizing a b la lb with
  | nil =>
    cases h
    rw [List.append_nil, List.flatMap_nil, List.append_nil]
    exact ⟨ha, hb⟩
  | cons id ids ih =>
    unfold foldE at h
    split at h
    · rename_i s e
      unfold xrefElement at e
      split at e
      · cases e
      · rename_i x hx
        cases e
        have ht : tagsIn elements tags id = (tags x).getD [] := by unfold tagsIn; rw [hx]; rfl
        have := ih (set_keys ha id []) (pushTags_keys id ((tags x).getD []) hb) h
        rw [List.flatMap_cons, ht]
        simp only [List.append_assoc, List.singleton_append] at this
        exact this
    · cases h

/-- The dictionaries of scenes have their keys in this order. -/
structure XKeys (n : Novel) (done : List Str) (x : Xref) : Prop where
  chr : x.scnPerChr.keys = distinct n.srtCharacters
  loc : x.scnPerLoc.keys = distinct n.srtLocations
  itm : x.scnPerItm.keys = distinct n.srtItems
  tag : x.scnPerTag.keys = distinct (done.flatMap (refsOf n (·.tags)))
  chrT : x.chrPerTag.keys = distinct (n.srtCharacters.flatMap (tagsIn n.characters (·.tags)))
  locT : x.locPerTag.keys = distinct (n.srtLocations.flatMap (tagsIn n.locations (·.tags)))
  itmT : x.itmPerTag.keys = distinct (n.srtItems.flatMap (tagsIn n.items (·.tags)))

theorem scene_keys {n : Novel} {chId s : Str} {done : List Str} {x x' : Xref} (hx : XKeys n done x) (h : xrefScene n chId x s = .ok x') : XKeys n (done ++ [s]) x' := by
  unfold xrefScene at h
  simp only at h
  split at h
  · cases h
  · rename_i sc hs
    split at h
    · cases h
    · rename_i c hc
      split at h
      · cases h
      · rename_i l hl
        split at h
        · cases h
        · rename_i i hi
          cases h
          refine ⟨?_, ?_, ?_, ?_, hx.chrT, hx.locT, hx.itmT⟩
          · rw [pushKey_keys _ hc]; exact hx.chr
          · rw [pushKey_keys _ hl]; exact hx.loc
          · rw [pushKey_keys _ hi]; exact hx.itm
          · show (List.foldl (pushTag s) x.scnPerTag (sc.tags.getD [])).keys = _
            rw [pushTags_keys s (sc.tags.getD []) hx.tag, List.flatMap_append]
            have : refsOf n (·.tags) s = sc.tags.getD [] := by unfold refsOf; rw [hs]; rfl
            simp [this]

theorem scenes_keys {n : Novel} {chId : Str} (ss : List Str) {done : List Str} {x x' : Xref} (hx : XKeys n done x) (h : foldE (xrefScene n chId) x ss = .ok x') :
    XKeys n (done ++ ss) x' := by
  induction ss generalizing done x with
  | nil => cases h; rw [List.append_nil]; exact hx
  | cons s ss ih =>
    unfold foldE at h
    split at h
    · rename_i x1 e
      have := ih (scene_keys hx e) h
      rw [List.append_assoc] at this
      exact this
    · cases h

theorem chapters_keys {n : Novel} (cs : List Str) {done : List Str} {x x' : Xref} (hx : XKeys n done x) (h : foldE (xrefChapter n) x cs = .ok x') :
    XKeys n (done ++ cs.flatMap (scenesOf n.chapters)) x' := by
  induction cs generalizing done x with
  | nil => cases h; rw [List.flatMap_nil, List.append_nil]; exact hx
  | cons c cs ih =>
    unfold foldE at h
    split at h
    · rename_i x1 e
      unfold xrefChapter at e
      split at e
      · cases e
      · rename_i ch hch
        have := ih (scenes_keys _ hx e) h
        rw [List.flatMap_cons]
        have e2 : scenesOf n.chapters c = ch.srtScenes := by unfold scenesOf; rw [hch]
        rw [e2, ← List.append_assoc]
        exact this
    · cases h

theorem xref_keys {n : Novel} {x : Xref} (h : generateXref n = .ok x) : XKeys n (narrative n) x := by
  unfold generateXref at h
  split at h
  · cases h
  · rename_i sc ct e1
    split at h
    · cases h
    · rename_i sl lt e2
      split at h
      · cases h
      · rename_i si it e3
        obtain ⟨a1, b1⟩ := elements_keys (la := []) (lb := []) n.srtCharacters rfl rfl e1
        obtain ⟨a2, b2⟩ := elements_keys (la := []) (lb := []) n.srtLocations rfl rfl e2
        obtain ⟨a3, b3⟩ := elements_keys (la := []) (lb := []) n.srtItems rfl rfl e3
        have := chapters_keys n.srtChapters (done := []) ⟨a1, a2, a3, rfl, b1, b2, b3⟩ h
        exact this

/-! ### Dictionaries as lists -/

/-- A dictionary with distinct keys, spelled out. -/
theorem dict_list {α : Type} (d : Dict α) (hd : d.keys.Nodup) (f : Str → α) (h : ∀ k ∈ d.keys, d.get? k = some (f k)) : d = d.keys.map (fun k => (k, f k)) := by
  induction d with
  | nil => rfl
  | cons p d ih =>
    obtain ⟨k, v⟩ := p
    have hk : Dict.keys ((k, v) :: d) = k :: Dict.keys d := rfl
    rw [hk] at hd h ⊢
    rw [List.nodup_cons] at hd
    have hv : v = f k := by
      have := h k List.mem_cons_self
      simp only [Dict.get?, ↓reduceIte] at this
      exact Option.some.inj this
    rw [List.map_cons, ← hv]
    congr 1
    refine ih hd.2 ?_
    intro j hj
    have := h j (List.mem_cons_of_mem _ hj)
    have hne : k ≠ j := fun e => hd.1 (e ▸ hj)
    simp only [Dict.get?, if_neg hne] at this
    exact this

theorem distinct_nodup (l : List Str) : (distinct l).Nodup := by
  induction l with
  | nil => exact List.nodup_nil
  | cons a l ih =>
    unfold distinct
    rw [List.nodup_cons]
    refine ⟨?_, ih.filter _⟩
    simp [List.mem_filter]

theorem listIndex_ok {l : List Str} {x : Str} (h : x ∈ l) : listIndex l x = .ok (l.idxOf x) := by
  induction l with
  | nil => cases h
  | cons a l ih =>
    unfold listIndex
    rw [List.idxOf_cons]
    by_cases e : a = x
    · subst e
      simp
    · rw [if_neg e]
      have hx : x ∈ l := by
        rcases List.mem_cons.1 h with h | h
        · exact absurd h.symm e
        · exact h
      rw [ih hx]
      have : (a == x) = false := by simpa using e
      rw [this]
      rfl

end Verif
