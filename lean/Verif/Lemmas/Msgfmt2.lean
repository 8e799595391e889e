/-
Compiled translation files: reading the tables, binary search.
-/
import Verif.Lemmas.Msgfmt

namespace Verif
open Spec

theorem word_table {h : Bytes} {p q : List Nat} {n : Nat} {r : Bytes} (hn : n < 4294967296) {pos : Nat} (hp : pos = h.length + 4 * p.length) :
    word (h ++ (p ++ n :: q).flatMap le32 ++ r) pos = some n := by
  have e : h ++ (p ++ n :: q).flatMap le32 ++ r = (h ++ p.flatMap le32) ++ (le32 n ++ (q.flatMap le32 ++ r)) := by
    rw [List.flatMap_append, List.flatMap_cons]
    simp only [List.append_assoc]
  rw [e]
  exact word_le32 hn pos (by rw [hp, List.length_append, le32s_length])

theorem moString_of {file a b s : Bytes} {table i : Nat} (h1 : word file (table + 8 * i) = some s.length) {pos : Nat}
    (h2 : word file (table + 8 * i + 4) = some pos) (hf : file = a ++ (s ++ 0 :: b)) (hp : pos = a.length) : moString file table i = some s := by
  unfold moString
  rw [h1, h2]
  show (if ((file.drop pos).take s.length).length = s.length ∧ file[pos + s.length]? = some 0 then some ((file.drop pos).take s.length) else none) = _
  rw [hf, hp, List.drop_left, List.take_left, if_pos]
  refine ⟨rfl, ?_⟩
  rw [List.getElem?_append_right (Nat.le_add_right _ _), Nat.add_sub_cancel_left, List.getElem?_append_right (Nat.le_refl _), Nat.sub_self]
  rfl

theorem zeroed_length_cons (a : Bytes) (l : List Bytes) : (zeroed (a :: l)).length = a.length + 1 + (zeroed l).length := by
  simp [zeroed, List.flatMap_cons]; omega

/-- The head of the file. -/
def moHead (n : Nat) : Bytes := le32 0x950412de ++ le32 0 ++ le32 n ++ le32 28 ++ le32 (28 + n * 8) ++ le32 0 ++ le32 0

theorem moHead_length (n : Nat) : (moHead n).length = 28 := rfl

/-- The two tables. -/
def moTables (es : List (Bytes × Bytes)) : List Nat :=
  keyTable (28 + 16 * es.length) (places 0 0 es) ++ valueTable (28 + 16 * es.length + (zeroed (es.map (·.1))).length) (places 0 0 es)

theorem moTables_length (es : List (Bytes × Bytes)) : (moTables es).length = 4 * es.length := by
  unfold moTables
  rw [List.length_append, keyTable_length, valueTable_length, places_length]
  omega

theorem moFile_eq (es : List (Bytes × Bytes)) :
    moFile es = moHead es.length ++ (moTables es).flatMap le32 ++ (zeroed (es.map (·.1)) ++ zeroed (es.map (·.2))) := by
  rw [← List.append_assoc]
  rfl

theorem moFile_key {es pre post : List (Bytes × Bytes)} {k v : Bytes} (hf : Fits es) (he : es = pre ++ (k, v) :: post) :
    moString (moFile es) 28 pre.length = some k := by
  have ht : moTables es = keyTable (28 + 16 * es.length) (places 0 0 pre) ++ k.length :: ((zeroed (pre.map (·.1))).length + (28 + 16 * es.length)) ::
      (keyTable (28 + 16 * es.length) (places ((zeroed (pre.map (·.1))).length + k.length + 1) ((zeroed (pre.map (·.2))).length + v.length + 1) post) ++
        valueTable (28 + 16 * es.length + (zeroed (es.map (·.1))).length) (places 0 0 es)) := by
    unfold moTables
    generalize 28 + 16 * es.length + (zeroed (es.map (·.1))).length = vs
    generalize 28 + 16 * es.length = ks
    generalize valueTable vs (places 0 0 es) = vt
    rw [he, places_append, places]
    unfold keyTable
    rw [List.flatMap_append, List.flatMap_cons]
    simp only [Nat.zero_add, List.append_assoc, List.cons_append, List.nil_append]
  have hb : ∀ n ∈ moTables es, n < 2147483648 := hf.2
  have hlen : (keyTable (28 + 16 * es.length) (places 0 0 pre)).length = 2 * pre.length := by rw [keyTable_length, places_length]
  have hk : k.length < 2147483648 := hb _ (by rw [ht]; simp)
  have ho : (zeroed (pre.map (·.1))).length + (28 + 16 * es.length) < 2147483648 := hb _ (by rw [ht]; simp)
  rw [moFile_eq]
  refine moString_of (a := moHead es.length ++ (moTables es).flatMap le32 ++ zeroed (pre.map (·.1)))
    (b := zeroed (post.map (·.1)) ++ zeroed (es.map (·.2))) (pos := (zeroed (pre.map (·.1))).length + (28 + 16 * es.length)) ?_ ?_ ?_ ?_
  · rw [ht]
    exact word_table (by omega) (by rw [hlen, moHead_length]; omega)
  · rw [ht, List.append_cons]
    exact word_table (by omega) (by rw [List.length_append, hlen, moHead_length, List.length_singleton]; omega)
  · have : zeroed (es.map (·.1)) = zeroed (pre.map (·.1)) ++ (k ++ 0 :: zeroed (post.map (·.1))) := by
      rw [he, List.map_append, zeroed_append]
      simp [zeroed, List.flatMap_cons]
    rw [this]
    simp only [List.append_assoc, List.cons_append]
  · rw [List.length_append, List.length_append, le32s_length, moTables_length, moHead_length]
    omega

theorem moFile_value {es pre post : List (Bytes × Bytes)} {k v : Bytes} (hf : Fits es) (he : es = pre ++ (k, v) :: post) :
    moString (moFile es) (28 + es.length * 8) pre.length = some v := by
  have ht : moTables es = (keyTable (28 + 16 * es.length) (places 0 0 es) ++
      valueTable (28 + 16 * es.length + (zeroed (es.map (·.1))).length) (places 0 0 pre)) ++ v.length ::
      ((zeroed (pre.map (·.2))).length + (28 + 16 * es.length + (zeroed (es.map (·.1))).length)) ::
      (valueTable (28 + 16 * es.length + (zeroed (es.map (·.1))).length)
        (places ((zeroed (pre.map (·.1))).length + k.length + 1) ((zeroed (pre.map (·.2))).length + v.length + 1) post)) := by
    unfold moTables
    generalize 28 + 16 * es.length + (zeroed (es.map (·.1))).length = vs
    generalize 28 + 16 * es.length = ks
    generalize keyTable ks (places 0 0 es) = kt
    rw [he, places_append, places]
    unfold valueTable
    rw [List.flatMap_append, List.flatMap_cons]
    simp only [Nat.zero_add, List.append_assoc, List.cons_append, List.nil_append]
  have hb : ∀ n ∈ moTables es, n < 2147483648 := hf.2
  have hlen : (keyTable (28 + 16 * es.length) (places 0 0 es) ++
      valueTable (28 + 16 * es.length + (zeroed (es.map (·.1))).length) (places 0 0 pre)).length = 2 * es.length + 2 * pre.length := by
    rw [List.length_append, keyTable_length, places_length, valueTable_length, places_length]
  have hk : v.length < 2147483648 := hb _ (by rw [ht]; simp)
  have ho : (zeroed (pre.map (·.2))).length + (28 + 16 * es.length + (zeroed (es.map (·.1))).length) < 2147483648 := hb _ (by rw [ht]; simp)
  rw [moFile_eq]
  refine moString_of (a := moHead es.length ++ (moTables es).flatMap le32 ++ zeroed (es.map (·.1)) ++ zeroed (pre.map (·.2)))
    (b := zeroed (post.map (·.2))) (pos := (zeroed (pre.map (·.2))).length + (28 + 16 * es.length + (zeroed (es.map (·.1))).length)) ?_ ?_ ?_ ?_
  · rw [ht]
    exact word_table (by omega) (by rw [hlen, moHead_length]; omega)
  · rw [ht, List.append_cons]
    exact word_table (by omega) (by rw [List.length_append, hlen, moHead_length, List.length_singleton]; omega)
  · have : zeroed (es.map (·.2)) = zeroed (pre.map (·.2)) ++ (v ++ 0 :: zeroed (post.map (·.2))) := by
      rw [he, List.map_append, zeroed_append]
      simp [zeroed, List.flatMap_cons]
    rw [this]
    simp only [List.append_assoc, List.cons_append]
  · rw [List.length_append, List.length_append, List.length_append, le32s_length, moTables_length, moHead_length]
    omega

theorem split_at {α : Type} {l : List α} {i : Nat} {x : α} (h : l[i]? = some x) : ∃ a b, l = a ++ x :: b ∧ a.length = i := by
  have hi : i < l.length := by
    rw [List.getElem?_eq_some_iff] at h
    exact h.1
  have hx : l[i] = x := by
    rw [List.getElem?_eq_getElem hi] at h
    exact Option.some.inj h
  refine ⟨l.take i, l.drop (i + 1), ?_, by simp; omega⟩
  rw [← hx, ← List.drop_eq_getElem_cons hi, List.take_append_drop]

/-- The keys are in strictly increasing order. -/
def Increasing (es : List (Bytes × Bytes)) : Prop := es.Pairwise fun a b => cmpBytes a.1 b.1 = .lt

theorem moSearch_spec {es : List (Bytes × Bytes)} (hf : Fits es) (hs : Increasing es) (key : Bytes) : ∀ (fuel lo hi : Nat), hi ≤ es.length → hi - lo ≤ fuel →
    moSearch (moFile es) 28 (28 + es.length * 8) key fuel lo hi = ((es.take hi).drop lo).lookup key := by
  intro fuel
  induction fuel with
  | zero =>
    intro lo hi h1 h2
    rw [List.drop_eq_nil_of_le (by rw [List.length_take]; omega)]
    rfl
  | succ fuel ih =>
    intro lo hi h1 h2
    rw [moSearch]
    by_cases h : lo < hi
    · rw [if_pos h]
      have hm : (lo + hi) / 2 < es.length := by omega
      generalize hmid : (lo + hi) / 2 = mid at hm
      have hlm : lo ≤ mid := by omega
      have hmh : mid < hi := by omega
      obtain ⟨⟨k, v⟩, hkv⟩ : ∃ x, es[mid]? = some x := ⟨_, List.getElem?_eq_getElem hm⟩
      obtain ⟨pre, post, he, hp⟩ := split_at hkv
      have hkey : moString (moFile es) 28 mid = some k := by rw [← hp]; exact moFile_key hf he
      have hval : moString (moFile es) (28 + es.length * 8) mid = some v := by rw [← hp]; exact moFile_value hf he
      show (match moString (moFile es) 28 mid with | none => none | some k => _) = _
      rw [hkey]
      show (match cmpBytes key k with | .eq => moString (moFile es) (28 + es.length * 8) mid | .lt => moSearch _ _ _ _ _ _ _ | .gt => moSearch _ _ _ _ _ _ _) = _
      have hpost : es.drop (mid + 1) = post := by
        have : pre ++ (k, v) :: post = pre ++ [(k, v)] ++ post := by simp
        rw [he, this]
        exact List.drop_left' (by simp [hp])
      have hsplit : (es.take hi).drop lo = ((es.take mid).drop lo) ++ (k, v) :: ((es.take hi).drop (mid + 1)) := by
        have e1 : es.take hi = es.take mid ++ (k, v) :: (es.take hi).drop (mid + 1) := by
          have h1' : (es.take hi).take mid = es.take mid := by rw [List.take_take, Nat.min_eq_left (Nat.le_of_lt hmh)]
          have hget : (es.take hi)[mid]'(by rw [List.length_take]; omega) = (k, v) := by
            rw [List.getElem_take]
            have : es[mid]? = some (k, v) := by
              rw [he, List.getElem?_append_right (by omega), hp, Nat.sub_self]; rfl
            rw [List.getElem?_eq_getElem hm] at this
            exact Option.some.inj this
          rw [← h1', ← hget, ← List.drop_eq_getElem_cons, List.take_append_drop]
        rw [e1, List.drop_append_of_le_length (by rw [List.length_take]; omega)]
        congr 2
        rw [← e1]
      have lt_of_pre : ∀ e ∈ es.take mid, cmpBytes e.1 k = .lt := by
        have : es.take mid = pre := by rw [he]; exact List.take_left' hp
        rw [this]
        intro e hep
        unfold Increasing at hs
        rw [he, List.pairwise_append] at hs
        exact hs.2.2 e hep _ List.mem_cons_self
      have gt_of_post : ∀ e ∈ (es.take hi).drop (mid + 1), cmpBytes k e.1 = .lt := by
        intro e hep
        have : e ∈ es.drop (mid + 1) := by
          rw [List.drop_take] at hep
          exact List.mem_of_mem_take hep
        rw [hpost] at this
        unfold Increasing at hs
        rw [he, List.pairwise_append] at hs
        exact (List.pairwise_cons.1 hs.2.1).1 e this
      have nolook : ∀ l : List (Bytes × Bytes), (∀ e ∈ l, e.1 ≠ key) → l.lookup key = none := by
        intro l hl
        rw [List.lookup_eq_none_iff]
        intro e he'
        simpa using fun h => hl e he' h.symm
      rw [hsplit, List.lookup_append]
      cases hc : cmpBytes key k with
      | eq =>
        have := cmpBytes_eq.1 hc
        subst this
        rw [nolook _ (fun e hep h => by
          have := lt_of_pre e (List.mem_of_mem_drop hep)
          rw [h, (cmpBytes_eq.2 rfl : cmpBytes key key = .eq)] at this
          cases this)]
        show moString (moFile es) (28 + es.length * 8) mid = _
        rw [hval]
        simp [List.lookup]
      | lt =>
        show moSearch _ _ _ _ _ _ _ = _
        rw [ih lo mid (by omega) (by omega)]
        have : List.lookup key ((k, v) :: (es.take hi).drop (mid + 1)) = none := by
          refine nolook _ fun e hep h => ?_
          rcases List.mem_cons.1 hep with hep | hep
          · subst hep
            rw [← h, (cmpBytes_eq.2 rfl : cmpBytes k k = .eq)] at hc
            cases hc
          · have h1 := gt_of_post e hep
            rw [h, ← cmpBytes_swap, hc] at h1
            cases h1
        rw [this, Option.or_none]
      | gt =>
        show moSearch _ _ _ _ _ _ _ = _
        rw [ih (mid + 1) hi h1 (by omega)]
        rw [nolook ((es.take mid).drop lo) (fun e hep h => by
          have h1 := lt_of_pre e (List.mem_of_mem_drop hep)
          rw [h, hc] at h1
          cases h1)]
        rw [Option.none_or, List.lookup_cons]
        have : (key == k) = false := by
          refine beq_eq_false_iff_ne.2 fun h => ?_
          rw [cmpBytes_eq.2 h] at hc
          cases hc
        rw [this]
    · rw [if_neg h, List.drop_eq_nil_of_le (by rw [List.length_take]; omega)]
      rfl

theorem moFind_file {es : List (Bytes × Bytes)} (hf : Fits es) (hs : Increasing es) (key : Bytes) : moFind (moFile es) key = es.lookup key := by
  have hn : es.length < 4294967296 := by have := hf.1; omega
  have hn2 : 28 + es.length * 8 < 4294967296 := by have := hf.1; omega
  rw [moFile_eq, List.append_assoc]
  have e : ∀ r, moHead es.length ++ r = [] ++ (le32 0x950412de ++ (le32 0 ++ (le32 es.length ++ (le32 28 ++ (le32 (28 + es.length * 8) ++ (le32 0 ++ (le32 0 ++ r))))))) := by
    intro r; unfold moHead; simp only [List.append_assoc, List.nil_append]
  have w0 : ∀ r, word (moHead es.length ++ r) 0 = some 0x950412de := fun r => by
    rw [e]; exact word_le32 (by decide) 0 rfl
  have w8 : ∀ r, word (moHead es.length ++ r) 8 = some es.length := fun r => by
    have : moHead es.length ++ r = (le32 0x950412de ++ le32 0) ++ (le32 es.length ++ (le32 28 ++ (le32 (28 + es.length * 8) ++ (le32 0 ++ (le32 0 ++ r))))) := by
      unfold moHead; simp only [List.append_assoc]
    rw [this]; exact word_le32 hn 8 rfl
  have w12 : ∀ r, word (moHead es.length ++ r) 12 = some 28 := fun r => by
    have : moHead es.length ++ r = (le32 0x950412de ++ le32 0 ++ le32 es.length) ++ (le32 28 ++ (le32 (28 + es.length * 8) ++ (le32 0 ++ (le32 0 ++ r)))) := by
      unfold moHead; simp only [List.append_assoc]
    rw [this]; exact word_le32 (by decide) 12 rfl
  have w16 : ∀ r, word (moHead es.length ++ r) 16 = some (28 + es.length * 8) := fun r => by
    have : moHead es.length ++ r = (le32 0x950412de ++ le32 0 ++ le32 es.length ++ le32 28) ++ (le32 (28 + es.length * 8) ++ (le32 0 ++ (le32 0 ++ r))) := by
      unfold moHead; simp only [List.append_assoc]
    rw [this]; exact word_le32 hn2 16 rfl
  unfold moFind
  rw [w0, w8, w12, w16]
  show (if (0x950412de : Nat) = 0x950412de then moSearch _ 28 (28 + es.length * 8) key es.length 0 es.length else none) = _
  rw [if_pos rfl, ← List.append_assoc, ← moFile_eq, moSearch_spec hf hs key _ _ _ (Nat.le_refl _) (by omega)]
  simp

theorem lookup_mem {l : List (Bytes × Bytes)} {k v : Bytes} (h : (k, v) ∈ l) (hn : (l.map (·.1)).Nodup) : l.lookup k = some v := by
  induction l with
  | nil => cases h
  | cons e l ih =>
    obtain ⟨k', v'⟩ := e
    rw [List.map_cons, List.nodup_cons] at hn
    rw [List.lookup_cons]
    rcases List.mem_cons.1 h with h | h
    · cases h; simp
    · have : (k == k') = false := beq_eq_false_iff_ne.2 fun e => hn.1 (List.mem_map.2 ⟨_, h, e⟩)
      rw [this]
      exact ih h hn.2

theorem sorted_perm (messages : List (Bytes × Bytes)) (hn : (messages.map (·.1)).Nodup) : (sortedEntries messages).Perm messages := by
  unfold sortedEntries
  refine ((List.mergeSort_perm _ _).map _).trans ?_
  rw [List.map_map]
  have : messages.map ((fun k => (k, (messages.lookup k).getD [])) ∘ (·.1)) = messages.map id := by
    refine List.map_congr_left fun e he => ?_
    obtain ⟨k, v⟩ := e
    show (k, (messages.lookup k).getD []) = (k, v)
    rw [lookup_mem he hn]; rfl
  rw [this, List.map_id]

theorem sorted_increasing (messages : List (Bytes × Bytes)) (hn : (messages.map (·.1)).Nodup) : Increasing (sortedEntries messages) := by
  unfold Increasing
  have h1 : (sortedEntries messages).map (·.1) = (messages.map (·.1)).mergeSort bytesLe := by
    unfold sortedEntries
    rw [List.map_map]
    exact List.map_id _
  have h2 : ((sortedEntries messages).map (·.1)).Pairwise fun a b => cmpBytes a b = .lt := by
    rw [h1]
    have hp := List.pairwise_mergeSort bytesLe_trans bytesLe_total (messages.map (·.1))
    have hd : ((messages.map (·.1)).mergeSort bytesLe).Nodup := (List.mergeSort_perm _ _).nodup_iff.2 hn
    refine (List.pairwise_and_iff.2 ⟨hp, hd⟩).imp ?_
    rintro a b ⟨h, hne⟩
    cases hc : cmpBytes a b with
    | lt => rfl
    | eq => exact absurd (cmpBytes_eq.1 hc) hne
    | gt => exact absurd hc (cmpBytes_le.2 h)
  exact List.pairwise_map.1 h2

theorem lookup_perm {a b : List (Bytes × Bytes)} (h : a.Perm b) (hn : (b.map (·.1)).Nodup) (k : Bytes) : a.lookup k = b.lookup k := by
  have hna : (a.map (·.1)).Nodup := (h.map _).nodup_iff.2 hn
  cases hb : b.lookup k with
  | some v =>
    have : (k, v) ∈ b := by
      rw [List.lookup_eq_some_iff] at hb
      obtain ⟨l1, l2, e, _⟩ := hb
      rw [e]; simp
    exact lookup_mem (h.mem_iff.2 this) hna
  | none =>
    rw [List.lookup_eq_none_iff] at hb ⊢
    exact fun p hp => hb p (h.mem_iff.1 hp)

/-- Every message is found with its translation, and nothing else. -/
theorem generate_find {messages : List (Bytes × Bytes)} {file : Bytes} (hn : (messages.map (·.1)).Nodup) (h : generate messages = some file) (key : Bytes) :
    moFind file key = messages.lookup key := by
  obtain ⟨hf, rfl⟩ := generate_file.1 h
  rw [moFind_file hf (sorted_increasing messages hn), lookup_perm (sorted_perm messages hn) hn]

end Verif
