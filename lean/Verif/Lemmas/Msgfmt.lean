/-
Compiled translation files: the layout, and looking up messages in it.
-/
import Verif.Spec.Msgfmt

namespace Verif
open Spec

theorem bytesLe_trans (a b c : Bytes) : bytesLe a b = true → bytesLe b c = true → bytesLe a c = true := by
  induction a generalizing b c with
  | nil => intro _ _; rfl
  | cons x a ih =>
    cases b with
    | nil => intro h; cases h
    | cons y b =>
      cases c with
      | nil => intro _ h; cases h
      | cons z c =>
        unfold bytesLe
        intro h1 h2
        simp only [UInt8.lt_iff_toNat_lt] at *
        split at h1
        · split at h2
          · rw [if_pos (by omega)]
          · split at h2
            · rename_i h; subst h; rw [if_pos (by omega)]
            · cases h2
        · split at h1
          · rename_i h; subst h
            split at h2
            · rw [if_pos (by omega)]
            · split at h2
              · rename_i h _ h'; subst h'
                rw [if_neg h, if_pos rfl]; exact ih _ _ h1 h2
              · cases h2
          · cases h1

theorem bytesLe_total (a b : Bytes) : (bytesLe a b || bytesLe b a) = true := by
  induction a generalizing b with
  | nil => rfl
  | cons x a ih =>
    cases b with
    | nil => rfl
    | cons y b =>
      unfold bytesLe
      by_cases h : x < y
      · rw [if_pos h]; rfl
      · by_cases h2 : y < x
        · rw [if_pos h2]; simp
        · have : x = y := by
            rw [UInt8.lt_iff_toNat_lt] at h h2
            exact UInt8.toNat_inj.1 (by omega)
          subst this
          rw [if_neg h, if_pos rfl, if_neg h, if_pos rfl]
          exact ih b

theorem cmpBytes_eq {a b : Bytes} : cmpBytes a b = .eq ↔ a = b := by
  induction a generalizing b with
  | nil => cases b <;> simp [cmpBytes]
  | cons x a ih =>
    cases b with
    | nil => simp [cmpBytes]
    | cons y b =>
      unfold cmpBytes
      split
      · rename_i h
        refine ⟨fun h => (by cases h), fun e => ?_⟩
        rw [(List.cons.inj e).1] at h
        exact absurd h (Nat.lt_irrefl _)
      · split
        · rename_i h
          refine ⟨fun h => (by cases h), fun e => ?_⟩
          rw [(List.cons.inj e).1] at h
          exact absurd h (Nat.lt_irrefl _)
        · rw [ih, List.cons.injEq]
          refine ⟨fun h => ⟨UInt8.toNat_inj.1 (by omega), h⟩, fun h => h.2⟩

theorem cmpBytes_le {a b : Bytes} : cmpBytes a b ≠ .gt ↔ bytesLe a b = true := by
  induction a generalizing b with
  | nil => cases b <;> simp [cmpBytes, bytesLe]
  | cons x a ih =>
    cases b with
    | nil => simp [cmpBytes, bytesLe]
    | cons y b =>
      unfold cmpBytes bytesLe
      simp only [UInt8.lt_iff_toNat_lt]
      by_cases h : x.toNat < y.toNat
      · rw [if_pos h, if_pos h]; simp
      · rw [if_neg h, if_neg h]
        by_cases h2 : y.toNat < x.toNat
        · rw [if_pos h2, if_neg (fun e => by rw [e] at h2; exact Nat.lt_irrefl _ h2)]; simp
        · rw [if_neg h2, if_pos (UInt8.toNat_inj.1 (by omega))]
          exact ih

theorem cmpBytes_swap {a b : Bytes} : cmpBytes a b = .gt ↔ cmpBytes b a = .lt := by
  induction a generalizing b with
  | nil => cases b <;> simp [cmpBytes]
  | cons x a ih =>
    cases b with
    | nil => simp [cmpBytes]
    | cons y b =>
      unfold cmpBytes
      by_cases h : x.toNat < y.toNat
      · rw [if_pos h, if_neg (by omega), if_pos h]; simp
      · rw [if_neg h]
        by_cases h2 : y.toNat < x.toNat
        · rw [if_pos h2, if_pos h2]; simp
        · rw [if_neg h2, if_neg h2, if_neg h]; exact ih

/-! ### Numbers -/

theorem word_le32 {a b : Bytes} {n : Nat} (h : n < 4294967296) (pos : Nat) (hp : pos = a.length) : word (a ++ (le32 n ++ b)) pos = some n := by
  subst hp
  unfold word
  rw [List.drop_left]
  show (some _ : Option Nat) = _
  simp only [UInt8.toNat_ofNat']
  congr 1
  omega

/-! ### The layout -/

/-- The strings, each with a zero. -/
def zeroed (l : List Bytes) : Bytes := l.flatMap (· ++ [0])

theorem zeroed_append (a b : List Bytes) : zeroed (a ++ b) = zeroed a ++ zeroed b := List.flatMap_append

/-- The numbers of the tables, from places `o1`, `o2` on. -/
def places : Nat → Nat → List (Bytes × Bytes) → List (Nat × Nat × Nat × Nat)
  | _, _, [] => []
  | o1, o2, (k, v) :: r => (o1, k.length, o2, v.length) :: places (o1 + k.length + 1) (o2 + v.length + 1) r

theorem layoutLoop_eq (messages : List (Bytes × Bytes)) : ∀ (keys : List Bytes) (ids strs : Bytes),
    let es := keys.map fun k => (k, (messages.lookup k).getD [])
    layoutLoop messages ids strs keys = (places ids.length strs.length es, ids ++ zeroed (es.map (·.1)), strs ++ zeroed (es.map (·.2))) := by
  intro keys
  induction keys with
  | nil => intro ids strs; simp [layoutLoop, places, zeroed]
  | cons k keys ih =>
    intro ids strs
    unfold layoutLoop
    simp only [ih]
    simp [places, zeroed, List.flatMap_cons, Nat.add_assoc]

theorem places_append : ∀ (a b : List (Bytes × Bytes)) (o1 o2 : Nat),
    places o1 o2 (a ++ b) = places o1 o2 a ++ places (o1 + (zeroed (a.map (·.1))).length) (o2 + (zeroed (a.map (·.2))).length) b := by
  intro a
  induction a with
  | nil => intro b o1 o2; rfl
  | cons e a ih =>
    intro b o1 o2
    obtain ⟨k, v⟩ := e
    rw [List.cons_append, places, ih, places, List.cons_append]
    refine congrArg _ (congrArg _ ?_)
    congr 1
    · simp [zeroed, List.flatMap_cons]; omega
    · simp [zeroed, List.flatMap_cons]; omega

theorem places_length : ∀ (a : List (Bytes × Bytes)) (o1 o2 : Nat), (places o1 o2 a).length = a.length := by
  intro a
  induction a with
  | nil => intro _ _; rfl
  | cons e a ih => intro _ _; simp [places, ih]

/-- The key table. -/
def keyTable (start : Nat) (os : List (Nat × Nat × Nat × Nat)) : List Nat := os.flatMap fun (o1, l1, _, _) => [l1, o1 + start]
/-- The value table. -/
def valueTable (start : Nat) (os : List (Nat × Nat × Nat × Nat)) : List Nat := os.flatMap fun (_, _, o2, l2) => [l2, o2 + start]

theorem keyTable_length (start : Nat) (os : List (Nat × Nat × Nat × Nat)) : (keyTable start os).length = 2 * os.length := by
  induction os with
  | nil => rfl
  | cons o os ih => unfold keyTable at *; rw [List.flatMap_cons, List.length_append, ih]; simp; omega

theorem valueTable_length (start : Nat) (os : List (Nat × Nat × Nat × Nat)) : (valueTable start os).length = 2 * os.length := by
  induction os with
  | nil => rfl
  | cons o os ih => unfold valueTable at *; rw [List.flatMap_cons, List.length_append, ih]; simp; omega

theorem le32s_length (l : List Nat) : (l.flatMap le32).length = 4 * l.length := by
  induction l with
  | nil => rfl
  | cons n l ih => rw [List.flatMap_cons, List.length_append, ih]; simp [le32]; omega

/-- The file for a list of entries. -/
def moFile (es : List (Bytes × Bytes)) : Bytes :=
  let ks := 28 + 16 * es.length
  let vs := ks + (zeroed (es.map (·.1))).length
  (le32 0x950412de ++ le32 0 ++ le32 es.length ++ le32 28 ++ le32 (28 + es.length * 8) ++ le32 0 ++ le32 0) ++
    (keyTable ks (places 0 0 es) ++ valueTable vs (places 0 0 es)).flatMap le32 ++ zeroed (es.map (·.1)) ++ zeroed (es.map (·.2))

/-- All numbers fit. -/
def Fits (es : List (Bytes × Bytes)) : Prop :=
  28 + 8 * es.length < 2147483648 ∧ ∀ n ∈ keyTable (28 + 16 * es.length) (places 0 0 es) ++
    valueTable (28 + 16 * es.length + (zeroed (es.map (·.1))).length) (places 0 0 es), n < 2147483648

/-- The entries, sorted. -/
def sortedEntries (messages : List (Bytes × Bytes)) : List (Bytes × Bytes) :=
  ((messages.map (·.1)).mergeSort bytesLe).map fun k => (k, (messages.lookup k).getD [])

theorem generate_file {messages : List (Bytes × Bytes)} {file : Bytes} :
    generate messages = some file ↔ Fits (sortedEntries messages) ∧ file = moFile (sortedEntries messages) := by
  unfold generate
  have e := layoutLoop_eq messages ((messages.map (·.1)).mergeSort bytesLe) [] []
  dsimp only at e ⊢
  rw [e]
  dsimp only
  have hl : ((messages.map (·.1)).mergeSort bytesLe).length = (sortedEntries messages).length := by simp [sortedEntries]
  show (if List.any ([_, 7 * 4, _] ++ (keyTable _ (places 0 0 (sortedEntries messages)) ++ valueTable _ (places 0 0 (sortedEntries messages)))) _ = true then none else some _) = _ ↔ _
  rw [hl]
  show (if List.any ([_, 28, 28 + (sortedEntries messages).length * 8] ++ (keyTable (28 + 16 * (sortedEntries messages).length) (places 0 0 (sortedEntries messages)) ++
    valueTable (28 + 16 * (sortedEntries messages).length + (zeroed ((sortedEntries messages).map (·.1))).length) (places 0 0 (sortedEntries messages)))) _ = true then none else
      some (moFile (sortedEntries messages))) = _ ↔ _
  generalize sortedEntries messages = es
  unfold Fits
  by_cases h : 28 + 8 * es.length < 2147483648 ∧ ∀ n ∈ keyTable (28 + 16 * es.length) (places 0 0 es) ++
    valueTable (28 + 16 * es.length + (zeroed (es.map (·.1))).length) (places 0 0 es), n < 2147483648
  · rw [if_neg]
    · rw [Option.some.injEq, eq_comm]; exact (and_iff_right h).symm
    · rw [Bool.not_eq_true, List.any_eq_false]
      intro n hn
      simp only [ge_iff_le, decide_eq_true_eq, Nat.not_le]
      rcases List.mem_append.1 hn with hn | hn
      · simp only [List.mem_cons, List.not_mem_nil, or_false] at hn
        omega
      · exact h.2 n hn
  · rw [if_pos]
    · simp only [reduceCtorEq, false_iff, not_and]
      exact fun h' => absurd h' h
    · rw [List.any_eq_true]
      by_cases h1 : 28 + 8 * es.length < 2147483648
      · have h2 := fun h2 => h ⟨h1, h2⟩
        obtain ⟨n, hn⟩ := Classical.not_forall.1 h2
        obtain ⟨hn, hn'⟩ := Classical.not_imp.1 hn
        exact ⟨n, List.mem_append_right _ hn, by simpa using hn'⟩
      · exact ⟨28 + es.length * 8, by simp, by simp; omega⟩

end Verif
