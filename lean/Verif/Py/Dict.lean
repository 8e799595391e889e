/-
Python dictionaries as insertion-ordered association lists, and exceptions as values.
-/
import Verif.Py.Str

namespace Verif

/-- The exceptions the modelled code can raise. `Error` is
`pywriter_globals.Error` (pywriter_globals.py 22-24) with its message. -/
inductive Exc where
  | keyError | typeError | valueError | attributeError | nameError | indexError
  | parseError | osError | unboundLocal
  | error (msg : Str)
  deriving DecidableEq, Repr

/-- An insertion-ordered `dict`. -/
abbrev Dict (α : Type) := List (Str × α)

namespace Dict
variable {α : Type}

/-- `d.get(k)` -/
def get? : Dict α → Str → Option α
  | [], _ => none
  | (k, v) :: r, x => if k = x then some v else get? r x

/-- `k in d` -/
def has (d : Dict α) (k : Str) : Bool := (d.get? k).isSome

/-- `d[k] = v`: replaces in place or appends. -/
def set : Dict α → Str → α → Dict α
  | [], x, a => [(x, a)]
  | (k, v) :: r, x, a => if k = x then (k, a) :: r else (k, v) :: set r x a

/-- `list(d)`: the keys in insertion order. -/
def keys (d : Dict α) : List Str := d.map Prod.fst

/-- `del d[k]` (no effect if missing; the modelled code never deletes a missing key). -/
def del (d : Dict α) (k : Str) : Dict α := d.filter (fun p => p.1 ≠ k)

/-- Mutation of the object stored under `k` (no effect if missing; the models check presence
first and raise `KeyError`). -/
def modify : Dict α → Str → (α → α) → Dict α
  | [], _, _ => []
  | (k, v) :: r, x, f => if k = x then (k, f v) :: r else (k, v) :: modify r x f

/-- `d[k]`, raising `KeyError`. -/
def get! (d : Dict α) (k : Str) : Except Exc α :=
  match d.get? k with
  | some v => .ok v
  | none => .error .keyError

@[simp] theorem get?_nil (k : Str) : get? ([] : Dict α) k = none := rfl

theorem get?_set (d : Dict α) (k x : Str) (a : α) :
    (d.set k a).get? x = if k = x then some a else d.get? x := by
  induction d with
  | nil => simp [set, get?]
  | cons p r ih =>
    obtain ⟨k', v⟩ := p
    simp only [set]
    by_cases h : k' = k
    · subst h; simp only [if_true, get?]; split <;> rfl
    · simp only [h, if_false, get?]
      by_cases h2 : k' = x
      · subst h2; simp [Ne.symm h]
      · simp [h2, ih]

@[simp] theorem get?_set_self (d : Dict α) (k : Str) (a : α) : (d.set k a).get? k = some a := by
  simp [get?_set]

theorem get?_set_ne (d : Dict α) {k x : Str} (a : α) (h : k ≠ x) :
    (d.set k a).get? x = d.get? x := by simp [get?_set, h]

theorem mem_keys_iff (d : Dict α) (k : Str) : k ∈ d.keys ↔ ∃ v, d.get? k = some v := by
  induction d with
  | nil => simp [keys]
  | cons p r ih =>
    obtain ⟨k', v⟩ := p
    simp only [keys, List.map_cons, List.mem_cons, get?]
    by_cases h : k' = k
    · subst h; simp
    · simp only [h, if_false]
      rw [← ih]; simp [keys, Ne.symm h]

theorem get?_eq_none_iff (d : Dict α) (k : Str) : d.get? k = none ↔ k ∉ d.keys := by
  rw [mem_keys_iff]; cases d.get? k <;> simp

theorem has_iff (d : Dict α) (k : Str) : d.has k = true ↔ k ∈ d.keys := by
  rw [mem_keys_iff, has, Option.isSome_iff_exists]

theorem keys_set_of_mem (d : Dict α) (k : Str) (a : α) (h : k ∈ d.keys) :
    (d.set k a).keys = d.keys := by
  induction d with
  | nil => simp [keys] at h
  | cons p r ih =>
    obtain ⟨k', v⟩ := p
    simp only [set]
    by_cases hk : k' = k
    · simp [hk, keys]
    · simp only [hk, if_false]
      simp only [keys, List.map_cons, List.mem_cons, Ne.symm hk, false_or] at h
      have := ih h
      simp only [keys, List.map_cons] at this ⊢
      rw [this]

theorem keys_set_of_not_mem (d : Dict α) (k : Str) (a : α) (h : k ∉ d.keys) :
    (d.set k a).keys = d.keys ++ [k] := by
  induction d with
  | nil => simp [keys, set]
  | cons p r ih =>
    obtain ⟨k', v⟩ := p
    simp only [keys, List.map_cons, List.mem_cons, not_or] at h
    simp only [set, Ne.symm h.1, if_false]
    have := ih h.2
    simp only [keys, List.map_cons, List.cons_append] at this ⊢
    rw [this]

theorem mem_keys_set (d : Dict α) (k x : Str) (a : α) :
    x ∈ (d.set k a).keys ↔ x = k ∨ x ∈ d.keys := by
  rw [mem_keys_iff, mem_keys_iff]
  simp only [get?_set]
  by_cases h : k = x
  · subst h; simp
  · simp [h, Ne.symm h]

theorem nodup_keys_set (d : Dict α) (k : Str) (a : α) (h : d.keys.Nodup) :
    (d.set k a).keys.Nodup := by
  by_cases hk : k ∈ d.keys
  · rwa [keys_set_of_mem d k a hk]
  · rw [keys_set_of_not_mem d k a hk]
    refine List.nodup_append.2 ⟨h, by simp, ?_⟩
    intro x hx y hy; simp at hy; subst hy
    exact fun e => hk (e ▸ hx)

@[simp] theorem keys_modify (d : Dict α) (k : Str) (f : α → α) : (d.modify k f).keys = d.keys := by
  induction d with
  | nil => rfl
  | cons p r ih =>
    obtain ⟨k', v⟩ := p
    simp only [modify]
    split
    · rfl
    · simp only [keys, List.map_cons] at ih ⊢; rw [ih]

theorem get?_modify (d : Dict α) (k x : Str) (f : α → α) :
    (d.modify k f).get? x = if k = x then (d.get? x).map f else d.get? x := by
  induction d with
  | nil => simp [modify]
  | cons p r ih =>
    obtain ⟨k', v⟩ := p
    simp only [modify]
    by_cases h : k' = k
    · subst h
      simp only [if_true, get?]
      by_cases h2 : k' = x <;> simp [h2]
    · simp only [h, if_false, get?]
      by_cases h2 : k' = x
      · subst h2; simp [Ne.symm h]
      · simp only [h2, if_false]; exact ih

theorem get?_modify_self (d : Dict α) (k : Str) (f : α → α) :
    (d.modify k f).get? k = (d.get? k).map f := by simp [get?_modify]

theorem get?_modify_ne (d : Dict α) {k x : Str} (f : α → α) (h : k ≠ x) :
    (d.modify k f).get? x = d.get? x := by simp [get?_modify, h]

/-- Modifying a value by a function that does not change it changes nothing. -/
theorem modify_eq_self (d : Dict α) (k : Str) (f : α → α)
    (h : ∀ v, d.get? k = some v → f v = v) : d.modify k f = d := by
  induction d with
  | nil => rfl
  | cons p r ih =>
    obtain ⟨k', v⟩ := p
    simp only [modify]
    by_cases hk : k' = k
    · subst hk
      rw [if_pos rfl, h v (by simp [get?])]
    · rw [if_neg hk, ih]
      intro w hw
      exact h w (by simp [get?, hk, hw])

theorem isSome_get?_iff (d : Dict α) (k : Str) : (d.get? k).isSome ↔ k ∈ d.keys := by
  rw [mem_keys_iff, Option.isSome_iff_exists]

end Dict
end Verif
