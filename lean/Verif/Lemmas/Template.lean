/-
Lemmas about `string.Template.safe_substitute`.
-/
import Verif.Py.Template

namespace Verif.Template

theorem segsGo_skip (a b : Str) : segsGo a.length (a ++ b) = segsGo 0 b := by
  induction a with
  | nil => rfl
  | cons c a ih => simp only [List.length_cons, List.cons_append, segsGo, ih]

theorem segs_lit {l : Str} (h : '$' ∉ l) (t : Str) : segs (l ++ t) = l.map Seg.lit ++ segs t := by
  unfold segs
  induction l with
  | nil => rfl
  | cons c l ih =>
    have hc : c ≠ '$' := fun e => h (by simp [e])
    simp only [List.cons_append, segsGo, hc, if_false, List.map_cons]
    rw [ih (fun x => h (by simp [x]))]

/-- An identifier. -/
def IsIdent : Str → Bool
  | [] => false
  | c :: cs => idStart c && cs.all idChar

theorem takeWhile_all {α : Type} {p : α → Bool} {a b : List α} (ha : a.all p = true) (hb : ∀ c, b.head? = some c → p c = false) :
    (a ++ b).takeWhile p = a := by
  induction a with
  | nil =>
    cases b with
    | nil => rfl
    | cons c b => simp [hb c rfl]
  | cons c a ih =>
    rw [List.all_cons, Bool.and_eq_true] at ha
    simp only [List.cons_append, List.takeWhile_cons, ha.1, if_true, ih ha.2]

theorem ident_append {name t : Str} (hn : IsIdent name = true) (ht : ∀ c, t.head? = some c → idChar c = false) :
    ident (name ++ t) = name := by
  cases name with
  | nil => cases hn
  | cons c cs =>
    simp only [IsIdent, Bool.and_eq_true] at hn
    simp only [List.cons_append, ident, hn.1, if_true, takeWhile_all hn.2 ht]

theorem segs_var {name t : Str} (hn : IsIdent name = true) (ht : ∀ c, t.head? = some c → idChar c = false) :
    segs ('$' :: (name ++ t)) = .var name ('$' :: name) :: segs t := by
  have hi := ident_append hn ht
  cases name with
  | nil => cases hn
  | cons d name =>
    have hd : d ≠ '$' := by
      rintro rfl
      simp [IsIdent, idStart] at hn
    unfold segs
    rw [List.cons_append] at hi ⊢
    rw [segsGo]
    simp only [if_true, hd, if_false, hi, ne_eq, reduceCtorEq, not_false_eq_true]
    rw [← List.cons_append, segsGo_skip]

theorem segs_brace {name t : Str} (hn : IsIdent name = true) :
    segs ('$' :: '{' :: (name ++ '}' :: t)) = .var name ('$' :: '{' :: name ++ ['}']) :: segs t := by
  have hi : ident (name ++ '}' :: t) = name := ident_append hn (by intro c hc; injection hc with hc; subst hc; decide)
  have h0 : ident ('{' :: (name ++ '}' :: t)) = [] := by
    unfold ident
    have : idStart '{' = false := by decide
    simp [this]
  have hne : name ≠ [] := by rintro rfl; cases hn
  unfold segs
  rw [segsGo]
  simp only [if_true, show ('{' : Char) ≠ '$' by decide, if_false, h0, ne_eq, not_true_eq_false, hi, hne, not_false_eq_true, true_and]
  rw [List.drop_left]
  simp only [List.head?_cons, if_true]
  have := segsGo_skip ('{' :: name ++ ['}']) t
  simp only [List.length_append, List.length_cons, List.length_nil, Nat.zero_add, List.append_assoc, List.cons_append, List.nil_append] at this
  rw [this]

theorem subst_nil (m : Dict Str) : subst [] m = [] := rfl

theorem subst_lit {l : Str} (h : '$' ∉ l) (t : Str) (m : Dict Str) : subst (l ++ t) m = l ++ subst t m := by
  unfold subst
  rw [segs_lit h, List.flatMap_append]
  congr 1
  induction l with
  | nil => rfl
  | cons c l ih => simp only [List.map_cons, List.flatMap_cons, render, ih (fun x => h (by simp [x])), List.singleton_append]

theorem subst_lit' {l : Str} (h : '$' ∉ l) (m : Dict Str) : subst l m = l := by
  have := subst_lit h [] m
  simpa [subst_nil] using this

theorem subst_var {name t : Str} (hn : IsIdent name = true) (ht : ∀ c, t.head? = some c → idChar c = false) {m : Dict Str} {v : Str}
    (hm : m.get? name = some v) : subst ('$' :: (name ++ t)) m = v ++ subst t m := by
  unfold subst
  rw [segs_var hn ht, List.flatMap_cons]
  simp [render, hm]

theorem subst_brace {name t : Str} (hn : IsIdent name = true) {m : Dict Str} {v : Str} (hm : m.get? name = some v) :
    subst ('$' :: '{' :: (name ++ '}' :: t)) m = v ++ subst t m := by
  unfold subst
  rw [segs_brace hn, List.flatMap_cons]
  simp [render, hm]

end Verif.Template
