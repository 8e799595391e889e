/-
Trees whose texts are carried literally can be reloaded: used to show that the hypotheses of the
theorems about saving and reloading are met.
-/
import Verif.Lemmas.Yw7Tree

namespace Verif
open Xml Elem Spec

def plainB (s : Str) : Bool := s.all (fun c => xmlLegal c && c != '\r' && c != '<' && c != '>' && c != '&')

theorem plainB_iff (s : Str) : plainB s = true ↔ PlainStr s := by
  unfold plainB PlainStr
  simp [and_assoc]

mutual
/-- All texts of leaves have a CDATA section or are plain. -/
def literalB : Elem → Bool
  | node t x _ [] => t ∈ cdataTags || plainB (x.getD [])
  | node _ _ _ (k :: ks) => literalBL (k :: ks)
/-- The same for lists. -/
def literalBL : List Elem → Bool
  | [] => true
  | e :: r => literalB e && literalBL r
end

mutual
/-- The tree a parser returns for such a tree. -/
def reload : Elem → Elem
  | node t x y [] => node t (readText x) y []
  | node t x y (k :: ks) => node t x y (reloadL (k :: ks))
/-- The same for lists. -/
def reloadL : List Elem → List Elem
  | [] => []
  | e :: r => reload e :: reloadL r
end

theorem carried_readText {t : Str} {x : Option Str} (h : (t ∈ cdataTags || plainB (x.getD [])) = true) :
    Carried t x (readText x) := by
  match x with
  | none => exact .none
  | some [] => exact .empty
  | some (c :: r) =>
    simp only [Bool.or_eq_true, decide_eq_true_eq, Option.getD_some] at h
    by_cases ht : t ∈ cdataTags
    · exact .cdata _ ht (by simp)
    · rcases h with h | h
      · exact absurd h ht
      · exact .plain _ _ ht (by simp) (charData_plainStr ((plainB_iff _).1 h))

mutual
theorem reloaded_reload : (e : Elem) → literalB e = true → Reloaded e (reload e)
  | node t x y [], h => by
    rw [literalB] at h; rw [reload]
    exact .leaf _ _ _ _ _ (carried_readText h)
  | node t x y (k :: ks), h => by
    rw [literalB] at h; rw [reload]
    exact .inner _ _ _ _ _ _ _ _ (reloadedL_reload (k :: ks) h)
theorem reloadedL_reload : (ks : List Elem) → literalBL ks = true → ReloadedL ks (reloadL ks)
  | [], _ => by rw [reloadL]; exact .nil
  | e :: r, h => by
    rw [literalBL, Bool.and_eq_true] at h; rw [reloadL]
    exact .cons _ _ _ _ (reloaded_reload e h.1) (reloadedL_reload r h.2)
end

end Verif
