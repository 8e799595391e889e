/-
C20: any number of save and reload cycles.
-/
import Verif.Props.C20_Stable
import Verif.Props.C20_Example
import Verif.Props.C22_Example
import Verif.Lemmas.Stable4

namespace Verif
open Xml Elem Spec

namespace Spec

/-- `SaveCycles lib k x n x' n'`: the project `n`, read from the tree `x`, has been saved and read again `k` times, which has led to the project `n'`,
read from the tree `x'`. The locale of the system may change between the cycles, and the file may be any file that is carried over as `Reloaded` says. -/
inductive SaveCycles (lib : PyLib) : Nat → Elem → Novel → Elem → Novel → Prop
  | zero (x : Elem) (n : Novel) : SaveCycles lib 0 x n x n
  | succ {k : Nat} {x y out z : Elem} {n m p : Novel} (sl sc : Str) : SaveCycles lib k x n y m → writeTree sl sc m (some y) = .ok out → Reloaded out z →
      readTree lib z = .ok p → SaveCycles lib (k + 1) x n z p

end Spec

theorem settled_languages {lib : PyLib} {n : Novel} (h : SettledNovel lib n) : (savedLanguages n).Nodup := by
  rw [savedLanguages_settled h.project.used]
  cases hl : n.languages with
  | none => exact List.nodup_nil
  | some l => exact (h.project.languages l hl).1

/-- **C20**: however often a settled project is saved and reloaded, it stays what it is, and its tree stays regular; a further save can be read. -/
theorem C20_cycles_partial (lib : PyLib) (k : Nat) (x x' : Elem) (n n' : Novel) (ht : RegularTree x.kids) (h0 : readTree lib x = .ok n) (hset : SettledNovel lib n)
    (hc : SaveCycles lib k x n x' n') : n' = n ∧ RegularTree x'.kids ∧
    ∀ sl sc out z, writeTree sl sc n' (some x') = .ok out → Reloaded out z → readTree lib z = .ok n := by
  have key : n' = n ∧ RegularTree x'.kids ∧ readTree lib x' = .ok n := by
    induction hc with
    | zero x n => exact ⟨rfl, ht, h0⟩
    | succ sl sc hc hw hr hm ih =>
      obtain ⟨rfl, i2, i3⟩ := ih ht h0 hset
      have := C20_stable_partial lib sl sc _ _ _ _ i2.tree i2.node i2.distinct i3 hset hw hr
      rw [this] at hm
      cases hm
      exact ⟨rfl, tree_regular sl sc _ (some _) _ _ i2 hset.ids (settled_languages hset) hw hr, this⟩
  obtain ⟨rfl, k2, k3⟩ := key
  exact ⟨rfl, k2, fun sl sc out z hw hr => C20_stable_partial lib sl sc _ _ _ _ k2.tree k2.node k2.distinct k3 hset hw hr⟩

/-! ### The example -/

theorem regular_newRoot : RegularTree newRoot.kids := by
  refine ⟨projectTree_newRoot, projectNode_newRoot, ?_, ?_⟩
  · intro s hs
    have : find c!"SCENES" newRoot.kids = some (node c!"SCENES" none none []) := rfl
    rw [this] at hs; cases hs; exact List.nodup_nil
  · intro s hs e he
    have : find c!"SCENES" newRoot.kids = some (node c!"SCENES" none none []) := rfl
    rw [this] at hs; cases hs; cases he

/-- The example has been written. -/
theorem st_written : ∃ out, writeTree c!"en" c!"GB" stPrj none = .ok out ∧ stTree = reload out ∧ Reloaded out stTree := by
  have h : (match writeTree c!"en" c!"GB" stPrj none with | .ok o => literalB o | .error _ => false) = true := by decide +kernel
  unfold stTree
  cases hw : writeTree c!"en" c!"GB" stPrj none with
  | error e => rw [hw] at h; cases h
  | ok o =>
    rw [hw] at h
    exact ⟨o, rfl, rfl, reloaded_reload o h⟩

theorem st_regular : RegularTree stTree.kids := by
  obtain ⟨out, h1, _, h3⟩ := st_written
  exact tree_regular c!"en" c!"GB" stPrj none out stTree regular_newRoot st_settled.ids (settled_languages st_settled) h1 h3

/-- The tree after the next save. -/
def stTree2 : Elem := match writeTree c!"de" c!"AT" stPrj (some stTree) with | .ok o => reload o | .error _ => newRoot

/-- A cycle of the example: the hypotheses of the theorem are met, with one real save and reload. -/
theorem st_cycle : SaveCycles exLib 1 stTree stPrj stTree2 stPrj := by
  have h : (match writeTree c!"de" c!"AT" stPrj (some stTree) with | .ok o => literalB o | .error _ => false) = true := by decide +kernel
  cases hw : writeTree c!"de" c!"AT" stPrj (some stTree) with
  | error e => rw [hw] at h; cases h
  | ok o =>
    rw [hw] at h
    have e : stTree2 = reload o := by unfold stTree2; rw [hw]
    have hr : Reloaded o stTree2 := by rw [e]; exact reloaded_reload o h
    exact .succ c!"de" c!"AT" (.zero _ _) hw hr
      (C20_stable_partial exLib _ _ _ _ _ _ st_regular.tree st_regular.node st_regular.distinct st_read st_settled hw hr)

end Verif
