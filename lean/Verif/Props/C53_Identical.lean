/-
C53: opening a settled project and saving it again does not change the file any more.
-/
import Verif.Lemmas.Fix9
import Verif.Props.C52_Disk

namespace Verif
open Xml Spec Elem

theorem settled_checkLocale {n : Novel} {l c : Str} (h1 : n.languageCode = some l) (h2 : n.countryCode = some c) (h3 : l.length = 2 ∧ c.length = 2 ∨ l = c!"zxx" ∧ c = c!"none") (sl sc : Str) :
    (n.checkLocale sl sc).languageCode = some l ∧ (n.checkLocale sl sc).countryCode = some c := by
  have hne : l ≠ [] := by
    rintro rfl
    rcases h3 with ⟨h3, -⟩ | ⟨h3, -⟩ <;> cases h3
  unfold Novel.checkLocale
  rw [h1, h2, if_neg (by simp [hne])]
  dsimp only
  rcases h3 with h3 | ⟨rfl, rfl⟩
  · rw [if_pos h3]
    exact ⟨h1, h2⟩
  · exact ⟨rfl, rfl⟩

theorem prepareNovel_languages (n : Novel) : (prepareNovel n).languages.getD [] = savedLanguages n := by
  unfold prepareNovel savedLanguages
  cases h : n.languages <;> simp [h]

theorem settled_fixable {lib : PyLib} {n : Novel} (h : SettledNovel lib n) : Fixable (prepareNovel n) := by
  have hl : (prepareNovel n).languages.getD [] = n.languages.getD [] := by rw [prepareNovel_languages, savedLanguages_settled h.project.used]
  have hs : (prepareNovel n).scenes = n.scenes.map (fun p => (p.1, syncScene p.2)) := by unfold prepareNovel; split <;> rfl
  have hk : (prepareNovel n).scenes.keys = n.scenes.keys := by
    rw [hs]
    unfold Dict.keys
    rw [List.map_map]
    rfl
  have hc : (prepareNovel n).srtChapters = n.srtChapters := by unfold prepareNovel; split <;> rfl
  have c1 : (prepareNovel n).languageCode = n.languageCode := by unfold prepareNovel; split <;> rfl
  have c2 : (prepareNovel n).countryCode = n.countryCode := by unfold prepareNovel; split <;> rfl
  refine ⟨hk ▸ h.ids.sound.scKeys, ?_, ?_, hc ▸ h.ids.sound.chNodup, ?_, ?_, ?_⟩
  · rw [hk]
    exact fun id hid => (h.ids.scenes id hid).1
  · rw [hs]
    intro p hp d t hd ht
    obtain ⟨q, hq, rfl⟩ := List.mem_map.1 hp
    have hss := h.scenes q.1 q.2 (get?_of_mem_nodup h.ids.sound.scKeys hq)
    have hd' : q.2.date = some d := hd
    have ht' : q.2.time = some t := ht
    rcases hss.start with ⟨d', t', e1, e2, _, _, e3, _⟩ | ⟨e1, _⟩ | ⟨e1, _⟩
    · rw [hd'] at e1; rw [ht'] at e2
      cases e1; cases e2
      exact .inr e3
    · rw [hd'] at e1; cases e1
    · rw [hd'] at e1; cases e1
  · rw [hc]
    exact fun id hid => (h.ids.chapters id hid).1
  · rw [hl]
    rcases h.project.locale with ⟨l, c, l1, l2, l3⟩ | ⟨l1, l2, l3⟩
    · exact .inr ⟨l, c, settled_checkLocale (c1.trans l1) (c2.trans l2) l3⟩
    · rw [c1, c2, l1, l2, l3]
      exact .inl ⟨rfl, rfl, rfl⟩
  · rw [hl]
    cases hla : n.languages with
    | none => exact ⟨List.nodup_nil, fun c hc => by cases hc⟩
    | some l => exact h.project.languages l hla

theorem blank_of_tail {e : Elem} (h : BlankTail e) : blank e.tail = true := by
  cases ht : e.tail with
  | none => rfl
  | some s =>
    unfold BlankTail at h
    rw [ht] at h
    show (Str.strip s).isEmpty = true
    rw [List.isEmpty_iff]
    refine (Str.strip_eq_nil_iff s).2 ?_
    intro c hc
    rcases h c hc with rfl | rfl | rfl <;> rfl

/-- The tree that is written on the second saving makes the same file. -/
theorem second_tree {lib : PyLib} {sl sc sl' sc' : Str} {n : Novel} {x out z out' : Elem} (hset : SettledNovel lib n) (hn : StorableNovel n) (ht : RegularTree x.kids) (hx : KeepableTree x)
    (tidy : TidyTree x.kids) (hl : Simple sl) (hc : Simple sc) (hw : writeTree sl sc n (some x) = .ok out) (hp : Parsed out z) (hz : RegularTree z.kids) (hkz : KeepableTree z)
    (hw' : writeTree sl' sc' n (some z) = .ok out') : etWrite out' = etWrite out := by
  unfold writeTree at hw hw'
  dsimp only [Option.getD] at hw hw'
  split at hw
  · cases hw
  rename_i o hb
  cases hw
  split at hw'
  · cases hw'
  rename_i k hb'
  cases hw'
  have htail := blank_of_tail hx.tail
  have htail' := blank_of_tail hkz.tail
  cases x with
  | node t v y ks =>
    have hg := hx.good
    have hkeep := hx.once
    rw [kids_node] at hkeep hb ht tidy
    rw [mapKids, GoodTree, goodTreeL_iff] at hg
    have hsec : Secs SafePlain rebuiltLists ks := fun e he => hg.2.2.2 _ (List.mem_map.2 ⟨e, he, rfl⟩)
    obtain ⟨s1, _, _⟩ := buildRoot_good (prepared_texts hn hset.ids.sound.scKeys hl hc) hsec hkeep hb
    obtain ⟨p, g1, g2⟩ := (buildRoot_ok hb).1
    have hne : o ≠ [] := by
      intro h0
      rw [h0] at g2
      cases g2
    have hks : ks.map (withoutLists rebuiltLists) ≠ [] := by
      intro h0
      rw [List.map_eq_nil_iff] at h0
      rw [h0] at g1
      cases g1
    have htc : t ∉ cdataTags := by
      intro ht
      have := hg.2.1
      rw [if_pos ht] at this
      exact hks this.2
    have hv := hg.2.1
    rw [if_neg htc] at hv
    rw [mapKids, indent_eq 0 t v y o (.inr hne)] at hp
    cases z with
    | node t' x' y' zk =>
      cases hp with
      | node _ _ _ _ _ _ _ q1 q2 =>
        have hrel := parsed_relL o zk 0 s1 q2
        have hal : AlikeL o k := root_fixed (settled_fixable hset) ht tidy hz hb hrel hb'
        refine (write_alike (node t v y o) (node t x' y' k) 0 ?_ (.inr hne)).1
        refine alike_iff.2 ⟨rfl, text_parsed (fun h => absurd h htc) (fun _ => hv) q1, .inr ⟨htail, htail'⟩, hal⟩

/-- Reopening and saving: the second file is the first one. -/
theorem resaved_same {lib : PyLib} {sl sc sl' sc' s : Str} {x : Elem} {n : Novel} (h : loadFile lib s = some (x, n)) (ht : RegularTree x.kids) (hx : KeepableTree x) (tidy : TidyTree x.kids)
    (hset : SettledNovel lib n) (hn : StorableNovel n) (hl : Simple sl) (hc : Simple sc) :
    ∃ s', resaved lib sl sc s = some s' ∧ resaved lib sl' sc' s' = some s' := by
  obtain ⟨h1, h2⟩ := loadFile_ok.1 h
  obtain ⟨out, hw⟩ := C51_settled_partial lib sl sc x n ht h2 hset
  obtain ⟨_, _, z, z1, z2, z3, z4⟩ := saved_parses (tree := some x) (!n.chapters.isEmpty) hn hset.ids.1.scKeys hl hc hx hw
  have hr := C20_stable_partial lib sl sc x out z n ht.tree ht.node ht.distinct h2 hset hw z2
  have hz := tree_regular sl sc n (some x) out z ht hset.ids (settled_languages hset) hw z2
  obtain ⟨out', hw'⟩ := C51_settled_partial lib sl' sc' z n hz hr hset
  refine ⟨fileText (!n.chapters.isEmpty) out, ?_, ?_⟩
  · unfold resaved
    rw [h]
    exact saveFile_ok.2 ⟨out, hw, rfl⟩
  · unfold resaved
    rw [loadFile_ok.2 ⟨z1, hr⟩]
    refine saveFile_ok.2 ⟨out', hw', ?_⟩
    unfold fileText
    rw [second_tree hset hn ht hx tidy hl hc hw z3 hz z4 hw']

/-- **C53**: a settled project is opened and saved. From then on, whoever opens the file and saves it, on any system, as often as they like, gets the very same file, character by character. -/
theorem C53_identical_partial (lib : PyLib) (sl sc s : Str) (x : Elem) (n : Novel) (h : loadFile lib s = some (x, n)) (ht : RegularTree x.kids) (hx : KeepableTree x) (tidy : TidyTree x.kids)
    (hset : SettledNovel lib n) (hn : StorableNovel n) (hl : Simple sl) (hc : Simple sc) :
    ∃ s', resaved lib sl sc s = some s' ∧ ∀ ls : List (Str × Str), resavedAll lib ls s' = some s' := by
  obtain ⟨s', h1, _⟩ := resaved_same (sl' := sl) (sc' := sc) h ht hx tidy hset hn hl hc
  refine ⟨s', h1, fun ls => ?_⟩
  induction ls with
  | nil => rfl
  | cons p r ih =>
    obtain ⟨s'', h2, h3⟩ := resaved_same (sl' := p.1) (sc' := p.2) h ht hx tidy hset hn hl hc
    rw [h1] at h2
    cases h2
    rw [resavedAll, h3]
    exact ih

/-! ### The example -/

theorem tidy_reloaded {rk z : List Elem} (h : ReloadedL rk z) (ht : TidyTree rk) : TidyTree z := by
  have back : ∀ {t : Str} {e' : Elem}, find t z = some e' → ∃ e, find t rk = some e ∧ Reloaded e e' := by
    intro t e' he
    cases hf : find t rk with
    | none => rw [h.find_none hf] at he; cases he
    | some e =>
      obtain ⟨e'', h1, h2⟩ := h.find hf
      rw [he] at h1
      cases h1
      exact ⟨e, rfl, h2⟩
  refine ⟨fun t hm => ?_, fun p hp t hm => ?_, fun s hs e he t hm => ?_, fun s hs e he => ?_⟩
  · rw [length_sel_reloaded h]
    exact ht.sections t hm
  · obtain ⟨q, q1, q2⟩ := back hp
    rw [length_sel_reloaded q2.kids]
    exact ht.project q q1 t hm
  · obtain ⟨q, q1, q2⟩ := back hs
    obtain ⟨f, f1, f2⟩ := q2.kids.mem' e he
    rw [length_sel_reloaded f2.kids]
    exact ht.scenes q q1 f f1 t hm
  · obtain ⟨q, q1, q2⟩ := back hs
    obtain ⟨f, f1, f2⟩ := q2.kids.mem' e he
    rw [length_sel_reloaded f2.kids]
    exact ht.chapters q q1 f f1

def tidyB (rk : List Elem) : Bool :=
  [c!"PROJECT", c!"LOCATIONS", c!"ITEMS", c!"CHARACTERS", c!"PROJECTNOTES", c!"PROJECTVARS", c!"SCENES", c!"CHAPTERS"].all (fun t => (sel t rk).length ≤ 1) &&
  (find c!"PROJECT" rk).all (fun p => [c!"SavedWith", c!"SavedOn"].all (fun t => (sel t p.kids).length ≤ 1)) &&
  (find c!"SCENES" rk).all (fun s => s.kids.all (fun e => [c!"WordCount", c!"LetterCount", c!"RTFFile", c!"BelongsToChID"].all (fun t => (sel t e.kids).length ≤ 1))) &&
  (find c!"CHAPTERS" rk).all (fun s => s.kids.all (fun e => (sel c!"SortOrder" e.kids).length ≤ 1))

theorem tidy_b {rk : List Elem} (h : tidyB rk = true) : TidyTree rk := by
  unfold tidyB at h
  simp only [Bool.and_eq_true] at h
  obtain ⟨⟨⟨h1, h2⟩, h3⟩, h4⟩ := h
  refine ⟨fun t ht => by simpa using List.all_eq_true.1 h1 t ht, fun p hp t ht => ?_, fun s hs e he t ht => ?_, fun s hs e he => ?_⟩
  · rw [hp] at h2
    simpa using List.all_eq_true.1 h2 t ht
  · rw [hs] at h3
    simpa using List.all_eq_true.1 (List.all_eq_true.1 h3 e he) t ht
  · rw [hs] at h4
    simpa using List.all_eq_true.1 h4 e he

/-- The example project, saved to a file: this file meets all hypotheses, so after one more saving it does not change any more. -/
theorem st_identical : ∃ s s', saveFile c!"en" c!"GB" stPrj (some stTree) = some s ∧ resaved exLib c!"de" c!"DE" s = some s' ∧ ∀ ls, resavedAll exLib ls s' = some s' := by
  obtain ⟨out, hw⟩ := C51_settled_partial exLib c!"en" c!"GB" stTree stPrj st_regular st_read st_settled
  obtain ⟨_, _, z, z1, z2, _, z4⟩ := saved_parses (sl := c!"en") (sc := c!"GB") (tree := some stTree) (!stPrj.chapters.isEmpty) st_storable st_settled.ids.1.scKeys (simple_of (by decide)) (simple_of (by decide))
    st_keepable hw
  have ht : TidyTree out.kids := by
    have : (match writeTree c!"en" c!"GB" stPrj (some stTree) with | .ok o => tidyB o.kids | .error _ => false) = true := by decide +kernel
    rw [hw] at this
    exact tidy_b this
  obtain ⟨s', a, b⟩ := C53_identical_partial exLib c!"de" c!"DE" (fileText (!stPrj.chapters.isEmpty) out) z stPrj
    (loadFile_ok.2 ⟨z1, C20_stable_partial exLib c!"en" c!"GB" stTree out z stPrj st_regular.tree st_regular.node st_regular.distinct st_read st_settled hw z2⟩)
    (tree_regular c!"en" c!"GB" stPrj (some stTree) out z st_regular st_settled.ids (settled_languages st_settled) hw z2) z4 (tidy_reloaded z2.kids ht) st_settled st_storable
    (simple_of (by decide)) (simple_of (by decide))
  exact ⟨_, s', saveFile_ok.2 ⟨out, hw, rfl⟩, a, b⟩

/-- The example project with two word counts in each scene. -/
def untidyTree : Elem := stTree.mapKids (modFirst c!"SCENES" (mapKids (fun ks => ks.map (mapKids (fun k => k ++ [leaf c!"WordCount" (some c!"1"), leaf c!"WordCount" (some c!"2")])))))

def savedText (x : Elem) : Option Str := match writeTree c!"en" c!"GB" stPrj (some x) with | .ok o => some (etWrite o) | .error _ => none

def savedAgain (x : Elem) : Option Str := match writeTree c!"en" c!"GB" stPrj (some x) with | .ok o => savedText (reload o) | .error _ => none

/-- Without the hypothesis that the tree is tidy, the claim is false: of two word counts only the first is removed on saving; the second one goes on the next saving. -/
theorem C53_untidy : readTree exLib untidyTree = .ok stPrj ∧ (savedText untidyTree).isSome ∧ (savedAgain untidyTree).isSome ∧ savedAgain untidyTree ≠ savedText untidyTree ∧
    savedAgain stTree = savedText stTree := by
  refine ⟨?_, by decide +kernel, by decide +kernel, by decide +kernel, by decide +kernel⟩
  have : (match readTree exLib untidyTree with | .ok m => decide (m = stPrj) | .error _ => false) = true := by decide +kernel
  cases h : readTree exLib untidyTree with
  | error e => rw [h] at this; cases this
  | ok m => rw [h] at this; rw [of_decide_eq_true this]

end Verif
