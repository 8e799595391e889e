/-
C10: cross references.
-/
import Verif.Model.Xref
import Verif.Spec.Novel
import Verif.Lemmas.Splitter2

namespace Verif
open Spec

/-! ### Specification -/

namespace Spec

/-- The references of a scene, by kind. -/
def refsOf (n : Novel) (f : Scene → Option (List Str)) (scId : Str) : List Str :=
  ((n.scenes.get? scId).bind f).getD []

/-- All occurrences: `owners` in order, each as often as it refers to `k`. -/
def occurrences (owners : List Str) (refs : Str → List Str) (k : Str) : List Str :=
  owners.flatMap (fun o => List.replicate ((refs o).count k) o)

/-- A tag index has an entry exactly for the tags that occur. -/
def entry (l : List Str) : Option (List Str) := if l = [] then none else some l

/-- What `generate_xref` needs: everything that is listed exists, and references of listed
scenes are registered in the sort orders. -/
structure XrefReady (n : Novel) : Prop where
  chr : ∀ k ∈ n.srtCharacters, k ∈ n.characters.keys
  loc : ∀ k ∈ n.srtLocations, k ∈ n.locations.keys
  itm : ∀ k ∈ n.srtItems, k ∈ n.items.keys
  chp : ∀ c ∈ n.srtChapters, c ∈ n.chapters.keys
  scn : ∀ s ∈ narrative n, s ∈ n.scenes.keys
  refC : ∀ s ∈ narrative n, ∀ k ∈ refsOf n (·.characters) s, k ∈ n.srtCharacters
  refL : ∀ s ∈ narrative n, ∀ k ∈ refsOf n (·.locations) s, k ∈ n.srtLocations
  refI : ∀ s ∈ narrative n, ∀ k ∈ refsOf n (·.items) s, k ∈ n.srtItems

end Spec

/-! ### Lemmas -/

theorem pushKey_loop (v : Str) : ∀ (ks : List Str) (d : Dict (List Str)), (∀ k ∈ ks, k ∈ d.keys) →
    ∃ d', foldE (pushKey v) d ks = .ok d' ∧ d'.keys = d.keys ∧
      ∀ k, d'.get? k = (d.get? k).map (· ++ List.replicate (ks.count k) v) := by
  intro ks
  induction ks with
  | nil => intro d _; refine ⟨d, rfl, rfl, ?_⟩; intro k; cases d.get? k <;> simp
  | cons a r ih =>
    intro d h
    have ha : d.has a = true := (Dict.has_iff _ _).2 (h a (by simp))
    obtain ⟨d', e, hk, hg⟩ := ih (d.modify a (· ++ [v])) (fun k hk => by
      rw [Dict.keys_modify]; exact h k (by simp [hk]))
    refine ⟨d', ?_, by rw [hk, Dict.keys_modify], ?_⟩
    · rw [foldE]; simp only [pushKey, ha, if_true]; exact e
    · intro k
      rw [hg, Dict.get?_modify]
      by_cases hak : a = k
      · subst hak
        cases d.get? a <;> simp [List.replicate_succ, Nat.add_comm]
      · have : (a == k) = false := by simpa using hak
        simp [hak]

theorem pushTag_get (v t k : Str) (d : Dict (List Str)) :
    (pushTag v d t).get? k = if t = k then some ((d.get? k).getD [] ++ [v]) else d.get? k := by
  unfold pushTag
  by_cases ht : d.has t = true
  · rw [if_pos ht, Dict.get?_modify]
    obtain ⟨l, hl⟩ := (Dict.mem_keys_iff _ _).1 ((Dict.has_iff _ _).1 ht)
    by_cases e : t = k
    · subst e; simp [hl]
    · simp [e]
  · rw [if_neg ht, Dict.get?_modify]
    have hn : d.get? t = none := (Dict.get?_eq_none_iff _ _).2 (fun hm => ht ((Dict.has_iff _ _).2 hm))
    by_cases e : t = k
    · subst e; simp [hn]
    · simp [e, Dict.get?_set_ne _ _ e]

/-- What an index says about a key, with a missing entry read as the empty list. -/
theorem pushTag_loop (v : Str) : ∀ (ts : List Str) (d : Dict (List Str)) (k : Str) (l : List Str),
    d.get? k = entry l → (ts.foldl (pushTag v) d).get? k = entry (l ++ List.replicate (ts.count k) v) := by
  intro ts
  induction ts with
  | nil => intro d k l h; simpa using h
  | cons t r ih =>
    intro d k l h
    rw [List.foldl_cons]
    by_cases e : t = k
    · subst e
      have h1 : (pushTag v d t).get? t = entry (l ++ [v]) := by
        rw [pushTag_get, if_pos rfl, h]
        unfold entry
        by_cases hl : l = [] <;> simp [hl]
      rw [ih _ _ _ h1]
      simp [List.replicate_succ, Nat.add_comm]
    · have h1 : (pushTag v d t).get? k = entry l := by
        rw [pushTag_get, if_neg e, h]
      rw [ih _ _ _ h1]
      simp [e]

theorem occurrences_append (a b : List Str) (refs : Str → List Str) (k : Str) :
    occurrences (a ++ b) refs k = occurrences a refs k ++ occurrences b refs k := by
  simp [occurrences]

/-- References of a world element. -/
def tagsOf {α : Type} (elements : Dict α) (tags : α → Option (List Str)) (id : Str) : List Str :=
  ((elements.get? id).bind tags).getD []

theorem element_loop {α : Type} (elements : Dict α) (tags : α → Option (List Str)) :
    ∀ (ids done : List Str) (a b : Dict (List Str)), (∀ k ∈ ids, k ∈ elements.keys) →
    (∀ k, a.get? k = if k ∈ done then some [] else none) →
    (∀ k, b.get? k = entry (occurrences done (tagsOf elements tags) k)) →
    ∃ a' b', foldE (xrefElement elements tags) (a, b) ids = .ok (a', b') ∧
      (∀ k, a'.get? k = if k ∈ done ++ ids then some [] else none) ∧
      (∀ k, b'.get? k = entry (occurrences (done ++ ids) (tagsOf elements tags) k)) := by
  intro ids
  induction ids with
  | nil => intro done a b _ h1 h2; exact ⟨a, b, rfl, by simpa using h1, by simpa using h2⟩
  | cons i r ih =>
    intro done a b hk h1 h2
    obtain ⟨e, he⟩ := (Dict.mem_keys_iff _ _).1 (hk i (by simp))
    obtain ⟨a', b', e', h1', h2'⟩ := ih (done ++ [i]) (a.set i []) (((tags e).getD []).foldl (pushTag i) b)
      (fun k hk' => hk k (by simp [hk'])) (by
        intro k
        rw [Dict.get?_set, h1]
        by_cases hik : i = k
        · simp [hik]
        · simp [hik, Ne.symm hik]) (by
        intro k
        rw [pushTag_loop i _ _ _ _ (h2 k), occurrences_append]
        simp [occurrences, tagsOf, he])
    refine ⟨a', b', ?_, by simpa using h1', by simpa using h2'⟩
    rw [foldE]
    simp only [xrefElement, he]
    exact e'

/-- Progress of the scene loop. -/
structure XInv (n : Novel) (done : List Str) (x : Xref) : Prop where
  srt : x.srtScenes = done
  chr : ∀ k, x.scnPerChr.get? k = if k ∈ n.srtCharacters then
    some (occurrences done (refsOf n (·.characters)) k) else none
  loc : ∀ k, x.scnPerLoc.get? k = if k ∈ n.srtLocations then
    some (occurrences done (refsOf n (·.locations)) k) else none
  itm : ∀ k, x.scnPerItm.get? k = if k ∈ n.srtItems then
    some (occurrences done (refsOf n (·.items)) k) else none
  tag : ∀ k, x.scnPerTag.get? k = entry (occurrences done (refsOf n (·.tags)) k)
  chrT : ∀ k, x.chrPerTag.get? k = entry (occurrences n.srtCharacters (tagsOf n.characters (·.tags)) k)
  locT : ∀ k, x.locPerTag.get? k = entry (occurrences n.srtLocations (tagsOf n.locations (·.tags)) k)
  itmT : ∀ k, x.itmPerTag.get? k = entry (occurrences n.srtItems (tagsOf n.items (·.tags)) k)

theorem mem_keys_of_if {d : Dict (List Str)} {l : List Str} {f : Str → List Str}
    (h : ∀ k, d.get? k = if k ∈ l then some (f k) else none) (k : Str) (hk : k ∈ l) : k ∈ d.keys := by
  rw [Dict.mem_keys_iff]; exact ⟨f k, by rw [h, if_pos hk]⟩

theorem scene_step {n : Novel} {done : List Str} {x : Xref} (hi : XInv n done x) (chId s : Str)
    (hs : s ∈ n.scenes.keys)
    (hc : ∀ k ∈ refsOf n (·.characters) s, k ∈ n.srtCharacters)
    (hl : ∀ k ∈ refsOf n (·.locations) s, k ∈ n.srtLocations)
    (hit : ∀ k ∈ refsOf n (·.items) s, k ∈ n.srtItems) :
    ∃ x', xrefScene n chId x s = .ok x' ∧ XInv n (done ++ [s]) x' ∧
      x'.chpPerScn = x.chpPerScn.set s chId := by
  obtain ⟨sc, hsc⟩ := (Dict.mem_keys_iff _ _).1 hs
  have r1 : refsOf n (·.characters) s = sc.characters.getD [] := by simp [refsOf, hsc]
  have r2 : refsOf n (·.locations) s = sc.locations.getD [] := by simp [refsOf, hsc]
  have r3 : refsOf n (·.items) s = sc.items.getD [] := by simp [refsOf, hsc]
  have r4 : refsOf n (·.tags) s = sc.tags.getD [] := by simp [refsOf, hsc]
  obtain ⟨c', e1, _, g1⟩ := pushKey_loop s (sc.characters.getD []) x.scnPerChr
    (fun k hk => mem_keys_of_if hi.chr k (hc k (by rw [r1]; exact hk)))
  obtain ⟨l', e2, _, g2⟩ := pushKey_loop s (sc.locations.getD []) x.scnPerLoc
    (fun k hk => mem_keys_of_if hi.loc k (hl k (by rw [r2]; exact hk)))
  obtain ⟨i', e3, _, g3⟩ := pushKey_loop s (sc.items.getD []) x.scnPerItm
    (fun k hk => mem_keys_of_if hi.itm k (hit k (by rw [r3]; exact hk)))
  have occ : ∀ (f : Str → List Str) (l : List Str) (k : Str), f s = l →
      occurrences (done ++ [s]) f k = occurrences done f k ++ List.replicate (l.count k) s := by
    intro f l k h; rw [occurrences_append]; simp [occurrences, h]
  refine ⟨{ x with srtScenes := x.srtScenes ++ [s], chpPerScn := x.chpPerScn.set s chId, scnPerChr := c', scnPerLoc := l', scnPerItm := i', scnPerTag := (sc.tags.getD []).foldl (pushTag s) x.scnPerTag }, ?_, ?_, rfl⟩
  · unfold xrefScene
    simp only [hsc, e1, e2, e3]
  · refine ⟨by simp [hi.srt], ?_, ?_, ?_, ?_, hi.chrT, hi.locT, hi.itmT⟩
    · intro k
      simp only
      rw [g1, hi.chr, occ _ _ k r1]
      by_cases hk : k ∈ n.srtCharacters <;> simp [hk]
    · intro k
      simp only
      rw [g2, hi.loc, occ _ _ k r2]
      by_cases hk : k ∈ n.srtLocations <;> simp [hk]
    · intro k
      simp only
      rw [g3, hi.itm, occ _ _ k r3]
      by_cases hk : k ∈ n.srtItems <;> simp [hk]
    · intro k
      simp only
      rw [pushTag_loop s _ _ _ _ (hi.tag k), occ _ _ k r4]

theorem scene_loop {n : Novel} (chId : Str) : ∀ (ss done : List Str) (x : Xref), XInv n done x →
    (∀ s ∈ ss, s ∈ n.scenes.keys ∧
      (∀ k ∈ refsOf n (·.characters) s, k ∈ n.srtCharacters) ∧
      (∀ k ∈ refsOf n (·.locations) s, k ∈ n.srtLocations) ∧
      (∀ k ∈ refsOf n (·.items) s, k ∈ n.srtItems)) →
    ∃ x', foldE (xrefScene n chId) x ss = .ok x' ∧ XInv n (done ++ ss) x' ∧
      ∀ s, x'.chpPerScn.get? s = if s ∈ ss then some chId else x.chpPerScn.get? s := by
  intro ss
  induction ss with
  | nil => intro done x hi _; exact ⟨x, rfl, by simpa using hi, by simp⟩
  | cons s r ih =>
    intro done x hi h
    obtain ⟨a, b, c, d⟩ := h s (by simp)
    obtain ⟨x1, e1, h1, p1⟩ := scene_step hi chId s a b c d
    obtain ⟨x2, e2, h2, p2⟩ := ih (done ++ [s]) x1 h1 (fun y hy => h y (by simp [hy]))
    refine ⟨x2, by rw [foldE, e1]; exact e2, by simpa using h2, ?_⟩
    intro y
    rw [p2, p1, Dict.get?_set]
    by_cases hy : y ∈ r
    · simp [hy]
    · by_cases hys : s = y
      · simp [hys]
      · simp [hy, hys, Ne.symm hys]

/-- The last chapter that lists the scene. -/
def lastChapter (n : Novel) (chs : List Str) (s : Str) : Option Str :=
  (chs.filter (fun c => s ∈ scenesOf n.chapters c)).getLast?

theorem chapter_loop {n : Novel} (hr : XrefReady n) : ∀ (cs pre : List Str) (x : Xref),
    n.srtChapters = pre ++ cs →
    XInv n (pre.flatMap (scenesOf n.chapters)) x →
    (∀ s, x.chpPerScn.get? s = lastChapter n pre s) →
    ∃ x', foldE (xrefChapter n) x cs = .ok x' ∧ XInv n ((pre ++ cs).flatMap (scenesOf n.chapters)) x' ∧
      (∀ s, x'.chpPerScn.get? s = lastChapter n (pre ++ cs) s) := by
  intro cs
  induction cs with
  | nil => intro pre x _ hi hp; exact ⟨x, rfl, by simpa using hi, by simpa using hp⟩
  | cons c r ih =>
    intro pre x hsrt hi hp
    have hcm : c ∈ n.srtChapters := by rw [hsrt]; simp
    obtain ⟨ch, hch⟩ := (Dict.mem_keys_iff _ _).1 (hr.chp c hcm)
    have hso : scenesOf n.chapters c = ch.srtScenes := by simp [scenesOf, hch]
    have hmem : ∀ s ∈ ch.srtScenes, s ∈ narrative n := by
      intro s hs
      exact List.mem_flatMap.2 ⟨c, hcm, by rw [hso]; exact hs⟩
    obtain ⟨x1, e1, h1, p1⟩ := scene_loop c ch.srtScenes _ x hi (fun s hs =>
      ⟨hr.scn s (hmem s hs), hr.refC s (hmem s hs), hr.refL s (hmem s hs), hr.refI s (hmem s hs)⟩)
    obtain ⟨x2, e2, h2, p2⟩ := ih (pre ++ [c]) x1 (by simp [hsrt]) (by simpa [hso] using h1) (by
      intro s
      rw [p1, hp]
      unfold lastChapter
      rw [List.filter_append]
      by_cases hs : s ∈ ch.srtScenes
      · simp [hs, hso]
      · simp [hs, hso])
    refine ⟨x2, ?_, by simpa using h2, by simpa using p2⟩
    rw [foldE]
    simp only [xrefChapter, hch, e1]
    exact e2

/-! ### Theorems -/

/-- Cross references are generated completely and exactly: for every kind of reference the scenes
are listed in narrative order with the multiplicity of the reference; every registered
element has an entry and no other; tags have an entry exactly if they occur; each listed scene
maps to the last chapter that lists it. -/
theorem C10_exact (n : Novel) (h : XrefReady n) : ∃ x, generateXref n = .ok x ∧
    x.srtScenes = narrative n ∧
    (∀ k, x.scnPerChr.get? k = if k ∈ n.srtCharacters then
      some (occurrences (narrative n) (refsOf n (·.characters)) k) else none) ∧
    (∀ k, x.scnPerLoc.get? k = if k ∈ n.srtLocations then
      some (occurrences (narrative n) (refsOf n (·.locations)) k) else none) ∧
    (∀ k, x.scnPerItm.get? k = if k ∈ n.srtItems then
      some (occurrences (narrative n) (refsOf n (·.items)) k) else none) ∧
    (∀ t, x.scnPerTag.get? t = entry (occurrences (narrative n) (refsOf n (·.tags)) t)) ∧
    (∀ t, x.chrPerTag.get? t = entry (occurrences n.srtCharacters
      (fun i => ((n.characters.get? i).bind (·.tags)).getD []) t)) ∧
    (∀ t, x.locPerTag.get? t = entry (occurrences n.srtLocations
      (fun i => ((n.locations.get? i).bind (·.tags)).getD []) t)) ∧
    (∀ t, x.itmPerTag.get? t = entry (occurrences n.srtItems
      (fun i => ((n.items.get? i).bind (·.tags)).getD []) t)) ∧
    (∀ s, x.chpPerScn.get? s = (n.srtChapters.filter (fun c => s ∈ scenesOf n.chapters c)).getLast?) := by
  obtain ⟨a1, b1, e1, p1, q1⟩ := element_loop n.characters (·.tags) n.srtCharacters [] [] []
    h.chr (by simp) (by simp [occurrences, entry])
  obtain ⟨a2, b2, e2, p2, q2⟩ := element_loop n.locations (·.tags) n.srtLocations [] [] []
    h.loc (by simp) (by simp [occurrences, entry])
  obtain ⟨a3, b3, e3, p3, q3⟩ := element_loop n.items (·.tags) n.srtItems [] [] []
    h.itm (by simp) (by simp [occurrences, entry])
  simp only [List.nil_append] at p1 q1 p2 q2 p3 q3
  obtain ⟨x, e, hx, hp⟩ := chapter_loop h n.srtChapters [] { scnPerChr := a1, scnPerLoc := a2, scnPerItm := a3, chrPerTag := b1, locPerTag := b2, itmPerTag := b3 } rfl
    ⟨rfl, by simpa [occurrences] using p1, by simpa [occurrences] using p2,
      by simpa [occurrences] using p3, by simp [occurrences, entry], q1, q2, q3⟩
    (by simp [lastChapter])
  refine ⟨x, ?_, ?_, hx.chr, hx.loc, hx.itm, hx.tag, hx.chrT, hx.locT, hx.itmT, hp⟩
  · unfold generateXref
    rw [e1]; simp only
    rw [e2]; simp only
    rw [e3]; simp only
    exact e
  · have := hx.srt
    rw [List.nil_append] at this
    exact this

/-- The relation read as membership: a scene is listed for a character if and only if it is listed
in some chapter and refers to that character (the same lemma serves the other kinds). -/
theorem C10_inverse (owners : List Str) (refs : Str → List Str) (k s : Str) :
    s ∈ occurrences owners refs k ↔ s ∈ owners ∧ k ∈ refs s := by
  unfold occurrences
  rw [List.mem_flatMap]
  constructor
  · rintro ⟨o, ho, hm⟩
    rw [List.mem_replicate] at hm
    obtain ⟨h1, rfl⟩ := hm
    exact ⟨ho, List.count_pos_iff.1 (Nat.pos_of_ne_zero h1)⟩
  · rintro ⟨ho, hk⟩
    exact ⟨s, ho, List.mem_replicate.2 ⟨Nat.ne_of_gt (List.count_pos_iff.2 hk), rfl⟩⟩

theorem pushKey_ok {v : Str} {d d' : Dict (List Str)} {ks : List Str}
    (h : foldE (pushKey v) d ks = .ok d') : ∀ k ∈ ks, k ∈ d.keys := by
  induction ks generalizing d with
  | nil => simp
  | cons a r ih =>
    rw [foldE] at h
    by_cases ha : a ∈ d.keys
    · have hb : d.has a = true := (Dict.has_iff _ _).2 ha
      simp only [pushKey, hb, if_true] at h
      intro k hk
      rcases List.mem_cons.1 hk with rfl | hk
      · exact ha
      · simpa using ih h k hk
    · have hb : d.has a = false := by
        cases hb : d.has a with
        | false => rfl
        | true => exact absurd ((Dict.has_iff _ _).1 hb) ha
      simp only [pushKey, hb, Bool.false_eq_true, if_false] at h
      cases h

theorem element_ok {α : Type} {elements : Dict α} {tags : α → Option (List Str)} {ids : List Str}
    {st st' : Dict (List Str) × Dict (List Str)}
    (h : foldE (xrefElement elements tags) st ids = .ok st') : ∀ k ∈ ids, k ∈ elements.keys := by
  induction ids generalizing st with
  | nil => simp
  | cons a r ih =>
    rw [foldE] at h
    cases he : elements.get? a with
    | none => simp only [xrefElement, he] at h; cases h
    | some e =>
      simp only [xrefElement, he] at h
      intro k hk
      rcases List.mem_cons.1 hk with rfl | hk
      · exact (Dict.mem_keys_iff _ _).2 ⟨e, he⟩
      · exact ih h k hk

theorem mem_of_mem_keys_if {d : Dict (List Str)} {l : List Str} {f : Str → List Str}
    (h : ∀ k, d.get? k = if k ∈ l then some (f k) else none) (k : Str) (hk : k ∈ d.keys) : k ∈ l := by
  obtain ⟨v, hv⟩ := (Dict.mem_keys_iff _ _).1 hk
  rw [h] at hv
  by_cases hm : k ∈ l
  · exact hm
  · rw [if_neg hm] at hv; cases hv

/-- The registered references of one scene. -/
def SceneReady (n : Novel) (s : Str) : Prop := s ∈ n.scenes.keys ∧
  (∀ k ∈ refsOf n (·.characters) s, k ∈ n.srtCharacters) ∧
  (∀ k ∈ refsOf n (·.locations) s, k ∈ n.srtLocations) ∧
  (∀ k ∈ refsOf n (·.items) s, k ∈ n.srtItems)

theorem xrefScene_ok {n : Novel} {done : List Str} {x x' : Xref} (hi : XInv n done x) {chId s : Str}
    (h : xrefScene n chId x s = .ok x') : SceneReady n s := by
  unfold xrefScene at h
  cases hsc : n.scenes.get? s with
  | none => simp only [hsc] at h; cases h
  | some sc =>
    have r : ∀ f : Scene → Option (List Str), refsOf n f s = (f sc).getD [] := by
      intro f; simp [refsOf, hsc]
    simp only [hsc] at h
    split at h
    · cases h
    · rename_i c hc
      split at h
      · cases h
      · rename_i l hl
        split at h
        · cases h
        · rename_i i hit
          refine ⟨(Dict.mem_keys_iff _ _).2 ⟨sc, hsc⟩, ?_, ?_, ?_⟩
          · intro k hk; rw [r] at hk; exact mem_of_mem_keys_if hi.chr k (pushKey_ok hc k hk)
          · intro k hk; rw [r] at hk; exact mem_of_mem_keys_if hi.loc k (pushKey_ok hl k hk)
          · intro k hk; rw [r] at hk; exact mem_of_mem_keys_if hi.itm k (pushKey_ok hit k hk)

theorem scenes_ok {n : Novel} (chId : Str) : ∀ (ss done : List Str) (x x' : Xref), XInv n done x →
    foldE (xrefScene n chId) x ss = .ok x' →
    (∀ s ∈ ss, SceneReady n s) ∧ XInv n (done ++ ss) x' := by
  intro ss
  induction ss with
  | nil => intro done x x' hi h; injection h with h; subst h; exact ⟨by simp, by simpa using hi⟩
  | cons s r ih =>
    intro done x x' hi h
    rw [foldE] at h
    cases h1 : xrefScene n chId x s with
    | error e => rw [h1] at h; cases h
    | ok x1 =>
      have hr := xrefScene_ok hi h1
      obtain ⟨x2, e2, hi2, _⟩ := scene_step hi chId s hr.1 hr.2.1 hr.2.2.1 hr.2.2.2
      rw [h1] at e2; injection e2 with e2; subst e2
      rw [h1] at h
      obtain ⟨a, b⟩ := ih _ x1 x' hi2 h
      refine ⟨?_, by simpa using b⟩
      intro y hy
      rcases List.mem_cons.1 hy with rfl | hy
      · exact hr
      · exact a y hy

theorem chapters_ok {n : Novel} : ∀ (cs done : List Str) (x x' : Xref), XInv n done x →
    foldE (xrefChapter n) x cs = .ok x' →
    (∀ c ∈ cs, c ∈ n.chapters.keys) ∧ ∀ s ∈ cs.flatMap (scenesOf n.chapters), SceneReady n s := by
  intro cs
  induction cs with
  | nil => intro done x x' _ _; simp
  | cons c r ih =>
    intro done x x' hi h
    rw [foldE] at h
    cases hch : n.chapters.get? c with
    | none => simp only [xrefChapter, hch] at h; cases h
    | some ch =>
      have hso : scenesOf n.chapters c = ch.srtScenes := by simp [scenesOf, hch]
      simp only [xrefChapter, hch] at h
      cases h1 : foldE (xrefScene n c) x ch.srtScenes with
      | error e => rw [h1] at h; cases h
      | ok x1 =>
        rw [h1] at h
        obtain ⟨a, b⟩ := scenes_ok c _ _ _ _ hi h1
        obtain ⟨p, q⟩ := ih _ x1 x' b h
        constructor
        · intro k hk
          rcases List.mem_cons.1 hk with rfl | hk
          · exact (Dict.mem_keys_iff _ _).2 ⟨ch, hch⟩
          · exact p k hk
        · intro s hs
          rw [List.flatMap_cons, hso] at hs
          rcases List.mem_append.1 hs with hs | hs
          · exact a s hs
          · exact q s hs

/-- The generation succeeds exactly if everything listed exists and all references of listed scenes
are registered: an unregistered reference is never dropped silently. -/
theorem C10_success_iff (n : Novel) : (∃ x, generateXref n = .ok x) ↔ XrefReady n := by
  constructor
  · rintro ⟨x, h⟩
    unfold generateXref at h
    split at h
    · cases h
    · rename_i sc ct e1
      split at h
      · cases h
      · rename_i sl lt e2
        split at h
        · cases h
        · rename_i si it e3
          have k1 := element_ok e1
          have k2 := element_ok e2
          have k3 := element_ok e3
          obtain ⟨a1, b1, e1', p1, q1⟩ := element_loop n.characters (·.tags) n.srtCharacters [] [] []
            k1 (by simp) (by simp [occurrences, entry])
          obtain ⟨a2, b2, e2', p2, q2⟩ := element_loop n.locations (·.tags) n.srtLocations [] [] []
            k2 (by simp) (by simp [occurrences, entry])
          obtain ⟨a3, b3, e3', p3, q3⟩ := element_loop n.items (·.tags) n.srtItems [] [] []
            k3 (by simp) (by simp [occurrences, entry])
          rw [e1] at e1'; rw [e2] at e2'; rw [e3] at e3'
          injection e1' with e1'; injection e2' with e2'; injection e3' with e3'
          obtain ⟨rfl, rfl⟩ := Prod.mk.inj e1'
          obtain ⟨rfl, rfl⟩ := Prod.mk.inj e2'
          obtain ⟨rfl, rfl⟩ := Prod.mk.inj e3'
          simp only [List.nil_append] at p1 q1 p2 q2 p3 q3
          have := chapters_ok n.srtChapters [] _ x
            ⟨rfl, by simpa [occurrences] using p1, by simpa [occurrences] using p2,
              by simpa [occurrences] using p3, by simp [occurrences, entry], q1, q2, q3⟩ h
          exact ⟨k1, k2, k3, this.1, fun s hs => (this.2 s hs).1, fun s hs => (this.2 s hs).2.1,
            fun s hs => (this.2 s hs).2.2.1, fun s hs => (this.2 s hs).2.2.2⟩
  · intro h
    obtain ⟨x, e, _⟩ := C10_exact n h
    exact ⟨x, e⟩

/-! ### Example -/

def xrefNovel : Novel :=
  { chapters := [(c!"1", { srtScenes := [c!"2", c!"1"] }), (c!"2", { srtScenes := [c!"3", c!"1"] })]
    scenes := [(c!"1", { characters := some [c!"7"], tags := some [c!"t"] }),
               (c!"2", { characters := some [c!"7", c!"8"], locations := some [c!"1"] }),
               (c!"3", { characters := none })]
    srtChapters := [c!"2", c!"1"]
    characters := [(c!"7", { tags := some [c!"t", c!"u"] }), (c!"8", { tags := some [c!"u"] })]
    srtCharacters := [c!"8", c!"7"]
    locations := [(c!"1", {})]
    srtLocations := [c!"1"] }

example : XrefReady xrefNovel :=
  ⟨by decide, by decide, by decide, by decide, by decide, by decide, by decide, by decide⟩

example : ∃ x, generateXref xrefNovel = .ok x ∧
    x.scnPerChr = [(c!"8", [c!"2"]), (c!"7", [c!"1", c!"2", c!"1"])] ∧
    x.chpPerScn.get? c!"1" = some c!"1" ∧ x.chrPerTag.get? c!"u" = some [c!"8", c!"7"] :=
  ⟨_, rfl, by decide, by decide, by decide⟩

end Verif
