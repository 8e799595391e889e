/-
Scenes, chapters, world elements and the project description: what is written can be carried.
-/
import Verif.Lemmas.Disk1
import Verif.Lemmas.Yw7Scene2

namespace Verif
open Xml Elem Spec

theorem isName_of {t : Str} (h : (!t.isEmpty && t.all nameChar) = true) : IsName t := by
  rw [Bool.and_eq_true] at h
  refine ⟨?_, fun c hc => List.all_eq_true.1 h.2 c hc⟩
  intro h0
  rw [h0] at h
  exact absurd h.1 (by simp)

theorem Spec.CdataText.ok {R : Str → Prop} {t : Str} {v : Option Str} (h : CdataText v) (ht : t ∈ cdataTags) : TextOk R t v := by
  refine ⟨cdataTags_names t ht, ?_⟩
  rw [if_pos ht]
  cases v with
  | none => exact safeCdata_nil
  | some s => exact h s rfl

theorem Spec.RawText.ok {R : Str → Prop} (hR : Raws R) {t : Str} {v : Option Str} (h : RawText v) (hn : (!t.isEmpty && t.all nameChar) = true) (ht : t ∉ cdataTags) : TextOk R t v := by
  refine ⟨isName_of hn, ?_⟩
  rw [if_neg ht]
  cases v with
  | none => exact hR _ safePlain_nil
  | some s => exact hR _ (h s rfl)

theorem Spec.SimpleText.raw {v : Option Str} (h : SimpleText v) : RawText v := fun s hs => (h s hs).safePlain

theorem Spec.SimpleText.cdata {v : Option Str} (h : SimpleText v) : CdataText v := fun s hs => (h s hs).safeCdata

theorem rawText_some {s : Str} (h : simpleB s = true) : RawText (some s) := by
  intro t ht; cases ht; exact (simple_of h).safePlain

theorem simple_plain {s : Str} (h : PlainStr s) (h2 : ∀ c ∈ s, c ∉ ['|', '[', ']', '\n']) : Simple s := by
  intro c hc
  obtain ⟨a1, a2, a3, a4, a5⟩ := h c hc
  have := h2 c hc
  simp only [List.mem_cons, List.not_mem_nil, or_false, not_or] at this
  refine ⟨⟨a1, a2, this.1⟩, ?_⟩
  simp only [List.mem_cons, List.not_mem_nil, or_false, not_or]
  exact ⟨a3, a4, a5, this.2.1, this.2.2.1, this.2.2.2⟩

theorem digit_mem {c : Char} (h : c.isDigit = true) : c ∈ ("0123456789".toList : List Char) := by
  unfold Char.isDigit at h
  simp only [Bool.and_eq_true, decide_eq_true_eq] at h
  have h1 : 48 ≤ c.val.toNat := h.1
  have h2 : c.val.toNat ≤ 57 := h.2
  have : c = Char.ofNat c.toNat := (Char.ofNat_toNat c).symm
  rw [this]
  have e : c.toNat = c.val.toNat := rfl
  rw [e]
  generalize c.val.toNat = k at h1 h2
  have : k = 48 ∨ k = 49 ∨ k = 50 ∨ k = 51 ∨ k = 52 ∨ k = 53 ∨ k = 54 ∨ k = 55 ∨ k = 56 ∨ k = 57 := by omega
  rcases this with rfl | rfl | rfl | rfl | rfl | rfl | rfl | rfl | rfl | rfl <;> decide

theorem simple_ofNat (n : Nat) : Simple (Str.ofNat n) := by
  intro c hc
  have h := digit_mem (Str.isDigit_of_mem_ofNat hc)
  have : ∀ c ∈ ("0123456789".toList : List Char), simpleB [c] = true := by decide
  exact simple_of (this c h) c (by simp)

theorem simple_ofInt (i : Int) : Simple (Str.ofInt i) := by
  unfold Str.ofInt
  split
  · exact simple_ofNat _
  · exact Simple.cons (simple_of (s := c!"-") (by decide) '-' (by simp)) (simple_ofNat _)


/-! ### Scenes -/

theorem mem_join {sep : Str} {l : List Str} {p : Str} (hp : p ∈ l) {c : Char} (hc : c ∈ p) : c ∈ Str.join sep l := by
  induction l with
  | nil => cases hp
  | cons a r ih =>
    cases r with
    | nil =>
      rw [List.mem_singleton] at hp
      subst hp
      exact hc
    | cons b r =>
      show c ∈ a ++ sep ++ Str.join sep (b :: r)
      rw [List.append_assoc]
      rcases List.mem_cons.1 hp with rfl | hp
      · exact List.mem_append_left _ hc
      · exact List.mem_append_right _ (List.mem_append_right _ (ih hp))

theorem split_chars (s sep : Str) (h0 : sep ≠ []) : ∀ p ∈ Str.split s sep, ∀ c ∈ p, c ∈ s := by
  intro p hp c hc
  have h := Str.join_split sep h0 s
  rw [← h]
  exact mem_join hp hc

theorem GoodL.removeDateTime {R : Str → Prop} {ks : List Elem} (h : GoodL R ks) : GoodL R (removeDateTime ks) := by
  unfold Verif.removeDateTime
  exact ((((h.removeFirst _).removeFirst _).removeFirst _).removeFirst _).removeFirst _

theorem GoodL.putStart {R : Str → Prop} (hR : Raws R) {ks out : List Elem} {d t y : Option Str} (hd : ∀ v ∈ [d, t, y], SimpleText v) (ho : putStart d t y ks = .ok out) (h : GoodL R ks) :
    GoodL R out := by
  have raw : ∀ {t : Str} {v : Option Str}, SimpleText v → (!t.isEmpty && t.all nameChar) = true → t ∉ cdataTags → TextOk R t v := fun h h1 h2 => h.raw.ok hR h1 h2
  cases hd0 : d with
  | none =>
    cases ht0 : t with
    | none =>
      rw [hd0, ht0] at ho
      unfold Verif.putStart at ho
      dsimp only at ho
      split at ho
      · cases ho; exact h
      · split at ho
        · cases ho; exact h.removeDateTime
        · cases ho
          exact ((h.removeFirst _).removeFirst _).putAlways hR (raw (hd y (by simp)) (by decide) (by decide))
    | some t' =>
      rw [hd0, ht0] at ho
      unfold Verif.putStart at ho
      dsimp only at ho
      split at ho
      · cases ho; exact h
      · split at ho
        · cases ho; exact h.removeDateTime
        · split at ho
          · rename_i hh mm r hsp
            cases ho
            have hs : Simple t' := hd t (by simp) t' ht0
            have hp : ∀ p ∈ Str.split t' c!":", SimpleText (some p) := by
              intro p hp s hs'
              cases hs'
              exact hs.sub (split_chars t' c!":" (by decide) p hp)
            rw [hsp] at hp
            exact ((((h.removeFirst _).removeFirst _).putAlways hR (raw (hd y (by simp)) (by decide) (by decide))).putAlways hR
              (raw (hp hh (by simp)) (by decide) (by decide))).putAlways hR (raw (hp mm (by simp)) (by decide) (by decide))
          · cases ho
  | some d' =>
    cases ht0 : t with
    | none =>
      rw [hd0, ht0] at ho
      unfold Verif.putStart at ho
      dsimp only at ho
      split at ho
      · cases ho; exact h
      · split at ho
        · cases ho; exact h.removeDateTime
        · cases ho
          exact ((h.removeFirst _).removeFirst _).putAlways hR (raw (hd y (by simp)) (by decide) (by decide))
    | some t' =>
      have hs : Simple (d' ++ ' ' :: t') := (hd d (by simp) d' hd0).append (Simple.cons (simple_of (s := c!" ") (by decide) ' ' (by simp)) (hd t (by simp) t' ht0))
      rw [hd0, ht0] at ho
      unfold Verif.putStart at ho
      dsimp only at ho
      split at ho
      · cases ho; exact h.removeDateTime
      · split at ho
        · cases ho
          refine h.setText (raw ?_ (by decide) (by decide))
          intro s hs'
          cases hs'
          split
          · exact hs.append (simple_of (by decide))
          · exact hs
        · cases ho
          refine (((?_ : GoodL R _).removeFirst _).removeFirst _).removeFirst _
          refine GoodL.leaf hR (h.leaf hR (raw ?_ (by decide) (by decide))) (raw ?_ (by decide) (by decide))
          · intro s hs'; cases hs'; exact hs
          · intro s hs'; cases hs'; exact simple_of (by decide)

theorem GoodL.putSceneType {R : Str → Prop} (hR : Raws R) {ks : List Elem} {v : Option Str} (hv : SimpleText v) (h : GoodL R ks) : GoodL R (putSceneType v ks) := by
  cases v with
  | none => exact h.onFields (fun l hl => hl.removeFirst _)
  | some v => exact (h.ensureFields hR).onFields (fun l hl => hl.putAlways hR (hv.raw.ok hR (by decide) (by decide)))

theorem GoodL.putExport {R : Str → Prop} (hR : Raws R) {ks : List Elem} (b : Option Bool) (h : GoodL R ks) : GoodL R (putExport b ks) := by
  unfold Verif.putExport
  split
  · exact h
  · exact (h.addMissing hR (RawText.ok hR (v := none) (by intro s hs; cases hs) (by decide) (by decide))).removeFirst _
  · split
    · exact h.addMissing hR ((rawText_some (by decide)).ok hR (by decide) (by decide))
    · exact h

theorem Spec.TagsText.cdata {v : Option (List Str)} (h : TagsText v) : CdataText (v.map (fun l => listToString (some l) c!";")) := by
  intro s hs
  cases v with
  | none => cases hs
  | some l => cases hs; exact h l rfl

/-- The texts of a scene as they are given to the file. -/
structure SceneTexts (s : Scene) : Prop where
  texts : ∀ v ∈ [s.title, s.desc, s.notes, s.goal, s.outcome, s.image, s.sceneContent], CdataText v
  plain : ∀ v ∈ [s.conflict, s.field1, s.field2, s.field3, s.field4, s.lastsDays, s.lastsHours, s.lastsMinutes], RawText v
  tags : TagsText s.tags
  start : ∀ v ∈ [s.date, s.time, s.day], SimpleText v
  arcs : ∀ t, (s.kwVar.get? c!"Field_SceneArcs").join = some t → SafeCdata (ywConvert (some t))
  mode : ∀ t, (s.kwVar.get? c!"Field_SceneMode").join = some t → SafePlain (ywConvert (some t))
  ids : ∀ l ∈ [s.characters, s.locations, s.items], ∀ id ∈ l.getD [], Simple id

theorem GoodL.buildSceneA {R : Str → Prop} (hR : Raws R) {s : Scene} {u : Bool} {ty : Option Str} {ks : List Elem} (hs : SceneTexts s) (hty : SimpleText ty) (h : GoodL R ks) :
    GoodL R (buildSceneA s u ty ks) := by
  have cd : ∀ {t : Str} {v : Option Str}, CdataText v → t ∈ cdataTags → TextOk R t v := fun h ht => h.ok ht
  have raw : ∀ {t : Str} {v : Option Str}, RawText v → (!t.isEmpty && t.all nameChar) = true → t ∉ cdataTags → TextOk R t v := fun h h1 h2 => h.ok hR h1 h2
  have nat : ∀ k, RawText (some (Str.ofNat k)) := fun k s hs => by cases hs; exact (simple_ofNat k).safePlain
  unfold Verif.buildSceneA
  refine GoodL.putFlag hR _ (raw (rawText_some (by decide)) (by decide) (by decide)) ?_
  refine GoodL.putText hR (raw (hs.plain _ (by simp)) (by decide) (by decide)) ?_
  refine GoodL.putText hR (raw (hs.plain _ (by simp)) (by decide) (by decide)) ?_
  refine GoodL.putText hR (raw (hs.plain _ (by simp)) (by decide) (by decide)) ?_
  refine GoodL.putText hR (raw (hs.plain _ (by simp)) (by decide) (by decide)) ?_
  refine GoodL.putText hR (cd hs.tags.cdata (by decide)) ?_
  refine GoodL.putText hR (cd (hs.texts _ (by simp)) (by decide)) ?_
  refine GoodL.putAlways hR (raw ?_ (by decide) (by decide)) ?_
  · intro x hx
    cases hst : s.status with
    | none => rw [hst] at hx; cases hx
    | some i => rw [hst] at hx; cases hx; exact (simple_ofInt i).safePlain
  refine GoodL.putCustom hR (fun t ht => ?_) ?_
  · exact raw (fun q hq => by cases hq; exact hs.mode t ht) (by decide) (by decide)
  refine GoodL.putCustom hR (fun t ht => ?_) ?_
  · exact cd (fun q hq => by cases hq; exact hs.arcs t ht) (by decide)
  refine GoodL.putExport hR _ ?_
  refine GoodL.putSceneType hR hty ?_
  refine GoodL.putFlag hR _ (raw (rawText_some (by decide)) (by decide) (by decide)) ?_
  refine GoodL.addMissing hR (raw (nat _) (by decide) (by decide)) ?_
  refine GoodL.addMissing hR (raw (nat _) (by decide) (by decide)) ?_
  refine GoodL.addMissing hR (cd (hs.texts _ (by simp)) (by decide)) ?_
  refine GoodL.putText hR (cd (hs.texts _ (by simp)) (by decide)) ?_
  exact GoodL.setElement hR (cd (hs.texts _ (by simp)) (by decide)) h

theorem GoodL.buildSceneB {R : Str → Prop} (hR : Raws R) {s : Scene} {ks : List Elem} (hs : SceneTexts s) (h : GoodL R ks) : GoodL R (buildSceneB s ks) := by
  have cd : ∀ {t : Str} {v : Option Str}, CdataText v → t ∈ cdataTags → TextOk R t v := fun h ht => h.ok ht
  have raw : ∀ {t : Str} {v : Option Str}, RawText v → (!t.isEmpty && t.all nameChar) = true → t ∉ cdataTags → TextOk R t v := fun h h1 h2 => h.ok hR h1 h2
  unfold Verif.buildSceneB
  refine GoodL.putIds hR ⟨isName_of (by decide), by decide⟩ ⟨isName_of (by decide), by decide⟩ (hs.ids _ (by simp)) ?_
  refine GoodL.putIds hR ⟨isName_of (by decide), by decide⟩ ⟨isName_of (by decide), by decide⟩ (hs.ids _ (by simp)) ?_
  refine GoodL.putIds hR ⟨isName_of (by decide), by decide⟩ ⟨isName_of (by decide), by decide⟩ (hs.ids _ (by simp)) ?_
  refine GoodL.putText hR (cd (hs.texts _ (by simp)) (by decide)) ?_
  refine GoodL.putText hR (cd (hs.texts _ (by simp)) (by decide)) ?_
  refine GoodL.putText hR (raw (hs.plain _ (by simp)) (by decide) (by decide)) ?_
  refine GoodL.putText hR (cd (hs.texts _ (by simp)) (by decide)) ?_
  refine GoodL.putFlag hR _ (raw (rawText_some (by decide)) (by decide) (by decide)) ?_
  refine GoodL.putFlag hR _ (raw (rawText_some (by decide)) (by decide) (by decide)) ?_
  refine GoodL.putText hR (raw (hs.plain _ (by simp)) (by decide) (by decide)) ?_
  refine GoodL.putText hR (raw (hs.plain _ (by simp)) (by decide) (by decide)) ?_
  exact GoodL.putText hR (raw (hs.plain _ (by simp)) (by decide) (by decide)) h

theorem GoodL.buildScene {R : Str → Prop} (hR : Raws R) {s : Scene} {ks out : List Elem} (hs : SceneTexts s) (ho : buildScene s ks = .ok out) (h : GoodL R ks) : GoodL R out := by
  unfold Verif.buildScene at ho
  split at ho
  · cases ho
  · rename_i u ty hty
    split at ho
    · cases ho
    · rename_i k hk
      cases ho
      have ht : SimpleText ty := by
        have hall : ∀ p ∈ scTypeEncoding, (match p.2 with | none => true | some s => simpleB s) = true := by decide
        have := hall _ (List.mem_of_getElem? hty)
        intro q hq
        subst hq
        exact simple_of this
      exact (GoodL.putStart hR hs.start hk (h.buildSceneA hR hs ht)).buildSceneB hR hs

theorem GoodL.finishScene {R : Str → Prop} {v : Option Str} {ks : List Elem} (hv : CdataText v) (h : GoodL R ks) : GoodL R (finishScene v ks) := by
  unfold Verif.finishScene
  refine GoodL.removeFirst _ (GoodL.removeFirst _ (GoodL.removeFirst _ (GoodL.removeFirst _ ?_)))
  cases v with
  | none => exact h
  | some c => exact h.setText (hv.ok (by decide))

/-! ### Chapters -/

theorem GoodL.withFields {R : Str → Prop} (hR : Raws R) {ks : List Elem} (i : Nat) (h : GoodL R ks) :
    GoodL R (if hasTag c!"Fields" ks then ks else Xml.insertAt i (node c!"Fields" none none []) ks) := by
  split
  · exact h
  · exact h.insertAt i (goodTree_node hR fields_ok (by intro e he; cases he))

theorem GoodL.putChField {R : Str → Prop} (hR : Raws R) {ks : List Elem} {t : Str} (b : Bool) (i : Nat) (hn : (!t.isEmpty && t.all nameChar) = true) (ht : t ∉ cdataTags) (h : GoodL R ks) :
    GoodL R (putChField t b i ks) := by
  unfold Verif.putChField
  split
  · exact (h.withFields hR i).onFields (fun l hl => hl.putAlways hR ((rawText_some (by decide)).ok hR hn ht))
  · refine h.onFields (fun l hl => ?_)
    split
    · exact hl.setText ((rawText_some (by decide)).ok hR hn ht)
    · exact hl

theorem GoodL.putTrash {R : Str → Prop} (hR : Raws R) {ks : List Elem} (b : Bool) (i : Nat) (h : GoodL R ks) : GoodL R (putTrash b i ks) := by
  unfold Verif.putTrash
  split
  · exact (h.withFields hR i).onFields (fun l hl => hl.putAlways hR ((rawText_some (by decide)).ok hR (by decide) (by decide)))
  · exact h.onFields (fun l hl => hl.removeFirst _)

theorem GoodL.putChUnused {R : Str → Prop} (hR : Raws R) {p : List Elem × Nat} (b : Bool) (h : GoodL R p.1) : GoodL R (putChUnused b p).1 := by
  unfold Verif.putChUnused
  dsimp only
  split
  · split
    · exact h
    · exact h.insertAt _ (goodTree_leaf hR ((rawText_some (by decide)).ok hR (by decide) (by decide)))
  · exact h.removeFirst _

theorem GoodL.putSection {R : Str → Prop} (hR : Raws R) {p : List Elem × Nat} (l : Option Nat) (h : GoodL R p.1) : GoodL R (putSection l p).1 := by
  unfold Verif.putSection
  dsimp only
  split
  · split
    · exact h.removeFirst _
    · exact h
  · split
    · exact h.insertAt _ (goodTree_leaf hR ((rawText_some (by decide)).ok hR (by decide) (by decide)))
    · exact h

theorem GoodL.putChFields {R : Str → Prop} (hR : Raws R) {p : List Elem × Nat} (c : Chapter) (h : GoodL R p.1) : GoodL R (putChFields c p).1 := by
  unfold Verif.putChFields
  exact ((h.putChField hR _ _ (by decide) (by decide)).putChField hR _ _ (by decide) (by decide)).putTrash hR _ _

theorem GoodL.buildChapter {R : Str → Prop} (hR : Raws R) {c : Chapter} {ks out : List Elem} (ht : CdataText c.title) (hd : CdataText c.desc) (hi : ∀ s ∈ c.srtScenes, Simple s)
    (ho : buildChapter c ks = .ok out) (h : GoodL R ks) : GoodL R out := by
  unfold Verif.buildChapter at ho
  split at ho
  · cases ho
  · rename_i u ty chTy hty
    cases ho
    have hall : ∀ p ∈ chTypeEncoding, simpleB p.2.1 = true ∧ simpleB p.2.2 = true := by decide
    obtain ⟨h1, h2⟩ := hall _ (List.mem_of_getElem? hty)
    refine GoodL.putIds hR ⟨isName_of (by decide), by decide⟩ ⟨isName_of (by decide), by decide⟩ hi ?_
    refine GoodL.setElement hR ((rawText_some h2).ok hR (by decide) (by decide)) ?_
    refine GoodL.setElement hR ((rawText_some h1).ok hR (by decide) (by decide)) ?_
    refine GoodL.putSection hR _ ?_
    refine GoodL.putChFields hR _ ?_
    refine GoodL.removeFirst _ ?_
    refine GoodL.putChUnused hR _ ?_
    refine GoodL.setElement hR (hd.ok (by decide)) ?_
    exact GoodL.setElement hR (ht.ok (by decide)) h

/-! ### World elements and the project -/

theorem GoodL.idLeaf {R : Str → Prop} (hR : Raws R) {id : Str} (h : Simple id) : GoodL R [Elem.leaf c!"ID" (some id)] :=
  .one (goodTree_leaf hR (RawText.ok hR (fun s hs => by cases hs; exact h.safePlain) (by decide) (by decide)))

theorem custom_ok {R : Str → Prop} {t s : Str} (h : R (ywConvert (some s))) (hn : (!t.isEmpty && t.all nameChar) = true) (ht : t ∉ cdataTags) : TextOk R t (some (ywConvert (some s))) := by
  refine ⟨isName_of hn, ?_⟩
  rw [if_neg ht]
  exact h

theorem GoodL.buildWorld {w : WorldElement} {ks : List Elem} (hw : StorableElement w) (h : GoodL SafeRaw ks) : GoodL SafeRaw (buildWorld w ks) := by
  have hR : Raws SafeRaw := fun s h => h.raw
  have cd : ∀ {t : Str} {v : Option Str}, CdataText v → t ∈ cdataTags → TextOk SafeRaw t v := fun h ht => h.ok ht
  unfold Verif.buildWorld
  refine GoodL.removeFirst _ ?_
  refine GoodL.putCustom hR (fun t ht => custom_ok (hw.link t ht) (by decide) (by decide)) ?_
  refine GoodL.putNew hR (cd hw.tags.cdata (by decide)) ?_
  refine GoodL.putNew hR (cd (hw.texts _ (by simp)) (by decide)) ?_
  refine GoodL.putNew hR (cd (hw.texts _ (by simp)) (by decide)) ?_
  refine GoodL.putNew hR (cd (hw.texts _ (by simp)) (by decide)) ?_
  exact GoodL.putNew hR (cd (hw.texts _ (by simp)) (by decide)) h

theorem GoodL.buildCharacter {w : Character} {ks : List Elem} (hw : StorableCharacter w) (h : GoodL SafeRaw ks) : GoodL SafeRaw (buildCharacter w ks) := by
  have hR : Raws SafeRaw := fun s h => h.raw
  have cd : ∀ {t : Str} {v : Option Str}, CdataText v → t ∈ cdataTags → TextOk SafeRaw t v := fun h ht => h.ok ht
  unfold Verif.buildCharacter
  refine GoodL.removeFirst _ ?_
  refine GoodL.putCustom hR (fun t ht => custom_ok (hw.custom _ (by simp) t ht) (by decide) (by decide)) ?_
  refine GoodL.putCustom hR (fun t ht => custom_ok (hw.custom _ (by simp) t ht) (by decide) (by decide)) ?_
  refine GoodL.putCustom hR (fun t ht => custom_ok (hw.custom _ (by simp) t ht) (by decide) (by decide)) ?_
  refine GoodL.putNew hR (RawText.ok hR ?_ (by decide) (by decide)) ?_
  · intro s hs
    split at hs
    · cases hs; exact (simple_of (by decide)).safePlain
    · cases hs
  refine GoodL.putNew hR (cd (hw.texts _ (by simp)) (by decide)) ?_
  refine GoodL.putNew hR (cd (hw.texts _ (by simp)) (by decide)) ?_
  refine GoodL.putNew hR (cd (hw.texts _ (by simp)) (by decide)) ?_
  refine GoodL.putNew hR (cd hw.tags.cdata (by decide)) ?_
  refine GoodL.putNew hR (cd (hw.texts _ (by simp)) (by decide)) ?_
  refine GoodL.putNew hR (cd (hw.texts _ (by simp)) (by decide)) ?_
  refine GoodL.putNew hR (cd (hw.texts _ (by simp)) (by decide)) ?_
  refine GoodL.putNew hR (cd (hw.texts _ (by simp)) (by decide)) ?_
  exact GoodL.putNew hR (cd (hw.texts _ (by simp)) (by decide)) h

theorem GoodL.buildNote {b : BasicElement} {ks : List Elem} (h1 : CdataText b.title) (h2 : CdataText b.desc) (h : GoodL SafeRaw ks) : GoodL SafeRaw (buildNote b ks) := by
  have hR : Raws SafeRaw := fun s h => h.raw
  unfold Verif.buildNote
  exact (h.putNew hR (h1.ok (by decide))).putNew hR (h2.ok (by decide))

theorem GoodL.buildProject {R : Str → Prop} (hR : Raws R) {n : Novel} {ks : List Elem}
    (ht : ∀ v ∈ [n.title, n.desc, n.authorName, n.authorBio, n.fieldTitle1, n.fieldTitle2, n.fieldTitle3, n.fieldTitle4], CdataText v) (h : GoodL R ks) : GoodL R (buildProject n ks) := by
  have cd : ∀ {t : Str} {v : Option Str}, CdataText v → t ∈ cdataTags → TextOk R t v := fun h ht => h.ok ht
  have int : ∀ (o : Option Int), RawText (o.map Str.ofInt) := by
    intro o s hs
    cases o with
    | none => cases hs
    | some i => cases hs; exact (simple_ofInt i).safePlain
  unfold Verif.buildProject
  refine GoodL.removeFirst _ (GoodL.removeFirst _ ?_)
  refine GoodL.onFields (fun l hl => hl.removeFirst _) (GoodL.onFields (fun l hl => hl.removeFirst _) ?_)
  refine GoodL.putAlways hR ((int _).ok hR (by decide) (by decide)) ?_
  refine GoodL.putAlways hR ((int _).ok hR (by decide) (by decide)) ?_
  refine GoodL.putAlways hR (cd (ht _ (by simp)) (by decide)) ?_
  refine GoodL.putAlways hR (cd (ht _ (by simp)) (by decide)) ?_
  refine GoodL.putAlways hR (cd (ht _ (by simp)) (by decide)) ?_
  refine GoodL.putAlways hR (cd (ht _ (by simp)) (by decide)) ?_
  refine GoodL.putAlways hR (cd (ht _ (by simp)) (by decide)) ?_
  refine GoodL.putAlways hR (cd (ht _ (by simp)) (by decide)) ?_
  refine GoodL.putAlways hR (cd (ht _ (by simp)) (by decide)) ?_
  refine GoodL.putAlways hR (cd (ht _ (by simp)) (by decide)) ?_
  exact GoodL.putAlways hR ((rawText_some (by decide)).ok hR (by decide) (by decide)) h

end Verif
