/-
C35: what the import of a document changes.
-/
import Verif.Lemmas.Frame2
import Verif.Props.C34_Chunks
import Verif.Props.C06_C09_Splitter

namespace Verif
open Spec

theorem textRead_trans (type : Nat) : TransRel (TextRead type) := by
  rintro a b c ⟨t1, x1, w1, l1, k1, rfl, hk1, hx1⟩ ⟨t2, x2, w2, l2, k2, rfl, hk2, hx2⟩
  refine ⟨t2, x2, w2, l2, k2, rfl, ?_, ?_⟩
  · rcases hk2 with rfl | rfl
    · exact hk1
    · exact .inr rfl
  · rcases hx2 with ⟨rfl, rfl, rfl⟩ | h
    · exact hx1
    · exact .inr h

theorem descRead_trans : TransRel DescRead := by
  rintro a b c ⟨t1, d1, k1, rfl, hk1⟩ ⟨t2, d2, k2, rfl, hk2⟩
  refine ⟨t2, d2, k2, rfl, ?_⟩
  rcases hk2 with rfl | rfl
  · exact hk1
  · exact .inr rfl

theorem typeRead_trans : TransRel TypeRead := by
  rintro a b c ⟨k1, rfl, hk1⟩ ⟨k2, rfl, hk2⟩
  refine ⟨k2, rfl, ?_⟩
  rcases hk2 with rfl | rfl
  · exact hk1
  · exact .inr rfl

theorem chapterRead_trans (blank : Option Str → Prop) (new : Str → Prop) (type : Nat) : TransRel (ChapterRead blank new type) := by
  rintro a b c ⟨t1, k1, l1, rfl, ht1, hk1, hl1⟩ ⟨t2, k2, l2, rfl, ht2, hk2, hl2⟩
  refine ⟨t2, k2, l1 ++ l2, by simp, ?_, ?_, ?_⟩
  · rcases ht1 with h | rfl
    · exact .inl h
    · exact ht2
  · rcases hk2 with rfl | rfl
    · exact hk1
    · exact .inr rfl
  · intro id h
    rcases List.mem_append.1 h with h | h
    · exact hl1 id h
    · exact hl2 id h

theorem chapterDescRead_trans (blank : Option Str → Prop) (new : Str → Prop) : TransRel (ChapterDescRead blank new) := by
  rintro a b c ⟨t1, d1, k1, l1, rfl, ht1, hk1, hl1⟩ ⟨t2, d2, k2, l2, rfl, ht2, hk2, hl2⟩
  refine ⟨t2, d2, k2, l1 ++ l2, by simp, ?_, ?_, ?_⟩
  · rcases ht1 with h | rfl
    · exact .inl h
    · exact ht2
  · rcases hk2 with rfl | rfl
    · exact hk1
    · exact .inr rfl
  · intro id h
    rcases List.mem_append.1 h with h | h
    · exact hl1 id h
    · exact hl2 id h

/-! ### Manuscripts -/

theorem manuscript_base (type : Nat) (x : List Ev) (n : Novel) :
    BaseOk type (Occurs c!"ScID" x) (TextRead type) (ChapterRead (· = none) (NewScene x n) type) n where
  strans := textRead_trans type
  ctrans := chapterRead_trans _ _ type
  stype := fun s => ⟨s.title, _, _, _, some type, rfl, .inr rfl, .inl ⟨rfl, rfl, rfl⟩⟩
  ctype := fun c => ⟨c.title, some type, [], by simp, .inr rfl, .inr rfl, by simp⟩
  clist := fun c id ho hn => ⟨c.title, c.chType, [id], rfl, .inr rfl, .inl rfl, by
    intro k hk
    rw [List.mem_singleton] at hk
    subst hk
    exact ⟨ho, hn⟩⟩

section
variable {type : Nat} {x : List Ev} {n : Novel} {r r' : Rd}

/-- The frame of manuscripts. -/
abbrev MsFramed (type : Nat) (x : List Ev) (n : Novel) (r : Rd) : Prop :=
  Framed (Occurs c!"ScID" x) (Occurs c!"ChID" x) (TextRead type) (ChapterRead (· = none) (NewScene x n) type) n r

theorem MsFramed.start {t : Str} {as : List (Str × Option Str)} (h : MsFramed type x n r)
    (hd : ∀ bs, Call.start t as = .start c!"div" bs → ∃ name ∈ sectionNames x, bs = [(c!"id", some name)])
    (he : msStart type r t as = .ok r') : MsFramed type x n r' := by
  unfold msStart at he
  obtain ⟨r1, h1, he⟩ := bind_ok he
  have hr1 : MsFramed type x n r1 := Framed.baseStart (manuscript_base type x n) h (div_occurs hd) h1
  revert he
  refine ok_ite (P := MsFramed type x n) (fun _ => ?_) (fun _ => ?_)
  · refine ok_ite (P := MsFramed type x n) (fun _ e => by cases e; exact hr1.push _) (fun _ => ?_)
    refine ok_ite (P := MsFramed type x n) (fun _ e => by cases e; exact hr1.push _) (fun _ => ?_)
    refine ok_ite (P := MsFramed type x n) (fun _ e => by cases e; exact hr1.startLanguage _) (fun _ => ?_)
    refine ok_ite (P := MsFramed type x n) (fun _ e => by cases e; exact hr1.same rfl rfl rfl) (fun _ => ?_)
    refine ok_ite (P := MsFramed type x n) (fun _ e => by cases e; exact hr1.push _) (fun _ => ?_)
    refine ok_ite (P := MsFramed type x n) (fun _ e => by cases e; exact hr1.push _) (fun _ => ?_)
    refine ok_ite (P := MsFramed type x n) (fun _ e => by cases e; exact hr1.push _) (fun _ => ?_)
    exact ok_ite (P := MsFramed type x n) (fun _ e => by cases e; exact (hr1.push _).startLanguage _) (fun _ e => by cases e; exact hr1)
  · refine ok_ite (P := MsFramed type x n) (fun _ e => by cases e; exact hr1.startBody _) (fun _ => ?_)
    exact ok_ite (P := MsFramed type x n) (fun _ e => by cases e; exact hr1.push _) (fun _ e => by cases e; exact hr1)

theorem MsFramed.stop {t : Str} (h : MsFramed type x n r) (he : msStop r t = .ok r') : MsFramed type x n r' := by
  unfold msStop at he
  cases hsc : r.scId with
  | none =>
    rw [hsc] at he
    revert he
    refine ok_ite (P := MsFramed type x n) (fun _ e => ?_) (fun _ e => by cases e; exact h)
    cases e
    exact ⟨h.novel, (by intro id hid; cases hid), by intro id hid; cases hid⟩
  | some id =>
    rw [hsc] at he
    dsimp only at he
    revert he
    refine ok_ite (P := MsFramed type x n) (fun _ e => by cases e; exact h.stopLanguage.push _) (fun _ => ?_)
    refine ok_ite (P := MsFramed type x n) (fun _ e => by cases e; exact h.push _) (fun _ => ?_)
    refine ok_ite (P := MsFramed type x n) (fun _ e => by cases e; exact h.push _) (fun _ => ?_)
    refine ok_ite (P := MsFramed type x n) (fun _ e => by cases e; exact h.stopLanguage) (fun _ => ?_)
    refine ok_ite (P := MsFramed type x n) (fun _ e => ?_) (fun _ => ?_)
    · obtain ⟨r1, h1, e⟩ := bind_ok e
      cases e
      have := Framed.onScene h (textRead_trans type) (h.scene id hsc)
        (fun s => ⟨s.title, _, _, _, s.scType, rfl, .inl rfl, .inr ⟨_, rfl, rfl, rfl⟩⟩) h1
      exact ⟨this.novel, (by intro k hk; cases hk), this.chapter⟩
    · exact ok_ite (P := MsFramed type x n) (fun _ e => by cases e; exact h.push _) (fun _ e => by cases e; exact h)

theorem MsFramed.data {s : Str} (h : MsFramed type x n r) (he : msData r s = .ok r') : MsFramed type x n r' := by
  unfold msData at he
  revert he
  refine ok_ite (P := MsFramed type x n) (fun _ e => by cases e; exact h.same rfl rfl rfl) (fun _ => ?_)
  refine ok_ite (P := MsFramed type x n) (fun _ e => ?_) (fun _ e => ?_)
  · cases e
    split
    · exact h
    · exact h.push _
  · cases hch : r.chId with
    | none => rw [hch] at e; cases e; exact h
    | some id =>
      rw [hch] at e
      dsimp only at e
      cases hg : r.novel.chapters.get? id with
      | none => rw [hg] at e; cases e
      | some c =>
        rw [hg] at e
        revert e
        refine ok_ite (P := MsFramed type x n) (fun ht e => ?_) (fun _ e => by cases e; exact h)
        refine Framed.onChapter h (chapterRead_trans _ _ type) (h.chapter id hch) ?_ e
        intro c' hc'
        rw [hg] at hc'
        cases hc'
        exact ⟨_, c.chType, [], by simp; rfl, .inl (by simpa using ht), .inl rfl, by simp⟩

theorem MsFramed.comment (s : Str) (h : MsFramed type x n r) : MsFramed type x n (msComment r s) := by
  unfold msComment
  cases hsc : r.scId with
  | none => exact h
  | some id =>
    dsimp only
    split
    · split
      · rename_i t _
        exact ⟨h.novel.modScene (textRead_trans type) (h.scene id hsc) _
          (fun s => ⟨some t, _, _, _, s.scType, rfl, .inl rfl, .inl ⟨rfl, rfl, rfl⟩⟩),
          fun k hk => h.scene k (hsc.trans hk), h.chapter⟩
      · exact h
    · exact h.push _

end

/-- **C35**, manuscripts (also notes and to-do lists, `type` being the type of the scenes): reading a document changes nothing but the
scenes and chapters that have sections in it; of such a scene at most the title, the text with its counts and the type; of such a
chapter at most the type, a missing title, and new scenes at the end. -/
theorem C35_manuscript (type : Nat) (st : XNode) (info : Option XNode) (x : List Ev) (n m : Novel)
    (h : readOdt (manuscriptReader type) ⟨st, info, x⟩ n = .ok m) :
    OnlyChanged (Occurs c!"ScID" x) (Occurs c!"ChID" x) (TextRead type) (ChapterRead (· = none) (NewScene x n) type) n m := by
  refine Framed.read (h := manuscriptReader type) ?_ h
  intro r r' c hd hr he
  cases c with
  | start t as => exact MsFramed.start hr hd he
  | stop t => exact MsFramed.stop hr he
  | data s => exact MsFramed.data hr he
  | comment s => cases he; exact MsFramed.comment s hr

/-! ### Scene descriptions -/

theorem sceneDesc_base (x : List Ev) (n : Novel) :
    BaseOk 0 (Occurs c!"ScID" x) DescRead (ChapterRead (fun t => t = none ∨ t = some []) (NewScene x n) 0) n where
  strans := descRead_trans
  ctrans := chapterRead_trans _ _ 0
  stype := fun s => ⟨s.title, s.desc, some 0, rfl, .inr rfl⟩
  ctype := fun c => ⟨c.title, some 0, [], by simp, .inr rfl, .inr rfl, by simp⟩
  clist := fun c id ho hn => ⟨c.title, c.chType, [id], rfl, .inr rfl, .inl rfl, by
    intro k hk
    rw [List.mem_singleton] at hk
    subst hk
    exact ⟨ho, hn⟩⟩

/-- **C35**, scene descriptions. -/
theorem C35_sceneDesc (st : XNode) (info : Option XNode) (x : List Ev) (n m : Novel) (h : readOdt sceneDescReader ⟨st, info, x⟩ n = .ok m) :
    OnlyChanged (Occurs c!"ScID" x) (Occurs c!"ChID" x) DescRead (ChapterRead (fun t => t = none ∨ t = some []) (NewScene x n) 0) n m := by
  refine Framed.read (h := sceneDescReader) ?_ h
  intro r r' c hd hr he
  cases c with
  | start t as => exact Framed.baseStart (sceneDesc_base x n) hr (div_occurs hd) he
  | stop t =>
    have he : sdStop r t = .ok r' := he
    unfold sdStop at he
    cases hsc : r.scId with
    | none =>
      rw [hsc] at he
      dsimp only at he
      split at he
      · cases he
        exact ⟨hr.novel, (by intro id hid; cases hid), by intro id hid; cases hid⟩
      · cases he; exact hr
    | some id =>
      rw [hsc] at he
      dsimp only at he
      split at he
      · obtain ⟨r1, h1, he⟩ := bind_ok he
        cases he
        have := Framed.onScene hr descRead_trans (hr.scene id hsc) (fun s => ⟨_, _, s.scType, rfl, .inl rfl⟩) h1
        exact ⟨this.novel, (by intro k hk; cases hk), this.chapter⟩
      split at he
      · cases he; exact hr.push _
      · cases he; exact hr
  | data s =>
    have he : sdData r s = .ok r' := he
    unfold sdData at he
    split at he
    · cases he; exact hr.push _
    · cases hch : r.chId with
      | none => rw [hch] at he; cases he; exact hr
      | some id =>
        rw [hch] at he
        dsimp only at he
        cases hg : r.novel.chapters.get? id with
        | none => rw [hg] at he; cases he
        | some c =>
          rw [hg] at he
          dsimp only at he
          split at he
          · rename_i ht
            refine Framed.onChapter hr (chapterRead_trans _ _ 0) (hr.chapter id hch) ?_ he
            intro c' hc'
            rw [hg] at hc'
            cases hc'
            exact ⟨_, c.chType, [], by simp; rfl, .inl (by simpa [isBlankField] using ht), .inl rfl, by simp⟩
          · cases he; exact hr
  | comment s => cases he; exact hr.baseComment s

/-! ### Chapter and part descriptions -/

theorem chapterDesc_base (x : List Ev) (n : Novel) :
    BaseOk 0 (Occurs c!"ScID" x) TypeRead (ChapterDescRead (fun t => t = none ∨ t = some []) (NewScene x n)) n where
  strans := typeRead_trans
  ctrans := chapterDescRead_trans _ _
  stype := fun s => ⟨some 0, rfl, .inr rfl⟩
  ctype := fun c => ⟨c.title, c.desc, some 0, [], by simp, .inr rfl, .inr rfl, by simp⟩
  clist := fun c id ho hn => ⟨c.title, c.desc, c.chType, [id], rfl, .inr rfl, .inl rfl, by
    intro k hk
    rw [List.mem_singleton] at hk
    subst hk
    exact ⟨ho, hn⟩⟩

/-- **C35**, chapter and part descriptions: scenes are only concerned if the document has sections for scenes, which documents with chapter
descriptions do not have. -/
theorem C35_chapterDesc (st : XNode) (info : Option XNode) (x : List Ev) (n m : Novel) (h : readOdt chapterDescReader ⟨st, info, x⟩ n = .ok m) :
    OnlyChanged (Occurs c!"ScID" x) (Occurs c!"ChID" x) TypeRead (ChapterDescRead (fun t => t = none ∨ t = some []) (NewScene x n)) n m := by
  refine Framed.read (h := chapterDescReader) ?_ h
  intro r r' c hd hr he
  cases c with
  | start t as => exact Framed.baseStart (chapterDesc_base x n) hr (div_occurs hd) he
  | stop t =>
    have he : cdStop r t = .ok r' := he
    unfold cdStop at he
    cases hch : r.chId with
    | none => rw [hch] at he; cases he; exact hr
    | some id =>
      rw [hch] at he
      dsimp only at he
      split at he
      · obtain ⟨r1, h1, he⟩ := bind_ok he
        cases he
        have := Framed.onChapter hr (chapterDescRead_trans _ _) (hr.chapter id hch)
          (fun c _ => ⟨c.title, _, c.chType, [], by simp; rfl, .inr rfl, .inl rfl, by simp⟩) h1
        exact ⟨this.novel, this.scene, by intro k hk; cases hk⟩
      split at he
      · cases he; exact hr.push _
      split at he
      · obtain ⟨r1, h1, he⟩ := bind_ok he
        cases he
        refine Framed.same (Framed.onChapter hr (chapterDescRead_trans _ _) (hr.chapter id hch) ?_ h1) rfl rfl rfl
        intro c _
        split
        · rename_i ht
          exact ⟨_, c.desc, c.chType, [], by simp; rfl, .inl (by simpa [isBlankField] using ht), .inl rfl, by simp⟩
        · exact ⟨c.title, c.desc, c.chType, [], by simp, .inr rfl, .inl rfl, by simp⟩
      · cases he; exact hr
  | data s =>
    cases he
    split
    · exact hr.push _
    · exact hr
  | comment s => cases he; exact hr.baseComment s

/-! ### Consequences -/

theorem get?_none_iff {α : Type} (d : Dict α) (k : Str) : d.get? k = none ↔ k ∉ d.keys := by
  rw [Dict.mem_keys_iff]
  cases d.get? k <;> simp

/-- **C35**: a scene without a section in the document keeps its contents. -/
theorem C35_kept {occS occC : Str → Prop} {SR : Scene → Scene → Prop} {CR : Chapter → Chapter → Prop} {n m : Novel}
    (h : OnlyChanged occS occC SR CR n m) (id : Str) :
    (¬ occS id → m.scenes.get? id = n.scenes.get? id) ∧ (¬ occC id → m.chapters.get? id = n.chapters.get? id) := by
  constructor
  · intro ho
    cases hn : n.scenes.get? id with
    | some s =>
      obtain ⟨s', h1, h2⟩ := h.scenes id s hn
      rcases h2 with rfl | h2
      · exact h1
      · exact absurd h2.1 ho
    | none =>
      obtain ⟨new, h1, h2⟩ := h.newScenes
      rw [get?_none_iff, h1]
      intro hm
      rcases List.mem_append.1 hm with hm | hm
      · exact (get?_none_iff _ _).1 hn hm
      · exact ho (h2 id hm).1
  · intro ho
    cases hn : n.chapters.get? id with
    | some s =>
      obtain ⟨s', h1, h2⟩ := h.chapters id s hn
      rcases h2 with rfl | h2
      · exact h1
      · exact absurd h2.1 ho
    | none =>
      obtain ⟨new, h1, h2⟩ := h.newChapters
      rw [get?_none_iff, h1]
      intro hm
      rcases List.mem_append.1 hm with hm | hm
      · exact (get?_none_iff _ _).1 hn hm
      · exact ho (h2 id hm).1

/-- All sections of the document belong to scenes and chapters of the project. -/
def AllKnown (x : List Ev) (n : Novel) : Prop :=
  (∀ id, Occurs c!"ScID" x id → id ∈ n.scenes.keys) ∧ (∀ id, Occurs c!"ChID" x id → id ∈ n.chapters.keys)

/-- **C35**, manuscripts: if all sections belong to scenes and chapters of the project, the structure of the project stays as it is. -/
theorem C35_structure (type : Nat) (st : XNode) (info : Option XNode) (x : List Ev) (n m : Novel) (hk : AllKnown x n)
    (h : readOdt (manuscriptReader type) ⟨st, info, x⟩ n = .ok m) :
    m.srtChapters = n.srtChapters ∧ m.chapters.keys = n.chapters.keys ∧ m.scenes.keys = n.scenes.keys ∧
    (∀ id c, n.chapters.get? id = some c → ∃ c', m.chapters.get? id = some c' ∧ c'.srtScenes = c.srtScenes ∧ (c.title ≠ none → c'.title = c.title)) ∧
    ∀ id s, n.scenes.get? id = some s → ∃ s', m.scenes.get? id = some s' ∧ TextRead type s s' := by
  have ho := C35_manuscript type st info x n m h
  refine ⟨?_, ?_, ?_, ?_, ?_⟩
  · obtain ⟨new, h1, h2⟩ := ho.order
    cases new with
    | nil => simpa using h1
    | cons id new =>
      obtain ⟨a, b⟩ := h2 id (by simp)
      exact absurd (hk.2 id a) ((get?_none_iff _ _).1 b)
  · obtain ⟨new, h1, h2⟩ := ho.newChapters
    cases new with
    | nil => simpa using h1
    | cons id new =>
      obtain ⟨a, b⟩ := h2 id (by simp)
      exact absurd (hk.2 id a) ((get?_none_iff _ _).1 b)
  · obtain ⟨new, h1, h2⟩ := ho.newScenes
    cases new with
    | nil => simpa using h1
    | cons id new =>
      obtain ⟨a, b⟩ := h2 id (by simp)
      exact absurd (hk.1 id a) ((get?_none_iff _ _).1 b)
  · intro id c hc
    obtain ⟨c', h1, h2⟩ := ho.chapters id c hc
    refine ⟨c', h1, ?_⟩
    rcases h2 with rfl | ⟨_, t, k, l, rfl, ht, _, hl⟩
    · exact ⟨rfl, fun _ => rfl⟩
    · cases l with
      | nil =>
        refine ⟨by simp, fun hne => ?_⟩
        rcases ht with ht | ht
        · exact absurd ht hne
        · exact ht
      | cons id' l =>
        obtain ⟨a, b⟩ := hl id' (by simp)
        exact absurd (hk.1 id' a) ((get?_none_iff _ _).1 b)
  · intro id s hs
    obtain ⟨s', h1, h2⟩ := ho.scenes id s hs
    refine ⟨s', h1, ?_⟩
    rcases h2 with rfl | h2
    · exact ⟨s'.title, _, _, _, s'.scType, rfl, .inl rfl, .inl ⟨rfl, rfl, rfl⟩⟩
    · exact h2.2

theorem scenesOf_eq {a b : Dict Chapter} {id : Str} (h : ∀ c, a.get? id = some c → ∃ c', b.get? id = some c' ∧ c'.srtScenes = c.srtScenes)
    (hk : b.keys = a.keys) : scenesOf b id = scenesOf a id := by
  unfold scenesOf
  cases ha : a.get? id with
  | none =>
    have : b.get? id = none := by rw [get?_none_iff, hk]; exact (get?_none_iff _ _).1 ha
    rw [this]
  | some c =>
    obtain ⟨c', h1, h2⟩ := h c ha
    rw [h1]
    exact h2

/-- **C35**, the import of a manuscript with the splitting of scenes afterwards: every scene that has no section in the document, and no
heading lines in its text, keeps its contents. -/
theorem C35_import (type : Nat) (st : XNode) (info : Option XNode) (x : List Ev) (n m : Novel) (b : Bool) (hk : AllKnown x n) (hs : Sound n)
    (hst : HasStatus n) (hf : CountsFit n) (h : readFormatted (manuscriptReader type) ⟨st, info, x⟩ n = .ok (m, b)) (id : Str)
    (hid : id ∈ n.scenes.keys) (ho : ¬ Occurs c!"ScID" x id) (hq : ∀ l ∈ linesOf (textOf n.scenes id), l.head? ≠ some '#') :
    m.scenes.get? id = n.scenes.get? id := by
  unfold readFormatted at h
  obtain ⟨n1, h1, h2⟩ := bind_ok h
  obtain ⟨e1, e2, e3, e4, e5⟩ := C35_structure type st info x { n with languages := some [] } n1 hk h1
  have hkeep := (C35_kept (C35_manuscript type st info x _ n1 h1) id).1 ho
  have hnarr : narrative n1 = narrative n := by
    unfold narrative
    rw [e1]
    have : ∀ c, scenesOf n1.chapters c = scenesOf n.chapters c := fun c =>
      scenesOf_eq (fun ch hch => by obtain ⟨c', a, b, _⟩ := e4 c ch hch; exact ⟨c', a, b⟩) e2
    rw [funext this]
  have hs1 : Sound n1 := by
    refine ⟨?_, ?_, ?_, ?_, ?_, ?_⟩
    · rw [e2]; exact hs.chKeys
    · rw [e3]; exact hs.scKeys
    · rw [e1]; exact hs.chNodup
    · rw [e1, e2]; exact hs.chIn
    · rw [hnarr]; exact hs.scNodup
    · rw [hnarr, e3]; exact hs.scIn
  have back : ∀ k s', n1.scenes.get? k = some s' → ∃ s, n.scenes.get? k = some s ∧ TextRead type s s' := by
    intro k s' hs'
    have hm : k ∈ n.scenes.keys := by
      rw [← show n1.scenes.keys = n.scenes.keys from e3, Dict.mem_keys_iff]
      exact ⟨s', hs'⟩
    obtain ⟨s, hs0⟩ := (Dict.mem_keys_iff _ _).1 hm
    obtain ⟨s2, a, b⟩ := e5 k s hs0
    rw [hs'] at a
    cases a
    exact ⟨s, hs0, b⟩
  have hst1 : HasStatus n1 := by
    intro k hm s' hs'
    obtain ⟨s, a, t, c, w, l, ty, rfl, _⟩ := back k s' hs'
    exact hst k (hnarr ▸ hm) s a
  have hf1 : CountsFit n1 := by
    intro k s' t hs' ht
    obtain ⟨s, a, t', c, w, l, ty, rfl, _, hc⟩ := back k s' hs'
    rcases hc with ⟨rfl, rfl, rfl⟩ | ⟨u, rfl, rfl, rfl⟩
    · exact hf k s t a ht
    · cases ht; exact ⟨rfl, rfl⟩
  have hkeys1 : id ∈ n1.scenes.keys := by rw [e3]; exact hid
  have htext : textOf n1.scenes id = textOf n.scenes id := by unfold textOf; rw [hkeep]
  rw [C09_undivided_kept n1 m b hs1 hst1 hf1 h2 id hkeys1 (.inl (by rw [htext]; exact hq)), hkeep]

/-- A novel with two scenes. -/
def exTwoScenes : Novel :=
  { chapters := [(c!"1", { title := some c!"One", srtScenes := [c!"1", c!"2"] })], srtChapters := [c!"1"],
    scenes := [(c!"1", { title := some c!"S", status := some 1 }), (c!"2", ({ title := some c!"T", status := some 2 } : Scene).setContent c!"old")] }

-- The hypotheses of `C35_import` hold for the second scene, and the first one gets its new text.
example : AllKnown (exSection c!"ScID:1" [c!"new"]) exTwoScenes ∧ Sound exTwoScenes ∧ HasStatus exTwoScenes ∧ CountsFit exTwoScenes ∧
    ¬ Occurs c!"ScID" (exSection c!"ScID:1" [c!"new"]) c!"2" ∧ (∀ l ∈ linesOf (textOf exTwoScenes.scenes c!"2"), l.head? ≠ some '#') ∧
    ∃ m, readFormatted (manuscriptReader 0) ⟨exStyles, none, exSection c!"ScID:1" [c!"new"]⟩ exTwoScenes = .ok (m, false) ∧
      (m.scenes.get? c!"1").map (·.sceneContent) = some (some c!"new") ∧ (m.scenes.get? c!"2").map (·.sceneContent) = some (some c!"old") := by
  have hn : sectionNames (exSection c!"ScID:1" [c!"new"]) = [c!"ScID:1"] := rfl
  have hocc : ∀ mark id, Occurs mark (exSection c!"ScID:1" [c!"new"]) id → mark <+: c!"ScID:1" ∧ id = c!"1" := by
    rintro mark id ⟨name, h1, h2, h3, _⟩
    rw [hn, List.mem_singleton] at h1
    subst h1
    exact ⟨h2, by rw [← h3]; rfl⟩
  refine ⟨⟨?_, ?_⟩, ⟨by decide, by decide, by decide, by decide, by decide, by decide⟩, ?_, ?_, ?_, by decide, _, rfl, rfl, rfl⟩
  · intro id h
    rw [(hocc _ _ h).2]
    decide
  · intro id h
    exact absurd (hocc _ _ h).1 (by decide)
  · intro id hid sc h
    have : id = c!"1" ∨ id = c!"2" := by simpa [exTwoScenes, narrative, scenesOf, Dict.get?] using hid
    rcases this with rfl | rfl <;> cases h <;> rfl
  · intro id sc t h ht
    have : id = c!"1" ∨ id = c!"2" := by
      have := (Dict.mem_keys_iff _ _).2 ⟨sc, h⟩
      simpa [exTwoScenes, Dict.keys] using this
    rcases this with rfl | rfl
    · cases h; cases ht
    · cases h; cases ht; exact ⟨rfl, rfl⟩
  · intro h
    exact absurd (hocc _ _ h).2 (by decide)

/-- **C35 does not hold** literally: apart from the text, the type of the scene, that of the chapter and the languages of the project are
set from the document. -/
theorem C35_false :
    (readOdt (manuscriptReader 0) ⟨exStyles, none, exSection c!"ScID:1" [c!"new"]⟩
      { exChunkNovel with scenes := [(c!"1", { title := some c!"S", scType := some 3 })] }).toOption.map (fun n => (n.scenes, n.languageCode)) =
    some ([(c!"1", ({ title := some c!"S", scType := some 0 } : Scene).setContent c!"new")], some c!"de") := by
  decide

end Verif
