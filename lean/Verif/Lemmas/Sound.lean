/-
What every step of a reader keeps: the structure of the project is sound, the types and dates of the scenes can be saved, and the counts
belong to the texts.
-/
import Verif.Lemmas.Order
import Verif.Props.C51_Writable

namespace Verif.Kept
open Verif Spec

/-- A condition on the dates and times of the scenes, which scenes without a date and a time meet. -/
class Starts where
  P : Option Str → Option Str → Option Str → Prop
  none : P none none none

variable [Starts]

/-- What is kept of a scene. -/
def Good (s : Scene) : Prop := s.scType.getD 0 ≤ 3 ∧ Starts.P s.date s.time s.day ∧ Twice.Fit s

theorem good_new : Good {} := ⟨by decide, Starts.none, fun _ h => nomatch h⟩

/-- What is kept of a project. -/
structure K (n : Novel) : Prop where
  sound : Sound n
  sc : ∀ k s, n.scenes.get? k = some s → Good s
  ch : ∀ k c, n.chapters.get? k = some c → c.chType.getD 0 ≤ 3
  langs : ∀ l, n.languages = some l → l.Nodup

/-- Every project that a step may end with is in order. -/
def Keeps (f : Except Exc Rd) : Prop := ∀ r, f = .ok r → K r.novel

theorem Keeps.ok {r : Rd} (h : K r.novel) : Keeps (.ok r) := by
  intro r' e
  cases e
  exact h

theorem Keeps.error (e : Exc) : Keeps (.error e) := fun _ h => nomatch h

theorem Keeps.bind {f : Except Exc Rd} {k : Rd → Except Exc Rd} (h : Keeps f) (hk : ∀ r, K r.novel → Keeps (k r)) : Keeps (f >>= k) := by
  cases f with
  | error e => exact Keeps.error e
  | ok r => exact hk r (h r rfl)

theorem Keeps.bind' {α : Type} {x : Except Exc α} {k : α → Except Exc Rd} (hk : ∀ a, Keeps (k a)) : Keeps (x >>= k) := by
  cases x with
  | error e => exact Keeps.error e
  | ok a => exact hk a

theorem Keeps.ite {c : Prop} [Decidable c] {a b : Except Exc Rd} (h : Keeps a) (h' : Keeps b) : Keeps (if c then a else b) := by
  split
  · exact h
  · exact h'

theorem K_ite {c : Prop} [Decidable c] {a b : Rd} (h : K a.novel) (h' : K b.novel) : K (if c then a else b).novel := by
  split
  · exact h
  · exact h'

theorem run_keeps {h : Reader} (hh : ∀ r c, K r.novel → Keeps (h r c)) : ∀ cs r, K r.novel → Keeps (h.run r cs)
  | [], _, hk => Keeps.ok hk
  | c :: cs, r, hk => Keeps.bind (hh r c hk) (fun r hk => run_keeps hh cs r hk)

theorem read_keeps {h : Reader} (hh : ∀ r c, K r.novel → Keeps (h r c)) {f : OdtFile} {n m : Novel} (hk : K n) (e : readOdt h f n = .ok m) : K m := by
  unfold readOdt at e
  cases hf : feedFile f with
  | error x => rw [hf] at e; exact nomatch e
  | ok cs =>
    rw [hf] at e
    have e : (h.run { novel := n } cs >>= fun r => Except.ok r.novel) = .ok m := e
    cases hr : h.run { novel := n } cs with
    | error x => rw [hr] at e; exact nomatch e
    | ok r =>
      rw [hr] at e
      have : r.novel = m := Except.ok.inj e
      exact this ▸ run_keeps hh cs _ hk r hr

/-! ### The changes -/

theorem K_scene {n : Novel} (hk : K n) (id : Str) {f : Scene → Scene} (hf : ∀ s, Good s → Good (f s)) :
    K { n with scenes := n.scenes.modify id f } where
  sound :=
    { chKeys := hk.sound.chKeys, scKeys := by rw [Dict.keys_modify]; exact hk.sound.scKeys, chNodup := hk.sound.chNodup, chIn := hk.sound.chIn,
      scNodup := hk.sound.scNodup, scIn := fun s h => by rw [Dict.keys_modify]; exact hk.sound.scIn s h }
  sc := by
    intro k s h
    rw [Dict.get?_modify] at h
    split at h
    · obtain ⟨s0, h0, rfl⟩ := Option.map_eq_some_iff.1 h
      exact hf s0 (hk.sc k s0 h0)
    · exact hk.sc k s h
  ch := hk.ch
  langs := hk.langs

theorem scenesOf_modify (d : Dict Chapter) (id : Str) {f : Chapter → Chapter} (hf : ∀ c, (f c).srtScenes = c.srtScenes) (k : Str) :
    scenesOf (d.modify id f) k = scenesOf d k := by
  unfold scenesOf
  rw [Dict.get?_modify]
  by_cases e : id = k
  · rw [if_pos e]
    cases d.get? k with
    | none => rfl
    | some c => exact hf c
  · rw [if_neg e]

theorem K_chapter {n : Novel} (hk : K n) (id : Str) {f : Chapter → Chapter} (hs : ∀ c, (f c).srtScenes = c.srtScenes)
    (ht : ∀ c, c.chType.getD 0 ≤ 3 → (f c).chType.getD 0 ≤ 3) : K { n with chapters := n.chapters.modify id f } where
  sound := by
    have e : narrative { n with chapters := n.chapters.modify id f } = narrative n := by
      unfold narrative
      exact congrArg (n.srtChapters.flatMap ·) (funext fun k => scenesOf_modify n.chapters id hs k)
    exact { chKeys := by rw [Dict.keys_modify]; exact hk.sound.chKeys, scKeys := hk.sound.scKeys, chNodup := hk.sound.chNodup,
            chIn := fun c h => by rw [Dict.keys_modify]; exact hk.sound.chIn c h,
            scNodup := by rw [e]; exact hk.sound.scNodup, scIn := fun s h => by rw [e] at h; exact hk.sound.scIn s h }
  sc := hk.sc
  ch := by
    intro k c h
    rw [Dict.get?_modify] at h
    split at h
    · obtain ⟨c0, h0, rfl⟩ := Option.map_eq_some_iff.1 h
      exact ht c0 (hk.ch k c0 h0)
    · exact hk.ch k c h
  langs := hk.langs

/-- A new scene at the end of a chapter. -/
theorem list_new (d : Dict Chapter) (c id : Str) : ∀ (l : List Str), l.Nodup → (l.flatMap (scenesOf d)).Nodup → id ∉ l.flatMap (scenesOf d) →
    (l.flatMap (scenesOf (d.modify c (fun ch => { ch with srtScenes := ch.srtScenes ++ [id] })))).Nodup ∧
    ∀ s ∈ l.flatMap (scenesOf (d.modify c (fun ch => { ch with srtScenes := ch.srtScenes ++ [id] }))), s = id ∨ s ∈ l.flatMap (scenesOf d)
  | [], _, _, _ => ⟨List.nodup_nil, fun _ h => nomatch h⟩
  | a :: r, hn, hs, hid => by
    rw [List.nodup_cons] at hn
    rw [List.flatMap_cons, List.nodup_append] at hs
    rw [List.flatMap_cons, List.mem_append, not_or] at hid
    simp only [List.flatMap_cons]
    by_cases e : c = a
    · subst e
      have same : r.flatMap (scenesOf (d.modify c (fun ch => { ch with srtScenes := ch.srtScenes ++ [id] }))) = r.flatMap (scenesOf d) := by
        refine scenesOf_congr ?_
        intro x hx
        have : c ≠ x := fun h => hn.1 (h ▸ hx)
        rw [Dict.get?_modify_ne _ _ this]
      rw [same]
      have hd : scenesOf (d.modify c (fun ch => { ch with srtScenes := ch.srtScenes ++ [id] })) c = scenesOf d c ++ [id] ∨
          scenesOf (d.modify c (fun ch => { ch with srtScenes := ch.srtScenes ++ [id] })) c = scenesOf d c := by
        unfold scenesOf
        rw [Dict.get?_modify_self]
        cases d.get? c with
        | none => exact .inr rfl
        | some ch => exact .inl rfl
      rcases hd with hd | hd
      · rw [hd]
        constructor
        · rw [List.nodup_append, List.nodup_append]
          refine ⟨⟨hs.1, by simp, ?_⟩, hs.2.1, ?_⟩
          · intro x hx y hy
            rw [List.mem_singleton] at hy
            exact fun h => hid.1 (hy ▸ h ▸ hx)
          · intro x hx y hy
            rcases List.mem_append.1 hx with hx | hx
            · exact hs.2.2 x hx y hy
            · rw [List.mem_singleton] at hx
              exact fun h => hid.2 (hx ▸ h ▸ hy)
        · intro s h
          rcases List.mem_append.1 h with h | h
          · rcases List.mem_append.1 h with h | h
            · exact .inr (List.mem_append_left _ h)
            · exact .inl (List.mem_singleton.1 h)
          · exact .inr (List.mem_append_right _ h)
      · rw [hd]
        exact ⟨List.nodup_append.2 hs, fun s h => .inr h⟩
    · have hd : scenesOf (d.modify c (fun ch => { ch with srtScenes := ch.srtScenes ++ [id] })) a = scenesOf d a := by
        unfold scenesOf
        rw [Dict.get?_modify_ne _ _ e]
      rw [hd]
      obtain ⟨h1, h2⟩ := list_new d c id r hn.2 hs.2.1 hid.2
      constructor
      · rw [List.nodup_append]
        refine ⟨hs.1, h1, ?_⟩
        intro x hx y hy
        rcases h2 y hy with h | h
        · exact fun e => hid.1 (h ▸ e ▸ hx)
        · exact hs.2.2 x hx y h
      · intro s h
        rcases List.mem_append.1 h with h | h
        · exact .inr (List.mem_append_left _ h)
        · exact (h2 s h).imp_right (List.mem_append_right _)

theorem onScene_keeps {r : Rd} (hk : K r.novel) (id : Str) {f : Scene → Scene} (hf : ∀ s, Good s → Good (f s)) : Keeps (r.onScene id f) := by
  unfold Rd.onScene
  exact Keeps.ite (Keeps.ok (K_scene hk id hf)) (Keeps.error _)

theorem onChapter_keeps {r : Rd} (hk : K r.novel) (id : Str) {f : Chapter → Chapter} (hs : ∀ c, (f c).srtScenes = c.srtScenes)
    (ht : ∀ c, c.chType.getD 0 ≤ 3 → (f c).chType.getD 0 ≤ 3) : Keeps (r.onChapter id f) := by
  unfold Rd.onChapter
  exact Keeps.ite (Keeps.ok (K_chapter hk id hs ht)) (Keeps.error _)

theorem ensureScene_keeps {r : Rd} (hk : K r.novel) (id : Str) : Keeps (r.ensureScene id) := by
  unfold Rd.ensureScene
  split
  · exact Keeps.ok hk
  · rename_i hn
    have hn : id ∉ r.novel.scenes.keys := fun h => hn ((Dict.has_iff _ _).2 h)
    unfold Rd.listScene
    dsimp only
    cases r.chId with
    | none => exact Keeps.error _
    | some c =>
      dsimp only
      unfold Rd.onChapter
      refine Keeps.ite (Keeps.ok ?_) (Keeps.error _)
      have hid : id ∉ narrative r.novel := fun h => hn (hk.sound.scIn id h)
      obtain ⟨h1, h2⟩ := list_new r.novel.chapters c id r.novel.srtChapters hk.sound.chNodup hk.sound.scNodup hid
      refine ⟨{ chKeys := ?_, scKeys := Dict.nodup_keys_set _ _ _ hk.sound.scKeys, chNodup := hk.sound.chNodup, chIn := ?_, scNodup := h1, scIn := ?_ }, ?_, ?_, hk.langs⟩
      · show (Dict.keys (Dict.modify _ _ _)).Nodup
        rw [Dict.keys_modify]; exact hk.sound.chKeys
      · intro x hx
        show x ∈ Dict.keys (Dict.modify _ _ _)
        rw [Dict.keys_modify]; exact hk.sound.chIn x hx
      · intro s hs
        show s ∈ Dict.keys (Dict.set _ _ _)
        rw [Dict.mem_keys_set]
        rcases h2 s hs with h | h
        · exact .inl h
        · exact .inr (hk.sound.scIn s h)
      · intro k s h
        have h : (r.novel.scenes.set id {}).get? k = some s := h
        rw [Dict.get?_set] at h
        split at h
        · cases h; exact good_new
        · exact hk.sc k s h
      · intro k ch h
        have h : (r.novel.chapters.modify c (fun ch => { ch with srtScenes := ch.srtScenes ++ [id] })).get? k = some ch := h
        rw [Dict.get?_modify] at h
        split at h
        · obtain ⟨c0, h0, rfl⟩ := Option.map_eq_some_iff.1 h
          exact hk.ch k c0 h0
        · exact hk.ch k ch h

theorem ensureChapter_keeps {r : Rd} (hk : K r.novel) (id : Str) : K (r.ensureChapter id).novel := by
  unfold Rd.ensureChapter
  split
  · exact hk
  · rename_i hn
    have hn : id ∉ r.novel.chapters.keys := fun h => hn ((Dict.has_iff _ _).2 h)
    have hl : id ∉ r.novel.srtChapters := fun h => hn (hk.sound.chIn id h)
    have e : narrative { r.novel with chapters := r.novel.chapters.set id {}, srtChapters := r.novel.srtChapters ++ [id] } = narrative r.novel := by
      unfold narrative
      rw [List.flatMap_append, List.flatMap_singleton]
      have h1 : r.novel.srtChapters.flatMap (scenesOf (r.novel.chapters.set id {})) = r.novel.srtChapters.flatMap (scenesOf r.novel.chapters) := by
        refine scenesOf_congr ?_
        intro x hx
        have : id ≠ x := fun h => hl (h ▸ hx)
        rw [Dict.get?_set_ne _ _ this]
      have h2 : scenesOf (r.novel.chapters.set id {}) id = [] := by
        unfold scenesOf
        rw [Dict.get?_set]
        simp
      show r.novel.srtChapters.flatMap (scenesOf (r.novel.chapters.set id {})) ++ scenesOf (r.novel.chapters.set id {}) id = _
      rw [h1, h2, List.append_nil]
    refine ⟨{ chKeys := Dict.nodup_keys_set _ _ _ hk.sound.chKeys, scKeys := hk.sound.scKeys, chNodup := ?_, chIn := ?_, scNodup := ?_, scIn := ?_ }, hk.sc, ?_, hk.langs⟩
    · show (r.novel.srtChapters ++ [id]).Nodup
      rw [List.nodup_append]
      refine ⟨hk.sound.chNodup, by simp, ?_⟩
      intro x hx y hy
      rw [List.mem_singleton] at hy
      exact fun h => hl (hy ▸ h ▸ hx)
    · intro c hc
      show c ∈ Dict.keys (Dict.set _ _ _)
      rw [Dict.mem_keys_set]
      rcases List.mem_append.1 hc with h | h
      · exact .inr (hk.sound.chIn c h)
      · exact .inl (List.mem_singleton.1 h)
    · exact e ▸ hk.sound.scNodup
    · intro s hs
      exact hk.sound.scIn s (e ▸ hs)
    · intro k c h
      have h : (r.novel.chapters.set id {}).get? k = some c := h
      rw [Dict.get?_set] at h
      split at h
      · cases h; decide
      · exact hk.ch k c h

/-- A change of the languages. -/
theorem K_langs {n m : Novel} (hk : K n) (h1 : m.scenes = n.scenes) (h2 : m.chapters = n.chapters) (h3 : m.srtChapters = n.srtChapters)
    (hl : ∀ l, m.languages = some l → l.Nodup) : K m := by
  have e : narrative m = narrative n := by unfold narrative; rw [h2, h3]
  exact
    { sound := { chKeys := h2 ▸ hk.sound.chKeys, scKeys := h1 ▸ hk.sound.scKeys, chNodup := h3 ▸ hk.sound.chNodup,
                 chIn := by rw [h2, h3]; exact hk.sound.chIn, scNodup := e ▸ hk.sound.scNodup, scIn := by rw [e, h1]; exact hk.sound.scIn }
      sc := by rw [h1]; exact hk.sc
      ch := by rw [h2]; exact hk.ch
      langs := hl }

theorem startLanguage_keeps {r : Rd} (hk : K r.novel) (as : List (Str × Option Str)) : K (r.startLanguage as).novel := by
  unfold Rd.startLanguage
  rcases as with _ | ⟨⟨k, _ | l⟩, as⟩
  · exact hk
  · exact hk
  · refine K_ite (K_langs hk rfl rfl rfl ?_) hk
    intro x hx
    have hx : some (if l ∈ r.novel.languages.getD [] then r.novel.languages.getD [] else r.novel.languages.getD [] ++ [l]) = some x := hx
    have hn : (r.novel.languages.getD []).Nodup := by
      cases hl : r.novel.languages with
      | none => exact List.nodup_nil
      | some y => exact hk.langs y hl
    cases hx
    split
    · exact hn
    · rename_i hm
      rw [List.nodup_append]
      refine ⟨hn, by simp, ?_⟩
      intro a ha b hb
      rw [List.mem_singleton] at hb
      exact fun h => hm (hb ▸ h ▸ ha)

theorem stopLanguage_keeps {r : Rd} (hk : K r.novel) : K r.stopLanguage.novel := by
  unfold Rd.stopLanguage
  exact K_ite hk hk

theorem startBody_keeps : ∀ (as : List (Str × Option Str)) {r : Rd}, K r.novel → K (r.startBody as).novel
  | [], _, hk => hk
  | (k, v) :: as, r, hk => by
    rw [Rd.startBody.eq_def]
    dsimp only
    refine startBody_keeps as ?_
    rcases v with _ | _ | ⟨c, v⟩
    · exact hk
    · exact hk
    · exact K_ite (K_langs hk rfl rfl rfl hk.langs) (K_ite (K_langs hk rfl rfl rfl hk.langs) hk)

theorem good_content {s : Scene} (h : Good s) (t : Str) : Good (s.setContent t) := by
  refine ⟨h.1, h.2.1, ?_⟩
  intro x hx
  have hx : some t = some x := hx
  cases hx
  exact ⟨rfl, rfl⟩

theorem startScene_keeps {r : Rd} (hk : K r.novel) {type : Nat} (ht : type ≤ 3) (name : Str) : Keeps (Rd.startScene type r name) := by
  unfold Rd.startScene
  refine Keeps.bind' fun id => Keeps.bind (ensureScene_keeps (r := { r with scId := some id }) hk id) (fun r hk => onScene_keeps hk id ?_)
  exact fun s h => ⟨ht, h.2⟩

theorem startChapter_keeps {r : Rd} (hk : K r.novel) {type : Nat} (ht : type ≤ 3) (name : Str) : Keeps (Rd.startChapter type r name) := by
  unfold Rd.startChapter
  refine Keeps.bind' fun id => onChapter_keeps (ensureChapter_keeps (r := { r with chId := some id }) hk id) id (fun _ => rfl) (fun _ _ => ht)

theorem baseStart_keeps {r : Rd} (hk : K r.novel) {type : Nat} (ht : type ≤ 3) (tag : Str) (as : List (Str × Option Str)) :
    Keeps (Rd.baseStart type r tag as) := by
  unfold Rd.baseStart
  refine Keeps.ite ?_ (Keeps.ite (Keeps.ok hk) (Keeps.ok hk))
  cases as with
  | nil => exact Keeps.error _
  | cons a as =>
    exact Keeps.ite (Keeps.ite (startScene_keeps hk ht _) (Keeps.ite (startChapter_keeps hk ht _) (Keeps.ok hk))) (Keeps.ok hk)

theorem baseComment_keeps {r : Rd} (hk : K r.novel) (s : Str) : K (r.baseComment s).novel := by
  unfold Rd.baseComment
  exact K_ite hk hk

/-! ### The readers of texts -/

theorem title_keeps {r : Rd} (hk : K r.novel) (blank : Option Str → Prop) [DecidablePred blank] (s : Str) :
    Keeps (match r.chId with
      | none => .ok r
      | some id =>
        match r.novel.chapters.get? id with
        | none => .error .keyError
        | some ch => if blank ch.title then r.onChapter id (fun ch => { ch with title := some (Str.strip s) }) else .ok r) := by
  cases r.chId with
  | none => exact Keeps.ok hk
  | some id =>
    dsimp only
    cases r.novel.chapters.get? id with
    | none => exact Keeps.error _
    | some ch => exact Keeps.ite (onChapter_keeps hk id (fun _ => rfl) (fun _ h => h)) (Keeps.ok hk)

theorem manuscript_keeps {type : Nat} (ht : type ≤ 3) (r : Rd) (c : Call) (hk : K r.novel) : Keeps (manuscriptReader type r c) := by
  cases c with
  | start t as =>
    refine Keeps.bind (baseStart_keeps hk ht t as) (fun r hk => ?_)
    exact Keeps.ite (Keeps.ite (Keeps.ok hk) (Keeps.ite (Keeps.ok hk) (Keeps.ite (Keeps.ok (startLanguage_keeps hk as)) (Keeps.ite (Keeps.ok hk)
      (Keeps.ite (Keeps.ok hk) (Keeps.ite (Keeps.ok hk) (Keeps.ite (Keeps.ok hk)
        (Keeps.ite (Keeps.ok (startLanguage_keeps (r := r.push c!"> ") hk as)) (Keeps.ok hk)))))))))
      (Keeps.ite (Keeps.ok (startBody_keeps as hk)) (Keeps.ite (Keeps.ok hk) (Keeps.ok hk)))
  | stop t =>
    show Keeps (msStop r t)
    unfold msStop
    cases r.scId with
    | some id =>
      exact Keeps.ite (Keeps.ok (stopLanguage_keeps hk)) (Keeps.ite (Keeps.ok hk) (Keeps.ite (Keeps.ok hk) (Keeps.ite (Keeps.ok (stopLanguage_keeps hk))
        (Keeps.ite (Keeps.bind (onScene_keeps hk id (fun s h => good_content h _)) (fun r hk => Keeps.ok hk)) (Keeps.ite (Keeps.ok hk) (Keeps.ok hk))))))
    | none => exact Keeps.ite (Keeps.ok hk) (Keeps.ok hk)
  | data s =>
    show Keeps (msData r s)
    unfold msData
    exact Keeps.ite (Keeps.ok hk) (Keeps.ite (Keeps.ok (K_ite hk hk)) (title_keeps hk (fun t => t.isNone = true) s))
  | comment s =>
    refine Keeps.ok ?_
    show K (msComment r s).novel
    unfold msComment
    cases r.scId with
    | none => exact hk
    | some id =>
      refine K_ite ?_ hk
      cases Rd.titleOfComment s with
      | none => exact hk
      | some t => exact K_scene hk id (fun s h => h)

theorem proof_keeps (r : Rd) (c : Call) (hk : K r.novel) : Keeps (proofReader r c) := by
  cases c with
  | start t as =>
    refine Keeps.ok ?_
    show K (proofStart r t as).novel
    unfold proofStart
    exact K_ite hk (K_ite hk (K_ite (startLanguage_keeps hk as) (K_ite hk (K_ite hk (K_ite hk (K_ite (startLanguage_keeps (r := r.push c!"> ") hk as)
      (K_ite (startBody_keeps as hk) (K_ite hk (K_ite hk hk)))))))))
  | stop t =>
    refine Keeps.ok ?_
    show K (proofStop r t).novel
    unfold proofStop
    exact K_ite (stopLanguage_keeps (r := r.push c!"\n") hk) (K_ite hk (K_ite hk (K_ite (stopLanguage_keeps hk) hk)))
  | data s =>
    show Keeps (proofData r s)
    unfold proofData
    dsimp only
    refine Keeps.ite (Keeps.ok hk) (Keeps.ite ?_ (Keeps.ite ?_ (Keeps.ok (K_ite hk hk))))
    · cases Rd.firstNumber s with
      | error e => exact Keeps.error _
      | ok id => exact Keeps.ok hk
    · cases r.scId with
      | none => exact Keeps.ok hk
      | some id =>
        refine Keeps.ite ?_ (Keeps.ok hk)
        have := onScene_keeps hk id (f := fun sc => sc.setContent (Str.strip (r.cleanupScene r.text))) (fun s h => good_content h _)
        cases he : r.onScene id (fun sc => sc.setContent (Str.strip (r.cleanupScene r.text))) with
        | error e => exact Keeps.error _
        | ok r' => exact Keeps.ok (this r' he)
  | comment s => exact Keeps.ok (baseComment_keeps hk s)

theorem sceneDesc_keeps (r : Rd) (c : Call) (hk : K r.novel) : Keeps (sceneDescReader r c) := by
  cases c with
  | start t as => exact baseStart_keeps hk (by decide) t as
  | stop t =>
    show Keeps (sdStop r t)
    unfold sdStop
    cases r.scId with
    | some id =>
      exact Keeps.ite (Keeps.bind (onScene_keeps hk id (fun s h => h)) (fun r hk => Keeps.ok hk)) (Keeps.ite (Keeps.ok hk) (Keeps.ok hk))
    | none => exact Keeps.ite (Keeps.ok hk) (Keeps.ok hk)
  | data s =>
    show Keeps (sdData r s)
    unfold sdData
    exact Keeps.ite (Keeps.ok hk) (title_keeps hk (fun t => isBlankField t = true) s)
  | comment s => exact Keeps.ok (baseComment_keeps hk s)

theorem chapterDesc_keeps (r : Rd) (c : Call) (hk : K r.novel) : Keeps (chapterDescReader r c) := by
  cases c with
  | start t as => exact baseStart_keeps hk (by decide) t as
  | stop t =>
    show Keeps (cdStop r t)
    unfold cdStop
    cases r.chId with
    | none => exact Keeps.ok hk
    | some id =>
      refine Keeps.ite (Keeps.bind (onChapter_keeps hk id (fun _ => rfl) (fun _ h => h)) (fun r hk => Keeps.ok hk)) (Keeps.ite (Keeps.ok hk)
        (Keeps.ite (Keeps.bind (onChapter_keeps hk id ?_ ?_) (fun r hk => Keeps.ok hk)) (Keeps.ok hk)))
      · intro c; split <;> rfl
      · intro c h; split <;> exact h
  | data s => exact Keeps.ok (K_ite hk hk)
  | comment s => exact Keeps.ok (baseComment_keeps hk s)

end Verif.Kept
