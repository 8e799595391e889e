/-
The steps of the readers for manuscripts, proof reading, scene descriptions and chapter descriptions, in two runs.
-/
import Verif.Lemmas.Twice2

namespace Verif.Twice
open Verif

section
variable {blank : Option Str → Bool}

/-- A change of the languages of the project that depends on these only. -/
theorem G.language (r : Rd) (as : List (Str × Option Str)) (n : Novel) : G blank (fun n => .ok (Rd.startLanguage { r with novel := n } as)) n := by
  rcases as with _ | ⟨⟨k, _ | l⟩, as⟩
  · exact G.pure _ _ _ _ _ _ _ _ _ _ _
  · exact G.pure _ _ _ _ _ _ _ _ _ _ _
  · by_cases hk : k = c!"lang"
    · simp only [Rd.startLanguage, hk, ↓reduceIte]
      intro r' h
      cases h
      refine ⟨⟨fun _ h => h, fun _ a h => ⟨a, h, fun _ => rfl⟩, fun h => h, fun h => h, fun hi => ⟨hi.fit, hi.listed, hi.inside⟩⟩, fun n2 m _ hx =>
        ⟨{ n2 with languages := some (if l ∈ n.languages.getD [] then n.languages.getD [] else n.languages.getD [] ++ [l]) }, ?_, ?_⟩⟩
      · simp only [Rd.push, hx.langs]
      · exact ⟨hx.scenes, hx.chapters, rfl, hx.code, hx.country, hx.rest⟩
    · simp only [Rd.startLanguage, hk, ↓reduceIte]
      exact G.pure _ _ _ _ _ _ _ _ _ _ _

theorem stopLanguage_novel (r : Rd) (n : Novel) : Rd.stopLanguage { r with novel := n } = { r.stopLanguage with novel := n } := by
  unfold Rd.stopLanguage
  by_cases h : r.language = []
  · simp only [h, ↓reduceIte]
  · simp only [h, ↓reduceIte, Rd.push]

theorem G.stopLanguage (r : Rd) (n : Novel) : G blank (fun n => .ok (Rd.stopLanguage { r with novel := n })) n := by
  simp only [stopLanguage_novel]
  exact G.pure _ _ _ _ _ _ _ _ _ _ _

theorem stopLanguage_eq (r : Rd) : r.stopLanguage.novel = r.novel := by
  have := congrArg Rd.novel (stopLanguage_novel r r.novel)
  exact this

theorem G.body (r : Rd) (as : List (Str × Option Str)) (n : Novel) : G blank (fun n => .ok (Rd.startBody { r with novel := n } as)) n := by
  induction as generalizing r n with
  | nil => exact G.pure _ _ _ _ _ _ _ _ _ _ _
  | cons p as ih =>
    obtain ⟨k, v⟩ := p
    rcases v with _ | _ | ⟨c, v⟩
    · exact ih r n
    · exact ih r n
    · by_cases h1 : k = c!"language"
      · have e : (fun n => (.ok (Rd.startBody { r with novel := n } ((k, some (c :: v)) :: as)) : Except Exc Rd)) =
            fun n => (.ok { r with novel := { n with languageCode := some (c :: v) } } : Except Exc Rd) >>= fun r => .ok (Rd.startBody r as) := by
          funext n
          simp only [Rd.startBody, h1, ↓reduceIte, Bind.bind, Except.bind]
        rw [e]
        refine G.bind ?_ (fun r' _ => ih r' _)
        intro r' h
        cases h
        exact ⟨⟨fun _ h => h, fun _ a h => ⟨a, h, fun _ => rfl⟩, fun h => h, fun h => h, fun hi => ⟨hi.fit, hi.listed, hi.inside⟩⟩, fun n2 m _ hx =>
          ⟨{ n2 with languageCode := some (c :: v) }, rfl, ⟨hx.scenes, hx.chapters, hx.langs, .inl rfl, hx.country, hx.rest⟩⟩⟩
      · by_cases h2 : k = c!"country"
        · have e : (fun n => (.ok (Rd.startBody { r with novel := n } ((k, some (c :: v)) :: as)) : Except Exc Rd)) =
              fun n => (.ok { r with novel := { n with countryCode := some (c :: v) } } : Except Exc Rd) >>= fun r => .ok (Rd.startBody r as) := by
            funext n
            simp only [Rd.startBody, h2, show ¬ c!"country" = c!"language" by decide, ↓reduceIte, Bind.bind, Except.bind]
          rw [e]
          refine G.bind ?_ (fun r' _ => ih r' _)
          intro r' h
          cases h
          exact ⟨⟨fun _ h => h, fun _ a h => ⟨a, h, fun _ => rfl⟩, fun h => h, fun h => h, fun hi => ⟨hi.fit, hi.listed, hi.inside⟩⟩, fun n2 m _ hx =>
            ⟨{ n2 with countryCode := some (c :: v) }, rfl, ⟨hx.scenes, hx.chapters, hx.langs, hx.code, .inl rfl, hx.rest⟩⟩⟩
        · simp only [Rd.startBody, h1, h2, ↓reduceIte]
          exact ih r n

theorem G.baseStart (type : Nat) (hb : blank none = true) (r : Rd) (tag : Str) (as : List (Str × Option Str)) (n : Novel) :
    G blank (fun n => Rd.baseStart type { r with novel := n } tag as) n := by
  by_cases h1 : tag = c!"div"
  · rcases as with _ | ⟨⟨k, v⟩, as⟩
    · simp only [Rd.baseStart, h1, ↓reduceIte]
      exact G.error _ _
    · by_cases h2 : k = c!"id"
      · by_cases h3 : Str.startsWith (v.getD []) c!"ScID" = true
        · simp only [Rd.baseStart, h1, h2, h3, ↓reduceIte]
          exact G.startScene _ _ _ _
        · by_cases h4 : Str.startsWith (v.getD []) c!"ChID" = true
          · simp only [Rd.baseStart, h1, h2, h3, h4, ↓reduceIte]
            exact G.startChapter type hb _ _ _
          · simp only [Rd.baseStart, h1, h2, h3, h4, ↓reduceIte]
            exact G.pure _ _ _ _ _ _ _ _ _ _ _
      · simp only [Rd.baseStart, h1, h2, ↓reduceIte]
        exact G.pure _ _ _ _ _ _ _ _ _ _ _
  · by_cases h2 : tag = c!"s"
    · simp only [Rd.baseStart, h2, show ¬ c!"s" = c!"div" by decide, ↓reduceIte]
      exact G.pure _ _ _ _ _ _ _ _ _ _ _
    · simp only [Rd.baseStart, h1, h2, ↓reduceIte]
      exact G.pure _ _ _ _ _ _ _ _ _ _ _

theorem G.baseComment (r : Rd) (s : Str) (n : Novel) : G blank (fun n => .ok (Rd.baseComment { r with novel := n } s)) n := by
  cases e : r.scId with
  | none => simp only [Rd.baseComment, e, Option.isSome_none, Bool.false_eq_true, ↓reduceIte]; exact G.pure _ _ _ _ _ _ _ _ _ _ _
  | some id => simp only [Rd.baseComment, e, Option.isSome_some, ↓reduceIte]; exact G.pure _ _ _ _ _ _ _ _ _ _ _

end

/-- Splits a field of a scene: the change fixes it or keeps it. -/
theorem plain_content (t : Str) : Plain sceneFields (fun s => s.setContent t) := by
  intro E hE
  simp only [sceneFields, List.mem_cons, List.not_mem_nil, or_false] at hE
  rcases hE with rfl | rfl | rfl | rfl | rfl | rfl | rfl <;> first | exact .inl (fun _ _ => rfl) | exact .inr (fun _ _ => ⟨Iff.rfl, Iff.rfl⟩)

theorem fit_content (s : Scene) (t : Str) : Fit (s.setContent t) := by
  intro u hu
  cases hu
  exact ⟨rfl, rfl⟩

theorem plain_title (t : Option Str) : Plain sceneFields (fun s => { s with title := t }) := by
  intro E hE
  simp only [sceneFields, List.mem_cons, List.not_mem_nil, or_false] at hE
  rcases hE with rfl | rfl | rfl | rfl | rfl | rfl | rfl <;> first | exact .inl (fun _ _ => rfl) | exact .inr (fun _ _ => ⟨Iff.rfl, Iff.rfl⟩)

theorem plain_desc (o : Option Str) (d : Option Str) : Plain sceneFields (fun s =>
    { s with title := match o with | some t => some t | none => s.title, desc := d }) := by
  intro E hE
  simp only [sceneFields, List.mem_cons, List.not_mem_nil, or_false] at hE
  cases o <;> rcases hE with rfl | rfl | rfl | rfl | rfl | rfl | rfl <;>
    first | exact .inl (fun _ _ => rfl) | exact .inr (fun _ _ => ⟨Iff.rfl, Iff.rfl⟩)

theorem plain_chDesc (d : Option Str) : Plain chapterFields (fun c => { c with desc := d }) := by
  intro E hE
  simp only [chapterFields, List.mem_cons, List.not_mem_nil, or_false] at hE
  rcases hE with rfl | rfl | rfl | rfl <;> first | exact .inl (fun _ _ => rfl) | exact .inr (fun _ _ => ⟨Iff.rfl, Iff.rfl⟩)

/-- Every step of the reader, from a state that satisfies the condition. -/
def Tracks (blank : Option Str → Bool) (P : Rd → Prop) (h : Reader) : Prop :=
  ∀ r c, P r → G blank (fun n => h { r with novel := n } c) r.novel ∧ ∀ r', h r c = .ok r' → P r'

theorem run_grow {blank : Option Str → Bool} {P : Rd → Prop} {h : Reader} (ht : Tracks blank P h) {cs : List Call} {r r' : Rd} (hp : P r)
    (he : h.run r cs = .ok r') : Grow blank r.novel r'.novel := by
  induction cs generalizing r with
  | nil => cases he; exact Grow.refl _ _
  | cons c cs ih =>
    simp only [Reader.run, Bind.bind, Except.bind] at he
    cases e : h r c with
    | error x => simp only [e] at he; exact nomatch he
    | ok r1 =>
      simp only [e] at he
      exact ((ht r c hp).1 r1 e).1.trans (ih ((ht r c hp).2 r1 e) he)

theorem run_twice {blank : Option Str → Bool} {P : Rd → Prop} {h : Reader} (ht : Tracks blank P h) {cs : List Call} {r r' : Rd} (hp : P r)
    (he : h.run r cs = .ok r') {n2 : Novel} (hx : NMix r.novel n2 r'.novel) :
    ∃ n2', h.run { r with novel := n2 } cs = .ok { r' with novel := n2' } ∧ NMix r'.novel n2' r'.novel := by
  induction cs generalizing r n2 with
  | nil => cases he; exact ⟨n2, rfl, hx⟩
  | cons c cs ih =>
    simp only [Reader.run, Bind.bind, Except.bind] at he
    cases e : h r c with
    | error x => simp only [e] at he; exact nomatch he
    | ok r1 =>
      simp only [e] at he
      have hp1 := (ht r c hp).2 r1 e
      obtain ⟨n3, e3, h3⟩ := ((ht r c hp).1 r1 e).2 n2 r'.novel (run_grow ht hp1 he) hx
      obtain ⟨n4, e4, h4⟩ := ih hp1 he h3
      exact ⟨n4, by simp only [Reader.run, Bind.bind, Except.bind, e3, e4], h4⟩

theorem readOdt_twice {blank : Option Str → Bool} {P : Rd → Prop} {h : Reader} (ht : Tracks blank P h) (hp : ∀ n, P { novel := n })
    {f : OdtFile} {n m : Novel} (hs : n.scenes.keys.Nodup) (hc : n.chapters.keys.Nodup) (he : readOdt h f n = .ok m) :
    readOdt h f { m with languages := n.languages } = .ok m := by
  simp only [readOdt, Bind.bind, Except.bind] at he ⊢
  cases e : feedFile f with
  | error x => simp only [e] at he; exact nomatch he
  | ok cs =>
    simp only [e] at he ⊢
    cases e1 : h.run { novel := n } cs with
    | error x => simp only [e1] at he; exact nomatch he
    | ok r =>
      simp only [e1] at he
      cases he
      obtain ⟨n2, e2, h2⟩ := run_twice ht (hp n) e1 (NMix.start n r.novel)
      have hg := run_grow ht (hp n) e1
      rw [e2]
      simp only
      rw [h2.done (hg.scKeys hs) (hg.chKeys hc)]

/-! ### The readers -/

/-- The current scene of the manuscript reader is in the project. -/
def Open (r : Rd) : Prop := ∀ id, r.scId = some id → r.novel.scenes.has id = true

theorem G.ite {blank : Option Str → Bool} {c : Prop} [Decidable c] {f g : Novel → Except Exc Rd} {n : Novel} (hf : G blank f n) (hg : G blank g n) :
    G blank (fun n => if c then f n else g n) n := by
  by_cases h : c
  · simp only [h, ↓reduceIte]; exact hf
  · simp only [h, ↓reduceIte]; exact hg

theorem startLanguage_sc (r : Rd) (as : List (Str × Option Str)) :
    (r.startLanguage as).scId = r.scId ∧ (r.startLanguage as).novel.scenes = r.novel.scenes := by
  unfold Rd.startLanguage
  split
  · split <;> exact ⟨rfl, rfl⟩
  · exact ⟨rfl, rfl⟩

theorem startBody_sc (r : Rd) (as : List (Str × Option Str)) :
    (r.startBody as).scId = r.scId ∧ (r.startBody as).novel.scenes = r.novel.scenes := by
  induction as generalizing r with
  | nil => exact ⟨rfl, rfl⟩
  | cons p as ih =>
    obtain ⟨k, v⟩ := p
    simp only [Rd.startBody]
    rw [(ih _).1, (ih _).2]
    split
    · exact ⟨rfl, rfl⟩
    · exact ⟨rfl, rfl⟩
    · split
      · exact ⟨rfl, rfl⟩
      · split <;> exact ⟨rfl, rfl⟩

theorem G.msStart (type : Nat) (r : Rd) (tag : Str) (as : List (Str × Option Str)) (n : Novel) :
    G Option.isNone (fun n => Verif.msStart type { r with novel := n } tag as) n := by
  unfold Verif.msStart
  refine G.bind (G.baseStart type rfl _ _ _ _) (fun r' _ => ?_)
  cases e : r'.scId with
  | some id =>
    simp only [Option.isSome_some, ↓reduceIte]
    repeat' first
      | exact G.pure _ _ _ _ _ _ _ _ _ _ _
      | exact G.language { r' with scId := some id } as _
      | exact G.language (Rd.push { r' with scId := some id } c!"> ") as _
      | refine G.ite ?_ ?_
  | none =>
    simp only [Option.isSome_none, Bool.false_eq_true, ↓reduceIte]
    repeat' first
      | exact G.pure _ _ _ _ _ _ _ _ _ _ _
      | exact G.body { r' with scId := none } as _
      | refine G.ite ?_ ?_

theorem G.msStop (r : Rd) (tag : Str) (n : Novel) : G Option.isNone (fun n => Verif.msStop { r with novel := n } tag) n := by
  unfold Verif.msStop
  cases e : r.scId with
  | some id =>
    simp only
    refine G.ite ?_ (G.ite (G.pure _ _ _ _ _ _ _ _ _ _ _) (G.ite (G.pure _ _ _ _ _ _ _ _ _ _ _) (G.ite ?_ (G.ite ?_ (G.ite ?_ ?_)))))
    · exact G.bind (k := fun r => .ok (r.push c!"\n")) (G.stopLanguage { r with scId := some id } n) (fun r' _ => G.pure _ _ _ _ _ _ _ _ _ _ _)
    · exact G.stopLanguage { r with scId := some id } n
    · refine G.bind (k := fun r' => .ok { r' with lines := [], scId := none }) ?_ (fun r' _ => G.pure _ _ _ _ _ _ _ _ _ _ _)
      refine G.scene { r with scId := some id } id (fun n s => s.setContent (Str.rstrip (Rd.cleanupScene { r with novel := n } r.text))) n ?_ (plain_content _) (fun _ _ => fit_content _ _)
      intro n2 h
      simp only [Rd.cleanupScene, h]
    · exact G.pure _ _ _ _ _ _ _ _ _ _ _
    · exact G.pure _ _ _ _ _ _ _ _ _ _ _
  | none =>
    simp only
    exact G.ite (G.pure _ _ _ _ _ _ _ _ _ _ _) (G.pure _ _ _ _ _ _ _ _ _ _ _)

theorem G.msData (r : Rd) (s : Str) (n : Novel) : G Option.isNone (fun n => Verif.msData { r with novel := n } s) n := by
  unfold Verif.msData
  cases e : r.skipData with
  | true => exact G.pure _ _ _ _ _ _ _ _ _ _ _
  | false =>
    cases e1 : r.scId with
    | some id =>
      simp only [Bool.false_eq_true, ↓reduceIte, Option.isSome_some]
      by_cases h : isSpaceStr s = true
      · simp only [h, ↓reduceIte]; exact G.pure _ _ _ _ _ _ _ _ _ _ _
      · simp only [h, ↓reduceIte]; exact G.pure _ _ _ _ _ _ _ _ _ _ _
    | none =>
      simp only [Bool.false_eq_true, ↓reduceIte, Option.isSome_none]
      cases e2 : r.chId with
      | none => exact G.pure _ _ _ _ _ _ _ _ _ _ _
      | some id => exact G.title { r with skipData := false, scId := none, chId := some id } id (Str.strip s) n

theorem G.msComment (r : Rd) (s : Str) (n : Novel) (ho : ∀ id, r.scId = some id → n.scenes.has id = true) :
    G Option.isNone (fun n => .ok (Verif.msComment { r with novel := n } s)) n := by
  unfold Verif.msComment
  cases e : r.scId with
  | none => exact G.pure _ _ _ _ _ _ _ _ _ _ _
  | some id =>
    simp only
    by_cases h : Str.contains s c!"~" = true
    · simp only [h, ↓reduceIte]
      cases Rd.titleOfComment s with
      | none => exact G.pure _ _ _ _ _ _ _ _ _ _ _
      | some t =>
        intro r' he
        cases he
        refine ⟨modify_grow (fun _ h => h), fun n2 m hg hx => ⟨_, rfl, ?_⟩⟩
        exact ⟨hx.scenes.both (ho id e) (fun a b m _ _ h => h.plain (plain_title _)), hx.chapters, hx.langs, hx.code, hx.country, hx.rest⟩
    · simp only [h, ↓reduceIte]
      exact G.pure _ _ _ _ _ _ _ _ _ _ _

theorem onScene_sc {r r' : Rd} {id : Str} {f : Scene → Scene} (h : r.onScene id f = .ok r') :
    r.novel.scenes.has id = true ∧ r'.scId = r.scId ∧ ∀ k, r'.novel.scenes.has k = r.novel.scenes.has k := by
  unfold Rd.onScene at h
  split at h
  · rename_i hk
    cases h
    exact ⟨hk, rfl, fun k => has_modify _ _ _ _⟩
  · exact nomatch h

theorem onChapter_sc {r r' : Rd} {id : Str} {f : Chapter → Chapter} (h : r.onChapter id f = .ok r') :
    r'.scId = r.scId ∧ r'.novel.scenes = r.novel.scenes := by
  unfold Rd.onChapter at h
  split at h
  · cases h
    exact ⟨rfl, rfl⟩
  · exact nomatch h

theorem baseStart_open {type : Nat} {r r' : Rd} {tag : Str} {as : List (Str × Option Str)} (ho : Open r)
    (h : Rd.baseStart type r tag as = .ok r') : Open r' := by
  unfold Rd.baseStart at h
  split at h
  · split at h
    · exact nomatch h
    · split at h
      · split at h
        · simp only [Rd.startScene, Bind.bind, Except.bind] at h
          split at h
          · exact nomatch h
          · rename_i id _
            split at h
            · exact nomatch h
            · rename_i r1 h1
              obtain ⟨k1, k2, k3⟩ := onScene_sc h
              intro x hx
              rw [k3]
              have : r1.scId = some id := by
                unfold Rd.ensureScene at h1
                split at h1
                · cases h1; rfl
                · simp only [Rd.listScene] at h1
                  split at h1
                  · exact nomatch h1
                  · exact (onChapter_sc h1).1
              rw [k2, this] at hx
              cases hx
              exact k1
        · split at h
          · simp only [Rd.startChapter, Bind.bind, Except.bind] at h
            split at h
            · exact nomatch h
            · obtain ⟨k1, k2⟩ := onChapter_sc h
              intro x hx
              rw [k1] at hx
              rw [k2]
              unfold Rd.ensureChapter at hx ⊢
              split at hx
              · rename_i hc
                simp only [hc, ↓reduceIte]
                exact ho x hx
              · rename_i hc
                simp only [hc, ↓reduceIte]
                exact ho x hx
          · cases h; exact ho
      · cases h; exact ho
  · split at h
    · cases h; exact ho
    · cases h; exact ho

theorem manuscript_tracks (type : Nat) : Tracks Option.isNone Open (manuscriptReader type) := by
  intro r c ho
  cases c with
  | start t as =>
    refine ⟨G.msStart type r t as _, fun r' h => ?_⟩
    simp only [manuscriptReader, Verif.msStart, Bind.bind, Except.bind] at h
    split at h
    · exact nomatch h
    · rename_i r1 h1
      have h2 := baseStart_open ho h1
      have key : r'.scId = r1.scId ∧ r'.novel.scenes = r1.novel.scenes := by
        split at h
        · repeat' first
            | (cases h; exact ⟨rfl, rfl⟩)
            | (cases h; exact startLanguage_sc r1 as)
            | (cases h; exact startLanguage_sc (r1.push c!"> ") as)
            | split at h
        · repeat' first
            | (cases h; exact ⟨rfl, rfl⟩)
            | (cases h; exact startBody_sc r1 as)
            | split at h
      intro x hx
      rw [key.1] at hx
      rw [key.2]
      exact h2 x hx
  | stop t =>
    refine ⟨G.msStop r t _, fun r' h => ?_⟩
    simp only [manuscriptReader, Verif.msStop] at h
    have sl : (r.stopLanguage).scId = r.scId ∧ r.stopLanguage.novel.scenes = r.novel.scenes := by
      unfold Rd.stopLanguage
      split <;> exact ⟨rfl, rfl⟩
    split at h
    · repeat' first
        | (cases h; exact ho)
        | (cases h; intro x hx; rw [show (r.stopLanguage.push c!"\n").novel.scenes = r.novel.scenes from sl.2]; exact ho x (sl.1 ▸ hx))
        | (cases h; intro x hx; rw [sl.2]; exact ho x (sl.1 ▸ hx))
        | split at h
      simp only [Bind.bind, Except.bind] at h
      split at h
      · exact nomatch h
      · cases h; exact nofun
    · split at h
      · cases h; exact ho
      · cases h; exact ho
  | data s =>
    refine ⟨G.msData r s _, fun r' h => ?_⟩
    simp only [manuscriptReader, Verif.msData] at h
    split at h
    · cases h; exact ho
    · split at h
      · cases h
        split
        · exact ho
        · exact ho
      · split at h
        · cases h; exact ho
        · split at h
          · exact nomatch h
          · split at h
            · obtain ⟨k1, k2⟩ := onChapter_sc h
              intro x hx
              rw [k1] at hx
              rw [k2]
              exact ho x hx
            · cases h; exact ho
  | comment s =>
    refine ⟨G.msComment r s _ ho, fun r' h => ?_⟩
    simp only [manuscriptReader, Verif.msComment] at h
    cases h
    split
    · exact ho
    · split
      · split
        · intro x hx
          simp only
          rw [has_modify]
          exact ho x hx
        · exact ho
      · exact ho

end Verif.Twice
