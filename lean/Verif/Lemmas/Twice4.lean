/-
The steps of the readers for proof reading, scene descriptions, chapter descriptions, characters, locations and items, in two runs.
-/
import Verif.Lemmas.Twice3

namespace Verif.Twice
open Verif

/-! ### Scene descriptions and chapter descriptions -/

theorem G.sdStop (r : Rd) (tag : Str) (n : Novel) : G isBlankField (fun n => Verif.sdStop { r with novel := n } tag) n := by
  unfold Verif.sdStop
  cases e : r.scId with
  | some id =>
    simp only
    refine G.ite ?_ (G.ite (G.pure _ _ _ _ _ _ _ _ _ _ _) (G.pure _ _ _ _ _ _ _ _ _ _ _))
    refine G.bind (k := fun r' => .ok { r' with lines := [], scId := none }) ?_ (fun r' _ => G.pure _ _ _ _ _ _ _ _ _ _ _)
    exact G.scene { r with scId := some id } id
      (fun _ s => { s with title := match (sdSplit r.text).1 with | some t => some t | none => s.title, desc := some (sdSplit r.text).2 }) n
      (fun _ _ => rfl) (plain_desc _ _) (fun _ h => h)
  | none =>
    simp only
    exact G.ite (G.pure _ _ _ _ _ _ _ _ _ _ _) (G.pure _ _ _ _ _ _ _ _ _ _ _)

theorem G.sdData (r : Rd) (s : Str) (n : Novel) : G isBlankField (fun n => Verif.sdData { r with novel := n } s) n := by
  unfold Verif.sdData
  cases e1 : r.scId with
  | some id => exact G.pure _ _ _ _ _ _ _ _ _ _ _
  | none =>
    simp only [Bool.false_eq_true, ↓reduceIte, Option.isSome_none]
    cases e2 : r.chId with
    | none => exact G.pure _ _ _ _ _ _ _ _ _ _ _
    | some id => exact G.title { r with scId := none, chId := some id } id (Str.strip s) n

theorem sceneDesc_tracks : Tracks isBlankField (fun _ => True) sceneDescReader := by
  intro r c _
  refine ⟨?_, fun _ _ => trivial⟩
  cases c with
  | start t as => exact G.baseStart 0 rfl r t as _
  | stop t => exact G.sdStop r t _
  | data s => exact G.sdData r s _
  | comment s => exact G.baseComment r s _

theorem G.cdStop (r : Rd) (tag : Str) (n : Novel) : G isBlankField (fun n => Verif.cdStop { r with novel := n } tag) n := by
  unfold Verif.cdStop
  cases e : r.chId with
  | none => exact G.pure _ _ _ _ _ _ _ _ _ _ _
  | some id =>
    simp only
    refine G.ite ?_ (G.ite (G.pure _ _ _ _ _ _ _ _ _ _ _) (G.ite ?_ (G.pure _ _ _ _ _ _ _ _ _ _ _)))
    · refine G.bind (k := fun r' => .ok { r' with lines := [], chId := none }) ?_ (fun r' _ => G.pure _ _ _ _ _ _ _ _ _ _ _)
      exact G.chapter { r with chId := some id } id (fun ch => { ch with desc := some (Str.rstrip r.text) }) n (fun _ _ => rfl) (fun _ => rfl)
        (fun a b m _ h => ChR.plain (f := fun ch => { ch with desc := some (Str.rstrip r.text) }) (plain_chDesc _) (fun _ => rfl) h)
    · refine G.bind (k := fun r' => .ok { r' with lines := [] }) ?_ (fun r' _ => G.pure _ _ _ _ _ _ _ _ _ _ _)
      exact G.chapter { r with chId := some id } id (setTitle isBlankField r.text) n (setTitle_keeps _) (setTitle_scenes _) (setTitle_rel _)

theorem chapterDesc_tracks : Tracks isBlankField (fun _ => True) chapterDescReader := by
  intro r c _
  refine ⟨?_, fun _ _ => trivial⟩
  cases c with
  | start t as => exact G.baseStart 0 rfl r t as _
  | stop t => exact G.cdStop r t _
  | data s =>
    simp only [chapterDescReader]
    cases e : r.chId with
    | none => exact G.pure _ _ _ _ _ _ _ _ _ _ _
    | some id => exact G.pure _ _ _ _ _ _ _ _ _ _ _
  | comment s => exact G.baseComment r s _

/-! ### Proof reading -/

/-- As `proofData`, with the scenes of the project given. -/
def proofDataIn (K : List Str) (r : Rd) (s : Str) : Except Exc Rd :=
  let bad : Except Exc Rd := .error (.error (c!"Corrupt marker: \"" ++ s ++ c!"\""))
  if r.skipData then .ok { r with skipData := false }
  else if Str.contains s c!"[ScID" then
    match Rd.firstNumber s with
    | .ok id => .ok { r with scId := some id, lines := [] }
    | .error _ => bad
  else if Str.contains s c!"[/ScID" then
    match r.scId with
    | some id =>
      if id ∈ K then
        match r.onScene id (fun sc => sc.setContent (Str.strip (r.cleanupScene r.text))) with
        | .ok r' => .ok { r' with lines := [], scId := none }
        | .error _ => bad
      else .ok { r with scId := none }
    | none => .ok r
  else .ok (if r.scId.isSome then r.push s else r)

/-- The reader for proof reading, with the scenes of the project given. -/
def proofIn (K : List Str) : Reader
  | r, .start t as => .ok (proofStart r t as)
  | r, .stop t => .ok (proofStop r t)
  | r, .data s => proofDataIn K r s
  | r, .comment s => .ok (r.baseComment s)

theorem proofDataIn_eq {K : List Str} {r : Rd} (h : r.novel.scenes.keys = K) (s : Str) : proofDataIn K r s = proofData r s := by
  unfold proofDataIn proofData
  have : ∀ id, (id ∈ K) = (r.novel.scenes.has id = true) := fun id => by rw [Dict.has_iff, h]
  simp only [this]
  rfl

theorem G.proofDataIn (K : List Str) (r : Rd) (s : Str) (n : Novel) : G isBlankField (fun n => Twice.proofDataIn K { r with novel := n } s) n := by
  unfold Twice.proofDataIn
  cases e : r.skipData with
  | true => exact G.pure _ _ _ _ _ _ _ _ _ _ _
  | false =>
    simp only [Bool.false_eq_true, ↓reduceIte]
    refine G.ite ?_ (G.ite ?_ ?_)
    · cases Rd.firstNumber s with
      | ok id => exact G.pure _ _ _ _ _ _ _ _ _ _ _
      | error e => exact G.error _ _
    · cases e1 : r.scId with
      | none => exact G.pure _ _ _ _ _ _ _ _ _ _ _
      | some id =>
        simp only
        refine G.ite ?_ (G.pure _ _ _ _ _ _ _ _ _ _ _)
        have hs := G.bind (k := fun r' => .ok { r' with lines := [], scId := none })
          (G.scene { r with scId := some id, skipData := false } id
            (fun n s => s.setContent (Str.strip (Rd.cleanupScene { r with novel := n } r.text))) n
            (fun n2 h => by simp only [Rd.cleanupScene, h]) (plain_content _) (fun _ _ => fit_content _ _) (blank := isBlankField))
          (fun r' _ => G.pure _ _ _ _ _ _ _ _ _ _ _)
        intro r' h
        have conv : ∀ (x : Except Exc Rd) (b : Except Exc Rd) (y : Rd),
            (x >>= fun r' => Except.ok { r' with lines := [], scId := none }) = .ok y →
            (match x with | .ok r' => (.ok { r' with lines := [], scId := none } : Except Exc Rd) | .error _ => b) = .ok y := by
          intro x b y hy
          cases x with
          | ok z => exact hy
          | error z => exact nomatch hy
        have conv' : ∀ (x : Except Exc Rd) (z : Exc) (y : Rd),
            (match x with | .ok r' => (.ok { r' with lines := [], scId := none } : Except Exc Rd) | .error _ => .error z) = .ok y →
            (x >>= fun r' => Except.ok { r' with lines := [], scId := none }) = .ok y := by
          intro x b y hy
          cases x with
          | ok z => exact hy
          | error z => exact nomatch hy
        obtain ⟨g1, g2⟩ := hs r' (conv' _ _ _ h)
        refine ⟨g1, fun n2 m hg hx => ?_⟩
        obtain ⟨n3, h3, h4⟩ := g2 n2 m hg hx
        exact ⟨n3, conv _ _ _ h3, h4⟩
    · cases e1 : r.scId with
      | none => exact G.pure _ _ _ _ _ _ _ _ _ _ _
      | some id => exact G.pure _ _ _ _ _ _ _ _ _ _ _

theorem G.okIte {blank : Option Str → Bool} {c : Prop} [Decidable c] {f g : Novel → Rd} {n : Novel} (hf : G blank (fun n => .ok (f n)) n)
    (hg : G blank (fun n => .ok (g n)) n) : G blank (fun n => .ok (if c then f n else g n)) n := by
  by_cases h : c
  · simp only [h, ↓reduceIte]; exact hf
  · simp only [h, ↓reduceIte]; exact hg

theorem proof_tracks (K : List Str) : Tracks isBlankField (fun _ => True) (proofIn K) := by
  intro r c _
  refine ⟨?_, fun _ _ => trivial⟩
  cases c with
  | start t as =>
    simp only [proofIn, proofStart]
    repeat' first
      | exact G.pure _ _ _ _ _ _ _ _ _ _ _
      | exact G.language r as _
      | exact G.language (Rd.push r c!"> ") as _
      | exact G.body r as _
      | refine G.okIte ?_ ?_
  | stop t =>
    simp only [proofIn, proofStop]
    repeat' first
      | exact G.pure _ _ _ _ _ _ _ _ _ _ _
      | exact G.stopLanguage r _
      | exact G.stopLanguage (Rd.push r c!"\n") _
      | refine G.okIte ?_ ?_
  | data s => exact G.proofDataIn K r s _
  | comment s => exact G.baseComment r s _

theorem startLanguage_keys (r : Rd) (as : List (Str × Option Str)) : (r.startLanguage as).novel.scenes.keys = r.novel.scenes.keys := by
  rw [(startLanguage_sc r as).2]

theorem onScene_keys {r r' : Rd} {id : Str} {f : Scene → Scene} (h : r.onScene id f = .ok r') : r'.novel.scenes.keys = r.novel.scenes.keys := by
  unfold Rd.onScene at h
  split at h
  · cases h
    exact Dict.keys_modify _ _ _
  · exact nomatch h

theorem proofData_keys {r r' : Rd} {s : Str} (h : proofData r s = .ok r') : r'.novel.scenes.keys = r.novel.scenes.keys := by
  unfold proofData at h
  simp only at h
  split at h
  · cases h; rfl
  · split at h
    · split at h
      · cases h; rfl
      · exact nomatch h
    · split at h
      · split at h
        · split at h
          · split at h
            · rename_i h1
              cases h
              have := onScene_keys h1
              exact this
            · cases h
          · cases h; rfl
        · cases h; rfl
      · simp only [Except.ok.injEq] at h
        subst h
        split <;> rfl

theorem proof_keys {r r' : Rd} {c : Call} (h : proofReader r c = .ok r') : r'.novel.scenes.keys = r.novel.scenes.keys := by
  cases c with
  | start t as =>
    simp only [proofReader, proofStart, Except.ok.injEq] at h
    subst h
    repeat' first
      | rfl
      | (rw [startLanguage_keys]; rfl)
      | (rw [startLanguage_keys])
      | (rw [(startBody_sc r as).2])
      | split
  | stop t =>
    simp only [proofReader, proofStop, Except.ok.injEq] at h
    subst h
    repeat' first
      | rfl
      | (rw [stopLanguage_eq]; rfl)
      | (rw [stopLanguage_eq])
      | split
  | data s => exact proofData_keys h
  | comment s =>
    simp only [proofReader, Rd.baseComment, Except.ok.injEq] at h
    subst h
    split <;> rfl

theorem proofIn_eq {K : List Str} {r : Rd} (h : r.novel.scenes.keys = K) (c : Call) : proofIn K r c = proofReader r c := by
  cases c <;> first | rfl | exact proofDataIn_eq h _

theorem proofIn_run {K : List Str} {r : Rd} (h : r.novel.scenes.keys = K) (cs : List Call) : (proofIn K).run r cs = Reader.run proofReader r cs := by
  induction cs generalizing r with
  | nil => rfl
  | cons c cs ih =>
    simp only [Reader.run, proofIn_eq h, Bind.bind, Except.bind]
    cases e : proofReader r c with
    | error x => rfl
    | ok r1 => exact ih ((proof_keys e).trans h)

theorem proofRun_keys {r r' : Rd} {cs : List Call} (h : Reader.run proofReader r cs = .ok r') : r'.novel.scenes.keys = r.novel.scenes.keys := by
  induction cs generalizing r with
  | nil => cases h; rfl
  | cons c cs ih =>
    simp only [Reader.run, Bind.bind, Except.bind] at h
    cases e : proofReader r c with
    | error x => simp only [e] at h; exact nomatch h
    | ok r1 =>
      simp only [e] at h
      rw [ih h, proof_keys e]

theorem readProof_eq (f : OdtFile) (n : Novel) : readOdt (proofIn n.scenes.keys) f n = readOdt proofReader f n := by
  simp only [readOdt, Bind.bind, Except.bind]
  cases feedFile f with
  | error e => rfl
  | ok cs => simp only [proofIn_run (r := { novel := n }) rfl]

theorem readProof_keys {f : OdtFile} {n m : Novel} (h : readOdt proofReader f n = .ok m) : m.scenes.keys = n.scenes.keys := by
  simp only [readOdt, Bind.bind, Except.bind] at h
  cases e : feedFile f with
  | error x => simp only [e] at h; exact nomatch h
  | ok cs =>
    simp only [e] at h
    cases e1 : Reader.run proofReader { novel := n } cs with
    | error x => simp only [e1] at h; exact nomatch h
    | ok r =>
      simp only [e1] at h
      cases h
      exact proofRun_keys e1

theorem proof_twice {f : OdtFile} {n m : Novel} (hs : n.scenes.keys.Nodup) (hc : n.chapters.keys.Nodup) (he : readOdt proofReader f n = .ok m) :
    readOdt proofReader f { m with languages := n.languages } = .ok m := by
  have h1 := readOdt_twice (proof_tracks n.scenes.keys) (fun _ => trivial) (f := f) hs hc ((readProof_eq f n).trans he)
  rw [← readProof_eq]
  rw [show ({ m with languages := n.languages } : Novel).scenes.keys = n.scenes.keys from (readProof_keys he : m.scenes.keys = n.scenes.keys)]
  exact h1

end Verif.Twice
