/-
The readers of documents with marks work on their part of the project only: what they do does not depend on the rest, and the rest stays.
-/
import Verif.Lemmas.Twice6

namespace Verif.Order
open Verif

/-- The texts of the first novel with the rest of the second one. -/
def texts (x n : Novel) : Novel :=
  { x with scenes := n.scenes, chapters := n.chapters, srtChapters := n.srtChapters, languages := n.languages,
           languageCode := n.languageCode, countryCode := n.countryCode }

/-- The characters of the second novel with the rest of the first one. -/
def chars (x n : Novel) : Novel := { x with characters := n.characters, srtCharacters := n.srtCharacters }

/-- The locations of the second novel with the rest of the first one. -/
def locs (x n : Novel) : Novel := { x with locations := n.locations, srtLocations := n.srtLocations }

/-- The items of the second novel with the rest of the first one. -/
def itms (x n : Novel) : Novel := { x with items := n.items, srtItems := n.srtItems }

/-- The reader at work on another novel. -/
def via (T : Novel → Novel) (r : Rd) : Rd := { r with novel := T r.novel }

/-- A step that gives the same on the other novel. -/
def Stays (T : Novel → Novel) (f g : Except Exc Rd) : Prop := f = g.map (via T)

theorem Stays.bind {T : Novel → Novel} {f g : Except Exc Rd} {k l : Rd → Except Exc Rd} (h : Stays T f g) (hk : ∀ r, Stays T (k (via T r)) (l r)) :
    Stays T (f >>= k) (g >>= l) := by
  unfold Stays at *
  rw [h]
  cases g with
  | error e => rfl
  | ok r => exact hk r

theorem Stays.ok {T : Novel → Novel} {a b : Rd} (h : a = via T b) : Stays T (.ok a) (.ok b) := by rw [h]; rfl
theorem Stays.error {T : Novel → Novel} (e : Exc) : Stays T (.error e) (.error e) := rfl

theorem Stays.ite {T : Novel → Novel} {c : Prop} [Decidable c] {a b a' b' : Except Exc Rd} (h : Stays T a a') (h' : Stays T b b') :
    Stays T (if c then a else b) (if c then a' else b') := by
  split
  · exact h
  · exact h'

theorem via_ite {T : Novel → Novel} {c : Prop} [Decidable c] {a b a' b' : Rd} (h : a = via T a') (h' : b = via T b') :
    (if c then a else b) = via T (if c then a' else b') := by
  split
  · exact h
  · exact h'

theorem run_stays {T : Novel → Novel} {h : Reader} (hh : ∀ r c, Stays T (h (via T r) c) (h r c)) :
    ∀ cs r, Stays T (h.run (via T r) cs) (h.run r cs)
  | [], r => Stays.ok rfl
  | c :: cs, r => Stays.bind (hh r c) (fun r => run_stays hh cs r)

theorem read_stays {T : Novel → Novel} {h : Reader} (hh : ∀ r c, Stays T (h (via T r) c) (h r c)) (f : OdtFile) (n : Novel) :
    readOdt h f (T n) = (readOdt h f n).map T := by
  unfold readOdt
  cases feedFile f with
  | error e => rfl
  | ok cs =>
    show (h.run { novel := T n } cs >>= fun r => Except.ok r.novel) = _
    have := run_stays hh cs { novel := n }
    unfold Stays at this
    rw [show ({ novel := T n } : Rd) = via T { novel := n } from rfl, this]
    show _ = Except.map T (h.run { novel := n } cs >>= fun r => Except.ok r.novel)
    cases h.run { novel := n } cs <;> rfl

/-! ### Texts -/

variable (x : Novel)

theorem onScene_stays (r : Rd) (id : Str) (F G : Scene → Scene) (hF : F = G) : Stays (texts x) (Rd.onScene (via (texts x) r) id F) (Rd.onScene r id G) := by
  subst hF
  unfold Rd.onScene
  show Stays _ (if r.novel.scenes.has id then _ else _) _
  split <;> rfl

theorem onChapter_stays (r : Rd) (id : Str) (F : Chapter → Chapter) : Stays (texts x) (Rd.onChapter (via (texts x) r) id F) (Rd.onChapter r id F) := by
  unfold Rd.onChapter
  show Stays _ (if r.novel.chapters.has id then _ else _) _
  split <;> rfl

theorem ensureScene_stays (r : Rd) (id : Str) : Stays (texts x) (Rd.ensureScene (via (texts x) r) id) (Rd.ensureScene r id) := by
  obtain ⟨nv, lines, scId, chId, lang, skip, elId, sect, cc, sc, hd⟩ := r
  unfold Rd.ensureScene Rd.listScene
  show Stays _ (if nv.scenes.has id then _ else _) (if nv.scenes.has id then _ else _)
  split
  · rfl
  · cases chId with
    | none => rfl
    | some c =>
      unfold Rd.onChapter
      show Stays _ (if nv.chapters.has c then _ else _) (if nv.chapters.has c then _ else _)
      split <;> rfl

theorem startScene_stays (type : Nat) (r : Rd) (name : Str) : Stays (texts x) (Rd.startScene type (via (texts x) r) name) (Rd.startScene type r name) := by
  unfold Rd.startScene
  cases Rd.firstNumber name with
  | error e => rfl
  | ok id => exact Stays.bind (ensureScene_stays x { r with scId := some id } id) (fun r => onScene_stays x r id _ _ rfl)

theorem ensureChapter_stays (r : Rd) (id : Str) : Rd.ensureChapter (via (texts x) r) id = via (texts x) (Rd.ensureChapter r id) := by
  unfold Rd.ensureChapter
  show (if r.novel.chapters.has id then _ else _) = _
  split <;> rfl

theorem startChapter_stays (type : Nat) (r : Rd) (name : Str) :
    Stays (texts x) (Rd.startChapter type (via (texts x) r) name) (Rd.startChapter type r name) := by
  unfold Rd.startChapter
  cases Rd.firstNumber name with
  | error e => rfl
  | ok id =>
    show Stays _ (Rd.onChapter (Rd.ensureChapter (via (texts x) { r with chId := some id }) id) id _) (Rd.onChapter (Rd.ensureChapter { r with chId := some id } id) id _)
    rw [ensureChapter_stays]
    exact onChapter_stays x _ id _

theorem baseStart_stays (type : Nat) (r : Rd) (tag : Str) (as : List (Str × Option Str)) :
    Stays (texts x) (Rd.baseStart type (via (texts x) r) tag as) (Rd.baseStart type r tag as) := by
  unfold Rd.baseStart
  split
  · cases as with
    | nil => rfl
    | cons a as =>
      show Stays _ (if a.1 = c!"id" then _ else _) (if a.1 = c!"id" then _ else _)
      split
      · split
        · exact startScene_stays x type r _
        · split
          · exact startChapter_stays x type r _
          · rfl
      · rfl
  · split <;> rfl

theorem baseComment_via (T : Novel → Novel) (r : Rd) (s : Str) : (via T r).baseComment s = via T (r.baseComment s) := by
  unfold Rd.baseComment
  show (if r.scId.isSome then _ else _) = _
  split <;> rfl

theorem startLanguage_stays (r : Rd) (as : List (Str × Option Str)) : Rd.startLanguage (via (texts x) r) as = via (texts x) (Rd.startLanguage r as) := by
  unfold Rd.startLanguage
  rcases as with _ | ⟨⟨k, _ | l⟩, as⟩
  · rfl
  · rfl
  · show (if k = c!"lang" then _ else _) = via _ (if k = c!"lang" then _ else _)
    split <;> rfl

theorem stopLanguage_via (T : Novel → Novel) (r : Rd) : Rd.stopLanguage (via T r) = via T (Rd.stopLanguage r) := by
  unfold Rd.stopLanguage
  show (if r.language = [] then _ else _) = _
  split <;> rfl

theorem startBody_stays : ∀ (as : List (Str × Option Str)) (r : Rd), Rd.startBody (via (texts x) r) as = via (texts x) (Rd.startBody r as)
  | [], _ => rfl
  | (k, v) :: as, r => by
    rw [Rd.startBody.eq_def, Rd.startBody.eq_def]
    dsimp only
    rcases v with _ | _ | ⟨c, v⟩
    · exact startBody_stays as r
    · exact startBody_stays as r
    · by_cases h1 : k = c!"language"
      · subst h1
        exact startBody_stays as { r with novel := { r.novel with languageCode := some (c :: v) } }
      · by_cases h2 : k = c!"country"
        · subst h2
          exact startBody_stays as { r with novel := { r.novel with countryCode := some (c :: v) } }
        · simp only [h1, h2, ↓reduceIte]
          exact startBody_stays as r

theorem push_via (T : Novel → Novel) (r : Rd) (s : Str) : (via T r).push s = via T (r.push s) := rfl

theorem msComment_stays (r : Rd) (s : Str) : msComment (via (texts x) r) s = via (texts x) (msComment r s) := by
  obtain ⟨nv, lines, scId, chId, lang, skip, elId, sect, cc, sc, hd⟩ := r
  unfold msComment
  cases scId with
  | none => rfl
  | some id =>
    show (if Str.contains s c!"~" then _ else _) = via _ (if Str.contains s c!"~" then _ else _)
    split
    · rcases e : Rd.titleOfComment s with _ | t <;> simp only [e] <;> rfl
    · rfl

theorem title_stays (r : Rd) (blank : Option Str → Prop) [DecidablePred blank] (s : Str) :
    Stays (texts x)
      (match (via (texts x) r).chId with
        | none => .ok (via (texts x) r)
        | some id =>
          match (via (texts x) r).novel.chapters.get? id with
          | none => .error .keyError
          | some ch => if blank ch.title then (via (texts x) r).onChapter id (fun ch => { ch with title := some (Str.strip s) })
            else .ok (via (texts x) r))
      (match r.chId with
        | none => .ok r
        | some id =>
          match r.novel.chapters.get? id with
          | none => .error .keyError
          | some ch => if blank ch.title then r.onChapter id (fun ch => { ch with title := some (Str.strip s) }) else .ok r) := by
  obtain ⟨nv, lines, scId, chId, lang, skip, elId, sect, cc, sc, hd⟩ := r
  cases chId with
  | none => rfl
  | some id =>
    show Stays _ (match nv.chapters.get? id with | none => _ | some ch => _) (match nv.chapters.get? id with | none => _ | some ch => _)
    cases nv.chapters.get? id with
    | none => rfl
    | some ch =>
      dsimp only
      split
      · exact onChapter_stays x ⟨nv, lines, scId, some id, lang, skip, elId, sect, cc, sc, hd⟩ id _
      · rfl

theorem msData_stays (r : Rd) (s : Str) : Stays (texts x) (msData (via (texts x) r) s) (msData r s) := by
  unfold msData
  show Stays _ (if r.skipData then _ else if r.scId.isSome then _ else _) (if r.skipData then _ else if r.scId.isSome then _ else _)
  split
  · rfl
  · split
    · exact Stays.ok (by split <;> rfl)
    · exact title_stays x r (fun t => t.isNone = true) s

theorem msStop_stays (r : Rd) (tag : Str) : Stays (texts x) (msStop (via (texts x) r) tag) (msStop r tag) := by
  obtain ⟨nv, lines, scId, chId, lang, skip, elId, sect, cc, sc, hd⟩ := r
  unfold msStop
  cases scId with
  | some id =>
    simp only [via]
    repeat' split
    · exact Stays.ok (by
        rw [show (⟨texts x nv, lines, some id, chId, lang, skip, elId, sect, cc, sc, hd⟩ : Rd) = via (texts x) ⟨nv, lines, some id, chId, lang, skip, elId, sect, cc, sc, hd⟩ from rfl, stopLanguage_via]; rfl)
    · rfl
    · rfl
    · exact Stays.ok (stopLanguage_via _ ⟨nv, lines, some id, chId, lang, skip, elId, sect, cc, sc, hd⟩)
    · exact Stays.bind (onScene_stays x ⟨nv, lines, some id, chId, lang, skip, elId, sect, cc, sc, hd⟩ id _ _ rfl) (fun _ => rfl)
    · rfl
    · rfl
  | none => exact Stays.ite rfl rfl

theorem msStart_stays (type : Nat) (r : Rd) (tag : Str) (as : List (Str × Option Str)) :
    Stays (texts x) (msStart type (via (texts x) r) tag as) (msStart type r tag as) := by
  unfold msStart
  refine Stays.bind (baseStart_stays x type r tag as) (fun r => ?_)
  show Stays _ (if r.scId.isSome then _ else _) (if r.scId.isSome then _ else _)
  repeat' split
  all_goals first
    | rfl
    | exact Stays.ok (startLanguage_stays x r as)
    | exact Stays.ok (startLanguage_stays x (r.push _) as)
    | exact Stays.ok (startBody_stays x as r)

theorem manuscript_stays (type : Nat) (r : Rd) (c : Call) : Stays (texts x) (manuscriptReader type (via (texts x) r) c) (manuscriptReader type r c) := by
  cases c with
  | start t as => exact msStart_stays x type r t as
  | stop t => exact msStop_stays x r t
  | data s => exact msData_stays x r s
  | comment s => exact Stays.ok (msComment_stays x r s)

theorem proofData_stays (r : Rd) (s : Str) : Stays (texts x) (proofData (via (texts x) r) s) (proofData r s) := by
  obtain ⟨nv, lines, scId, chId, lang, skip, elId, sect, cc, kk, hd⟩ := r
  unfold proofData
  dsimp only
  simp only [via]
  refine Stays.ite rfl (Stays.ite ?_ (Stays.ite ?_ ?_))
  · cases Rd.firstNumber s <;> rfl
  · cases scId with
    | none => rfl
    | some id =>
      dsimp only
      show Stays _ (if nv.scenes.has id then _ else _) (if nv.scenes.has id then _ else _)
      split
      · have h := onScene_stays x (Rd.mk nv lines (some id) chId lang skip elId sect cc kk hd) id (fun a => a.setContent (Str.strip ((via (texts x) (Rd.mk nv lines (some id) chId lang skip elId sect cc kk hd)).cleanupScene (via (texts x) (Rd.mk nv lines (some id) chId lang skip elId sect cc kk hd)).text)))
          (fun a => a.setContent (Str.strip ((Rd.mk nv lines (some id) chId lang skip elId sect cc kk hd).cleanupScene (Rd.mk nv lines (some id) chId lang skip elId sect cc kk hd).text))) rfl
        unfold Stays at h
        simp only [via] at h
        rw [h]
        cases (Rd.mk nv lines (some id) chId lang skip elId sect cc kk hd).onScene id (fun a => a.setContent (Str.strip ((Rd.mk nv lines (some id) chId lang skip elId sect cc kk hd).cleanupScene (Rd.mk nv lines (some id) chId lang skip elId sect cc kk hd).text))) <;> rfl
      · rfl
  · exact Stays.ok (via_ite rfl rfl)

theorem proofStop_stays (r : Rd) (tag : Str) : proofStop (via (texts x) r) tag = via (texts x) (proofStop r tag) := by
  unfold proofStop
  exact via_ite (stopLanguage_via (texts x) (r.push c!"\n")) (via_ite rfl (via_ite rfl (via_ite (stopLanguage_via _ r) rfl)))

theorem proofStart_stays (r : Rd) (tag : Str) (as : List (Str × Option Str)) : proofStart (via (texts x) r) tag as = via (texts x) (proofStart r tag as) := by
  unfold proofStart
  exact via_ite rfl (via_ite rfl (via_ite (startLanguage_stays x r as) (via_ite rfl (via_ite rfl (via_ite rfl
    (via_ite (startLanguage_stays x (r.push c!"> ") as) (via_ite (startBody_stays x as r) (via_ite rfl (via_ite rfl rfl)))))))))

theorem proof_stays (r : Rd) (c : Call) : Stays (texts x) (proofReader (via (texts x) r) c) (proofReader r c) := by
  cases c with
  | start t as => exact Stays.ok (proofStart_stays x r t as)
  | stop t => exact Stays.ok (proofStop_stays x r t)
  | data s => exact proofData_stays x r s
  | comment s => exact Stays.ok (baseComment_via _ r s)

theorem sdData_stays (r : Rd) (s : Str) : Stays (texts x) (sdData (via (texts x) r) s) (sdData r s) := by
  unfold sdData
  show Stays _ (if r.scId.isSome then _ else _) _
  split
  · rfl
  · exact title_stays x r (fun t => isBlankField t = true) s

theorem sdStop_stays (r : Rd) (tag : Str) : Stays (texts x) (sdStop (via (texts x) r) tag) (sdStop r tag) := by
  obtain ⟨nv, lines, scId, chId, lang, skip, elId, sect, cc, sc, hd⟩ := r
  unfold sdStop
  cases scId with
  | some id =>
    simp only [via]
    split
    rotate_left
    · split <;> rfl
    · exact Stays.bind (onScene_stays x ⟨nv, lines, some id, chId, lang, skip, elId, sect, cc, sc, hd⟩ id _ _ rfl) (fun _ => rfl)
  | none => exact Stays.ite rfl rfl

theorem sceneDesc_stays (r : Rd) (c : Call) : Stays (texts x) (sceneDescReader (via (texts x) r) c) (sceneDescReader r c) := by
  cases c with
  | start t as => exact baseStart_stays x 0 r t as
  | stop t => exact sdStop_stays x r t
  | data s => exact sdData_stays x r s
  | comment s => exact Stays.ok (baseComment_via _ r s)

theorem cdStop_stays (r : Rd) (tag : Str) : Stays (texts x) (cdStop (via (texts x) r) tag) (cdStop r tag) := by
  obtain ⟨nv, lines, scId, chId, lang, skip, elId, sect, cc, sc, hd⟩ := r
  unfold cdStop
  cases chId with
  | none => rfl
  | some id =>
    simp only [via]
    repeat' split
    · exact Stays.bind (onChapter_stays x ⟨nv, lines, scId, some id, lang, skip, elId, sect, cc, sc, hd⟩ id _) (fun _ => rfl)
    · rfl
    · exact Stays.bind (onChapter_stays x ⟨nv, lines, scId, some id, lang, skip, elId, sect, cc, sc, hd⟩ id _) (fun _ => rfl)
    · rfl

theorem chapterDesc_stays (r : Rd) (c : Call) : Stays (texts x) (chapterDescReader (via (texts x) r) c) (chapterDescReader r c) := by
  cases c with
  | start t as => exact baseStart_stays x 0 r t as
  | stop t => exact cdStop_stays x r t
  | data s =>
    refine Stays.ok ?_
    show (if r.chId.isSome then _ else _) = _
    split <;> rfl
  | comment s => exact Stays.ok (baseComment_via _ r s)

theorem split_stays (n : Novel) : splitScenes (texts x n) = (splitScenes n).map (fun p => (texts x p.1, p.2)) := by
  unfold splitScenes
  show (match foldE splitChapter { scenes := n.scenes, chapters := n.chapters } n.srtChapters with | .error e => _ | .ok st => _) = _
  cases foldE splitChapter { scenes := n.scenes, chapters := n.chapters } n.srtChapters <;> rfl

theorem formatted_stays {h : Reader} (hh : ∀ r c, Stays (texts x) (h (via (texts x) r) c) (h r c)) (f : OdtFile) (n : Novel) :
    readFormatted h f (texts x n) = (readFormatted h f n).map (fun p => (texts x p.1, p.2)) := by
  unfold readFormatted
  rw [show ({ texts x n with languages := some [] } : Novel) = texts x { n with languages := some [] } from rfl, read_stays hh]
  cases readOdt h f { n with languages := some [] } with
  | error e => rfl
  | ok m => exact split_stays x m

/-! ### Characters -/

theorem crStart_stays (r : Rd) (tag : Str) (as : List (Str × Option Str)) : Stays (chars x) (crStart (via (chars x) r) tag as) (crStart r tag as) := by
  obtain ⟨nv, lines, scId, chId, lang, skip, elId, sect, cc, sc, hd⟩ := r
  unfold crStart
  refine Stays.ite ?_ (Stays.ite rfl rfl)
  cases as with
  | nil => rfl
  | cons a as =>
    dsimp only
    refine Stays.ite (Stays.ite ?_ (Stays.ite rfl (Stays.ite rfl (Stays.ite rfl rfl)))) rfl
    cases Rd.firstNumber (a.2.getD []) with
    | error e => rfl
    | ok id =>
      refine Stays.ok ?_
      by_cases h : nv.characters.has id = true
      · have h' : (chars x nv).characters.has id = true := h
        simp only [via, h, h', ↓reduceIte]
      · have h' : ¬ (chars x nv).characters.has id = true := h
        simp only [via, h, h', ↓reduceIte]
        rfl

theorem crStop_stays (r : Rd) (tag : Str) : Stays (chars x) (crStop (via (chars x) r) tag) (crStop r tag) := by
  obtain ⟨nv, lines, scId, chId, lang, skip, elId, sect, cc, sc, hd⟩ := r
  unfold crStop
  cases elId with
  | none => rfl
  | some id =>
    refine Stays.ite ?_ (Stays.ite rfl rfl)
    cases sect with
    | none => rfl
    | some s => exact Stays.ite rfl rfl

theorem characters_stays (r : Rd) (c : Call) : Stays (chars x) (charactersReader (via (chars x) r) c) (charactersReader r c) := by
  cases c with
  | start t as => exact crStart_stays x r t as
  | stop t => exact crStop_stays x r t
  | data s =>
    refine Stays.ok ?_
    show (if r.sect.isSome then _ else _) = _
    split <;> rfl
  | comment s => exact Stays.ok (baseComment_via _ r s)

/-! ### Locations and items -/

/-- The other novel keeps what the reader works on. -/
structure Fits (w : WorldKind) (T : Novel → Novel) : Prop where
  get : ∀ n, w.get (T n) = w.get n
  put : ∀ n d, w.put (T n) d = T (w.put n d)
  add : ∀ n id, w.add (T n) id = T (w.add n id)

theorem locs_fits : Fits locationKind (locs x) := ⟨fun _ => rfl, fun _ _ => rfl, fun _ _ => rfl⟩
theorem itms_fits : Fits itemKind (itms x) := ⟨fun _ => rfl, fun _ _ => rfl, fun _ _ => rfl⟩

theorem weStart_stays {w : WorldKind} {T : Novel → Novel} (hT : Fits w T) (r : Rd) (tag : Str) (as : List (Str × Option Str)) :
    Stays T (weStart w (via T r) tag as) (weStart w r tag as) := by
  unfold weStart
  split
  · cases as with
    | nil => rfl
    | cons a as =>
      dsimp only
      split
      · cases Rd.firstNumber (a.2.getD []) with
        | error e => rfl
        | ok id =>
          refine Stays.ok ?_
          show ({ via T r with novel := if (w.get (T r.novel)).has id then T r.novel else w.put (w.add (T r.novel) id) ((w.get (T r.novel)).set id {}), elId := some id } : Rd)
            = via T { r with novel := if (w.get r.novel).has id then r.novel else w.put (w.add r.novel id) ((w.get r.novel).set id {}), elId := some id }
          rw [hT.get, hT.add, hT.put]
          split <;> rfl
      · rfl
  · split <;> rfl

theorem weStop_stays {w : WorldKind} {T : Novel → Novel} (hT : Fits w T) (r : Rd) (tag : Str) : Stays T (weStop w (via T r) tag) (weStop w r tag) := by
  obtain ⟨nv, lines, scId, chId, lang, skip, elId, sect, cc, sc, hd⟩ := r
  unfold weStop
  cases elId with
  | none => rfl
  | some id =>
    refine Stays.ite ?_ (Stays.ite rfl rfl)
    show Stays T (if (w.get (T nv)).has id = true then Except.ok ⟨w.put (T nv) ((w.get (T nv)).modify id _), [], scId, chId, lang, skip, none, sect, cc, sc, hd⟩
      else .error .keyError) _
    rw [hT.get, hT.put]
    exact Stays.ite rfl rfl

theorem world_stays {w : WorldKind} {T : Novel → Novel} (hT : Fits w T) (r : Rd) (c : Call) :
    Stays T (worldReader w (via T r) c) (worldReader w r c) := by
  cases c with
  | start t as => exact weStart_stays hT r t as
  | stop t => exact weStop_stays hT r t
  | data s =>
    refine Stays.ok ?_
    show (if r.elId.isSome then _ else _) = _
    split <;> rfl
  | comment s => exact Stays.ok (baseComment_via _ r s)

/-! ### Lists -/

theorem charList_stays (root : XNode) (n : Novel) : readCharList root (chars x n) = (readCharList root n).map (chars x) := by
  unfold readCharList
  cases readTable charTitles.length root with
  | error e => rfl
  | ok rows =>
    show (rowsLoop c!"CrID:" {} charFromRow rows (n.characters, []) >>= _) = Except.map _ (rowsLoop c!"CrID:" {} charFromRow rows (n.characters, []) >>= _)
    cases rowsLoop c!"CrID:" {} charFromRow rows (n.characters, []) <;> rfl

theorem locList_stays (root : XNode) (n : Novel) : readLocList root (locs x n) = (readLocList root n).map (locs x) := by
  unfold readLocList
  cases readTable worldTitles.length root with
  | error e => rfl
  | ok rows =>
    show (rowsLoop c!"LcID:" {} worldFromRow rows (n.locations, []) >>= _) = Except.map _ (rowsLoop c!"LcID:" {} worldFromRow rows (n.locations, []) >>= _)
    cases rowsLoop c!"LcID:" {} worldFromRow rows (n.locations, []) <;> rfl

theorem itemList_stays (root : XNode) (n : Novel) : readItemList root (itms x n) = (readItemList root n).map (itms x) := by
  unfold readItemList
  cases readTable worldTitles.length root with
  | error e => rfl
  | ok rows =>
    show (rowsLoop c!"ItID:" {} worldFromRow rows (n.items, []) >>= _) = Except.map _ (rowsLoop c!"ItID:" {} worldFromRow rows (n.items, []) >>= _)
    cases rowsLoop c!"ItID:" {} worldFromRow rows (n.items, []) <;> rfl

theorem sceneList_stays (root : XNode) (n : Novel) : readSceneList root (texts x n) = (readSceneList root n).map (texts x) := by
  unfold readSceneList
  cases readTable sceneTitles.length root with
  | error e => rfl
  | ok rows =>
    show (rowsLoop c!"ScID:" {} sceneFromRow rows (n.scenes, []) >>= _) = Except.map _ (rowsLoop c!"ScID:" {} sceneFromRow rows (n.scenes, []) >>= _)
    cases rowsLoop c!"ScID:" {} sceneFromRow rows (n.scenes, []) <;> rfl

end Verif.Order
