/-
What `read` makes of the project node and the project variables.
-/
import Verif.Lemmas.Yw7Vars
import Verif.Props.C39_SceneTypes

namespace Verif
open Xml Elem Spec

theorem readTree_project {lib : PyLib} {x : Elem} {m : Novel} (hm : readTree lib x = .ok m) :
    ∃ pe q, find c!"PROJECT" x.kids = some pe ∧ q = readProject lib {} pe.kids ∧
      m.title = q.title ∧ m.desc = q.desc ∧ m.authorName = q.authorName ∧ m.authorBio = q.authorBio ∧
      m.fieldTitle1 = q.fieldTitle1 ∧ m.fieldTitle2 = q.fieldTitle2 ∧ m.fieldTitle3 = q.fieldTitle3 ∧
      m.fieldTitle4 = q.fieldTitle4 ∧ m.wordTarget = q.wordTarget ∧ m.wordCountStart = q.wordCountStart ∧
      m.kwVar = q.kwVar ∧
      (m.languageCode, m.countryCode, m.languages) = readVars (q.languageCode, q.countryCode, none)
        (match find c!"PROJECTVARS" x.kids with | none => [] | some e => e.kids) := by
  unfold readTree readRoot at hm
  simp only [bind, Except.bind] at hm
  cases hp : find c!"PROJECT" x.kids with
  | none => rw [hp] at hm; cases hm
  | some pe =>
  rw [hp] at hm; simp only at hm
  cases hl : readSection c!"LOCATIONS" (fun ks => .ok (readWorld ks)) (readProject lib {} pe.kids).locations x.kids with
  | error e => rw [hl] at hm; cases hm
  | ok l =>
  rw [hl] at hm; simp only at hm
  cases hi : readSection c!"ITEMS" (fun ks => .ok (readWorld ks)) (readProject lib {} pe.kids).items x.kids with
  | error e => rw [hi] at hm; cases hm
  | ok i =>
  rw [hi] at hm; simp only at hm
  cases hc : readSection c!"CHARACTERS" (fun ks => .ok (readCharacter ks)) (readProject lib {} pe.kids).characters x.kids with
  | error e => rw [hc] at hm; cases hm
  | ok c =>
  rw [hc] at hm; simp only at hm
  cases hs : readSection c!"SCENES" (readScene lib c.1 l.1 i.1) (readProject lib {} pe.kids).scenes x.kids with
  | error e => rw [hs] at hm; cases hm
  | ok s =>
  rw [hs] at hm; simp only at hm
  cases hh : readSection c!"CHAPTERS" (fun ks => .ok (readChapter s.2.keys ks)) (readProject lib {} pe.kids).chapters x.kids with
  | error e => rw [hh] at hm; cases hm
  | ok h =>
  rw [hh] at hm; simp only at hm
  obtain ⟨e1, _, _⟩ := C39_effect _ _ hm
  refine ⟨pe, _, rfl, rfl, ?_⟩
  rw [e1]
  exact ⟨rfl, rfl, rfl, rfl, rfl, rfl, rfl, rfl, rfl, rfl, rfl, rfl⟩

theorem writeTree_ok {sl sc : Str} {n : Novel} {tree : Option Elem} {out x : Elem}
    (hw : writeTree sl sc n tree = .ok out) (hr : Reloaded out x) :
    ∃ rk, buildRoot sl sc (prepareNovel n) (tree.getD newRoot).kids = .ok rk ∧ ReloadedL rk x.kids := by
  unfold writeTree at hw
  simp only at hw
  cases hb : buildRoot sl sc (prepareNovel n) (tree.getD newRoot).kids with
  | error e => rw [hb] at hw; cases hw
  | ok rk =>
  rw [hb] at hw
  simp only [Except.ok.injEq] at hw
  subst hw
  have hr' := (reloaded_indent 0 _ _ hr).kids
  rw [Elem.kids_mapKids] at hr'
  exact ⟨rk, rfl, hr'⟩

end Verif
