/-
The export of data files: what a run does.
-/
import Verif.Lemmas.Samples2
import Verif.Lemmas.Convert2
import Verif.Props.C26_C28_Converter
import Verif.Props.C27_C42_Paths

namespace Verif
open Xml Elem Spec Prog Path

variable {ν : Type}

/-- The data files were made of the document in `s`. -/
def DataMade (env : Env ν) (s : Doc) (base : Str) (fs0 fs : FS) : Prop :=
  ∃ text x root t, fs0 (s.filePath.getD []) = some text ∧ env.parse s.cls text env.empty = .ok x ∧ env.tree none x.1 = .ok root ∧ dataSections root = .ok t ∧
    fs (base ++ c!"_Characters.xml") = some (fileText (env.hasChapters x.1) t.1) ∧ fs (base ++ c!"_Locations.xml") = some (fileText (env.hasChapters x.1) t.2.1) ∧
    fs (base ++ c!"_Items.xml") = some (fileText (env.hasChapters x.1) t.2.2)

theorem bind_split {α β : Type} {x : Except Exc α} {f : α → Except Exc β} {b : β} (h : x.bind f = .ok b) : ∃ a, x = .ok a ∧ f a = .ok b := by
  cases x with
  | error e => cases h
  | ok a => exact ⟨a, rfl, h⟩

theorem exportData_body (env : Env ν) (s t : Doc) (tp : Str) (ht : t.filePath = some tp) (fs0 : FS) (k : Nat) :
    Hoare (fun fs n => fs = fs0 ∧ n ≤ k) (do
      check env s t
      let n ← readDoc env s env.empty
      writeData env t n.1
      return false) (fun r fs _ => Outer (threePaths (splitext tp).1) fs0 fs ∧ (r.isOk = true → DataMade env s (splitext tp).1 fs0 fs ∧
        (s.cls = yw7Class → fs0 (s.filePath.getD [] ++ c!".lock") = none) ∧ (fs0 tp = none ∨ env.confirm tp = true))) := by
  have e0 : Outer (threePaths (splitext tp).1) fs0 fs0 := fun _ _ => rfl
  refine Hoare.bind (check_spec env s t fs0 k) ?_ ?_ ?_
  · intro _
    intro fs fl ⟨h1, h2, _, h3⟩
    obtain ⟨_, tp', htp, hc⟩ := h3 rfl
    rw [ht] at htp
    cases htp
    subst h1
    refine (Hoare.bind (P := fun f n => f = fs ∧ n ≤ k) (R := fun r f _ => Outer (threePaths (splitext tp).1) fs f ∧ (r.isOk = true → DataMade env s (splitext tp).1 fs f ∧
        (s.cls = yw7Class → fs (s.filePath.getD [] ++ c!".lock") = none) ∧ (fs tp = none ∨ env.confirm tp = true))) (readDoc_spec env s env.empty fs k) ?_ ?_ ?_) fs fl ⟨rfl, h2⟩
    · intro x f fl ⟨h4, h5, h6⟩
      obtain ⟨hlk, text, h7, h8⟩ := h6 x rfl
      have key := dataFilesWrite_spec tp (splitext tp).1 ((env.tree none x.1).bind dataSections) (env.hasChapters x.1) fs k
      have key' := (show dataFilesWrite tp (splitext tp).1 ((env.tree none x.1).bind dataSections) (env.hasChapters x.1) = writeData env t x.1 from by unfold writeData; rw [ht]; rfl) ▸ key
      refine (Hoare.bind (R := fun r f _ => Outer (threePaths (splitext tp).1) fs f ∧ (r.isOk = true → DataMade env s (splitext tp).1 fs f ∧
        (s.cls = yw7Class → fs (s.filePath.getD [] ++ c!".lock") = none) ∧ (fs tp = none ∨ env.confirm tp = true))) key' ?_ ?_ ?_) f fl ⟨h4, h5⟩
      · intro _
        refine Hoare.pure ?_
        rintro g n ⟨h9, h10⟩
        obtain ⟨tr, h11, h12, h13, h14⟩ := h10 rfl
        obtain ⟨root, h15, h16⟩ := bind_split h11
        exact ⟨h9, fun _ => ⟨⟨text, x, root, tr, h7, h8, h15, h16, h12, h13, h14⟩, hlk, hc⟩⟩
      · rintro e g n ⟨h9, _⟩; exact ⟨h9, by intro h; cases h⟩
      · rintro g n ⟨h9, _⟩; exact ⟨h9, by intro h; cases h⟩
    · rintro e f n ⟨rfl, _⟩; exact ⟨e0, by intro h; cases h⟩
    · rintro f n ⟨rfl, _⟩; exact ⟨e0, by intro h; cases h⟩
  · rintro e f n ⟨rfl, _⟩; exact ⟨e0, by intro h; cases h⟩
  · rintro f n ⟨rfl, _⟩; exact ⟨e0, by intro h; cases h⟩

/-- What an export of data files does, with any faults. -/
theorem exportData_spec (env : Env ν) (s t : Doc) (tp : Str) (ht : t.filePath = some tp) (fs0 : FS) (fl : List Fault) :
    Outer (threePaths (splitext tp).1) fs0 (exportData env s t fs0 fl).2.1 ∧ (∀ e, (exportData env s t fs0 fl).1 ≠ .err e) ∧
    ∀ o, (exportData env s t fs0 fl).1 = .ok o →
      (DataMade env s (splitext tp).1 fs0 (exportData env s t fs0 fl).2.1 ∧ (s.cls = yw7Class → fs0 (s.filePath.getD [] ++ c!".lock") = none) ∧
        (fs0 tp = none ∨ env.confirm tp = true) ∧ o.newFile = some tp ∧ o.how = c!"File written: \"" ++ env.norm tp ++ c!"\".") ∨
      (o.newFile = none ∧ ∃ m, o.how = c!"FAIL: " ++ m) := by
  have h := exportData_body env s t tp ht fs0 (faultCount fl) fs0 fl ⟨rfl, Nat.le_refl _⟩
  have e : exportData env s t fs0 fl = conclude env t (do
      check env s t
      let n ← readDoc env s env.empty
      writeData env t n.1
      return false) fs0 fl := rfl
  rw [e]
  generalize (do
      check env s t
      let n ← readDoc env s env.empty
      writeData env t n.1
      return false : Prog Bool) = body at h ⊢
  have ec : conclude env t body fs0 fl = (match body fs0 fl with
    | (.ok split, f, l) => (.ok { newFile := t.filePath, how := infoHow (c!"File written: \"" ++ env.norm (t.filePath.getD []) ++ c!"\"."), warned := split }, f, l)
    | (.err x, f, l) => (.ok { newFile := none, how := infoHow ('!' :: env.describe x) }, f, l)
    | (.crashed, f, l) => (.crashed, f, l)) := by
    unfold conclude Prog.tryExcept
    simp only [Bind.bind, Prog.bind]
    generalize body fs0 fl = x
    obtain ⟨r, f, l⟩ := x
    cases r <;> rfl
  rw [ec]
  generalize body fs0 fl = x at h ⊢
  obtain ⟨r, f, l⟩ := x
  cases r with
  | ok b =>
    obtain ⟨h1, h2, h3, h4⟩ := (⟨h.1, h.2 rfl⟩ : _ ∧ _ ∧ _ ∧ _)
    refine ⟨h1, (by intro e h; cases h), ?_⟩
    intro o ho
    injection ho with ho
    subst ho
    refine Or.inl ⟨h2, h3, h4, ht, ?_⟩
    rw [ht]
    exact infoHow_written _
  | err x =>
    refine ⟨h.1, (by intro e h; cases h), ?_⟩
    intro o ho
    injection ho with ho
    subst ho
    exact Or.inr ⟨rfl, _, infoHow_bang _⟩
  | crashed => exact ⟨h.1, (by intro e h; cases h), by intro o ho; cases ho⟩

theorem dataFilesWrite_ok (p base : Str) (t : Elem × Elem × Elem) (hc : Bool) (fs : FS) (h : fs (p ++ c!".lock") = none) :
    ∃ fs', dataFilesWrite p base (.ok t) hc fs [] = (.ok (), fs', []) := by
  have e1 : dataFilesWrite p base (.ok t) hc fs [] = (do
        writeDataFile (base ++ c!"_Characters.xml") t.1
        writeDataFile (base ++ c!"_Locations.xml") t.2.1
        writeDataFile (base ++ c!"_Items.xml") t.2.2
        postprocessFile (base ++ c!"_Characters.xml") hc
        postprocessFile (base ++ c!"_Locations.xml") hc
        postprocessFile (base ++ c!"_Items.xml") hc : Prog Unit) fs [] := by
    unfold dataFilesWrite
    show Prog.bind _ _ _ _ = _
    unfold Prog.bind isLocked isfile
    rw [h]; rfl
  have post : ∀ (L : Str → Prop) (q : Str), L q → Ok (Have L) (postprocessFile q hc) (fun _ => Have L) := by
    intro L q hq
    refine Ok.bind (Q := fun _ => Have L) (Ok.step ?_) fun t => Ok.tryExcept (Ok.mono (writeFile_ok L q _) (fun _ h => h) (fun _ _ h x hx => h x (Or.inr hx)))
    intro fs' h'
    cases hx : fs' q with
    | none => exact absurd hx (h' q hq)
    | some c => exact ⟨c, fs', rfl, h'⟩
  have key : Ok (Have (fun _ => False)) (do
        writeDataFile (base ++ c!"_Characters.xml") t.1
        writeDataFile (base ++ c!"_Locations.xml") t.2.1
        writeDataFile (base ++ c!"_Items.xml") t.2.2
        postprocessFile (base ++ c!"_Characters.xml") hc
        postprocessFile (base ++ c!"_Locations.xml") hc
        postprocessFile (base ++ c!"_Items.xml") hc : Prog Unit) (fun _ _ => True) := by
    refine Ok.bind (Ok.tryExcept (writeFile_ok _ _ _)) fun _ => ?_
    refine Ok.bind (Ok.tryExcept (writeFile_ok _ _ _)) fun _ => ?_
    refine Ok.bind (Ok.tryExcept (writeFile_ok _ _ _)) fun _ => ?_
    refine Ok.bind (post _ _ (Or.inr (Or.inr (Or.inl rfl)))) fun _ => ?_
    refine Ok.bind (post _ _ (Or.inr (Or.inl rfl))) fun _ => ?_
    exact Ok.mono (post _ _ (Or.inl rfl)) (fun _ h => h) (fun _ _ _ => trivial)
  obtain ⟨_, fs', e, _⟩ := key fs (fun _ h => h.elim)
  exact ⟨fs', e1.trans e⟩

/-- Without faults the export succeeds. -/
theorem exportData_ok (env : Env ν) (s t : Doc) (sp tp : Str) (x : ν × Bool) (root : Elem) (tr : Elem × Elem × Elem) (fs : FS)
    (hs : s.filePath = some sp) (ht : t.filePath = some tp) (hk : fs tp = none ∨ env.confirm tp = true) (hr : Readable env s env.empty x fs)
    (hw : env.tree none x.1 = .ok root) (hd : dataSections root = .ok tr) (hl : fs (tp ++ c!".lock") = none) :
    (exportData env s t fs []).1 = .ok { newFile := some tp, how := c!"File written: \"" ++ env.norm tp ++ c!"\"." } := by
  have hc := hr.2
  obtain ⟨text, hc, _⟩ := hc
  rw [hs] at hc
  have h1 := check_ok env s t sp tp text fs hs ht hc hk
  have h2 := readDoc_ok env s env.empty x fs hr
  obtain ⟨fs', h3⟩ := dataFilesWrite_ok tp (splitext tp).1 tr (env.hasChapters x.1) fs hl
  have h3 : writeData env t x.1 fs [] = (.ok (), fs', []) := by
    unfold writeData
    rw [ht, hw]
    show dataFilesWrite tp (splitext tp).1 (dataSections root) _ fs [] = _
    rw [hd]
    exact h3
  unfold exportData conclude Prog.tryExcept
  simp only [Bind.bind, Prog.bind, h1, h2, h3, ht]
  rfl

end Verif
