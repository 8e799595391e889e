/-
The way of a project through a document and back, for any environment of the converter.
-/
import Verif.Spec.Travel
import Verif.Props.C27_C42_Paths

namespace Verif
open Prog Spec Path

variable {ν : Type}

theorem archive_list {entry : Str → Str → Str} {files : List (Str × Str)} : ∀ {comps : List Str} {s : Str}, Archive entry files comps s →
    ∃ l : List (Str × Str), l.map (·.1) = comps ∧ (∀ p ∈ l, p ∈ files) ∧ s = (l.map fun e => entry e.1 e.2).flatten
  | [], s, h => ⟨[], rfl, (by intro p h; cases h), h⟩
  | n :: r, s, ⟨c, s', h1, h2, h3⟩ => by
    obtain ⟨l, g1, g2, g3⟩ := archive_list h3
    refine ⟨(n, c) :: l, by simp [g1], ?_, by simp [h2, g3]⟩
    intro p hp
    rcases List.mem_cons.1 hp with rfl | hp
    · exact h1
    · exact g2 p hp

theorem fst_inj {l : List (Str × Str)} (h : (l.map (·.1)).Nodup) {k a b : Str} (ha : (k, a) ∈ l) (hb : (k, b) ∈ l) : a = b := by
  induction l with
  | nil => cases ha
  | cons p r ih =>
    rw [List.map_cons, List.nodup_cons] at h
    rcases List.mem_cons.1 ha with ha | ha
    · rcases List.mem_cons.1 hb with hb | hb
      · rw [← ha] at hb; injection hb with _ hb; exact hb.symm
      · refine absurd (List.mem_map.2 ⟨_, hb, ?_⟩) h.1
        rw [← ha]
    · rcases List.mem_cons.1 hb with hb | hb
      · refine absurd (List.mem_map.2 ⟨_, ha, ?_⟩) h.1
        rw [← hb]
      · exact ih h.2 ha hb

/-- The components can be taken out of the written document. -/
theorem unzip_archive {zip : ZipFormat} {unzip : Str → Str → Option Str} (hz : ArchivesWork zip unzip) {files : List (Str × Str)} {comps : List Str} {s : Str}
    (h : Archive zip.entry files comps s) (hf : (files.map (·.1)).Nodup) (hc : comps.Nodup) {name t : Str} (hn : name ∈ comps) (ht : (name, t) ∈ files) :
    unzip (s ++ zip.directory comps) name = some t := by
  obtain ⟨l, h1, h2, h3⟩ := archive_list h
  rw [← h1] at hn hc
  obtain ⟨p, hp, rfl⟩ := List.mem_map.1 hn
  have := hz l hc p hp
  rw [h3, ← h1, this, fst_inj hf (h2 p hp) ht]

/-- The export of a project: what is in the document, and what is left alone. -/
theorem export_run (env : Env ν) (c : DocClass) (hc : c ∈ importSources) (base : Str) (hn : HasName base) (hb : '\\' ∉ base)
    (hd : ∀ e, ¬ InDir env.dir (base ++ e)) (fs : FS) (henv : ∀ c n, OdfComplete (env.odfFiles c n) (env.comps c))
    (s : Str) (hs : fs (base ++ c!".yw7") = some s) (hl : fs (base ++ c!".yw7.lock") = none)
    (hk : fs (base ++ c.ending) = none ∨ env.confirm (base ++ c.ending) = true)
    (x : ν × Bool) (hx : env.parse yw7Class s env.empty = .ok x) (f : OdfFiles) (hf : env.odfFiles c x.1 = .ok f) (t : Str) (ht : env.content c x.1 = .ok t) :
    ∃ fs', run env yw7Converter (base ++ c!".yw7") c.suffix fs [] =
        (.ok { newFile := some (base ++ c.ending), how := c!"File written: \"" ++ env.norm (base ++ c.ending) ++ c!"\"." }, fs', []) ∧
      OnlyTouches (InDir env.dir) (base ++ c.ending) fs fs' ∧
      ∃ a, Archive env.zip.entry (f ++ [(c!"content.xml", t)]) (env.comps c) a ∧ fs' (base ++ c.ending) = some (a ++ env.zip.directory (env.comps c)) := by
  have hpl : '\\' ∉ base ++ c!".yw7" := by rw [List.mem_append]; exact fun h => h.elim hb (by decide)
  have hsrc : exportSource (base ++ c!".yw7") = some ⟨yw7Class, some (base ++ c!".yw7")⟩ := by
    unfold exportSource
    have hsp : splitext (base ++ c!".yw7") = (base, c!".yw7") := splitext_append hn (by decide)
    rw [hsp, if_pos (show (base, c!".yw7").snd = yw7Class.ext from rfl), mkDoc_eq (by rw [slashes_id hpl]; exact ⟨base, rfl⟩), slashes_id hpl]
  have hne : c ≠ yw7Class := by
    rintro rfl
    exact absurd hc (by decide)
  let S : Doc := ⟨yw7Class, some (base ++ c!".yw7")⟩
  let T : Doc := ⟨c, some (base ++ c.ending)⟩
  have hrun : run env yw7Converter (base ++ c!".yw7") c.suffix fs [] = exportFromYw env S T fs [] := by
    unfold run plan
    rw [if_pos (by rw [hs]; rfl), hsrc]
    simp only []
    have : yw7Converter.targets = exportTargets := rfl
    rw [this, export_path c hc base hn hb]
  have h1 := check_ok env S T _ _ s fs rfl rfl hs hk
  have hl' : fs (base ++ c!".yw7" ++ c!".lock") = none := by rw [List.append_assoc]; exact hl
  have h2 := readDoc_ok env S env.empty x fs ⟨fun _ => hl', s, hs, hx⟩
  obtain ⟨fs', h3⟩ := writeDoc_ok env T none x.1 fs henv (fun _ => hd _) (Or.inr ⟨hne, ⟨f, hf⟩, t, ht⟩)
  have h4 : odfWrite env.zip env.dir (.ok f) (.ok t) (env.comps c) (base ++ c.ending) fs [] = (.ok (), fs', []) := by
    have h3' := h3
    unfold writeDoc at h3'
    rw [if_neg hne] at h3'
    rw [← hf, ← ht]; exact h3'
  have hcomp := henv c x.1
  rw [hf] at hcomp
  have hbk : ¬ InDir env.dir (base ++ c.ending ++ c!".bak") := by rw [List.append_assoc]; exact hd _
  refine ⟨fs', ?_, ?_, ?_⟩
  · rw [hrun]
    unfold exportFromYw conclude Prog.tryExcept
    simp only [Bind.bind, Prog.bind, h1, h2, h3]
    rfl
  · have := C24_odf_frame env.zip env.dir (.ok f) (.ok t) (env.comps c) (base ++ c.ending) (hd _) hbk hcomp fs []
    rw [h4] at this
    exact this
  · obtain ⟨⟨f', t', a, e1, e2, e3, e4⟩, _⟩ := C24_odf_success env.zip env.dir (.ok f) (.ok t) (env.comps c) (base ++ c.ending) (hd _) hbk hcomp fs [] (by rw [h4])
    cases e1; cases e2
    rw [h4] at e4
    exact ⟨a, e3, e4⟩

/-- The update of a project. -/
theorem writeback_run (env : Env ν) (c : DocClass) (hc : c ∈ importSources) (base : Str) (hn : HasName base) (hb : '\\' ∉ base)
    (hfree : ∀ s, c.suffix = some s → ¬ s <:+: base) (fs : FS) (henv : ∀ c n, OdfComplete (env.odfFiles c n) (env.comps c))
    (s a : Str) (hs : fs (base ++ c!".yw7") = some s) (ha : fs (base ++ c.ending) = some a) (hl : fs (base ++ c!".yw7.lock") = none)
    (hk : env.confirm (base ++ c!".yw7") = true)
    (x y : ν × Bool) (hx : env.parse yw7Class s env.empty = .ok x) (hy : env.parse c a x.1 = .ok y) (root : Elem) (hr : env.tree (some x.1) y.1 = .ok root)
    (suffix : Option Str) :
    ∃ fs', run env yw7Converter (base ++ c.ending) suffix fs [] =
        (.ok { newFile := some (base ++ c!".yw7"), how := c!"File written: \"" ++ env.norm (base ++ c!".yw7") ++ c!"\".", warned := y.2 }, fs', []) ∧
      OnlyTouches noTemp (base ++ c!".yw7") fs fs' ∧ fs' (base ++ c!".yw7") = some (fileText (env.hasChapters y.1) root) ∧
      fs' (base ++ c!".yw7.bak") = some s := by
  have hne : c ≠ yw7Class := by
    rintro rfl
    exact absurd hc (by decide)
  obtain ⟨doc, e1, e2⟩ := C27_partial c hc base hn hb hfree env.contentXml env.norm fs suffix (by rw [hs]; simp)
  rw [export_path c hc base hn hb] at e1
  injection e1 with e1; injection e1 with _ e1; injection e1 with e1
  subst e1
  let S : Doc := ⟨c, some (base ++ c.ending)⟩
  let T : Doc := ⟨yw7Class, some (base ++ c!".yw7")⟩
  have hrun : run env yw7Converter (base ++ c.ending) suffix fs [] = importToYw env S T fs [] := by
    unfold run
    rw [if_pos (by rw [ha]; rfl), e2]
  have hl' : fs (base ++ c!".yw7" ++ c!".lock") = none := by rw [List.append_assoc]; exact hl
  have h1 := check_ok env S T _ _ a fs rfl rfl ha (Or.inr hk)
  have h2 := readDoc_ok env T env.empty x fs ⟨fun _ => hl', s, hs, hx⟩
  have h4 := readDoc_ok env S x.1 y fs ⟨fun h => absurd h hne, a, ha, hy⟩
  obtain ⟨fs', h3⟩ := writeDoc_ok env T (some x.1) y.1 fs henv (fun h => absurd rfl h) (Or.inl ⟨rfl, hl', root, hr⟩)
  have h5 : yw7Write (base ++ c!".yw7") (.ok root) (env.hasChapters y.1) fs [] = (.ok (), fs', []) := by
    have h3' := h3
    unfold writeDoc at h3'
    rw [if_pos rfl, hr] at h3'
    exact h3'
  refine ⟨fs', ?_, ?_, ?_⟩
  · rw [hrun]
    unfold importToYw conclude Prog.tryExcept
    simp only [Bind.bind, Prog.bind, h1, h2, h3, h4]
    rfl
  · have := C24_yw7_frame (base ++ c!".yw7") (.ok root) (env.hasChapters y.1) fs []
    rw [h5] at this
    exact this
  · obtain ⟨root', q1, q2, q3⟩ := C24_yw7_success (base ++ c!".yw7") (.ok root) (env.hasChapters y.1) fs [] (by rw [h5])
    cases q1
    rw [h5] at q2 q3
    refine ⟨q2, ?_⟩
    have := q3 s hs
    rw [List.append_assoc] at this
    exact this

/-- The names of the project and of its lock file are not those of the document and its backup. -/
theorem other_names (c : DocClass) (hc : c ∈ importSources) (base : Str) :
    ∀ e ∈ [c!".yw7", c!".yw7.lock"], base ++ e ≠ base ++ c.ending ∧ base ++ e ≠ base ++ c.ending ++ c!".bak" := by
  have : ∀ c ∈ importSources, ∀ e ∈ [c!".yw7", c!".yw7.lock"], e ≠ c.ending ∧ e ≠ c.ending ++ c!".bak" := by decide +kernel
  intro e he
  have := this c hc e he
  rw [List.append_assoc]
  exact ⟨fun h => this.1 (List.append_cancel_left h), fun h => this.2 (List.append_cancel_left h)⟩

/-- Export and update in succession. -/
theorem travel_run (env : Env ν) (c : DocClass) (hc : c ∈ importSources) (base : Str) (hn : HasName base) (hb : '\\' ∉ base)
    (hfree : ∀ s, c.suffix = some s → ¬ s <:+: base)
    (hd : ∀ e, ¬ InDir env.dir (base ++ e)) (fs : FS) (henv : ∀ c n, OdfComplete (env.odfFiles c n) (env.comps c))
    (s : Str) (hs : fs (base ++ c!".yw7") = some s) (hl : fs (base ++ c!".yw7.lock") = none) (hk : ∀ p, env.confirm p = true)
    (x y : ν × Bool) (hx : env.parse yw7Class s env.empty = .ok x) (f : OdfFiles) (hf : env.odfFiles c x.1 = .ok f) (t : Str) (ht : env.content c x.1 = .ok t)
    (hy : ∀ a, Archive env.zip.entry (f ++ [(c!"content.xml", t)]) (env.comps c) a → env.parse c (a ++ env.zip.directory (env.comps c)) x.1 = .ok y)
    (root : Elem) (hr : env.tree (some x.1) y.1 = .ok root) (suffix : Option Str) :
    ∃ fs1 fs2, run env yw7Converter (base ++ c!".yw7") c.suffix fs [] =
        (.ok { newFile := some (base ++ c.ending), how := c!"File written: \"" ++ env.norm (base ++ c.ending) ++ c!"\"." }, fs1, []) ∧
      run env yw7Converter (base ++ c.ending) suffix fs1 [] =
        (.ok { newFile := some (base ++ c!".yw7"), how := c!"File written: \"" ++ env.norm (base ++ c!".yw7") ++ c!"\".", warned := y.2 }, fs2, []) ∧
      fs2 (base ++ c!".yw7") = some (fileText (env.hasChapters y.1) root) ∧ fs2 (base ++ c!".yw7.bak") = some s ∧
      ∀ q, ¬ InDir env.dir q → q ∉ [base ++ c!".yw7", base ++ c!".yw7.bak", base ++ c.ending, base ++ c.ending ++ c!".bak"] → fs2 q = fs q := by
  obtain ⟨fs1, r1, o1, a, ar, ha⟩ := export_run env c hc base hn hb hd fs henv s hs hl (Or.inr (hk _)) x hx f hf t ht
  have kept : ∀ e ∈ [c!".yw7", c!".yw7.lock"], fs1 (base ++ e) = fs (base ++ e) := fun e he =>
    o1 _ (hd _) (other_names c hc base e he).1 (other_names c hc base e he).2
  obtain ⟨fs2, r2, o2, g1, g2⟩ := writeback_run env c hc base hn hb hfree fs1 henv s _ (by rw [kept _ (by simp)]; exact hs) ha (by rw [kept _ (by simp)]; exact hl) (hk _)
    x y hx (hy a ar) root hr suffix
  refine ⟨fs1, fs2, r1, r2, g1, g2, ?_⟩
  intro q hq hne
  simp only [List.mem_cons, List.not_mem_nil, or_false, not_or] at hne
  rw [o2 q (fun h => h) hne.1 (by rw [List.append_assoc]; exact hne.2.1), o1 q hq hne.2.2.1 hne.2.2.2]

end Verif
