/-
The way of a project through a document and back, for the whole program.
-/
import Verif.Lemmas.Travel3

namespace Verif
open Spec

namespace Machine

variable {w : Machine} {c : DocClass} {base s : Str} {x : Elem} {n : Novel} {fs : FS}

/-- If the document can be made, and what is read from it is saved like the novel itself, the project comes back. -/
theorem comes_back (h : Departure w c base s fs) (g : GoodFile w s x n) {t : Str} (ht : w.content c n = .ok t) {m : Novel}
    (hr : ∀ a, Archive w.zip.entry (w.otherFiles c n ++ [(c!"content.xml", t)]) (w.program.comps c) a →
      w.parse c (a ++ w.zip.directory (w.program.comps c)) (some x, n) = .ok ((some x, m), false))
    (hw : writeTree w.sysLng w.sysCtr m (some x) = writeTree w.sysLng w.sysCtr n (some x)) (hm : m.chapters = n.chapters) :
    ComesBack w c base s n fs := by
  obtain ⟨s', z, r1, r2, _⟩ := C52_resaved_partial w.lib w.sysLng w.sysCtr s x n g.opens g.regular g.keepable g.settled g.storable g.system.1 g.system.2
  have r1' := r1
  unfold resaved at r1'
  rw [g.opens] at r1'
  obtain ⟨root, e1, e2⟩ := saveFile_ok.1 r1'
  obtain ⟨fs1, fs2, a1, a2, a3, a4, a5⟩ := travel_run w.program c h.type base h.named h.slashes h.free h.outside fs w.complete s h.here h.unlocked h.consent
    ((some x, n), false) ((some x, m), false) (w.parse_yw7 g.opens _) _ rfl t ht hr root (by show writeTree _ _ m (some x) = _; rw [hw]; exact e1) none
  refine ⟨fs1, fs2, s', z, a1, a2, ?_, r1, r2, a4, a5⟩
  rw [a3, e2]
  show some (fileText (!m.chapters.isEmpty) root) = _
  rw [hm]

/-- What a document class is: a text document or a spreadsheet. -/
theorem parse_odt (hc : c.ext = c!".odt") (a : Str) {m : Novel} {b : Bool} (h : w.readText (c.suffix.getD []) a n = .ok (m, b)) :
    w.parse c a (some x, n) = .ok ((some x, m), b) := by
  unfold parse
  rw [if_neg (by rintro rfl; cases hc)]
  simp only [Bind.bind, Except.bind, if_pos hc, h]

theorem parse_ods (hc : c.ext = c!".ods") (a : Str) {m : Novel} {b : Bool} (h : w.readSheet (c.suffix.getD []) a n = .ok (m, b)) :
    w.parse c a (some x, n) = .ok ((some x, m), b) := by
  unfold parse
  rw [if_neg (by rintro rfl; cases hc)]
  simp only [Bind.bind, Except.bind]
  rw [if_neg (by rw [hc]; decide)]
  rw [h]

/-- A text document from which exactly the novel is read. -/
theorem text_back (h : Departure w c base s fs) (g : GoodFile w s x n) (hf : MetadataFit w.now (w.sysLng, w.sysCtr) n) (hc : c.ext = c!".odt") {t : Str} {evs : List Ev}
    (ht : w.content c n = .ok t) (he : saxEvents t = some evs)
    (hr : ∀ a, w.odtFile a = .ok ⟨w.styles n, some (w.info n), evs⟩ → w.readText (c.suffix.getD []) a n = .ok (n, false)) : ComesBack w c base s n fs :=
  comes_back h g ht (fun _ ha => parse_odt hc _ (hr _ (w.odtFile_ok h.archives c hc hf he ha))) rfl rfl

/-- A spreadsheet from which exactly the novel is read. -/
theorem sheet_back (h : Departure w c base s fs) (g : GoodFile w s x n) (hc : c.ext = c!".ods") {t : Str}
    (ht : w.content c n = .ok t)
    (hr : ∀ a, w.unzip a c!"content.xml" = some t → w.readSheet (c.suffix.getD []) a n = .ok (n, false)) : ComesBack w c base s n fs :=
  comes_back h g ht (fun _ ha => parse_ods hc _ (hr _ (w.sheet_ok h.archives c ha))) rfl rfl

/-- The locale of the documents of a settled project with a language is the one of the project. -/
theorem settled_locale (hs : SettledProject n) (hl : n.languageCode ≠ none) (sys : Str × Str) :
    ∃ l k, n.languageCode = some l ∧ n.countryCode = some k ∧ l ≠ [] ∧ k ≠ [] ∧ documentLocale n sys = (l, k) := by
  rcases hs.locale with ⟨l, k, h1, h2, h3⟩ | ⟨h1, _⟩
  · refine ⟨l, k, h1, h2, ?_, ?_, ?_⟩
    · rintro rfl
      rcases h3 with ⟨h3, _⟩ | ⟨h3, _⟩ <;> cases h3
    · rintro rfl
      rcases h3 with ⟨_, h3⟩ | ⟨_, h3⟩ <;> cases h3
    · unfold documentLocale
      rw [h1, h2]
      rcases h3 with ⟨h4, h5⟩ | ⟨rfl, rfl⟩
      · cases l with
        | nil => cases h4
        | cons a r => dsimp only; rw [if_pos ⟨h4, h5⟩]
      · rfl
  · exact absurd h1 hl

/-- The languages of a settled project are the ones of the file. -/
theorem settled_withLanguages (hs : SettledProject n) : n.withLanguages = { n with languages := some (n.languages.getD []) } := by
  unfold Novel.withLanguages
  cases hl : n.languages with
  | some l =>
    rw [if_neg (by simp)]
    cases n
    cases hl
    rfl
  | none =>
    rw [if_pos rfl]
    have := savedLanguages_settled hs.used
    unfold savedLanguages at this
    rw [hl] at this
    unfold Novel.getLanguages at this ⊢
    dsimp only [Option.getD_some] at this
    rw [this]

/-- A document with formatted text, from which the novel is read, except that the languages are the ones that occur in the document. -/
theorem formatted_back (h : Departure w c base s fs) (g : GoodFile w s x n) (hf : MetadataFit w.now (w.sysLng, w.sysCtr) n) (hl : n.languageCode ≠ none)
    (hc : c.ext = c!".odt") {t : Str} {evs : List Ev} (ht : w.content c n = .ok t) (he : saxEvents t = some evs) {rd : Reader}
    (hd : ∀ a, w.odtFile a = .ok ⟨w.styles n, some (w.info n), evs⟩ → w.readText (c.suffix.getD []) a n = readFormatted rd ⟨w.styles n, some (w.info n), evs⟩ n)
    (hr : ∃ langs lc cc, langs.Nodup ∧ (∀ l ∈ langs, l ∈ n.languages.getD []) ∧ CodesFrom (w.styles n) lc cc ∧
      readFormatted rd ⟨w.styles n, some (w.info n), evs⟩ n = .ok ({ n with languages := some langs, languageCode := lc, countryCode := cc }, false)) :
    ComesBack w c base s n fs := by
  obtain ⟨langs, lc, cc, h1, h2, h3, h4⟩ := hr
  obtain ⟨l, k, k1, k2, k3, k4, k5⟩ := settled_locale g.settled.project hl (w.sysLng, w.sysCtr)
  have hst : w.styles n = odtStylesTree l k := by
    unfold styles
    rw [k5]
  obtain ⟨rfl, rfl⟩ := h3 l k (by rw [hst]; exact odtStylesTree_locale l k) k3 k4
  have em : ({ n with languages := some langs, languageCode := some l, countryCode := some k } : Novel) = { n with languages := some langs } := by
    rw [← k1, ← k2]
  rw [em] at h4
  refine comes_back h g ht (m := { n with languages := some langs }) (fun _ ha => parse_odt hc _ ?_) ?_ rfl
  · rw [hd _ (w.odtFile_ok h.archives c hc hf he ha), h4]
  · refine writeTree_langs g.regular.node (loadFile_ok.1 g.opens).2 g.settled.project ?_ h1 h2
    rw [k1]
    cases l with
    | nil => exact absurd rfl k3
    | cons a r => rfl

end Machine
end Verif
