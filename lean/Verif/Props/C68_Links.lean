/-
C68: links between the documents of a project lead to the files the program writes.
-/
import Verif.Lemmas.Links2
import Verif.Spec.Roundtrip

namespace Verif
open Spec

/-- **A quoted text can be read back** by everyone who knows URIs: its percent signs and characters stand for the UTF-8 bytes of the text, whatever
characters it has. -/
theorem C68_quoted (s : Str) : uriText (quote s c!"/") = some s ∧ uriText (quote s c!"/:") = some s := by
  have h1 : SafeSet c!"/" := by unfold SafeSet; decide
  have h2 : SafeSet c!"/:" := by unfold SafeSet; decide
  unfold uriText
  rw [percentDecode_quote h1, percentDecode_quote h2]
  exact ⟨utf8_decode s, utf8_decode s⟩

/-- Two texts are not quoted in the same way. -/
theorem C68_distinct (s t : Str) (h : quote s c!"/" = quote t c!"/") : s = t := by
  have := (C68_quoted s).1
  rw [h, (C68_quoted t).1] at this
  exact (Option.some.inj this).symm

/-- **The names of a project, as the documents show them, can be part of every link**: what C32, C47, C50, C55 and C67 require of them
is always so. -/
theorem C68_names_fit (real : Str → Option Str) (c : DocClass) (file path name : Str) (h : projectNames real c file = some (path, name)) :
    LinkName name ∧ LinkTarget path name ∧ ∀ c ∈ name, xmlLegal c = true ∧ c ≠ '\r' ∧ c ≠ '\n' ∧ c ≠ '\t' := by
  unfold projectNames at h
  dsimp only at h
  split at h
  · cases h
    have key : ∀ c ∈ quoteChars ++ c!"/:", xmlLegal c = true ∧ xmlBlank c = false ∧ c ∉ c!"<&\" \t\n\r" := by decide +kernel
    have k1 : ∀ {s : Str} {c : Char}, c ∈ quote s c!"/" → c ∈ quoteChars ++ c!"/:" := by
      intro s c hc
      rcases quote_chars hc with h | h
      · exact List.mem_append_left _ h
      · refine List.mem_append_right _ ?_
        cases List.mem_singleton.1 h
        decide
    have k2 : ∀ {s : Str} {c : Char}, c ∈ quote s c!"/:" → c ∈ quoteChars ++ c!"/:" := by
      intro s c hc
      rcases quote_chars hc with h | h
      · exact List.mem_append_left _ h
      · exact List.mem_append_right _ h
    have k3 : ∀ {c : Char}, c ∉ c!"<&\" \t\n\r" → c ≠ '\r' ∧ c ≠ '\n' ∧ c ≠ '\t' := by
      intro c hc
      refine ⟨?_, ?_, ?_⟩ <;> rintro rfl <;> exact hc (by decide)
    refine ⟨?_, ⟨?_, ?_⟩, ?_⟩
    · intro c hc
      obtain ⟨h1, h2, h3⟩ := key c (k1 hc)
      exact ⟨h1, (fun e => by rw [h2] at e; cases e), (k3 h3).1⟩
    · intro c hc
      obtain ⟨h1, h2, h3⟩ := key c (k2 hc)
      exact ⟨h1, h3⟩
    · intro c hc
      have sub : ∀ {s : Str}, c ∈ Str.rstrip s → c ∈ s := by
        intro s hc
        obtain ⟨t, ht, _⟩ := Str.rstripBy_prefix Str.isWs s
        rw [ht]
        exact List.mem_append_left _ hc
      obtain ⟨h1, h2, h3⟩ := key c (k1 (sub hc))
      exact ⟨h1, (k3 h3).1, (k3 h3).2.2, (k3 h3).2.1⟩
    · intro c hc
      obtain ⟨h1, h2, h3⟩ := key c (k1 hc)
      exact ⟨h1, k3 h3⟩
  · cases h

/-- The path of a project stands for the folder of its file. -/
theorem C68_path (real : Str → Option Str) (c : DocClass) (file path name : Str) (h : projectNames real c file = some (path, name)) :
    uriText path = some (Path.slashes (pathSplit ((real (Path.slashes file)).getD (Path.slashes file))).1) := by
  unfold projectNames at h
  dsimp only at h
  split at h
  · cases h
    exact (C68_quoted _).2
  · cases h

/-- The name of a project stands for the name of its file, without the suffix and the extension of the class. The file must not be a symbolic
link to a file of another name, and its name must not contain the suffix and the extension elsewhere. -/
theorem C68_name_partial (real : Str → Option Str) (c : DocClass) (hc : c ∈ yw7Class :: exportTargets) (base : Str) (hb : '\\' ∉ base)
    (hr : fileName ((real (base ++ c.ending)).getD (base ++ c.ending)) = fileName (base ++ c.ending)) (hn : ¬ c.ending <:+: fileName base) :
    ∃ path name, projectNames real c (base ++ c.ending) = some (path, name) ∧ uriText name = some (fileName base) := by
  obtain ⟨path, h⟩ := projectNames_of hc hb hr hn
  exact ⟨path, _, h, (C68_quoted _).1⟩

/-- The document a project is exported to: the name of the project with the suffix and the extension of the class. -/
theorem C68_written (c : DocClass) (hc : c ∈ exportTargets) (base : Str) (hn : HasName base) (hb : '\\' ∉ base) :
    exportTarget exportTargets (base ++ c!".yw7") c.suffix = some ⟨c, some (base ++ c.ending)⟩ := by
  have hu : ∀ c ∈ exportTargets, ∀ c' ∈ exportTargets, c'.suffix = c.suffix → c' = c := by decide +kernel
  have hp : ∀ c ∈ exportTargets, '\\' ∉ c.ending := by decide +kernel
  unfold exportTarget
  rw [find_unique hc (by simp) (fun c' hc' hs => hu c hc c' hc' (by simpa using hs))]
  have hsp : Path.splitext (base ++ c!".yw7") = (base, c!".yw7") := splitext_append hn (by decide)
  simp only [Option.map, hsp]
  have he : Path.slashes (base ++ c.suffix.getD [] ++ c.ext) = base ++ c.suffix.getD [] ++ c.ext := by
    refine slashes_id ?_
    rw [List.append_assoc, List.mem_append]
    exact fun h => h.elim hb (hp c hc)
  have hends : c.ending <:+ Path.slashes (base ++ c.suffix.getD [] ++ c.ext) := by
    rw [he]; exact ⟨base, by unfold DocClass.ending; rw [List.append_assoc]⟩
  rw [mkDoc_eq hends, he]
  unfold DocClass.ending
  rw [List.append_assoc]

/-- **A link leads to the document of the project it names**: in a document of the class `c`, the link made of the name of the project, the
suffix and the extension of the class `d` and a place leads to this place in the file that is written when the project is exported to the class `d`.
Conditions as in `C68_name_partial`. -/
theorem C68_link_partial (real : Str → Option Str) (c : DocClass) (hc : c ∈ exportTargets) (d : DocClass) (hd : d ∈ exportTargets) (base : Str) (hn : HasName base) (hb : '\\' ∉ base)
    (hr : fileName ((real (base ++ c.ending)).getD (base ++ c.ending)) = fileName (base ++ c.ending)) (hs : ¬ c.ending <:+: fileName base)
    (path name : Str) (h : projectNames real c (base ++ c.ending) = some (path, name)) (mark : Str) (hm : mark ∈ [c!"ScID:", c!"ChID:", c!"CrID:", c!"LcID:", c!"ItID:"])
    (id : Str) (hid : NumId id) :
    exportTarget exportTargets (base ++ c!".yw7") d.suffix = some ⟨d, some (base ++ d.ending)⟩ ∧
    linkedPlace (base ++ c.ending) (c!"../" ++ name ++ d.ending ++ c!"#" ++ mark ++ id ++ c!"%7Cregion") = some (base ++ d.ending, mark ++ id ++ c!"|region") := by
  refine ⟨C68_written d hd base hn hb, ?_⟩
  obtain ⟨path', h'⟩ := projectNames_of (List.mem_cons_of_mem _ hc) hb hr hs
  rw [h] at h'
  cases h'
  exact link_place (List.mem_cons_of_mem _ hc) (List.mem_cons_of_mem _ hd) base hm hid

end Verif
