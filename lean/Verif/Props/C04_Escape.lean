/-
C04: escaping of user text for XML is lossless and leaves no markup.
-/
import Verif.Lemmas.Escape

namespace Verif
open Spec

/-- yw7 custom fields: the converted text is XML character data that reads back as the text. -/
theorem C04_yw7_roundtrip (t : Str) (h : Carriable t) : CharData (ywConvert (some t)) t := by
  rw [ywConvert_eq]; exact charData_esc t h

/-- One-line text in ODT documents. -/
theorem C04_odt_quick_roundtrip (t : Str) (h : Carriable t) :
    CharData (odtConvert (some t) true) t := by
  rw [odtConvert_quick]; exact charData_esc t h

/-- Text in ODS cells: the text without trailing whitespace is cut at its line breaks, every line
becomes the character data of one paragraph of the cell and reads back as this line. -/
theorem C04_ods_roundtrip (t : Str) (h : Carriable t) :
    ∃ raws : List Str,
      odsConvert (some t) = Str.join c!"</text:p>\n<text:p>" raws ∧
      raws.length = (Str.split (Str.rstrip t) c!"\n").length ∧
      ∀ p ∈ raws.zip (Str.split (Str.rstrip t) c!"\n"), CharData p.1 p.2 := by
  refine ⟨(Str.split (Str.rstrip t) c!"\n").map (fun l => l.flatMap escChar), ?_, by simp, ?_⟩
  · rw [odsConvert_eq, flatMap_lines]
  · intro p hp
    rw [List.zip_map_left] at hp
    obtain ⟨⟨a, b⟩, hab, rfl⟩ := List.mem_map.1 hp
    have heq : a = b := eq_of_mem_zip_self hab
    subst heq
    have hl := (List.of_mem_zip hab).1
    refine charData_esc a (fun c hc => ?_)
    have hm := (mem_of_mem_split hl hc).1
    obtain ⟨u, hu, _⟩ := Str.rstripBy_prefix Str.isWs t
    exact h c (by rw [hu]; exact List.mem_append_left _ hm)

/-- What an XML parser reports is unique, so the above really determines the text. -/
theorem C04_parser_deterministic (raw t u : Str) (h1 : CharData raw t) (h2 : CharData raw u) :
    t = u := charData_unique h1 h2

/-- Different texts stay different. -/
theorem C04_injective (t u : Str) (ht : Carriable t) (hu : Carriable u) :
    (ywConvert (some t) = ywConvert (some u) → t = u) ∧
    (odtConvert (some t) true = odtConvert (some u) true → t = u) := by
  constructor
  · intro h
    exact charData_unique (C04_yw7_roundtrip t ht) (h ▸ C04_yw7_roundtrip u hu)
  · intro h
    exact charData_unique (C04_odt_quick_roundtrip t ht) (h ▸ C04_odt_quick_roundtrip u hu)

/-- No raw markup character or quote is left — for all texts, also those XML cannot carry. -/
theorem C04_no_markup (t : Option Str) (d : Char)
    (h : d ∈ ywConvert t ∨ d ∈ odtConvert t true) :
    d ≠ '<' ∧ d ≠ '>' ∧ d ≠ '\'' ∧ d ≠ '"' := by
  cases t with
  | none => simp [ywConvert, odtConvert] at h
  | some t =>
    rw [ywConvert_eq, odtConvert_quick] at h
    exact mem_esc (h.elim id id)

/-- In ODS cells the only markup is the paragraph separator. -/
theorem C04_ods_no_markup (t : Str) :
    ∃ raws : List Str, odsConvert (some t) = Str.join c!"</text:p>\n<text:p>" raws ∧
      ∀ r ∈ raws, ∀ d ∈ r, d ≠ '<' ∧ d ≠ '>' ∧ d ≠ '\'' ∧ d ≠ '"' := by
  refine ⟨(Str.split (Str.rstrip t) c!"\n").map (fun l => l.flatMap escChar), ?_, ?_⟩
  · rw [odsConvert_eq, flatMap_lines]
  · intro r hr d hd
    obtain ⟨l, _, rfl⟩ := List.mem_map.1 hr
    exact mem_esc hd

/-- A missing text is converted to the empty text. -/
theorem C04_none (q : Bool) : ywConvert none = [] ∧ odtConvert none q = [] ∧ odsConvert none = [] :=
  ⟨rfl, rfl, rfl⟩

example : Carriable c!"a < b && \"c\" > 'd' &amp;\n" := by unfold Carriable; decide
example : ywConvert (some c!"<&amp;>") = c!"&lt;&amp;amp;&gt;" := by decide

/-- Carriage returns are outside the theorem for a reason: a parser reports them as newlines. -/
example : CharData (ywConvert (some c!"a\rb")) c!"a\nb" :=
  .char 'a' (by decide) (by decide) (by decide) (by decide) (by decide)
    (.cr (by decide) (.char 'b' (by decide) (by decide) (by decide) (by decide) (by decide) .nil))

end Verif
