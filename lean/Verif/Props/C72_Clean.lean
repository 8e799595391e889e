/-
C72: the texts of a project that was opened can be in documents; the brief synopsis of every project file can be made and is well-formed.
-/
import Verif.Lemmas.Clean2
import Verif.Props.C52_Disk
import Verif.Props.C71_Synopsis
import Verif.Props.C20_Example

namespace Verif
open Spec Elem Xml

/-- **C72, texts**: whatever a project file contains, if it can be opened, then all texts and IDs of the project consist of characters that are legal in XML, without carriage
returns. -/
theorem C72_texts (lib : PyLib) (s : Str) (x : Elem) (n : Novel) (h : loadFile lib s = some (x, n)) : CleanNovel n := by
  obtain ⟨h1, h2⟩ := loadFile_ok.1 h
  exact readTree_clean (parseXml_clean (parserInput_cr s) h1) h2

/-- The scenes and chapters that are listed exist. -/
theorem readTree_listed {lib : PyLib} {root : Elem} {n : Novel} (h0 : readTree lib root = .ok n) :
    (∀ id ∈ n.srtChapters, ∃ ch, n.chapters.get? id = some ch) ∧ ∀ id ∈ narrative n, ∃ s, n.scenes.get? id = some s := by
  have h := h0
  unfold readTree readRoot at h
  cases hf : Xml.find c!"PROJECT" root.kids with
  | none => rw [hf] at h; cases h
  | some prj =>
  rw [hf] at h
  obtain ⟨prj, _, h⟩ := bind_ok h
  obtain ⟨l, hl, h⟩ := bind_ok h
  obtain ⟨i, hi, h⟩ := bind_ok h
  obtain ⟨c, hc, h⟩ := bind_ok h
  obtain ⟨s, hs, h⟩ := bind_ok h
  obtain ⟨ch, hch, h⟩ := bind_ok h
  obtain ⟨e1, e2, _⟩ := C39_effect _ _ h
  have hsc : AllVals (fun c : Chapter => ∀ id ∈ c.srtScenes, id ∈ s.2.keys) ch.2 := by
    refine readSection_all (f := fun ks => .ok (readChapter s.2.keys ks)) ?_ (fun k v hv => by cases hv) hch
    intro ks a ha
    cases ha
    intro id hid
    unfold readChapter at hid
    dsimp only at hid
    split at hid
    · cases hid
    · have := (List.mem_filter.1 hid).2
      simpa using this
  refine ⟨?_, ?_⟩
  · intro id hid
    rw [e1] at hid ⊢
    exact (Dict.mem_keys_iff _ _).1 (readSection_listed hch id hid)
  · intro id hid
    rw [← Dict.mem_keys_iff, e2]
    dsimp only
    unfold narrative at hid
    obtain ⟨k, hk, hin⟩ := List.mem_flatMap.1 hid
    have ec : n.chapters = ch.2 := by rw [e1]
    rw [ec] at hin
    unfold scenesOf at hin
    cases hg : ch.2.get? k with
    | none => rw [hg] at hin; cases hin
    | some a =>
      rw [hg] at hin
      exact hsc k a hg id hin

/-- A project from a file can be exported, if its scenes have one of the six states. -/
theorem readTree_exportable {lib : PyLib} {root : Elem} {n : Novel} (h0 : readTree lib root = .ok n) (hk : KnownStatus n) : Exportable n where
  chapters := (readTree_listed h0).1
  scenes id hid := by
    obtain ⟨s, hg⟩ := (readTree_listed h0).2 id hid
    have h := readTree_from h0
    exact ⟨s, hg, hk id hid s hg, fun l hl x hx => h.there.locations x ((h.scenes id s hg).locations l hl x hx), fun l hl x hx => h.there.items x ((h.scenes id s hg).items l hl x hx)⟩

/-- The titles of a clean novel can be in a synopsis. -/
theorem CleanNovel.synopsis {n : Novel} (h : CleanNovel n) : SynopsisFits n where
  title := h.texts _ (by simp)
  author := h.texts _ (by simp)
  chapters id _ ch hc _ := ⟨(h.chapters id ch hc).2 _ (by simp), fun p hp => (h.scenes p.1 p.2 (exportedIn_mem hp)).2.texts _ (by simp)⟩

/-- **C72, synopsis**: the brief synopsis of every project file that can be opened and whose scenes have one of the six states is made, is well-formed, and shows exactly what C71 says. -/
theorem C72_synopsis_partial (lib : PyLib) (s : Str) (x : Elem) (n : Novel) (h : loadFile lib s = some (x, n)) (hk : KnownStatus n) (name path : Str) :
    ∃ text root, getText (odtSynopsis (plainEnv name path)) n = .ok text ∧ parseDoc text = some root ∧ paragraphs root = synopsis n := by
  have hr := (loadFile_ok.1 h).2
  exact C71_synopsis_partial name path n (readTree_exportable hr hk) (readTree_from hr).there (readTree_inherits hr) (CleanNovel.synopsis (C72_texts lib s x n h))

/-! ### Examples -/

/-- A project file with one scene that has the given state; its title contains special characters, a control character and a line break. -/
def statusFile (status : Str) : Str :=
  c!"<?xml version=\"1.0\" encoding=\"utf-8\"?>\r\n<YWRITER7><PROJECT><Title>A &amp; B</Title></PROJECT><LOCATIONS></LOCATIONS><ITEMS></ITEMS><CHARACTERS></CHARACTERS>" ++
  c!"<SCENES><SCENE><ID>1</ID><Title><![CDATA[1 < 2" ++ [Char.ofNat 1] ++ c!"\r\nx]]></Title><Status>" ++ status ++ c!"</Status></SCENE></SCENES>" ++
  c!"<CHAPTERS><CHAPTER><ID>1</ID><Title>One</Title><Scenes><ScID>1</ScID></Scenes></CHAPTER></CHAPTERS></YWRITER7>"

/-- The novel in the file. -/
def statusNovel (status : Str) : Option Novel := (loadFile exLib (statusFile status)).map (·.2)

set_option maxRecDepth 100000 in
/-- The file can be opened; the control character is gone, and the line break is a newline. -/
theorem status_opens : (statusNovel c!"2").map (·.title) = some (some c!"A & B") ∧ (statusNovel c!"2").map narrative = some [c!"1"] ∧
    (statusNovel c!"2").map (fun n => (n.scenes.get? c!"1").map (·.title)) = some (some (some c!"1 < 2\nx")) ∧
    (statusNovel c!"2").map (fun n => (n.scenes.get? c!"1").map (·.status)) = some (some (some 2)) := by
  refine ⟨?_, ?_, ?_, ?_⟩ <;> decide +kernel

set_option maxRecDepth 100000 in
/-- The hypotheses of `C72_synopsis_partial` are met; this is the document. -/
theorem status_shown : ∃ n text root, statusNovel c!"2" = some n ∧ getText (odtSynopsis (plainEnv c!"p" c!"/p")) n = .ok text ∧ parseDoc text = some root ∧
    paragraphs root = [⟨c!"Title", c!"A & B", []⟩, ⟨c!"Subtitle", c!"", []⟩, ⟨c!"Heading_20_2", c!"One", []⟩, ⟨c!"Text_20_body", c!"1 < 2\nx", []⟩] := by
  obtain ⟨h, h3, -, h4⟩ := status_opens
  have hsyn : (statusNovel c!"2").map synopsis = some [⟨c!"Title", c!"A & B", []⟩, ⟨c!"Subtitle", c!"", []⟩, ⟨c!"Heading_20_2", c!"One", []⟩, ⟨c!"Text_20_body", c!"1 < 2\nx", []⟩] := by
    decide +kernel
  cases e : loadFile exLib (statusFile c!"2") with
  | none => unfold statusNovel at h; rw [e] at h; cases h
  | some p =>
    obtain ⟨x, n⟩ := p
    have en : statusNovel c!"2" = some n := by unfold statusNovel; rw [e]; rfl
    rw [en] at h3 h4 hsyn
    simp only [Option.map_some, Option.some.injEq] at h3 h4 hsyn
    obtain ⟨text, root, g1, g2, g3⟩ := C72_synopsis_partial exLib _ x n e (by
      intro id hid s hs
      rw [h3, List.mem_singleton] at hid
      subst hid
      rw [hs] at h4
      simp only [Option.map_some, Option.some.injEq] at h4
      exact ⟨2, by decide, h4⟩) c!"p" c!"/p"
    exact ⟨n, text, root, en, g1, g2, by rw [g3, hsyn]⟩

set_option maxRecDepth 100000 in
/-- False without the condition on the states: a project file with an unknown state can be opened, but no document can be made of it. -/
theorem C72_status_false : ((statusNovel c!"7").map (fun n => (getText (odtSynopsis (plainEnv c!"p" c!"/p")) n).toOption.isNone)) = some true := by decide +kernel

end Verif
