/-
C68: the absolute links of the scene list, examples, and the limits of the links.
-/
import Verif.Props.C68_Xref
import Verif.Props.C67_Example

namespace Verif
open Spec

/-! ### The scene list -/

/-- The place of a link, with its percent sign. -/
theorem uri_fragment {mark : Str} (hm : SafeSet mark) {id : Str} (hid : NumId id) : uriText (mark ++ id ++ c!"%7Cregion") = some (mark ++ id ++ c!"|region") := by
  unfold uriText
  have hp : SafeSet (mark ++ id) := by
    intro x hx
    rcases List.mem_append.1 hx with h | h
    · exact hm x h
    · exact digit_ascii (hid.2 x h)
  rw [percentDecode_plain hp]
  have : percentDecode c!"%7Cregion" = some (utf8 c!"|region") := by decide +kernel
  rw [this]
  show Enc.utf8.decode (utf8 (mark ++ id) ++ utf8 c!"|region") = _
  rw [show utf8 (mark ++ id) ++ utf8 c!"|region" = utf8 (mark ++ id ++ c!"|region") from by unfold utf8; rw [List.flatMap_append (xs := mark ++ id)]]
  exact utf8_decode _

/-- **The links of the scene list** name the manuscript in the real folder of the scene list, and the scene in it. The path has a slash before the
folder: on Windows, where the folder begins with a drive letter, this is the way a URI names a file; elsewhere the path begins with two slashes. -/
theorem C68_scene_list_partial (real : Str → Option Str) (base : Str) (hb : '\\' ∉ base)
    (hr : fileName ((real (base ++ c!"_scenelist.ods")).getD (base ++ c!"_scenelist.ods")) = fileName (base ++ c!"_scenelist.ods")) (hs : ¬ c!"_scenelist.ods" <:+: fileName base)
    (path name : Str) (h : projectNames real (ods c!"_scenelist") (base ++ c!"_scenelist.ods") = some (path, name)) (id : Str) (hid : NumId id) :
    linkedFile (c!"file:///" ++ path ++ c!"/" ++ name ++ c!"_manuscript.odt#ScID:" ++ id ++ c!"%7Cregion") =
      some (c!"/" ++ Path.slashes (pathSplit ((real (base ++ c!"_scenelist.ods")).getD (base ++ c!"_scenelist.ods"))).1 ++ c!"/" ++ fileName base ++ c!"_manuscript.odt", c!"ScID:" ++ id ++ c!"|region") := by
  obtain ⟨path', h'⟩ := projectNames_of (c := ods c!"_scenelist") (by decide) hb hr hs
  have hslash : Path.slashes (base ++ c!"_scenelist.ods") = base ++ c!"_scenelist.ods" :=
    slashes_id (by rw [List.mem_append]; exact fun h => h.elim hb (by decide))
  have hpath : path = quote (Path.slashes (pathSplit ((real (base ++ c!"_scenelist.ods")).getD (base ++ c!"_scenelist.ods"))).1) c!"/:" := by
    unfold projectNames at h
    dsimp only at h
    split at h
    · rw [hslash] at h
      cases h
      rfl
    · cases h
  have hname : name = quote (fileName base) c!"/" := by
    have h2 := h.symm.trans h'
    exact congrArg Prod.snd (Option.some.inj h2)
  rw [hpath, hname]
  generalize Path.slashes (pathSplit ((real (base ++ c!"_scenelist.ods")).getD (base ++ c!"_scenelist.ods"))).1 = dir
  have s1 : SafeSet c!"/" := by unfold SafeSet; decide
  have s2 : SafeSet c!"/:" := by unfold SafeSet; decide
  have hchars : ∀ x ∈ quoteChars ++ c!"/:", x ≠ '?' ∧ x ≠ '#' := by decide +kernel
  have hrel : ∀ x ∈ c!"/" ++ quote dir c!"/:" ++ c!"/" ++ quote (fileName base) c!"/" ++ c!"_manuscript.odt", x ∈ quoteChars ++ c!"/:" := by
    have k0 : ∀ x ∈ c!"/" ++ c!"_manuscript.odt", x ∈ quoteChars ++ c!"/:" := by decide +kernel
    intro x hx
    simp only [List.mem_append] at hx ⊢
    rcases hx with (((hx | hx) | hx) | hx) | hx
    · exact List.mem_append.1 (k0 x (List.mem_append_left _ hx))
    · exact quote_chars hx
    · exact List.mem_append.1 (k0 x (List.mem_append_left _ hx))
    · rcases quote_chars hx with h | h
      · exact .inl h
      · exact List.mem_append.1 (k0 x (List.mem_append_left _ h))
    · exact List.mem_append.1 (k0 x (List.mem_append_right _ hx))
  have e0 : c!"file:///" ++ quote dir c!"/:" ++ c!"/" ++ quote (fileName base) c!"/" ++ c!"_manuscript.odt#ScID:" ++ id ++ c!"%7Cregion" =
      c!"file://" ++ ((c!"/" ++ quote dir c!"/:" ++ c!"/" ++ quote (fileName base) c!"/" ++ c!"_manuscript.odt") ++ '#' :: (c!"ScID:" ++ id ++ c!"%7Cregion")) := by simp
  rw [e0]
  generalize hR : c!"/" ++ quote dir c!"/:" ++ c!"/" ++ quote (fileName base) c!"/" ++ c!"_manuscript.odt" = R at hrel
  have hR2 : R = c!"/" ++ (quote dir c!"/:" ++ (c!"/" ++ (quote (fileName base) c!"/" ++ c!"_manuscript.odt"))) := by
    rw [← hR]; simp only [List.append_assoc]
  unfold linkedFile
  rw [if_pos (by rw [hR2]; rfl)]
  have e1 : List.drop 7 (c!"file://" ++ (R ++ '#' :: (c!"ScID:" ++ id ++ c!"%7Cregion"))) = R ++ '#' :: (c!"ScID:" ++ id ++ c!"%7Cregion") := rfl
  obtain ⟨t1, t2⟩ := takeWhile_stop (a := R) (b := c!"ScID:" ++ id ++ c!"%7Cregion") (fun h => (hchars _ (hrel _ h)).2 rfl)
  simp only [e1, t1, t2]
  rw [if_neg]
  · have d1 : percentDecode c!"_manuscript.odt" = some (utf8 c!"_manuscript.odt") := by decide +kernel
    have app : ∀ a b : Str, utf8 a ++ utf8 b = utf8 (a ++ b) := by intro a b; unfold utf8; rw [List.flatMap_append]
    have dq : ∀ {safe : Str}, SafeSet safe → ∀ s r t, percentDecode r = some (utf8 t) → percentDecode (quote s safe ++ r) = some (utf8 (s ++ t)) := by
      intro safe hsafe s r t hr
      unfold quote
      rw [percentDecode_quoted hsafe, hr]
      simp only [Option.map_some]
      rw [app]
    have ds : ∀ r t, percentDecode r = some (utf8 t) → percentDecode (c!"/" ++ r) = some (utf8 (c!"/" ++ t)) := by
      intro r t hr
      rw [percentDecode_plain s1, hr]
      simp only [Option.map_some]
      rw [app]
    have u1 : uriText R = some (c!"/" ++ (dir ++ (c!"/" ++ (fileName base ++ c!"_manuscript.odt")))) := by
      unfold uriText
      rw [hR2, ds _ _ (dq s2 _ _ _ (ds _ _ (dq s1 _ _ _ d1)))]
      exact utf8_decode _
    rw [u1]
    have u2 := uri_fragment (mark := c!"ScID:") (by unfold SafeSet; decide) hid
    show (do let place ← uriText (c!"ScID:" ++ id ++ c!"%7Cregion"); some (_, place)) = _
    rw [u2]
    simp only [List.append_assoc]
    rfl
  · rw [List.any_eq_true]
    rintro ⟨x, hx, hx2⟩
    exact (hchars x (hrel x hx)).1 (by simpa using hx2)

/-! ### An example -/

/-- The machine that writes the cross reference of `/home/a/my novel.yw7`. -/
def linkMachine : Machine := { tinyMachine with name := c!"my%20novel", path := c!"/home/a" }

theorem linkExample_writable : ManuscriptWritable (xrefExample c!"x").withLanguages := by
  have e : (xrefExample c!"x").withLanguages = { xrefExample c!"x" with languages := some [] } := by rfl
  rw [e]
  exact {
    languages := by intro l hl; cases hl
    distinct := by decide
    author := by unfold AuthorOk; decide
    title := by intro t ht; cases ht; unfold Carriable; decide
    chapters := by
      intro id hid ch hch _
      simp only [xrefExample, List.mem_cons, List.not_mem_nil, or_false] at hid
      rcases hid with rfl | rfl <;> cases hch
      · exact ⟨⟨by decide, by unfold Digit; decide⟩, by intro t ht; cases ht; unfold Carriable; decide⟩
      · exact ⟨⟨by decide, by unfold Digit; decide⟩, by intro t ht; cases ht; unfold Carriable; decide⟩
    scenes := by
      intro p hp
      have e : exported { xrefExample c!"x" with languages := some [] } (xrefExample c!"x").srtChapters =
        [(c!"5", { title := some c!"Begin", status := some 1, characters := some [c!"2", c!"1"], tags := some [c!"x"] }),
         (c!"6", { title := some c!"<End>", status := some 5, scType := some 0, characters := some [c!"1"], locations := some [c!"1"] })] := by decide
      have hp : p ∈ exported { xrefExample c!"x" with languages := some [] } (xrefExample c!"x").srtChapters := hp
      rw [e] at hp
      simp only [List.mem_cons, List.not_mem_nil, or_false] at hp
      have he : Mendables [] [] := { ok := by simp, neighbours := trivial, lines := by decide, used := by decide, ending := by decide, plain := by decide }
      rcases hp with rfl | rfl
      · exact ⟨⟨by decide, by unfold Digit; decide⟩, by intro t ht; cases ht; unfold Carriable; decide, ⟨[], rfl, he⟩⟩
      · exact ⟨⟨by decide, by unfold Digit; decide⟩, by intro t ht; cases ht; unfold Carriable; decide, ⟨[], rfl, he⟩⟩ }

/-- The links of the example (see `xrefExample_shown`) work. The name of the project has a blank, the path is not a symbolic link. -/
example : ∃ text root, linkMachine.content (odt c!"_xref") (xrefExample c!"x") = .ok text ∧ parseDoc text = some root ∧ ∀ p ∈ paragraphs root, ∀ l ∈ p.links,
      ∃ d ∈ exportTargets, ∃ file region, linkedPlace c!"/home/a/my novel_xref.odt" l = some (file, region ++ c!"|region") ∧
        exportTarget exportTargets c!"/home/a/my novel.yw7" d.suffix = some ⟨d, some file⟩ ∧
        ∀ w' : Machine, ∃ doc, w'.content d (xrefExample c!"x") = .ok doc ∧ HasRegion doc region := by
  have hp : projectNames some (odt c!"_xref") c!"/home/a/my novel_xref.odt" = some (linkMachine.path, linkMachine.name) := by decide +kernel
  refine C68_cross_reference_partial linkMachine some c!"/home/a/my novel" (by decide) ⟨c!"/home/a", c!"my novel", .inr rfl, by decide, 'm', by decide, by decide⟩ rfl (by decide +kernel) hp
    (xrefExample c!"x") xrefExample_ready xrefExample_exportable ?_ ⟨by decide, by decide, by decide, by decide⟩ ?_ ?_ linkExample_writable ?_ ?_ ?_ ?_ ?_
  · intro chId ch scId s h1 h2 h3
    simp only [xrefExample, List.mem_cons, List.not_mem_nil, or_false] at h1
    rcases h1 with rfl | rfl <;> cases h2 <;> cases h3
  · exact ⟨(C68_names_fit _ _ _ _ _ hp).2.2, xrefExample_fits.title, xrefExample_fits.author, xrefExample_fits.scenes, xrefExample_fits.characters, xrefExample_fits.locations, xrefExample_fits.items⟩
  · exact ⟨(by show Carriable _; unfold Carriable; decide), (by show Carriable _; unfold Carriable; decide)⟩
  · intro id hid
    simp only [xrefExample, List.mem_cons, List.not_mem_nil, or_false] at hid
    rcases hid with rfl | rfl
    · exact ⟨_, rfl, ⟨(by unfold NumId Digit; decide), (by show Carriable _; unfold Carriable; decide), (by intro t h; cases h), (by intro t h; cases h; unfold Plain; decide), trivial, trivial, trivial, trivial⟩⟩
    · exact ⟨_, rfl, ⟨(by unfold NumId Digit; decide), (by show Carriable _; unfold Carriable; decide), (by intro t h; cases h), (by intro t h; cases h), trivial, trivial, trivial, trivial⟩⟩
  · intro id hid
    simp only [xrefExample, List.mem_cons, List.not_mem_nil, or_false] at hid
    subst hid
    exact ⟨_, rfl, ⟨(by unfold NumId Digit; decide), (by show Carriable _; unfold Carriable; decide), (by intro t h; cases h), trivial⟩⟩
  · intro id hid; cases hid
  · intro id hid
    rw [xrefExample_narrative] at hid
    simp only [List.mem_cons, List.not_mem_nil, or_false] at hid
    rcases hid with rfl | rfl | rfl <;> (unfold NumId Digit; decide)
  · intro id hid s hs ha
    rw [xrefExample_narrative] at hid
    simp only [List.mem_cons, List.not_mem_nil, or_false] at hid
    rcases hid with rfl | rfl | rfl <;> cases Option.some.inj hs
    · exact ⟨by decide, by decide⟩
    · cases ha
    · exact ⟨by decide, by decide⟩

/-- The link of a scene list on Windows, where it is the URI of the file, -/
example : linkedFile c!"file:///C:/a/my%20novel_manuscript.odt#ScID:1%7Cregion" = some (c!"/C:/a/my novel_manuscript.odt", c!"ScID:1|region") := by decide +kernel

/-- and elsewhere, where the path begins with two slashes. -/
theorem C68_two_slashes : linkedFile c!"file:////home/a/novel_manuscript.odt#ScID:1%7Cregion" = some (c!"//home/a/novel_manuscript.odt", c!"ScID:1|region") := by decide +kernel

/-! ### Limits -/

/-- The extension of a file is accepted in capital letters, but it is removed from the name of the project in small letters only. -/
theorem C68_capitals : projectNames some yw7Class c!"/home/a/NOVEL.YW7" = some (c!"/home/a", c!"NOVEL.YW7") ∧
    projectNames some yw7Class c!"/home/a/NOVEL.yw7" = some (c!"/home/a", c!"NOVEL") := by
  refine ⟨?_, ?_⟩ <;> decide +kernel

/-- False without the condition on the name: the suffix and the extension are removed wherever they are, and the link leads to a file of another project. -/
theorem C68_inner : projectNames some (odt c!"_xref") c!"/home/a/a_xref.odt_old_xref.odt" = some (c!"/home/a", c!"a_old") := by decide +kernel

/-- False for symbolic links: the name is that of the file the link leads to. -/
theorem C68_symlink : projectNames (fun _ => some c!"/store/x1_xref.odt") (odt c!"_xref") c!"/home/a/novel_xref.odt" = some (c!"/store", c!"x1") := by decide +kernel

/-- Whether a document has a section, as a test. -/
def hasRegion (document name : Str) : Bool :=
  match saxEvents document with
  | none => false
  | some evs => evs.any fun e => match e with | .start t as => t = c!"text:section" && as.get? c!"text:name" == some name | _ => false

theorem hasRegion_iff (document name : Str) : hasRegion document name = true ↔ HasRegion document name := by
  unfold hasRegion HasRegion
  cases saxEvents document with
  | none => simp
  | some evs =>
    simp only [List.any_eq_true, Option.some.injEq]
    constructor
    · rintro ⟨e, he, h⟩
      cases e with
      | start t as =>
        simp only [Bool.and_eq_true, decide_eq_true_eq, beq_iff_eq] at h
        exact ⟨evs, as, rfl, h.1 ▸ he, h.2⟩
      | _ => cases h
    · rintro ⟨_, as, rfl, he, h⟩
      exact ⟨_, he, by simp [h]⟩

/-- A novel with one scene, which a character is in, and which is marked "do not export". -/
def deadExample : Novel :=
  { title := some c!"T", authorName := some c!"N", languages := some [],
    chapters := [(c!"1", { title := some c!"One", srtScenes := [c!"5", c!"6"] })], srtChapters := [c!"1"],
    scenes := [(c!"5", { title := some c!"Begin", status := some 1, characters := some [c!"1"], doNotExport := some true }), (c!"6", { title := some c!"End", status := some 1, characters := some [c!"1"] })],
    characters := [(c!"1", { title := some c!"Ann" })], srtCharacters := [c!"1"] }

/-- The manuscript has this section. -/
def inManuscript (n : Novel) (region : Str) : Bool :=
  match linkMachine.content (odt c!"_manuscript") n with | .ok doc => hasRegion doc region | .error _ => false

set_option maxRecDepth 1000000 in
/-- False without the condition on the scenes: the cross reference has links to scenes that are marked "do not export", but the manuscript does not have them. -/
theorem C68_dead_link : (∃ p ∈ crossReference c!"my%20novel" deadExample, c!"../my%20novel_manuscript.odt#ScID:5%7Cregion" ∈ p.links) ∧
    (∃ doc, linkMachine.content (odt c!"_manuscript") deadExample = .ok doc ∧ HasRegion doc c!"ScID:6" ∧ ¬ HasRegion doc c!"ScID:5") := by
  refine ⟨?_, ?_⟩
  · decide +kernel
  · have h1 : inManuscript deadExample c!"ScID:6" = true := by decide +kernel
    have h2 : inManuscript deadExample c!"ScID:5" = false := by decide +kernel
    unfold inManuscript at h1 h2
    cases hd : linkMachine.content (odt c!"_manuscript") deadExample with
    | error x => rw [hd] at h1; cases h1
    | ok doc =>
      rw [hd] at h1 h2
      refine ⟨doc, rfl, (hasRegion_iff _ _).1 h1, fun h => ?_⟩
      have := (hasRegion_iff _ _).2 h
      rw [show hasRegion doc c!"ScID:5" = false from h2] at this
      cases this

end Verif
