/-
The lines of the cross reference document (for C55).
-/
import Verif.Lemmas.XrefDoc2
import Verif.Lemmas.Disk2

namespace Verif
open Spec Template

theorem ofNat_plain (k : Nat) : (Str.ofNat k).all plainChar = true := by
  rw [List.all_eq_true]
  intro c hc
  have h := digit_mem (Str.isDigit_of_mem_ofNat hc)
  have : ∀ c ∈ ("0123456789".toList : List Char), plainChar c = true := by decide
  exact this c h

/-! ### Templates -/

/-- A scene with a link. -/
theorem subst_scene0 {m : Mapping} {p i k c t : Str} (h1 : m.get? c!"ProjectName" = some p) (h2 : m.get? c!"ID" = some i) (h3 : m.get? c!"SceneNumber" = some k)
    (h4 : m.get? c!"Chapter" = some c) (h5 : m.get? c!"Title" = some t) : subst xrefScene0 m =
      c!"<text:p text:style-name=\"" ++ c!"scene_20_mark" ++ c!"\">" ++ ((c!"\n" ++ ((c!"<text:a xlink:href=\"" ++ ((c!"../" ++ (p ++ (c!"_manuscript.odt#ScID:" ++ (i ++ c!"%7Cregion")))) ++
        (c!"\">" ++ (k ++ c!"</text:a>")))) ++ (c!" (Ch " ++ (c ++ (c!") " ++ (t ++ c!"\n")))))) ++ c!"</text:p>\n") := by
  have e : segs xrefScene0 = c!"<text:p text:style-name=\"".map Seg.lit ++ (c!"scene_20_mark".map Seg.lit ++ (c!"\">".map Seg.lit ++ (c!"\n".map Seg.lit ++
      (c!"<text:a xlink:href=\"".map Seg.lit ++ (c!"../".map Seg.lit ++ (Seg.var c!"ProjectName" c!"${ProjectName}" :: (c!"_manuscript.odt#ScID:".map Seg.lit ++
      (Seg.var c!"ID" c!"$ID" :: (c!"%7Cregion".map Seg.lit ++ (c!"\">".map Seg.lit ++ (Seg.var c!"SceneNumber" c!"$SceneNumber" :: (c!"</text:a>".map Seg.lit ++
      (c!" (Ch ".map Seg.lit ++ (Seg.var c!"Chapter" c!"$Chapter" :: (c!") ".map Seg.lit ++ (Seg.var c!"Title" c!"$Title" :: (c!"\n".map Seg.lit ++
      c!"</text:p>\n".map Seg.lit))))))))))))))))) := by decide +kernel
  unfold subst
  rw [e]
  simp only [List.flatMap_append, List.flatMap_cons, render_lits, render, h1, h2, h3, h4, h5, Option.getD_some]
  generalize c!"<text:p text:style-name=\"" = z1
  generalize c!"scene_20_mark" = z2
  generalize c!"<text:a xlink:href=\"" = z3
  generalize c!"_manuscript.odt#ScID:" = z4
  generalize c!"%7Cregion" = z5
  generalize c!"</text:a>" = z6
  generalize c!"</text:p>\n" = z7
  generalize c!" (Ch " = z8
  generalize c!"\">" = z9
  generalize c!"../" = z10
  generalize c!") " = z11
  generalize c!"\n" = z12
  simp only [List.append_assoc]

/-- The styles and words of the scenes that are set aside. -/
def Aside (style word : Str) : Prop := (style = c!"notes" ∧ word = c!"Notes") ∨ (style = c!"todo" ∧ word = c!"ToDo") ∨ (style = c!"unused" ∧ word = c!"Unused")

/-- A scene that is set aside. -/
theorem subst_aside {style word : Str} (hs : Aside style word) {m : Mapping} {k c t : Str} (h3 : m.get? c!"SceneNumber" = some k)
    (h4 : m.get? c!"Chapter" = some c) (h5 : m.get? c!"Title" = some t) : subst (xrefSceneAside style word) m =
      c!"<text:p text:style-name=\"" ++ (c!"scene_20_mark_20_" ++ style) ++ c!"\">" ++ ((c!"\n" ++ (k ++ (c!" (Ch " ++ (c ++ (c!") " ++ (t ++ (c!" (" ++ (word ++ c!")\n")))))))) ++ c!"</text:p>\n") := by
  have e : segs (xrefSceneAside style word) = c!"<text:p text:style-name=\"".map Seg.lit ++ (c!"scene_20_mark_20_".map Seg.lit ++ (style.map Seg.lit ++ (c!"\">".map Seg.lit ++ (c!"\n".map Seg.lit ++
      (Seg.var c!"SceneNumber" c!"$SceneNumber" ::
      (c!" (Ch ".map Seg.lit ++ (Seg.var c!"Chapter" c!"$Chapter" :: (c!") ".map Seg.lit ++ (Seg.var c!"Title" c!"$Title" :: (c!" (".map Seg.lit ++ (word.map Seg.lit ++ (c!")\n".map Seg.lit ++
      c!"</text:p>\n".map Seg.lit)))))))))))) := by
    rcases hs with ⟨rfl, rfl⟩ | ⟨rfl, rfl⟩ | ⟨rfl, rfl⟩ <;> decide +kernel
  unfold subst
  rw [e]
  simp only [List.flatMap_append, List.flatMap_cons, render_lits, render, h3, h4, h5, Option.getD_some]
  generalize c!"<text:p text:style-name=\"" = z1
  generalize c!"scene_20_mark_20_" = z2
  generalize c!"</text:p>\n" = z7
  generalize c!" (Ch " = z8
  generalize c!"\">" = z9
  generalize c!" (" = z10
  generalize c!") " = z11
  generalize c!"\n" = z12
  generalize c!")\n" = z13
  simp only [List.append_assoc]

/-- A character. -/
theorem subst_character {m : Mapping} {p i t f : Str} (h1 : m.get? c!"ProjectName" = some p) (h2 : m.get? c!"ID" = some i) (h3 : m.get? c!"Title" = some t)
    (h4 : m.get? c!"FullName" = some f) : subst xrefCharacter m =
      c!"<text:p text:style-name=\"" ++ c!"Text_20_body" ++ c!"\">" ++ ((c!"\n" ++ ((c!"<text:a xlink:href=\"" ++ ((c!"../" ++ (p ++ (c!"_characters.odt#CrID:" ++ (i ++ c!"%7Cregion")))) ++
        (c!"\">" ++ (t ++ c!"</text:a>")))) ++ (c!" " ++ (f ++ c!"\n")))) ++ c!"</text:p>\n") := by
  have e : segs xrefCharacter = c!"<text:p text:style-name=\"".map Seg.lit ++ (c!"Text_20_body".map Seg.lit ++ (c!"\">".map Seg.lit ++ (c!"\n".map Seg.lit ++
      (c!"<text:a xlink:href=\"".map Seg.lit ++ (c!"../".map Seg.lit ++ (Seg.var c!"ProjectName" c!"${ProjectName}" :: (c!"_characters.odt#CrID:".map Seg.lit ++
      (Seg.var c!"ID" c!"$ID" :: (c!"%7Cregion".map Seg.lit ++ (c!"\">".map Seg.lit ++ (Seg.var c!"Title" c!"$Title" :: (c!"</text:a>".map Seg.lit ++
      (c!" ".map Seg.lit ++ (Seg.var c!"FullName" c!"$FullName" :: (c!"\n".map Seg.lit ++
      c!"</text:p>\n".map Seg.lit))))))))))))))) := by decide +kernel
  unfold subst
  rw [e]
  simp only [List.flatMap_append, List.flatMap_cons, render_lits, render, h1, h2, h3, h4, Option.getD_some]
  generalize c!"<text:p text:style-name=\"" = z1
  generalize c!"Text_20_body" = z2
  generalize c!"<text:a xlink:href=\"" = z3
  generalize c!"_characters.odt#CrID:" = z4
  generalize c!"%7Cregion" = z5
  generalize c!"</text:a>" = z6
  generalize c!"</text:p>\n" = z7
  generalize c!"\">" = z9
  generalize c!"../" = z10
  generalize c!" " = z11
  generalize c!"\n" = z12
  simp only [List.append_assoc]

/-- A location or an item. -/
theorem subst_world {doc mark : Str} (hd : (doc = c!"locations" ∧ mark = c!"LcID") ∨ (doc = c!"items" ∧ mark = c!"ItID")) {m : Mapping} {p i t : Str}
    (h1 : m.get? c!"ProjectName" = some p) (h2 : m.get? c!"ID" = some i) (h3 : m.get? c!"Title" = some t) : subst (xrefWorld doc mark) m =
      c!"<text:p text:style-name=\"" ++ c!"Text_20_body" ++ c!"\">" ++ ((c!"\n" ++ ((c!"<text:a xlink:href=\"" ++
        ((c!"../" ++ (p ++ (c!"_" ++ (doc ++ (c!".odt#" ++ (mark ++ (c!":" ++ (i ++ c!"%7Cregion")))))))) ++
        (c!"\">" ++ (t ++ c!"</text:a>")))) ++ c!"\n")) ++ c!"</text:p>\n") := by
  have e : segs (xrefWorld doc mark) = c!"<text:p text:style-name=\"".map Seg.lit ++ (c!"Text_20_body".map Seg.lit ++ (c!"\">".map Seg.lit ++ (c!"\n".map Seg.lit ++
      (c!"<text:a xlink:href=\"".map Seg.lit ++ (c!"../".map Seg.lit ++ (Seg.var c!"ProjectName" c!"${ProjectName}" :: (c!"_".map Seg.lit ++ (doc.map Seg.lit ++ (c!".odt#".map Seg.lit ++
      (mark.map Seg.lit ++ (c!":".map Seg.lit ++
      (Seg.var c!"ID" c!"$ID" :: (c!"%7Cregion".map Seg.lit ++ (c!"\">".map Seg.lit ++ (Seg.var c!"Title" c!"$Title" :: (c!"</text:a>".map Seg.lit ++ (c!"\n".map Seg.lit ++
      c!"</text:p>\n".map Seg.lit))))))))))))))))) := by rcases hd with ⟨rfl, rfl⟩ | ⟨rfl, rfl⟩ <;> decide +kernel
  unfold subst
  rw [e]
  simp only [List.flatMap_append, List.flatMap_cons, render_lits, render, h1, h2, h3, Option.getD_some]
  generalize c!"<text:p text:style-name=\"" = z1
  generalize c!"Text_20_body" = z2
  generalize c!"<text:a xlink:href=\"" = z3
  generalize c!"%7Cregion" = z5
  generalize c!"</text:a>" = z6
  generalize c!"</text:p>\n" = z7
  generalize c!"\">" = z9
  generalize c!"../" = z10
  generalize c!"_" = z11
  generalize c!"\n" = z12
  generalize c!".odt#" = z13
  generalize c!":" = z14
  simp only [List.append_assoc]

/-- The words of the headings. -/
def Listed (what var : Str) : Prop := (var = c!"Title" ∧ (what = c!"Scenes with Character" ∨ what = c!"Scenes with Location" ∨ what = c!"Scenes with Item")) ∨
  (var = c!"Tag" ∧ (what = c!"Scenes tagged" ∨ what = c!"Characters tagged" ∨ what = c!"Locations tagged" ∨ what = c!"Items tagged"))

theorem subst_heading {what var : Str} (hw : Listed what var) {m : Mapping} {v : Str} (h : m.get? var = some v) : subst (xrefHeading what var) m =
    c!"<text:h text:style-name=\"Heading_20_2\" text:outline-level=\"2\">" ++ ((what ++ (c!" " ++ (v ++ c!":"))) ++ c!"</text:h>\n") := by
  have e : segs (xrefHeading what var) = c!"<text:h text:style-name=\"Heading_20_2\" text:outline-level=\"2\">".map Seg.lit ++ (what.map Seg.lit ++ (c!" ".map Seg.lit ++
      (Seg.var var ('$' :: var) :: (c!":".map Seg.lit ++ c!"</text:h>\n".map Seg.lit)))) := by
    rcases hw with ⟨rfl, rfl | rfl | rfl⟩ | ⟨rfl, rfl | rfl | rfl | rfl⟩ <;> decide +kernel
  unfold subst
  rw [e]
  simp only [List.flatMap_append, List.flatMap_cons, render_lits, render, h, Option.getD_some]
  generalize c!"<text:h text:style-name=\"Heading_20_2\" text:outline-level=\"2\">" = z1
  generalize c!"</text:h>\n" = z2
  generalize c!" " = z3
  generalize c!":" = z4
  simp only [List.append_assoc]

theorem listed_plain {what var : Str} (hw : Listed what var) : what.all plainChar = true := by
  rcases hw with ⟨rfl, rfl | rfl | rfl⟩ | ⟨rfl, rfl | rfl | rfl | rfl⟩ <;> decide

/-! ### Paragraphs -/

/-- An escaped text or one without special characters. -/
theorem Inl.tag {t : Str} (h : Plain t) : Inl t t [] := Inl.lit (plain_all h)

theorem heading_par {what var : Str} (hw : Listed what var) {m : Mapping} {v x : Str} (h : m.get? var = some v) (hv : Inl v x []) :
    Pars (subst (xrefHeading what var) m) [⟨c!"Heading_20_2", what ++ c!" " ++ x ++ c!":", []⟩] := by
  rw [subst_heading hw h]
  have := Pars.h2 ((Inl.lit (listed_plain hw)).append ((Inl.lit (s := c!" ") (by decide)).append (hv.append (Inl.lit (s := c!":") (by decide)))))
  simp only [List.append_assoc, List.append_nil] at this ⊢
  exact this

theorem scene0_par {m : Mapping} {p i t : Str} {k c : Nat} (h1 : m.get? c!"ProjectName" = some (p.flatMap escChar)) (h2 : m.get? c!"ID" = some i)
    (h3 : m.get? c!"SceneNumber" = some (Str.ofNat k)) (h4 : m.get? c!"Chapter" = some (Str.ofNat c)) (h5 : m.get? c!"Title" = some (t.flatMap escChar))
    (hp : ∀ c ∈ p, xmlLegal c = true ∧ c ≠ '\r' ∧ c ≠ '\n' ∧ c ≠ '\t') (hi : PlainId i) (ht : Carriable t) :
    Pars (subst xrefScene0 m) [⟨c!"scene_20_mark", c!"\n" ++ (Str.ofNat k ++ c!" (Ch " ++ Str.ofNat c ++ c!") " ++ t) ++ c!"\n",
      [c!"../" ++ p ++ c!"_manuscript.odt#ScID:" ++ i ++ c!"%7Cregion"]⟩] := by
  rw [subst_scene0 h1 h2 h3 h4 h5]
  have hurl := (Val.lit (s := c!"../") (by decide)).append ((Val.esc hp).append ((Val.lit (s := c!"_manuscript.odt#ScID:") (by decide)).append
    ((Val.lit (plainId_all hi)).append (Val.lit (s := c!"%7Cregion") (by decide)))))
  have hl := Inl.link hurl (Inl.lit (ofNat_plain k))
  have hr := (Inl.lit (s := c!" (Ch ") (by decide)).append ((Inl.lit (ofNat_plain c)).append ((Inl.lit (s := c!") ") (by decide)).append
    ((Inl.esc ht).append (Inl.lit (s := c!"\n") (by decide)))))
  have := Pars.p (style := c!"scene_20_mark") (by simp) ((Inl.lit (s := c!"\n") (by decide)).append (hl.append hr))
  generalize c!"_manuscript.odt#ScID:" = z4 at this ⊢
  generalize c!"%7Cregion" = z5 at this ⊢
  simp only [List.append_assoc, List.append_nil, List.nil_append] at this ⊢
  exact this

theorem aside_par {style word : Str} (hs : Aside style word) {m : Mapping} {t : Str} {k c : Nat}
    (h3 : m.get? c!"SceneNumber" = some (Str.ofNat k)) (h4 : m.get? c!"Chapter" = some (Str.ofNat c)) (h5 : m.get? c!"Title" = some (t.flatMap escChar)) (ht : Carriable t) :
    Pars (subst (xrefSceneAside style word) m) [⟨c!"scene_20_mark_20_" ++ style, c!"\n" ++ (Str.ofNat k ++ c!" (Ch " ++ Str.ofNat c ++ c!") " ++ t) ++ (c!" (" ++ word ++ c!")\n"), []⟩] := by
  rw [subst_aside hs h3 h4 h5]
  have hw : word.all plainChar = true := by rcases hs with ⟨rfl, rfl⟩ | ⟨rfl, rfl⟩ | ⟨rfl, rfl⟩ <;> decide
  have hst : c!"scene_20_mark_20_" ++ style = c!"Title" ∨ c!"scene_20_mark_20_" ++ style = c!"Subtitle" ∨ c!"scene_20_mark_20_" ++ style = c!"Text_20_body" ∨
      c!"scene_20_mark_20_" ++ style = c!"scene_20_mark" ∨ c!"scene_20_mark_20_" ++ style = c!"scene_20_mark_20_notes" ∨
      c!"scene_20_mark_20_" ++ style = c!"scene_20_mark_20_todo" ∨ c!"scene_20_mark_20_" ++ style = c!"scene_20_mark_20_unused" := by
    rcases hs with ⟨rfl, rfl⟩ | ⟨rfl, rfl⟩ | ⟨rfl, rfl⟩ <;> decide
  have hr := (Inl.lit (s := c!"\n") (by decide)).append ((Inl.lit (ofNat_plain k)).append ((Inl.lit (s := c!" (Ch ") (by decide)).append ((Inl.lit (ofNat_plain c)).append
    ((Inl.lit (s := c!") ") (by decide)).append ((Inl.esc ht).append ((Inl.lit (s := c!" (") (by decide)).append ((Inl.lit hw).append (Inl.lit (s := c!")\n") (by decide)))))))))
  have := Pars.p hst hr
  simp only [List.append_assoc, List.append_nil] at this ⊢
  exact this

theorem character_par {m : Mapping} {p i t f : Str} (h1 : m.get? c!"ProjectName" = some (p.flatMap escChar)) (h2 : m.get? c!"ID" = some i)
    (h3 : m.get? c!"Title" = some (t.flatMap escChar)) (h4 : m.get? c!"FullName" = some (f.flatMap escChar))
    (hp : ∀ c ∈ p, xmlLegal c = true ∧ c ≠ '\r' ∧ c ≠ '\n' ∧ c ≠ '\t') (hi : PlainId i) (ht : Carriable t) (hf : Carriable f) :
    Pars (subst xrefCharacter m) [⟨c!"Text_20_body", c!"\n" ++ t ++ c!" " ++ f ++ c!"\n", [c!"../" ++ p ++ c!"_characters.odt#CrID:" ++ i ++ c!"%7Cregion"]⟩] := by
  rw [subst_character h1 h2 h3 h4]
  have hurl := (Val.lit (s := c!"../") (by decide)).append ((Val.esc hp).append ((Val.lit (s := c!"_characters.odt#CrID:") (by decide)).append
    ((Val.lit (plainId_all hi)).append (Val.lit (s := c!"%7Cregion") (by decide)))))
  have hl := Inl.link hurl (Inl.esc ht)
  have hr := (Inl.lit (s := c!" ") (by decide)).append ((Inl.esc hf).append (Inl.lit (s := c!"\n") (by decide)))
  have := Pars.p (style := c!"Text_20_body") (by simp) ((Inl.lit (s := c!"\n") (by decide)).append (hl.append hr))
  generalize c!"_characters.odt#CrID:" = z4 at this ⊢
  generalize c!"%7Cregion" = z5 at this ⊢
  simp only [List.append_assoc, List.append_nil, List.nil_append] at this ⊢
  exact this

theorem world_par {doc mark : Str} (hd : (doc = c!"locations" ∧ mark = c!"LcID") ∨ (doc = c!"items" ∧ mark = c!"ItID")) {m : Mapping} {p i t : Str}
    (h1 : m.get? c!"ProjectName" = some (p.flatMap escChar)) (h2 : m.get? c!"ID" = some i)
    (h3 : m.get? c!"Title" = some (t.flatMap escChar)) (hp : ∀ c ∈ p, xmlLegal c = true ∧ c ≠ '\r' ∧ c ≠ '\n' ∧ c ≠ '\t') (hi : PlainId i) (ht : Carriable t) :
    Pars (subst (xrefWorld doc mark) m) [⟨c!"Text_20_body", c!"\n" ++ t ++ c!"\n", [c!"../" ++ p ++ c!"_" ++ doc ++ c!".odt#" ++ mark ++ c!":" ++ i ++ c!"%7Cregion"]⟩] := by
  rw [subst_world hd h1 h2 h3]
  have hdoc : doc.all plainAttr = true ∧ mark.all plainAttr = true := by rcases hd with ⟨rfl, rfl⟩ | ⟨rfl, rfl⟩ <;> decide
  have hurl := (Val.lit (s := c!"../") (by decide)).append ((Val.esc hp).append ((Val.lit (s := c!"_") (by decide)).append ((Val.lit hdoc.1).append
    ((Val.lit (s := c!".odt#") (by decide)).append ((Val.lit hdoc.2).append ((Val.lit (s := c!":") (by decide)).append
    ((Val.lit (plainId_all hi)).append (Val.lit (s := c!"%7Cregion") (by decide)))))))))
  have hl := Inl.link hurl (Inl.esc ht)
  have := Pars.p (style := c!"Text_20_body") (by simp) ((Inl.lit (s := c!"\n") (by decide)).append (hl.append (Inl.lit (s := c!"\n") (by decide))))
  generalize c!"%7Cregion" = z5 at this ⊢
  simp only [List.append_assoc, List.append_nil, List.nil_append] at this ⊢
  exact this

end Verif
