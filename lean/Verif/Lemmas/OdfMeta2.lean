/-
Lemmas about `styles.xml`.
-/
import Verif.Lemmas.OdfMeta

namespace Verif
open Spec Template XNode

/-- The text properties with a language and a country. -/
def localeAttrs (l1 l2 : List (Str × Str)) (lng ctr : Str) : Dict Str := l1 ++ ((c!"fo:language", lng) :: (c!"fo:country", ctr) :: l2)

theorem props_renders {L C R : Str} {l1 l2 : List (Str × Str)} (hL : L = c!"<style:text-properties" ++ (attrText l1 ++ c!" fo:language=\""))
    (hC : C = c!"\" fo:country=\"") (hR : R = '"' :: (attrText l2 ++ c!"/>"))
    (hk : ∀ k ∈ (localeAttrs l1 l2 [] []).map (·.1), k ≠ [] ∧ k.all qnameChar = true) (hd : ((localeAttrs l1 l2 [] []).map (·.1)).Nodup)
    (hv : ∀ p ∈ l1 ++ l2, p.2.all valueChar = true) {lng ctr : Str} (h1 : lng.all valueChar = true) (h2 : ctr.all valueChar = true) (a0 : Str) :
    Renders (L ++ (lng ++ (C ++ (ctr ++ R)))) a0 (textNode a0 ++ [.elem c!"style:text-properties" (localeAttrs l1 l2 lng ctr) []]) [] := by
  have ek : (localeAttrs l1 l2 lng ctr).map (·.1) = (localeAttrs l1 l2 [] []).map (·.1) := by simp [localeAttrs]
  have hrun := saxRun_attrs c!"seitreporp-txet:elyts" (localeAttrs l1 l2 lng ctr) (by rw [ek]; exact hk) (by
    intro p hp
    unfold localeAttrs at hp
    simp only [List.mem_append, List.mem_cons] at hp
    rcases hp with hp | rfl | rfl | hp
    · exact hv p (by simp [hp])
    · exact h1
    · exact h2
    · exact hv p (by simp [hp])) [] (fun _ _ => rfl) (by rw [ek]; exact hd)
  have et : L ++ (lng ++ (C ++ (ctr ++ R))) = '<' :: (c!"style:text-properties" ++ (attrText (localeAttrs l1 l2 lng ctr) ++ c!"/>")) := by
    rw [hL, hC, hR]
    unfold attrText localeAttrs
    simp
  rw [et]
  apply Renders.empty
  have e0 : saxRun .lt c!"style:text-properties" = (.tag c!"seitreporp-txet:elyts", []) := by decide
  have e1 : ∃ r, attrText (localeAttrs l1 l2 lng ctr) = ' ' :: r := by
    unfold attrText localeAttrs
    cases l1 with
    | nil => exact ⟨_, rfl⟩
    | cons p l1 => exact ⟨_, rfl⟩
  obtain ⟨r, hr⟩ := e1
  have e2 : saxRun (.tag c!"seitreporp-txet:elyts") (attrText (localeAttrs l1 l2 lng ctr)) = saxRun (.valEnd c!"seitreporp-txet:elyts" []) (attrText (localeAttrs l1 l2 lng ctr)) := by
    rw [hr]; rfl
  rw [saxRun_comp e0 (saxRun_comp (e2.trans hrun) (show saxRun (.valEnd c!"seitreporp-txet:elyts" ([] ++ localeAttrs l1 l2 lng ctr)) c!"/>" =
    (.text [], [.start c!"style:text-properties" (localeAttrs l1 l2 lng ctr), .stop c!"style:text-properties"]) from rfl))]
  rfl

/-- The attributes of the empty element a text consists of. -/
def tagAttrs (s : Str) : Dict Str :=
  match (saxRun (.text []) s).2 with
  | .start _ as :: _ => as
  | _ => []

/-- The attributes before the language. -/
def attrsBefore (s : Str) : List (Str × Str) := (tagAttrs s).takeWhile fun p => decide (p.1 ≠ c!"fo:language")

/-- The attributes after the country. -/
def attrsAfter (s : Str) : List (Str × Str) := (tagAttrs s).drop ((attrsBefore s).length + 2)

/-- The last tag of a text is a start tag with this name. -/
def fragName (a s : Str) : Str :=
  match (saxRun (.text a) s).2.getLast? with
  | some (.start t _) => t
  | _ => []

/-- A default style. -/
def defaultStyle (D B T lng ctr : Str) : XNode :=
  .elem c!"style:default-style" (fragAttrs [] D) (fragNodes [] B ++ (textNode (fragRest [] B) ++ [.elem c!"style:text-properties" (localeAttrs (attrsBefore T) (attrsAfter T) lng ctr) []]) ++ [.text c!"\n  "])

/-- What the parts of a default style have to be. -/
def StyleParts (D B L C R E : Str) : Prop :=
  saxRun (.text []) D = (.text [], saxPend c!"  \n" ++ [.start c!"style:default-style" (fragAttrs [] D)]) ∧
  saxRun (.text []) B = (.text (fragRest [] B), nodesEvs (fragNodes [] B)) ∧
  L = c!"<style:text-properties" ++ (attrText (attrsBefore (L ++ (C ++ R))) ++ c!" fo:language=\"") ∧
  C = c!"\" fo:country=\"" ∧ R = '"' :: (attrText (attrsAfter (L ++ (C ++ R))) ++ c!"/>") ∧
  (∀ k ∈ (localeAttrs (attrsBefore (L ++ (C ++ R))) (attrsAfter (L ++ (C ++ R))) [] []).map (·.1), k ≠ [] ∧ k.all qnameChar = true) ∧
  ((localeAttrs (attrsBefore (L ++ (C ++ R))) (attrsAfter (L ++ (C ++ R))) [] []).map (·.1)).Nodup ∧
  (∀ p ∈ attrsBefore (L ++ (C ++ R)) ++ attrsAfter (L ++ (C ++ R)), p.2.all valueChar = true) ∧
  E = c!"\n  " ++ c!"</style:default-style>"

instance (D B L C R E : Str) : Decidable (StyleParts D B L C R E) := by unfold StyleParts; infer_instance

theorem defaultStyle_renders {D B L C R E : Str} (h : StyleParts D B L C R E) {lng ctr : Str} (h1 : lng.all valueChar = true) (h2 : ctr.all valueChar = true) :
    Renders (D ++ (B ++ (L ++ (lng ++ (C ++ (ctr ++ (R ++ E))))))) [] [.text c!"\n  ", defaultStyle D B (L ++ (C ++ R)) lng ctr] [] := by
  obtain ⟨k1, k2, k3, k4, k5, k6, k7, k8, k9⟩ := h
  have p := props_renders k3 k4 k5 k6 k7 k8 h1 h2 (fragRest [] B)
  have w1 : Renders c!"\n  " [] [] c!"  \n" := by unfold Renders; decide
  have inner := (show Renders B [] _ _ from k2).append p
  have := Renders.element (S := D) (E := c!"</style:default-style>") (a2 := []) (a1 := c!"  \n") k1 (inner.append w1) (by decide)
  have e : D ++ (B ++ (L ++ (lng ++ (C ++ (ctr ++ (R ++ E)))))) = D ++ (B ++ (L ++ (lng ++ (C ++ (ctr ++ R)))) ++ c!"\n  " ++ c!"</style:default-style>") := by
    rw [k9]; simp only [List.append_assoc]
  rw [e]
  unfold defaultStyle
  simpa [textNode] using this

/-- The tree of a `styles.xml`. -/
def stylesTree (root fonts : Str) (defaults : List XNode) (more layout : Str) : XNode :=
  .elem c!"office:document-styles" (fragAttrs [] root)
    (fragNodes [] fonts ++ (textNode (fragRest [] fonts) ++ [.elem c!"office:styles" [] (defaults ++ fragNodes [] more ++ textNode (fragRest [] more))]) ++
      fragNodes [] layout ++ textNode (fragRest [] layout))

/-- What the parts of a `styles.xml` have to be. -/
def StylesParts (prolog root fonts opn more close layout stp : Str) : Prop :=
  saxRun (.text []) (prolog ++ root) = (.text [], saxPend c!"\n\n" ++ [.start c!"office:document-styles" (fragAttrs [] root)]) ∧
  saxRun (.text []) fonts = (.text (fragRest [] fonts), nodesEvs (fragNodes [] fonts)) ∧
  opn = c!"<office:styles>" ∧
  saxRun (.text []) more = (.text (fragRest [] more), nodesEvs (fragNodes [] more)) ∧
  close = c!"</office:styles>" ∧
  saxRun (.text []) layout = (.text (fragRest [] layout), nodesEvs (fragNodes [] layout)) ∧
  stp = c!"</office:document-styles>\n"

instance (prolog root fonts opn more close layout stp : Str) : Decidable (StylesParts prolog root fonts opn more close layout stp) := by
  unfold StylesParts; infer_instance

theorem styles_parses {prolog root fonts opn more close layout stp defs : Str} {defaults : List XNode} (h : StylesParts prolog root fonts opn more close layout stp)
    (hd : Renders defs [] defaults []) (hr : '\r' ∉ prolog ++ (root ++ (fonts ++ (opn ++ (defs ++ (more ++ (close ++ (layout ++ stp)))))))) :
    parseDoc (prolog ++ (root ++ (fonts ++ (opn ++ (defs ++ (more ++ (close ++ (layout ++ stp)))))))) = some (stylesTree root fonts defaults more layout) := by
  obtain ⟨k1, k2, k3, k4, k5, k6, k7⟩ := h
  have so : ∀ a, saxRun (.text a) opn = (.text [], saxPend a ++ [.start c!"office:styles" []]) := by
    intro a
    rw [k3]
    exact saxRun_lt a c!"office:styles>"
  have sc : ∀ a, saxRun (.text a) close = (.text [], saxPend a ++ [.stop c!"office:styles"]) := by
    intro a
    rw [k5]
    exact saxRun_lt a c!"/office:styles>"
  have ss : ∀ a, saxRun (.text a) stp = (.text ['\n'], saxPend a ++ [.stop c!"office:document-styles"]) := by
    intro a
    rw [k7]
    exact saxRun_lt a c!"/office:document-styles>\n"
  have st := Renders.element (so (fragRest [] fonts)) (hd.append (show Renders more [] _ _ from k4)) (sc _)
  have inner := ((show Renders fonts [] _ _ from k2).append st).append (show Renders layout [] _ _ from k6)
  have rt := Renders.element k1 inner (ss _)
  refine parseDoc_of (w := c!"\n\n") (acc := ['\n']) ?_ (by decide) (by decide) hr
  have e : prolog ++ (root ++ (fonts ++ (opn ++ (defs ++ (more ++ (close ++ (layout ++ stp))))))) =
      prolog ++ root ++ (fonts ++ (opn ++ (defs ++ more ++ close)) ++ layout ++ stp) := by simp only [List.append_assoc]
  rw [e]
  exact rt

end Verif
