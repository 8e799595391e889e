import Verif.Model.Escape
import Verif.Lemmas.Str
import Verif.Spec.Xml

namespace Verif
open Spec

theorem replaceGo_single (c : Char) (new : Str) (s : Str) :
    Str.replaceGo [c] new 0 s = s.flatMap (fun x => if x = c then new else [x]) := by
  induction s with
  | nil => rfl
  | cons d ds ih =>
    simp only [Str.replaceGo, List.flatMap_cons]
    by_cases h : d = c
    · subst h
      simp only [List.isPrefixOf, BEq.rfl, Bool.true_and, if_true, List.length_singleton,
        Nat.sub_self, ih]
    · have : ([c] : Str).isPrefixOf (d :: ds) = false := by
        simp [List.isPrefixOf, Ne.symm h]
      simp [this, h, ih]

theorem replace_single (c : Char) (new : Str) (s : Str) :
    Str.replace s [c] new = s.flatMap (fun x => if x = c then new else [x]) :=
  replaceGo_single c new s

theorem replaceAll_append (a b : List (Str × Str)) (t : Str) :
    replaceAll (a ++ b) t = replaceAll b (replaceAll a t) := by
  simp [replaceAll, List.foldl_append]

/-- What the five replacements make of one character. -/
def escChar (c : Char) : Str :=
  if c = '&' then c!"&amp;" else if c = '>' then c!"&gt;" else if c = '<' then c!"&lt;"
  else if c = '\'' then c!"&apos;" else if c = '"' then c!"&quot;" else [c]

theorem replaceAll_xml (t : Str) : replaceAll xmlReplacements t = t.flatMap escChar := by
  simp only [replaceAll, xmlReplacements, List.foldl_cons, List.foldl_nil, replace_single,
    List.flatMap_assoc]
  congr 1
  funext c
  unfold escChar
  by_cases h1 : c = '&'
  · subst h1; decide
  by_cases h2 : c = '>'
  · subst h2; decide
  by_cases h3 : c = '<'
  · subst h3; decide
  by_cases h4 : c = '\''
  · subst h4; decide
  by_cases h5 : c = '"'
  · subst h5; decide
  simp [h1, h2, h3, h4, h5]

theorem replaceAll_ods (t : Str) :
    replaceAll odsReplacements t
      = t.flatMap (fun c => if c = '\n' then c!"</text:p>\n<text:p>" else escChar c) := by
  simp only [replaceAll, odsReplacements, List.foldl_cons, List.foldl_nil, replace_single,
    List.flatMap_assoc]
  congr 1
  funext c
  unfold escChar
  by_cases h1 : c = '&'
  · subst h1; decide
  by_cases h2 : c = '>'
  · subst h2; decide
  by_cases h3 : c = '<'
  · subst h3; decide
  by_cases h4 : c = '\''
  · subst h4; decide
  by_cases h5 : c = '"'
  · subst h5; decide
  by_cases h6 : c = '\n'
  · subst h6; decide
  simp [h1, h2, h3, h4, h5, h6]

theorem odtConvert_quick (t : Str) : odtConvert (some t) true = t.flatMap escChar := by
  cases t with
  | nil => rfl
  | cons c cs => simp only [odtConvert, if_true, replaceAll_xml]

theorem ywConvert_eq (t : Str) : ywConvert (some t) = t.flatMap escChar := by
  cases t with
  | nil => rfl
  | cons c cs => simp only [ywConvert, replaceAll_xml]

theorem odsConvert_eq (t : Str) :
    odsConvert (some t) = (Str.rstrip t).flatMap
      (fun c => if c = '\n' then c!"</text:p>\n<text:p>" else escChar c) := by
  simp only [odsConvert, replaceAll_ods]

theorem charData_esc (t : Str) (h : Carriable t) : CharData (t.flatMap escChar) t := by
  induction t with
  | nil => exact .nil
  | cons c cs ih =>
    have ih := ih (fun d hd => h d (by simp [hd]))
    have hc := h c (by simp)
    simp only [List.flatMap_cons]
    unfold escChar
    split
    · rename_i e; subst e; exact .entity _ _ (by decide) ih
    split
    · rename_i e; subst e; exact .entity _ _ (by decide) ih
    split
    · rename_i e; subst e; exact .entity _ _ (by decide) ih
    split
    · rename_i e; subst e; exact .entity _ _ (by decide) ih
    split
    · rename_i e; subst e; exact .entity _ _ (by decide) ih
    rename_i h1 h2 h3 h4 h5
    exact .char c hc.1 h3 h2 h1 hc.2 ih

theorem charData_nil {t : Str} (h : CharData [] t) : t = [] := by
  generalize hr : ([] : Str) = r at h
  cases h with
  | nil => rfl
  | char => simp at hr
  | entity name c hm _ =>
    exfalso
    simp only [entities, List.mem_cons, Prod.mk.injEq, List.not_mem_nil, or_false] at hm
    rcases hm with ⟨rfl, _⟩ | ⟨rfl, _⟩ | ⟨rfl, _⟩ | ⟨rfl, _⟩ | ⟨rfl, _⟩ <;> simp at hr
  | crlf => simp at hr
  | cr => simp at hr

theorem entity_cases {name : Str} {c : Char} (hm : (name, c) ∈ entities) :
    (name = c!"&amp;" ∧ c = '&') ∨ (name = c!"&lt;" ∧ c = '<') ∨ (name = c!"&gt;" ∧ c = '>') ∨
    (name = c!"&apos;" ∧ c = '\'') ∨ (name = c!"&quot;" ∧ c = '"') := by
  simpa [entities] using hm

theorem entity_amp {name : Str} {c : Char} (hm : (name, c) ∈ entities) :
    ∃ r, name = '&' :: r := by
  rcases entity_cases hm with ⟨rfl, _⟩ | ⟨rfl, _⟩ | ⟨rfl, _⟩ | ⟨rfl, _⟩ | ⟨rfl, _⟩ <;> exact ⟨_, rfl⟩

/-- The parser specification is deterministic. -/
theorem charData_unique {r t : Str} (h : CharData r t) : ∀ {t' : Str}, CharData r t' → t = t' := by
  induction h with
  | nil => intro t' h'; exact (charData_nil h').symm
  | @char c r t hl h1 h2 h3 h4 _ ih =>
    intro t' h'
    generalize hr : c :: r = raw at h'
    cases h' with
    | nil => simp at hr
    | char _ _ _ _ _ _ h'' => simp at hr; obtain ⟨rfl, rfl⟩ := hr; rw [ih h'']
    | crlf => simp at hr; exact absurd hr.1 h4
    | cr => simp at hr; exact absurd hr.1 h4
    | entity name d hm h'' =>
      obtain ⟨q, rfl⟩ := entity_amp hm
      simp at hr; exact absurd hr.1 h3
  | @entity name c r t hm _ ih =>
    intro t' h'
    generalize hr : name ++ r = raw at h'
    cases h' with
    | nil => obtain ⟨q, rfl⟩ := entity_amp hm; simp at hr
    | char d _ _ _ h3 _ _ =>
      obtain ⟨q, rfl⟩ := entity_amp hm; simp at hr; exact absurd hr.1.symm h3
    | crlf => obtain ⟨q, rfl⟩ := entity_amp hm; simp at hr
    | cr => obtain ⟨q, rfl⟩ := entity_amp hm; simp at hr
    | entity name' c' hm' h'' =>
      rcases entity_cases hm with ⟨rfl, rfl⟩ | ⟨rfl, rfl⟩ | ⟨rfl, rfl⟩ | ⟨rfl, rfl⟩ | ⟨rfl, rfl⟩ <;>
        rcases entity_cases hm' with ⟨rfl, rfl⟩ | ⟨rfl, rfl⟩ | ⟨rfl, rfl⟩ | ⟨rfl, rfl⟩ | ⟨rfl, rfl⟩ <;>
        first
        | (simp only [List.cons_append, List.nil_append, List.cons.injEq, true_and] at hr
           subst hr; rw [ih h''])
        | (simp at hr)
  | @crlf r t _ ih =>
    intro t' h'
    generalize hr : '\r' :: '\n' :: r = raw at h'
    cases h' with
    | nil => simp at hr
    | crlf h'' => simp at hr; subst hr; rw [ih h'']
    | cr hn => simp at hr; subst hr; simp at hn
    | char => simp at hr; obtain ⟨rfl, _⟩ := hr; contradiction
    | entity name d hm h'' => obtain ⟨q, rfl⟩ := entity_amp hm; simp at hr
  | @cr r t hn _ ih =>
    intro t' h'
    generalize hr : '\r' :: r = raw at h'
    cases h' with
    | nil => simp at hr
    | cr _ h'' => simp at hr; subst hr; rw [ih h'']
    | crlf => simp at hr; subst hr; simp at hn
    | char => simp at hr; obtain ⟨rfl, _⟩ := hr; contradiction
    | entity name d hm h'' => obtain ⟨q, rfl⟩ := entity_amp hm; simp at hr

theorem mem_esc {t : Str} {d : Char} (h : d ∈ t.flatMap escChar) :
    d ≠ '<' ∧ d ≠ '>' ∧ d ≠ '\'' ∧ d ≠ '"' := by
  simp only [List.mem_flatMap] at h
  obtain ⟨c, _, hd⟩ := h
  unfold escChar at hd
  split at hd
  · simp at hd; rcases hd with rfl | rfl | rfl | rfl | rfl <;> decide
  split at hd
  · simp at hd; rcases hd with rfl | rfl | rfl | rfl <;> decide
  split at hd
  · simp at hd; rcases hd with rfl | rfl | rfl | rfl <;> decide
  split at hd
  · simp at hd; rcases hd with rfl | rfl | rfl | rfl | rfl | rfl <;> decide
  split at hd
  · simp at hd; rcases hd with rfl | rfl | rfl | rfl | rfl | rfl <;> decide
  · simp at hd; subst hd; simp_all

end Verif

namespace Verif

theorem split_char_cons (d c : Char) (s : Str) :
    Str.split (c :: s) [d]
      = if c = d then [] :: Str.split s [d] else Str.consHead c (Str.split s [d]) := by
  by_cases h : c = d
  · subst h
    rw [if_pos rfl]
    exact Str.split_sep_append [c] s (by simp)
  · rw [if_neg h]
    exact Str.split_cons_not_prefix _ _ _ (by
      intro hp
      have := (List.cons_prefix_cons.1 hp).1
      exact h this.symm)

theorem eq_of_mem_zip_self {α : Type} {l : List α} {a b : α} (h : (a, b) ∈ l.zip l) : a = b := by
  induction l with
  | nil => simp at h
  | cons x xs ih =>
    simp only [List.zip_cons_cons, List.mem_cons, Prod.mk.injEq] at h
    rcases h with ⟨rfl, rfl⟩ | h
    · rfl
    · exact ih h

/-- Replacing every newline by `sep` and escaping everything else is escaping line by line. -/
theorem flatMap_lines (sep : Str) (f : Char → Str) (t : Str) :
    t.flatMap (fun c => if c = '\n' then sep else f c)
      = Str.join sep ((Str.split t c!"\n").map (fun l => l.flatMap f)) := by
  induction t with
  | nil => rfl
  | cons c cs ih =>
    rw [split_char_cons, List.flatMap_cons, ih]
    have hne := Str.split_ne_nil cs c!"\n"
    by_cases h : c = '\n'
    · subst h
      simp only [if_true, List.map_cons, List.flatMap_nil]
      rw [Str.join_cons_of_ne _ _ _ (by simpa using hne)]
      simp
    · simp only [h, if_false]
      cases hs : Str.split cs c!"\n" with
      | nil => exact absurd hs hne
      | cons a r =>
        cases r with
        | nil => simp [Str.consHead, Str.join]
        | cons b r => simp [Str.consHead, Str.join]

theorem mem_of_mem_split {d c : Char} {s l : Str} (hl : l ∈ Str.split s [d]) (hc : c ∈ l) :
    c ∈ s ∧ c ≠ d := by
  have h1 := Str.not_infix_of_mem_split [d] (by simp) s l hl
  refine ⟨?_, ?_⟩
  · induction s generalizing l with
    | nil => simp [Str.split_nil] at hl; subst hl; exact hc
    | cons a as ih =>
      rw [split_char_cons] at hl
      split at hl
      · rcases List.mem_cons.1 hl with rfl | hl
        · simp at hc
        · simp [ih hl hc h1]
      · cases hs : Str.split as [d] with
        | nil => exact absurd hs (Str.split_ne_nil _ _)
        | cons x r =>
          rw [hs] at hl
          simp only [Str.consHead, List.mem_cons] at hl
          rcases hl with rfl | hl
          · rcases List.mem_cons.1 hc with rfl | hc
            · simp
            · have hx : ¬ [d] <:+: x := fun h => h1 (h.trans (List.suffix_cons a x).isInfix)
              simp [ih (l := x) (by rw [hs]; simp) hc hx]
          · simp [ih (l := l) (by rw [hs]; simp [hl]) hc h1]
  · rintro rfl
    apply h1
    obtain ⟨a, b, rfl⟩ := List.append_of_mem hc
    exact ⟨a, b, by simp⟩

end Verif
