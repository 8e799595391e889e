/-
Importing a work in progress.
-/
import Verif.Lemmas.ReadScene
import Verif.Lemmas.Ini
import Verif.Spec.Import

namespace Verif
open Spec

/-! ### Dictionaries that grow at their end -/

theorem modify_snoc {α : Type} {d : Dict α} {k : Str} (h : k ∉ d.keys) (v : α) (f : α → α) :
    Dict.modify (d ++ [(k, v)]) k f = d ++ [(k, f v)] := by
  induction d with
  | nil => simp [Dict.modify]
  | cons p r ih =>
    obtain ⟨a, b⟩ := p
    simp only [Dict.keys, List.map_cons, List.mem_cons, not_or] at h
    rw [List.cons_append, Dict.modify, if_neg (fun e => h.1 e.symm), ih h.2]
    rfl

theorem get?_snoc {α : Type} {d : Dict α} {k : Str} (h : k ∉ d.keys) (v : α) : Dict.get? (d ++ [(k, v)]) k = some v := by
  induction d with
  | nil => simp [Dict.get?]
  | cons p r ih =>
    obtain ⟨a, b⟩ := p
    simp only [Dict.keys, List.map_cons, List.mem_cons, not_or] at h
    rw [List.cons_append, Dict.get?, if_neg (fun e => h.1 e.symm), ih h.2]

theorem has_snoc {α : Type} {d : Dict α} {k : Str} (h : k ∉ d.keys) (v : α) : Dict.has (d ++ [(k, v)]) k = true := by
  unfold Dict.has
  rw [get?_snoc h]
  rfl

theorem keys_snoc {α : Type} (d : Dict α) (k : Str) (v : α) : Dict.keys (d ++ [(k, v)]) = d.keys ++ [k] := by
  simp [Dict.keys]

theorem ids_succ (k : Nat) : ids (k + 1) = ids k ++ [Str.ofNat (k + 1)] := by
  simp [ids, List.range_succ]

theorem ids_fresh (k : Nat) : Str.ofNat (k + 1) ∉ ids k := by
  unfold ids
  intro h
  obtain ⟨i, hi, e⟩ := List.mem_map.1 h
  have := Str.ofNat_injective e
  have := List.mem_range.1 hi
  omega

/-- The keys are the numbers from 1. -/
def Grown {α : Type} (d : Dict α) : Prop := d.keys = ids d.length

theorem Grown.fresh {α : Type} {d : Dict α} (h : Grown d) : Str.ofNat (d.length + 1) ∉ d.keys := by
  rw [h]
  exact ids_fresh _

theorem Grown.snoc {α : Type} {d : Dict α} (h : Grown d) (v : α) : Grown (d ++ [(Str.ofNat (d.length + 1), v)]) := by
  unfold Grown
  rw [keys_snoc, h, List.length_append, List.length_singleton, ids_succ]

theorem Grown.set {α : Type} {d : Dict α} (h : Grown d) (v : α) :
    Dict.set d (Str.ofNat (d.length + 1)) v = d ++ [(Str.ofNat (d.length + 1), v)] := Dict.set_snoc d _ v h.fresh

/-! ### The states of the parser -/

/-- Between two paragraphs. -/
def docP (st : Option Str) (cm : Str) : OdtP := { style := st, comment := cm }

/-- In a paragraph. -/
def parP (st : Option Str) (cm : Str) (sp : List Str) : OdtP := { style := st, comment := cm, paragraph := true, span := sp }

/-- In a comment. -/
def annP (st : Option Str) (cm : Str) (k : Nat) : OdtP := { style := st, comment := cm, paragraph := true, commentCount := some k }

/-- In a heading. -/
def hdP (st : Option Str) (cm : Str) (h : Str) : OdtP := { style := st, comment := cm, heading := some h }

theorem unknown_start {t : Str} (h : t ∉ knownElements) (p : OdtP) (as : Dict Str) : OdtP.startElement p t as = .ok (p, []) := by
  simp only [knownElements, List.mem_cons, List.not_mem_nil, or_false, not_or] at h
  obtain ⟨h1, h2, h3, h4, h5, h6, h7, h8, h9⟩ := h
  unfold OdtP.startElement
  simp only
  rw [if_neg h1, if_neg h2, if_neg h3, if_neg h4, if_neg h5, if_neg h6, if_neg h7, if_neg h8, if_neg h9]

theorem unknown_stop {t : Str} (h : t ∉ knownElements) (p : OdtP) : OdtP.endElement p t = (p, []) := by
  simp only [knownElements, List.mem_cons, List.not_mem_nil, or_false, not_or] at h
  obtain ⟨h1, h2, h3, h4, h5, h6, h7, h8, h9⟩ := h
  unfold OdtP.endElement
  rw [if_neg h1, if_neg h2, if_neg h3, if_neg h4, if_neg h5, if_neg h6, if_neg h7]

theorem startStyle_plain {as : Dict Str} (h : ∀ v, Dict.get? as c!"style:parent-style-name" = some v → Str.startsWith v c!"Heading" = false ∧ v ≠ c!"Quotations")
    (st : Option Str) (cm : Str) : OdtP.startStyle (docP st cm) as = docP (Dict.get? as c!"style:name") cm := by
  unfold OdtP.startStyle
  simp only
  cases hn : Dict.get? as c!"style:name" with
  | none => rfl
  | some s =>
    simp only
    cases hp : Dict.get? as c!"style:parent-style-name" with
    | none => rfl
    | some v =>
      obtain ⟨h1, h2⟩ := h v hp
      simp only [Option.getD_some]
      rw [if_neg (by rw [h1]; simp), if_neg h2]
      rfl

theorem textProperties_plain {as : Dict Str} (h1 : Dict.get? as c!"fo:font-style" ≠ some c!"italic") (h2 : Dict.get? as c!"fo:font-weight" ≠ some c!"bold")
    (h3 : Dict.get? as c!"fo:language" = none) (p : OdtP) : OdtP.textProperties p as = .ok p := by
  unfold OdtP.textProperties
  rw [h3]
  cases p.style with
  | none => simp
  | some s =>
    simp only
    rw [if_neg h1, if_neg h2]

/-- Events without a meaning change nothing. -/
theorem Goes.inert {h : Reader} {e : Ev} (he : Inert e) (st : Option Str) (cm : Str) (r : Rd) :
    ∃ st', Goes h (docP st cm) r [e] (docP st' cm) r := by
  cases e with
  | start t as =>
    rcases he with he | ⟨rfl, he⟩ | ⟨rfl, h1, h2, h3⟩
    · exact ⟨st, Goes.one0 r (unknown_start he _ _)⟩
    · refine ⟨Dict.get? as c!"style:name", Goes.one0 r ?_⟩
      show Except.ok (OdtP.startStyle (docP st cm) as, _) = _
      rw [startStyle_plain he]
    · refine ⟨st, Goes.one0 r ?_⟩
      show (match OdtP.textProperties (docP st cm) as with | .ok p' => _ | .error e => _) = _
      rw [textProperties_plain h1 h2 h3]
  | stop t =>
    rcases he with he | rfl | rfl
    · refine ⟨st, Goes.one0 r ?_⟩
      show Except.ok (OdtP.endElement _ t) = _
      rw [unknown_stop he]
    · exact ⟨none, Goes.one0 r rfl⟩
    · exact ⟨st, Goes.one0 r rfl⟩
  | chars s => exact ⟨st, Goes.one0 r rfl⟩

theorem Goes.inerts {h : Reader} {evs : List Ev} (he : ∀ e ∈ evs, Inert e) (st : Option Str) (cm : Str) (r : Rd) :
    ∃ st', Goes h (docP st cm) r evs (docP st' cm) r := by
  induction evs generalizing st with
  | nil => exact ⟨st, Goes.nil _ _ _⟩
  | cons e evs ih =>
    obtain ⟨st1, h1⟩ := Goes.inert (h := h) (he e (by simp)) st cm r
    obtain ⟨st2, h2⟩ := ih (fun x hx => he x (by simp [hx])) st1
    exact ⟨st2, h1.append h2⟩

theorem Goes.cons {h : Reader} {p p1 p2 : OdtP} {r r1 r2 : Rd} {e : Ev} {b : List Ev} (h1 : Goes h p r [e] p1 r1) (h2 : Goes h p1 r1 b p2 r2) :
    Goes h p r (e :: b) p2 r2 := h1.append h2

/-- A paragraph begins. -/
theorem step_par {s : Str} (hs : PlainStyle s) (st : Option Str) (cm : Str) :
    OdtP.step (docP st cm) (.start c!"text:p" [(c!"text:style-name", s)]) = .ok (parP st cm [], [.start c!"p" []]) := by
  obtain ⟨h1, h2⟩ := hs
  simp only [List.mem_cons, List.not_mem_nil, or_false, not_or] at h1
  obtain ⟨h3, h4, h5⟩ := h1
  have e : OdtP.startParagraph (docP st cm) s = .ok (parP st cm [], [.start c!"p" []]) := by
    have c1 : ¬ s ∈ (docP st cm).blockquoteTags := fun h => h5 (List.mem_singleton.1 h)
    have c2 : ¬ Str.startsWith s c!"Heading" = true := by rw [h2]; simp
    unfold OdtP.startParagraph
    show (if s ∈ (docP st cm).blockquoteTags then _ else if Str.startsWith s c!"Heading" = true then _ else _) = _
    rw [if_neg c1, if_neg c2]
    rfl
  show (match OdtP.startParagraph (docP st cm) s with | .ok r => Except.ok (OdtP.emphasis s r) | .error e => .error e) = _
  rw [e]
  have c1 : ¬ s ∈ (parP st cm []).emTags := fun h => h3 (List.mem_singleton.1 h)
  have c2 : ¬ s ∈ (parP st cm []).strongTags := fun h => h4 (List.mem_singleton.1 h)
  show Except.ok (OdtP.emphasis s _) = _
  unfold OdtP.emphasis
  simp only
  rw [if_neg c1, if_neg c2]

/-- A paragraph ends. -/
theorem step_parEnd (st : Option Str) (cm : Str) : OdtP.step (parP st cm []) (.stop c!"text:p") = .ok (docP st cm, [.stop c!"p"]) := rfl

/-- A comment: the events lead to one call. -/
theorem Goes.note {h : Reader} {r r' : Rd} (a s : Str) (st : Option Str) (cm : Str) (hr : h r (.comment s) = .ok r') :
    Goes h (parP st cm []) r (Run.note a s).events (parP st s []) r' := by
  unfold Run.events
  refine Goes.cons (p1 := annP st [] 0) (Goes.one0 r rfl) ?_
  refine Goes.cons (p1 := annP st [] 0) (Goes.one0 r rfl) ?_
  refine Goes.cons (p1 := annP st [] 0) (Goes.one0 r rfl) ?_
  refine Goes.cons (p1 := annP st [] 0) (Goes.one0 r rfl) ?_
  refine Goes.cons (p1 := annP st [] 1) (Goes.one0 r rfl) ?_
  refine Goes.cons (p1 := annP st s 1) (Goes.one0 r rfl) ?_
  refine Goes.cons (p1 := annP st s 1) (Goes.one0 r rfl) ?_
  exact Goes.one1 rfl hr

/-- Text: one call. -/
theorem Goes.chars {h : Reader} {r r' : Rd} (s : Str) (st : Option Str) (cm : Str) (sp : List Str) (hr : h r (.data s) = .ok r') :
    Goes h (parP st cm sp) r [.chars s] (parP st cm sp) r' := Goes.one1 rfl hr

/-- Emphasised text: three calls. -/
theorem Goes.emph {h : Reader} {r r1 r2 r3 : Rd} (s : Str) (st : Option Str) (cm : Str) (h1 : h r (.start c!"em" []) = .ok r1)
    (h2 : h r1 (.data s) = .ok r2) (h3 : h r2 (.stop c!"em") = .ok r3) : Goes h (parP st cm []) r (Run.emph s).events (parP st cm []) r3 := by
  unfold Run.events
  refine Goes.cons (p1 := parP st cm [c!"em"]) (Goes.one1 rfl h1) ?_
  refine Goes.cons (Goes.chars s st cm _ h2) ?_
  exact Goes.one1 rfl h3

/-- See `Goes.emph`. -/
theorem Goes.strong {h : Reader} {r r1 r2 r3 : Rd} (s : Str) (st : Option Str) (cm : Str) (h1 : h r (.start c!"strong" []) = .ok r1)
    (h2 : h r1 (.data s) = .ok r2) (h3 : h r2 (.stop c!"strong") = .ok r3) : Goes h (parP st cm []) r (Run.strong s).events (parP st cm []) r3 := by
  unfold Run.events
  refine Goes.cons (p1 := parP st cm [c!"strong"]) (Goes.one1 rfl h1) ?_
  refine Goes.cons (Goes.chars s st cm _ h2) ?_
  exact Goes.one1 rfl h3

/-- A heading: three calls. -/
theorem Goes.heading {h : Reader} {hd : Heading} (ha : ∀ e ∈ hd.after, Inert e) {r r1 r2 r3 : Rd} (st : Option Str) (cm : Str)
    (h1 : h r (.start ('h' :: Str.ofNat hd.level) []) = .ok r1) (h2 : h r1 (.data hd.text) = .ok r2)
    (h3 : h r2 (.stop ('h' :: Str.ofNat hd.level)) = .ok r3) : ∃ st', Goes h (docP st cm) r hd.events (docP st' cm) r3 := by
  obtain ⟨st', h4⟩ := Goes.inerts (h := h) ha st cm r3
  refine ⟨st', ?_⟩
  unfold Heading.events
  refine Goes.append ?_ h4
  refine Goes.cons (p1 := hdP st cm ('h' :: Str.ofNat hd.level)) (Goes.one1 rfl h1) ?_
  refine Goes.cons (p1 := hdP st cm ('h' :: Str.ofNat hd.level)) (Goes.one1 rfl h2) ?_
  exact Goes.one1 rfl h3

end Verif
