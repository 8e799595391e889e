/-
C41 for projects read from a file: after the reset no custom variable of any element has a value.
-/
import Verif.Props.C41_Purge
import Verif.Lemmas.Export2
import Verif.Props.C39_SceneTypes

namespace Verif
open Verif.Spec

theorem hasValue_mem {kw : Dict (Option Str)} {f : Str} (h : HasValue kw f) : f ∈ kw.keys := by
  obtain ⟨v, hv, _⟩ := h
  exact (Dict.mem_keys_iff kw f).mpr ⟨_, hv⟩

/-- All variables of an element are among the given ones. -/
def KwWithin {α : Type} (kw : α → Dict (Option Str)) (fields : List Str) (e : α) : Prop := ∀ f ∈ (kw e).keys, f ∈ fields

theorem none_left {α : Type} {kw : α → Dict (Option Str)} {put : α → Dict (Option Str) → α} (hput : ∀ e k, kw (put e k) = k)
    {fields : List Str} {d d' : Dict α} (h : AllEmptied kw put fields d d') (hd : AllVals (KwWithin kw fields) d) :
    ∀ id e, d'.get? id = some e → ∀ f, ¬ HasValue (kw e) f := by
  intro id e he f hf
  have hk : id ∈ d.keys := by rw [← h.1]; exact (Dict.mem_keys_iff d' id).mpr ⟨e, he⟩
  obtain ⟨e0, he0⟩ := (Dict.mem_keys_iff d id).mp hk
  obtain ⟨kw', hkw, hget⟩ := h.2 id e0 he0
  rw [he] at hget
  injection hget with hget
  rw [hget, hput] at hf
  have : f ∈ (kw e0).keys := by rw [← hkw.2.2]; exact hasValue_mem hf
  exact hkw.1 f (hd id e0 he0 f this) hf

/-- What a project file can give to custom variables. -/
theorem readTree_kwVars {lib : PyLib} {root : Elem} {n : Novel} (h : readTree lib root = .ok n) :
    (∀ f ∈ n.kwVar.keys, f ∈ yw7KwVars.prj) ∧ AllVals (KwWithin Chapter.kwVar yw7KwVars.chp) n.chapters ∧
    AllVals (KwWithin Scene.kwVar yw7KwVars.scn) n.scenes ∧ AllVals (KwWithin (fun e : Character => e.kwVar) yw7KwVars.crt) n.characters ∧
    AllVals (KwWithin WorldElement.kwVar yw7KwVars.loc) n.locations ∧ AllVals (KwWithin WorldElement.kwVar yw7KwVars.itm) n.items := by
  unfold readTree readRoot at h
  cases hf : Xml.find c!"PROJECT" root.kids with
  | none => rw [hf] at h; cases h
  | some prj =>
  rw [hf] at h
  obtain ⟨prj, _, h⟩ := bind_ok h
  obtain ⟨l, hl, h⟩ := bind_ok h
  obtain ⟨i, hi, h⟩ := bind_ok h
  obtain ⟨c, hc, h⟩ := bind_ok h
  obtain ⟨s, hs, h⟩ := bind_ok h
  obtain ⟨ch, hch, h⟩ := bind_ok h
  obtain ⟨h1, _, h3⟩ := C39_effect _ n h
  have hs' : AllVals (KwWithin Scene.kwVar yw7KwVars.scn) s.2 := by
    refine readSection_all (f := readScene lib c.1 l.1 i.1) ?_ (by intro k v hv; cases hv) hs
    intro ks a ha
    unfold readScene at ha
    split at ha
    · cases ha
    · split at ha
      · cases ha
      · injection ha with ha
        subst ha
        intro f hf
        split at hf <;> simpa [Dict.keys, yw7KwVars, Scene.setContent] using hf
  have hw : ∀ ks (a : WorldElement), (Except.ok (readWorld ks) : Except Exc WorldElement) = .ok a → KwWithin WorldElement.kwVar [c!"Field_Link"] a := by
    intro ks a ha
    cases ha
    intro f hf
    simpa [readWorld, Dict.keys] using hf
  rw [h1]
  refine ⟨?_, ?_, ?_, ?_, ?_, ?_⟩
  · intro f hf
    simpa [readProject, Dict.set, Dict.keys, yw7KwVars] using hf
  · refine readSection_all (f := fun ks => .ok (readChapter s.2.keys ks)) ?_ (by intro k v hv; cases hv) hch
    intro ks a ha
    cases ha
    intro f hf
    simp [readChapter, Dict.keys] at hf
  · intro k v hv
    have hv' : n.scenes.get? k = some v := hv
    rw [h3 k] at hv'
    cases hg : Dict.get? s.2 k with
    | none => simp only [hg, Option.map_none] at hv'; cases hv'
    | some s0 =>
      simp only [hg, Option.map_some] at hv'
      injection hv' with hv'
      have := hs' k s0 hg
      rw [← hv']
      split
      · exact this
      · exact this
  · refine readSection_all (f := fun ks => .ok (readCharacter ks)) ?_ (by intro k v hv; cases hv) hc
    intro ks a ha
    cases ha
    intro f hf
    simpa [readCharacter, Dict.keys, yw7KwVars] using hf
  · exact readSection_all (f := fun ks => .ok (readWorld ks)) hw (by intro k v hv; cases hv) hl
  · exact readSection_all (f := fun ks => .ok (readWorld ks)) hw (by intro k v hv; cases hv) hi

/-- C41: after resetting the custom variables of a project that was read from a file, no custom variable of the project or of any
chapter, scene, character, location or item has a value. -/
theorem C41_yw7 {lib : PyLib} {root : Elem} {n n' : Novel} {b : Bool} (h : readTree lib root = .ok n)
    (hr : resetCustomVariables yw7KwVars n = .ok (n', b)) :
    (∀ f, ¬ HasValue n'.kwVar f) ∧
    (∀ id e, n'.chapters.get? id = some e → ∀ f, ¬ HasValue e.kwVar f) ∧ (∀ id e, n'.scenes.get? id = some e → ∀ f, ¬ HasValue e.kwVar f) ∧
    (∀ id e, n'.characters.get? id = some e → ∀ f, ¬ HasValue e.kwVar f) ∧
    (∀ id e, n'.locations.get? id = some e → ∀ f, ¬ HasValue e.kwVar f) ∧ (∀ id e, n'.items.get? id = some e → ∀ f, ¬ HasValue e.kwVar f) := by
  obtain ⟨k1, k2, k3, k4, k5, k6⟩ := readTree_kwVars h
  obtain ⟨m, b', hm, e1, e2, e3, e4, e5, e6, _⟩ := C41_reset yw7KwVars rfl n
  rw [hm] at hr
  injection hr with hr
  injection hr with hr1 hr2
  subst hr1
  refine ⟨?_, none_left (fun _ _ => rfl) e2 k2, none_left (fun _ _ => rfl) e3 k3, none_left (fun _ _ => rfl) e4 k4,
    none_left (fun _ _ => rfl) e5 k5, none_left (fun _ _ => rfl) e6 k6⟩
  intro f hf
  have : f ∈ n.kwVar.keys := by rw [← e1.2.2]; exact hasValue_mem hf
  exact e1.1 f (k1 f this) hf

end Verif
