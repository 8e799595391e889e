/-
Project variables: writing and reading.
-/
import Verif.Spec.Vars
import Verif.Lemmas.Yw7Project
import Verif.Props.C01_C03_Lists

namespace Verif
open Xml Elem Spec

theorem split_lang (title : Str) (h : Str.startsWith title c!"lang=" = true) :
    (match Str.split title c!"=" with | [_, code] => some code | _ => none) = langCode title := by
  have hp : c!"lang=" <+: title := by
    unfold Str.startsWith at h
    exact List.isPrefixOf_iff_prefix.1 h
  obtain ⟨c, rfl⟩ := hp
  have h1 : Str.split (c!"lang=" ++ c) c!"=" = c!"lang" :: Str.split c c!"=" := by
    have := Str.split_append_sep c!"=" c!"lang" c (by decide) ((Str.freeOf_singleton _ _).2 (by decide))
    simpa using this
  rw [h1]
  unfold langCode
  have hd : (c!"lang=" ++ c).drop 5 = c := rfl
  rw [hd]
  by_cases hc : '=' ∈ c
  · rw [if_neg (by simp [hc])]
    cases hs : Str.split c c!"=" with
    | nil => rfl
    | cons a r =>
      cases r with
      | cons b r => rfl
      | nil =>
        exfalso
        have hj := Str.join_split c!"=" (by decide) c
        rw [hs] at hj
        simp only [Str.join] at hj
        subst hj
        have := Str.not_infix_of_mem_split c!"=" (by decide) a a (by rw [hs]; simp)
        apply this
        obtain ⟨x, y, rfl⟩ := List.append_of_mem hc
        exact ⟨x, y, by simp⟩
  · rw [if_pos ⟨List.prefix_append _ _, hc⟩, Str.split_free]
    rintro ⟨x, y, hxy⟩
    exact hc (by rw [← hxy]; simp)

theorem langCode_none (title : Str) (h : Str.startsWith title c!"lang=" ≠ true) : langCode title = none := by
  unfold langCode
  rw [if_neg]
  rintro ⟨hp, _⟩
  exact h (List.isPrefixOf_iff_prefix.2 hp)

theorem langCode_lang (code : Str) (h : '=' ∉ code) : langCode (c!"lang=" ++ code) = some code := by
  unfold langCode
  rw [if_pos ⟨List.prefix_append _ _, h⟩]; rfl

theorem langCode_end (code : Str) : langCode (c!"/lang=" ++ code) = none := by
  apply langCode_none
  simp [Str.startsWith]

/-- What the loop makes of a variable. -/
def setLocale (lng ctr : Option Str) (e : Elem) : Elem :=
  if textOf c!"Title" e.kids = some c!"Language" then e.mapKids (modFirst c!"Desc" (setText lng))
  else if textOf c!"Title" e.kids = some c!"Country" then e.mapKids (modFirst c!"Desc" (setText ctr))
  else e

theorem textOf_eq_some {t : Str} {ks : List Elem} {v : Str} (h : textOf t ks = some v) :
    ∃ e, find t ks = some e ∧ e.text = some v := by
  unfold textOf at h
  cases hf : find t ks with
  | none => rw [hf] at h; cases h
  | some e => rw [hf] at h; exact ⟨e, rfl, h⟩

theorem scanVar_ok {lng ctr : Option Str} {st : PvState} {e : Elem} (he : VarElement e) :
    scanVar lng ctr st e = .ok
      { ids := st.ids ++ varIds [e]
        languages := (langsIn [e]).foldl List.erase st.languages
        hasLng := st.hasLng || decide (textOf c!"Title" e.kids = some c!"Language")
        hasCtr := st.hasCtr || decide (textOf c!"Title" e.kids = some c!"Country")
        out := st.out ++ [setLocale lng ctr e] } := by
  obtain ⟨i, hi, _⟩ := he.id
  obtain ⟨t, ht, _⟩ := he.title
  obtain ⟨ie, hie1, hie2⟩ := textOf_eq_some hi
  obtain ⟨te, hte1, hte2⟩ := textOf_eq_some ht
  have hd : hasTag c!"Desc" e.kids = true := (hasTag_iff _ _).2 he.desc
  have hids : varIds [e] = [i] := by simp [varIds, hi]
  have hlangs : langsIn [e] = (langCode t).toList := by
    unfold langsIn
    simp only [List.filterMap_cons, ht, Option.bind_some, List.filterMap_nil]
    cases langCode t <;> rfl
  unfold scanVar
  rw [if_neg (by rw [he.tag]; simp), hie1, hte1]
  simp only [hie2, hte2, Option.toList_some]
  rw [hids, hlangs]
  unfold setLocale
  rw [ht]
  by_cases h1 : Str.startsWith t c!"lang=" = true
  · rw [if_pos h1]
    have h2 : t ≠ c!"Language" := by rintro rfl; revert h1; decide
    have h3 : t ≠ c!"Country" := by rintro rfl; revert h1; decide
    have := split_lang t h1
    rw [if_neg (by simpa using h2), if_neg (by simpa using h3)]
    simp only [Option.some.injEq, h2, h3, decide_false, Bool.or_false, Except.ok.injEq]
    congr 1
    cases hc : langCode t with
    | none =>
      rw [hc] at this
      revert this
      match Str.split t c!"=" with
      | [] => intro; rfl
      | [_] => intro; rfl
      | [_, _] => intro h; cases h
      | _ :: _ :: _ :: _ => intro; rfl
    | some c =>
      rw [hc] at this
      revert this
      match Str.split t c!"=" with
      | [] => intro h; cases h
      | [_] => intro h; cases h
      | [_, _] => intro h; cases h; rfl
      | _ :: _ :: _ :: _ => intro h; cases h
  · rw [if_neg h1, langCode_none t h1]
    by_cases h2 : t = c!"Language"
    · subst h2
      rw [if_pos rfl, if_pos hd]
      simp
    · rw [if_neg h2]
      by_cases h3 : t = c!"Country"
      · subst h3
        rw [if_pos rfl, if_pos hd]
        simp
      · rw [if_neg h3]
        simp [h2, h3]

theorem langsIn_append (a b : List Elem) : langsIn (a ++ b) = langsIn a ++ langsIn b := by
  simp [langsIn]

theorem varIds_append (a b : List Elem) : varIds (a ++ b) = varIds a ++ varIds b := by
  simp [varIds]

theorem scanVars_ok {lng ctr : Option Str} {ks : List Elem} (hk : ∀ e ∈ ks, VarElement e) (st : PvState) :
    scanVars lng ctr st ks = .ok
      { ids := st.ids ++ varIds ks
        languages := (langsIn ks).foldl List.erase st.languages
        hasLng := st.hasLng || ks.any (fun e => decide (textOf c!"Title" e.kids = some c!"Language"))
        hasCtr := st.hasCtr || ks.any (fun e => decide (textOf c!"Title" e.kids = some c!"Country"))
        out := st.out ++ ks.map (setLocale lng ctr) } := by
  induction ks generalizing st with
  | nil => unfold scanVars; simp [varIds, langsIn]
  | cons e r ih =>
    unfold scanVars
    rw [scanVar_ok (hk e (by simp))]
    simp only
    rw [ih (fun e he => hk e (by simp [he]))]
    have h1 : varIds (e :: r) = varIds [e] ++ varIds r := varIds_append [e] r
    have h2 : langsIn (e :: r) = langsIn [e] ++ langsIn r := langsIn_append [e] r
    rw [h1, h2]
    simp [Bool.or_assoc]

theorem foldl_erase_nodup (fs ls : List Str) (h : ls.Nodup) :
    fs.foldl List.erase ls = ls.filter (fun x => decide (x ∉ fs)) := by
  induction fs generalizing ls with
  | nil => rw [List.foldl_nil, List.filter_eq_self.2 (by simp)]
  | cons a r ih =>
    rw [List.foldl_cons, ih _ (h.erase a), h.erase_eq_filter, List.filter_filter]
    apply List.filter_congr
    intro x _
    by_cases hx : x = a <;> simp [hx, Bool.and_comm]

/-- A new variable. -/
def mkVar (v : Str × Str × Option Str) : Elem :=
  node c!"PROJECTVAR" none none
    [leaf c!"ID" (some v.1), leaf c!"Title" (some v.2.1), leaf c!"Desc" v.2.2, leaf c!"Tags" (some c!"0")]

theorem addVar_eq (t : Str) (d : Option Str) (p : List Str × List Elem) :
    addVar t d p = (p.1 ++ [createId p.1], p.2 ++ [mkVar (createId p.1, t, d)]) := rfl

/-- Add variables with these titles and descriptions. -/
def addVars (ts : List (Str × Option Str)) (p : List Str × List Elem) : List Str × List Elem :=
  ts.foldl (fun p t => addVar t.1 t.2 p) p

theorem goodId_createId (l : List Str) : GoodId (createId l) := by
  obtain ⟨_, n, _, h, _⟩ := C01_fresh_minimal l
  rw [h]
  exact ⟨Str.ofNat_ne_nil n, plainStr_ofNat n⟩

theorem addVars_ok (ts : List (Str × Option Str)) (p : List Str × List Elem) :
    ∃ ids : List Str, ids.length = ts.length ∧ ids.Nodup ∧ (∀ i ∈ ids, i ∉ p.1 ∧ GoodId i) ∧
      (addVars ts p).1 = p.1 ++ ids ∧ (addVars ts p).2 = p.2 ++ (ids.zip ts).map mkVar := by
  induction ts generalizing p with
  | nil => exact ⟨[], rfl, List.nodup_nil, by simp, by simp [addVars], by simp [addVars]⟩
  | cons t r ih =>
    obtain ⟨ids, h1, h2, h3, h4, h5⟩ := ih (addVar t.1 t.2 p)
    have hadd : addVars (t :: r) p = addVars r (addVar t.1 t.2 p) := rfl
    rw [addVar_eq] at h3 h4 h5
    rw [hadd]
    refine ⟨createId p.1 :: ids, by simp [h1], ?_, ?_, ?_, ?_⟩
    · rw [List.nodup_cons]
      refine ⟨fun hm => ?_, h2⟩
      exact (h3 _ hm).1 (by simp)
    · intro i hi
      rcases List.mem_cons.1 hi with rfl | hi
      · exact ⟨(C01_fresh_minimal p.1).1, goodId_createId _⟩
      · have := h3 i hi
        exact ⟨fun hm => this.1 (by simp [hm]), this.2⟩
    · rw [addVar_eq, h4]; simp
    · rw [addVar_eq, h5]; simp

/-- The two variables of a language. -/
def langPair (code : Str) : List (Str × Option Str) :=
  [(c!"lang=" ++ code, some (c!"<HTM <SPAN LANG=\"" ++ code ++ c!"\"> /HTM>")),
   (c!"/lang=" ++ code, some c!"<HTM </SPAN> /HTM>")]

theorem foldl_addLang (ls : List Str) (p : List Str × List Elem) :
    ls.foldl addLang p = addVars (ls.flatMap langPair) p := by
  induction ls generalizing p with
  | nil => rfl
  | cons c r ih =>
    rw [List.foldl_cons, ih, List.flatMap_cons]
    unfold addVars
    rw [List.foldl_append]
    rfl

/-- The variables that are added. -/
def newVars (lng ctr : Option Str) (ks : List Elem) (langs : List Str) : List (Str × Option Str) :=
  (if ks.any (fun e => decide (textOf c!"Title" e.kids = some c!"Language")) then [] else [(c!"Language", lng)]) ++
  (if ks.any (fun e => decide (textOf c!"Title" e.kids = some c!"Country")) then [] else [(c!"Country", ctr)]) ++
  langs.flatMap langPair

/-- What saving makes of the project variables. -/
theorem buildVars_ok {langs : List Str} {lng ctr : Option Str} {ks : List Elem}
    (hk : ∀ e ∈ ks, VarElement e) (hl : langs.Nodup) :
    ∃ ids : List Str, ∃ ts, ts = newVars lng ctr ks (langs.filter (fun x => decide (x ∉ langsIn ks))) ∧
      ids.length = ts.length ∧ ids.Nodup ∧ (∀ i ∈ ids, i ∉ varIds ks ∧ GoodId i) ∧
      buildVars langs lng ctr ks = .ok (ks.map (setLocale lng ctr) ++ (ids.zip ts).map mkVar) := by
  obtain ⟨ids, h1, h2, h3, h4, h5⟩ := addVars_ok
    (newVars lng ctr ks (langs.filter (fun x => decide (x ∉ langsIn ks)))) (varIds ks, ks.map (setLocale lng ctr))
  refine ⟨ids, _, rfl, h1, h2, h3, ?_⟩
  unfold buildVars
  rw [scanVars_ok hk]
  simp only [List.nil_append, Bool.false_or, Except.ok.injEq]
  rw [← h5, foldl_addLang, foldl_erase_nodup _ _ hl]
  unfold newVars addVars
  rw [List.foldl_append, List.foldl_append]
  congr 2
  split <;> split <;> rfl

/-! ### Reading -/

/-- The description of the last variable with this title. -/
def lastDesc (name : Str) (ks : List Elem) (a : Option Str) : Option Str :=
  ks.foldl (fun a e => if textOf c!"Title" e.kids = some name then textOf c!"Desc" e.kids else a) a

theorem readVars_eq {ks : List Elem} (hk : ∀ e ∈ ks, (∃ t, textOf c!"Title" e.kids = some t) ∧
    hasTag c!"Desc" e.kids = true) (a b : Option Str) (l : Option (List Str)) :
    readVars (a, b, l) ks = (lastDesc c!"Language" ks a, lastDesc c!"Country" ks b,
      if langsIn ks = [] then l else some (l.getD [] ++ langsIn ks)) := by
  induction ks generalizing a b l with
  | nil => simp [readVars, lastDesc, langsIn]
  | cons e r ih =>
    have ih := ih (fun e he => hk e (by simp [he]))
    obtain ⟨⟨t, ht⟩, hd⟩ := hk e (by simp)
    obtain ⟨te, hte1, hte2⟩ := textOf_eq_some ht
    unfold readVars
    rw [hte1]
    simp only [hte2]
    have hl : langsIn (e :: r) = (langCode t).toList ++ langsIn r := by
      unfold langsIn
      simp only [List.filterMap_cons, ht, Option.bind_some]
      cases langCode t <;> rfl
    have hlast : ∀ name a, lastDesc name (e :: r) a = lastDesc name r
        (if t = name then textOf c!"Desc" e.kids else a) := by
      intro name a
      unfold lastDesc
      simp [ht]
    obtain ⟨de, hde⟩ : ∃ d, find c!"Desc" e.kids = some d := by
      unfold hasTag at hd
      exact Option.isSome_iff_exists.1 hd
    have hdt : textOf c!"Desc" e.kids = de.text := by unfold textOf; rw [hde]; rfl
    rw [hlast, hlast, hl, hde]
    by_cases h1 : t = c!"Language"
    · subst h1
      have hne : c!"Language" ≠ c!"Country" := by decide
      rw [if_pos rfl, ih, if_pos rfl, if_neg hne, hdt, langCode_none _ (by decide)]
      rfl
    · rw [if_neg h1, if_neg h1]
      by_cases h2 : t = c!"Country"
      · subst h2
        rw [if_pos rfl, ih, if_pos rfl, hdt, langCode_none _ (by decide)]
        rfl
      · rw [if_neg h2, if_neg h2]
        by_cases h3 : Str.startsWith t c!"lang=" = true
        · rw [if_pos h3]
          have := split_lang t h3
          rcases hs : Str.split t c!"=" with _ | ⟨a0, _ | ⟨a1, _ | ⟨a2, r0⟩⟩⟩
          · rw [hs] at this; simp only at this ⊢; rw [ih, ← this]; rfl
          · rw [hs] at this; simp only at this ⊢; rw [ih, ← this]; rfl
          · rw [hs] at this; simp only at this ⊢; rw [ih, ← this]
            cases hr : langsIn r <;> simp
          · rw [hs] at this; simp only at this ⊢; rw [ih, ← this]; rfl
        · rw [if_neg h3, ih, langCode_none t h3]; rfl

theorem lastDesc_const {name : Str} {v : Option Str} {ks : List Elem}
    (h : ∀ e ∈ ks, textOf c!"Title" e.kids = some name → textOf c!"Desc" e.kids = v)
    (hex : ∃ e ∈ ks, textOf c!"Title" e.kids = some name) (a : Option Str) : lastDesc name ks a = v := by
  have aux : ∀ ks : List Elem, (∀ e ∈ ks, textOf c!"Title" e.kids = some name → textOf c!"Desc" e.kids = v) →
      lastDesc name ks v = v := by
    intro ks
    induction ks with
    | nil => intro _; rfl
    | cons e r ih =>
      intro h
      unfold lastDesc at ih ⊢
      rw [List.foldl_cons]
      have ih := ih (fun e he => h e (by simp [he]))
      by_cases ht : textOf c!"Title" e.kids = some name
      · rw [if_pos ht, h e (by simp) ht]; exact ih
      · rw [if_neg ht]; exact ih
  induction ks generalizing a with
  | nil => obtain ⟨e, he, _⟩ := hex; cases he
  | cons e r ih =>
    have h' : ∀ e ∈ r, textOf c!"Title" e.kids = some name → textOf c!"Desc" e.kids = v :=
      fun e he => h e (by simp [he])
    by_cases ht : textOf c!"Title" e.kids = some name
    · unfold lastDesc
      rw [List.foldl_cons, if_pos ht, h e (by simp) ht]
      exact aux r h'
    · obtain ⟨e', he', hte'⟩ := hex
      rcases List.mem_cons.1 he' with rfl | he'
      · exact absurd hte' ht
      · unfold lastDesc
        rw [List.foldl_cons, if_neg ht]
        exact ih h' ⟨e', he', hte'⟩ a

end Verif
