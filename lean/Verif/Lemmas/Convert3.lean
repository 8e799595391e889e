import Verif.Lemmas.Convert2

namespace Verif
open Prog Spec Path

variable {ν : Type}

/-! ### `run` -/

theorem exportSource_some {path : Str} {s : Doc} (h : exportSource path = some s) :
    ∃ f, path = f ++ c!".yw7" ∧ HasName f ∧ (splitext path).1 = f ∧ s = ⟨yw7Class, some (slashes path)⟩ := by
  unfold exportSource at h
  split at h
  · next he =>
    injection h with h
    have he' : splitext path = ((splitext path).1, c!".yw7") := by rw [← show (splitext path).2 = c!".yw7" from he]
    obtain ⟨h1, h2, _⟩ := splitext_some he'
    refine ⟨(splitext path).1, h1, h2, rfl, ?_⟩
    rw [← h]
    refine mkDoc_eq ?_
    rw [h1, slashes_append]
    exact ⟨_, rfl⟩
  · cases h

theorem exportTarget_some {cfg : List DocClass} {path : Str} {suffix : Option Str} {t : Doc} (h : exportTarget cfg path suffix = some t) :
    ∃ c ∈ cfg, c.suffix = suffix ∧ t = mkDoc c ((splitext path).1 ++ c.ending) := by
  unfold exportTarget at h
  cases hf : cfg.find? (fun c => c.suffix = suffix) with
  | none => rw [hf] at h; cases h
  | some c =>
    rw [hf] at h
    have h1 := List.find?_some hf
    have h1 : c.suffix = suffix := by simpa using h1
    refine ⟨c, List.mem_of_find?_eq_some hf, h1, ?_⟩
    injection h with h
    rw [← h]
    unfold DocClass.ending
    show mkDoc c _ = _
    rw [h1, List.append_assoc]

theorem importTarget_some {fs : FS} {path : Str} {suffix : Option Str} {t : Doc} (h : importTarget fs path suffix = some t) :
    ∃ b, t = ⟨yw7Class, some (slashes (b ++ c!".yw7"))⟩ := by
  unfold importTarget at h
  dsimp only at h
  split at h
  · injection h with h
    refine ⟨ywBasis (splitext path).1 suffix, ?_⟩
    rw [← h]
    refine mkDoc_eq ?_
    rw [slashes_append]; exact ⟨_, rfl⟩
  · cases h

theorem newProject_create {cx : Str → Option Str} {norm : Str → Str} {fs : FS} {path : Str} {s t : Doc} (h : newProject cx norm fs path = .create s t) :
    c!".odt" <:+ path ∧ s = ⟨odt [], some (slashes path)⟩ ∧ t = ⟨yw7Class, some (slashes ((splitext path).1 ++ c!".yw7"))⟩ := by
  unfold newProject at h
  dsimp only at h
  split at h
  · cases h
  · split at h
    · next ho =>
      split at h
      · cases h
      · injection h with h1 h2
        rw [endsWith_iff] at ho
        refine ⟨ho, ?_, ?_⟩
        · rw [← h1]
          refine mkDoc_eq ?_
          obtain ⟨a, ha⟩ := ho
          rw [← ha, slashes_append]; exact ⟨_, rfl⟩
        · rw [← h2]
          refine mkDoc_eq ?_
          rw [slashes_append]; exact ⟨_, rfl⟩
    · cases h

theorem newProject_cases (cx : Str → Option Str) (norm : Str → Str) (fs : FS) (path : Str) :
    (∃ s t, newProject cx norm fs path = .create s t) ∨ ∃ m, newProject cx norm fs path = .refuse m := by
  unfold newProject
  dsimp only
  split
  · exact Or.inr ⟨_, rfl⟩
  · split
    · split
      · exact Or.inr ⟨_, rfl⟩
      · exact Or.inl ⟨_, _, rfl⟩
    · exact Or.inr ⟨_, rfl⟩

/-- The classes have short endings without slashes and backslashes. -/
theorem targets_plain : ∀ c ∈ exportTargets, '/' ∉ c.ending ∧ '\\' ∉ c.ending ∧ c ≠ yw7Class ∧ (c!".odt" <:+ c.ending ∨ c!".ods" <:+ c.ending) := by
  have : (exportTargets.all fun c => decide ('/' ∉ c.ending) && decide ('\\' ∉ c.ending) && decide (c ≠ yw7Class) &&
      ((c!".odt").isSuffixOf c.ending || (c!".ods").isSuffixOf c.ending)) = true := by decide +kernel
  rw [List.all_eq_true] at this
  intro c hc
  have := this c hc
  simp only [Bool.and_eq_true, Bool.or_eq_true, decide_eq_true_eq] at this
  obtain ⟨⟨⟨h1, h2⟩, h3⟩, h4⟩ := this
  exact ⟨h1, h2, h3, h4.imp List.isSuffixOf_iff_suffix.1 List.isSuffixOf_iff_suffix.1⟩

/-- The kinds of conversion. -/
def Kind (path : Str) (s t : Doc) (sp tp : Str) : Prop :=
  ((s.cls = yw7Class ∧ t.cls.ending <:+ tp) ∧ t.cls ∈ exportTargets ∧ c!".yw7" <:+ path ∧ c!".yw7" <:+ sp ∧ (c!".odt" <:+ tp ∨ c!".ods" <:+ tp)) ∨
  (t.cls = yw7Class ∧ (s.cls ∈ importSources ∨ s.cls = odt []) ∧ c!".yw7" <:+ tp ∧ (c!".odt" <:+ path ∨ c!".ods" <:+ path) ∧ (c!".odt" <:+ sp ∨ c!".ods" <:+ sp))

/-- What a run can do. -/
inductive Ran (env : Env ν) (fs : FS) (path : Str) (r : Res Outcome × FS × List Fault) : Prop
  | nothing : r.2.1 = fs → (∀ o, r.1 = .ok o → o.newFile = none ∧ ∃ m, o.how = c!"FAIL: " ++ m) → Ran env fs path r
  | converted (s t : Doc) (sp tp : Str) (b : Bool) (G : FS → Prop) : s.filePath = some sp → sp = slashes path → t.filePath = some tp →
      Kind path s t sp tp → Body env t fs G b r.2.1 → (∀ fs', G fs' → Converted env s t fs fs' ∨ (t.cls = yw7Class ∧ Updated env s t fs fs')) →
      (∀ e, r.1 ≠ .err e) →
      (∀ o, r.1 = .ok o → (G r.2.1 ∧ o.newFile = some tp ∧ o.how = c!"File written: \"" ++ env.norm tp ++ c!"\".") ∨
        (o.newFile = none ∧ ∃ m, o.how = c!"FAIL: " ++ m)) → Ran env fs path r

theorem suffix_slashes {e p : Str} (he : '\\' ∉ e) (h : e <:+ p) : e <:+ slashes p := by
  obtain ⟨a, rfl⟩ := h
  rw [slashes_append, slashes_id he]
  exact ⟨_, rfl⟩

/-- The export target is not in the temporary directory if the project is not. -/
theorem target_not_temp {dir f e1 e2 : Str} (h1 : '/' ∉ e1) (h2 : '/' ∉ e2) (h : ¬ InDir dir (f ++ e1)) : ¬ InDir dir (f ++ e2) :=
  fun hh => h (inDir_append _ (inDir_of_append h2 hh))

/-- The sources of an import have the expected endings. -/
theorem sources_plain : ∀ c ∈ importSources, '\\' ∉ c.ending ∧ (c!".odt" <:+ c.ending ∨ c!".ods" <:+ c.ending) := by
  have : (importSources.all fun c => decide ('\\' ∉ c.ending) &&
      ((c!".odt").isSuffixOf c.ending || (c!".ods").isSuffixOf c.ending)) = true := by decide +kernel
  rw [List.all_eq_true] at this
  intro c hc
  have := this c hc
  simp only [Bool.and_eq_true, Bool.or_eq_true, decide_eq_true_eq] at this
  exact ⟨this.1, this.2.imp List.isSuffixOf_iff_suffix.1 List.isSuffixOf_iff_suffix.1⟩

theorem importSource_some {cfg : List DocClass} {path : Str} {s : Doc} (hc : ∀ c ∈ cfg, c ∈ importSources) (h : importSource cfg path = some s) :
    ∃ c ∈ importSources, c.ending <:+ path ∧ s = ⟨c, some (slashes path)⟩ := by
  unfold importSource at h
  cases hf : cfg.find? (fun c => c.suffix.isSome && Str.endsWith path c.ending) with
  | none => rw [hf] at h; cases h
  | some c =>
    rw [hf] at h
    have h1 := List.find?_some hf
    rw [Bool.and_eq_true, endsWith_iff] at h1
    have hm := hc c (List.mem_of_find?_eq_some hf)
    refine ⟨c, hm, h1.2, ?_⟩
    injection h with h
    rw [← h]
    exact mkDoc_eq (suffix_slashes (sources_plain c hm).1 h1.2)

/-- What a run of a converter does, for any of the converters. -/
theorem run_spec (env : Env ν) (cfg : Config) (path : Str) (suffix : Option Str) (fs : FS) (faults : List Fault)
    (ht : ∀ c ∈ cfg.targets, c ∈ exportTargets) (hs : ∀ c ∈ cfg.sources, c ∈ importSources)
    (henv : ∀ c n, OdfComplete (env.odfFiles c n) (env.comps c)) (hdir : ¬ InDir env.dir (slashes path)) :
    Ran env fs path (run env cfg path suffix fs faults) := by
  unfold run
  split
  · unfold plan
    cases he : exportSource path with
    | some s =>
      obtain ⟨f, hp, hn, hf, hs'⟩ := exportSource_some he
      cases ht' : exportTarget cfg.targets path suffix with
      | none => exact .nothing rfl fun o ho => by injection ho with ho; subst ho; exact ⟨rfl, _, infoHow_bang _⟩
      | some t =>
        obtain ⟨c, hc, _, htc⟩ := exportTarget_some ht'
        obtain ⟨h1, h2, h3, h4⟩ := targets_plain c (ht c hc)
        rw [hf] at htc
        have htd : t = ⟨c, some (slashes f ++ c.ending)⟩ := by
          rw [htc, mkDoc_eq (suffix_slashes h2 ⟨_, rfl⟩), slashes_append, slashes_id h2]
        have hnt : ∀ e, '/' ∉ e → ¬ InDir env.dir (slashes f ++ e) := by
          intro e he'
          refine target_not_temp (e1 := c!".yw7") (by decide) he' ?_
          rw [hp, slashes_append] at hdir
          exact hdir
        have hsp := conclude_spec env t _ fs _ (Converted env s t fs) (convert_body env s t fs (faultCount faults) henv (by
          intro p hp'
          have : p = slashes f ++ c.ending := by rw [htd] at hp'; injection hp' with hp'; exact hp'.symm
          subst this
          refine ⟨fun h => hnt _ h1 h.2, fun h => ?_⟩
          have h := h.2
          unfold bak at h
          rw [List.append_assoc] at h
          exact hnt _ (by rw [List.mem_append]; exact fun h => h.elim h1 (by decide)) h)) fs faults ⟨rfl, Nat.le_refl _⟩
        obtain ⟨⟨b, hB⟩, hne, ho⟩ := hsp
        refine .converted s t (slashes path) (slashes f ++ c.ending) b _ (by rw [hs']) rfl (by rw [htd]) (Or.inl ⟨⟨by rw [hs'], by rw [htd]; exact ⟨_, rfl⟩⟩, by rw [htd]; exact ht c hc, ⟨f, hp.symm⟩, ?_, ?_⟩) hB
          (fun _ h => Or.inl h) hne ?_
        · exact suffix_slashes (by decide) ⟨f, hp.symm⟩
        · exact h4.imp (fun h => h.trans ⟨_, rfl⟩) (fun h => h.trans ⟨_, rfl⟩)
        · intro o hoo
          rcases ho o hoo with ⟨h5, h6, h7⟩ | h5
          · rw [htd] at h6 h7
            exact Or.inl ⟨h5.good rfl, h6, h7⟩
          · exact Or.inr h5
    | none =>
      cases hi : importSource cfg.sources path with
      | some s =>
        obtain ⟨c, hc, hce, hs'⟩ := importSource_some hs hi
        obtain ⟨h2, h4⟩ := sources_plain c hc
        dsimp only
        cases ht' : importTarget fs path s.cls.suffix with
        | none => exact .nothing rfl fun o ho => by injection ho with ho; subst ho; exact ⟨rfl, _, infoHow_bang _⟩
        | some t =>
          obtain ⟨bs, hbs⟩ := importTarget_some ht'
          have hsp := conclude_spec env t _ fs _ (Updated env s t fs) (update_body env s t fs (faultCount faults) henv (by
            intro p _
            exact ⟨fun h => h.1 (by rw [hbs]), fun h => h.1 (by rw [hbs])⟩)) fs faults ⟨rfl, Nat.le_refl _⟩
          obtain ⟨⟨b, hB⟩, hne, ho⟩ := hsp
          refine .converted s t (slashes path) _ b _ (by rw [hs']) rfl (by rw [hbs]) (Or.inr ⟨by rw [hbs], by rw [hs']; exact Or.inl hc, suffix_slashes (by decide) ⟨bs, rfl⟩, ?_, ?_⟩) hB
            (fun _ h => Or.inr ⟨by rw [hbs], h⟩) hne ?_
          · exact h4.imp (fun h => h.trans hce) (fun h => h.trans hce)
          · exact h4.imp (fun h => suffix_slashes (by decide) (h.trans hce)) (fun h => suffix_slashes (by decide) (h.trans hce))
          · intro o hoo
            rcases ho o hoo with ⟨h5, h6, h7⟩ | h5
            · rw [hbs] at h6 h7
              exact Or.inl ⟨h5.good rfl, h6, h7⟩
            · exact Or.inr h5
      | none =>
        dsimp only
        cases hcn : cfg.newProjects with
        | false => exact .nothing rfl fun o ho => by cases ho
        | true =>
          rw [if_pos rfl]
          rcases newProject_cases env.contentXml env.norm fs path with ⟨s, t, hnp⟩ | ⟨m, hnp⟩
          · obtain ⟨ho', hs', ht'⟩ := newProject_create hnp
            rw [hnp]
            show Ran env fs path (createYw7 env none s t fs faults)
            cases hx : fs (t.filePath.getD []) with
            | some old =>
              have : createYw7 env none s t fs faults = (.ok { newFile := none, how := infoHow (c!"!File already exists: \"" ++ env.norm (t.filePath.getD []) ++ c!"\".") }, fs, faults) := by
                unfold createYw7
                simp only [Bind.bind, Prog.bind, isfile, hx]; rfl
              rw [this]
              exact .nothing rfl fun o ho => by injection ho with ho; subst ho; exact ⟨rfl, _, infoHow_bang _⟩
            | none =>
              have : createYw7 env none s t fs faults = (conclude env t do
                  check env s t
                  let n ← readDoc env s env.empty
                  writeDoc env t none n.1
                  return false) fs faults := by
                unfold createYw7
                simp only [Bind.bind, Prog.bind, isfile, hx]; rfl
              rw [this]
              have hsp := conclude_spec env t _ fs _ (Converted env s t fs) (convert_body env s t fs (faultCount faults) henv (by
                intro p _
                exact ⟨fun h => h.1 (by rw [ht']), fun h => h.1 (by rw [ht'])⟩)) fs faults ⟨rfl, Nat.le_refl _⟩
              obtain ⟨⟨b, hB⟩, hne, ho⟩ := hsp
              refine .converted s t (slashes path) _ b _ (by rw [hs']) rfl (by rw [ht']) (Or.inr ⟨by rw [ht'], by rw [hs']; exact Or.inr rfl, suffix_slashes (by decide) ⟨_, rfl⟩, Or.inl ho', Or.inl (suffix_slashes (by decide) ho')⟩) hB
                (fun _ h => Or.inl h) hne ?_
              intro o hoo
              rcases ho o hoo with ⟨h5, h6, h7⟩ | h5
              · rw [ht'] at h6 h7
                exact Or.inl ⟨h5.good rfl, h6, h7⟩
              · exact Or.inr h5
          · rw [hnp]
            exact .nothing rfl fun o ho => by injection ho with ho; subst ho; exact ⟨rfl, _, infoHow_bang _⟩
  · exact .nothing rfl fun o ho => by injection ho with ho; subst ho; exact ⟨rfl, _, infoHow_bang _⟩

end Verif
