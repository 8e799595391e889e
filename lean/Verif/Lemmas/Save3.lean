import Verif.Lemmas.Save2

namespace Verif
open Prog Spec

theorem inDir_loc (dir name : Str) : InDir dir (dir ++ '/' :: name) :=
  ⟨name, by simp⟩

theorem loc_inj {dir a b : Str} (h : dir ++ '/' :: a = dir ++ '/' :: b) : a = b := by
  have := List.append_cancel_left h
  injection this

/-- The files of the temporary directory. -/
def Holds (dir : Str) (files : OdfFiles) (fs : FS) : Prop := ∀ x ∈ files, fs (dir ++ '/' :: x.1) = some x.2

theorem writeAll_spec (dir : Str) (fs0 : FS) (k : Nat) (files : OdfFiles) : ∀ (done : OdfFiles),
    ((done ++ files).map Prod.fst).Nodup →
    Hoare (fun fs n => (∀ q, ¬ InDir dir q → fs q = fs0 q) ∧ Holds dir done fs ∧ n ≤ k) (writeAll dir files)
      (fun r fs n => (∀ q, ¬ InDir dir q → fs q = fs0 q) ∧ n ≤ k ∧ (r = .ok () → Holds dir (done ++ files) fs)) := by
  induction files with
  | nil =>
    intro done _
    refine Hoare.pure ?_
    rintro fs n ⟨h1, h2, h3⟩
    exact ⟨h1, h3, fun _ => by rw [List.append_nil]; exact h2⟩
  | cons x r ih =>
    intro done hd
    obtain ⟨name, text⟩ := x
    have hfresh : ∀ y ∈ done, y.1 ≠ name := by
      intro y hy he
      rw [List.map_append, List.nodup_append] at hd
      exact hd.2.2 y.1 (List.mem_map_of_mem hy) name (by simp) he
    refine Hoare.bind (Q := fun r fs n => (∀ q, ¬ InDir dir q → fs q = fs0 q) ∧ n ≤ k ∧
        (r = .ok () → Holds dir (done ++ [(name, text)]) fs)) ?_ ?_ ?_ ?_
    · refine Hoare.at ?_
      rintro fs1 m ⟨h1, h2, h3⟩
      refine Hoare.tryExcept (writeFile_spec _ text fs1 m) ?_ ?_ ?_
      · intro e
        refine Hoare.raise ?_
        rintro fs n ⟨ha, hb, _, _⟩
        refine ⟨fun q hq => ?_, by omega, (by intro h; cases h)⟩
        rw [hb q (fun e => hq (e ▸ inDir_loc dir name)), h1 q hq]
      · rintro a fs n ⟨ha, hb, _, hc⟩
        refine ⟨fun q hq => ?_, by omega, fun _ => ?_⟩
        · rw [hb q (fun e => hq (e ▸ inDir_loc dir name)), h1 q hq]
        · intro y hy
          rcases List.mem_append.1 hy with hy | hy
          · rw [hb _ (fun e => hfresh y hy (loc_inj e)), h2 y hy]
          · rw [List.mem_singleton] at hy; subst hy; exact hc
      · rintro fs n ⟨ha, hb, _, _⟩
        refine ⟨fun q hq => ?_, by omega, (by intro h; cases h)⟩
        rw [hb q (fun e => hq (e ▸ inDir_loc dir name)), h1 q hq]
    · intro _
      refine Hoare.mono (ih (done ++ [(name, text)]) ?_) ?_ ?_
      · rw [List.append_assoc]; exact hd
      · rintro fs n ⟨h1, h2, h3⟩; exact ⟨h1, h3 rfl, h2⟩
      · rintro r' fs n ⟨h1, h2, h3⟩; rw [List.append_assoc] at h3; exact ⟨h1, h2, h3⟩
    · rintro e fs n ⟨h1, h2, h3⟩; exact ⟨h1, h2, (by intro h; cases h)⟩
    · rintro fs n ⟨h1, h2, h3⟩; exact ⟨h1, h2, (by intro h; cases h)⟩

/-- A program that only touches the temporary directory. -/
theorem rmtree_spec (dir : Str) (fs0 : FS) (k : Nat) :
    Hoare (fun fs n => (∀ q, ¬ InDir dir q → fs q = fs0 q) ∧ n ≤ k) (rmtree dir)
      (fun _ fs n => (∀ q, ¬ InDir dir q → fs q = fs0 q) ∧ n ≤ k) := by
  refine Hoare.step ?_ ?_ ?_
  · rintro fs n ⟨h1, h2⟩ a fs' he
    injection he with he; injection he with _ he; subst he
    refine ⟨fun q hq => ?_, h2⟩
    have : (dir ++ ['/']).isPrefixOf q = false := by
      cases hx : (dir ++ ['/']).isPrefixOf q with
      | false => rfl
      | true => exact absurd (List.isPrefixOf_iff_prefix.1 hx) hq
    simp only [this]
    exact h1 q hq
  · rintro fs n h he; cases he
  · rintro fs n ⟨h1, h2⟩; exact ⟨⟨h1, by omega⟩, ⟨h1, by omega⟩⟩

theorem other_spec (P : FS → Prop) (k : Nat) : Hoare (fun fs n => P fs ∧ n ≤ k) other (fun _ fs n => P fs ∧ n ≤ k) := by
  refine Hoare.step ?_ ?_ ?_
  · rintro fs n ⟨h1, h2⟩ a fs' he
    injection he with he; injection he with _ he; subst he; exact ⟨h1, h2⟩
  · rintro fs n h he; cases he
  · rintro fs n ⟨h1, h2⟩; exact ⟨⟨h1, by omega⟩, ⟨h1, by omega⟩⟩

theorem other_at (fs0 : FS) (k : Nat) : Hoare (fun fs n => fs = fs0 ∧ n = k) other (fun r fs n => fs = fs0 ∧ n ≤ k ∧ (r = .ok () → n = k) ∧
    (r ≠ .ok () → n + 1 ≤ k)) := by
  refine Hoare.step ?_ ?_ ?_
  · rintro fs n ⟨h1, h2⟩ a fs' he
    injection he with he; injection he with _ he; subst he; exact ⟨h1, by omega, fun _ => h2, fun h => absurd rfl h⟩
  · rintro fs n h he; cases he
  · rintro fs n ⟨h1, h2⟩
    exact ⟨⟨h1, by omega, (by intro h; cases h), fun _ => by omega⟩, ⟨h1, by omega, (by intro h; cases h), fun _ => by omega⟩⟩

theorem odfSetUp_spec (dir : Str) (files : Except Exc OdfFiles) (fs0 : FS) (k : Nat)
    (hn : ∀ f, files = .ok f → (f.map Prod.fst).Nodup) :
    Hoare (fun fs n => (∀ q, ¬ InDir dir q → fs q = fs0 q) ∧ n ≤ k) (odfSetUp dir files)
      (fun r fs n => (∀ q, ¬ InDir dir q → fs q = fs0 q) ∧ n ≤ k ∧ (r = .ok () → ∃ f, files = .ok f ∧ Holds dir f fs)) := by
  cases files with
  | error e => exact fun fs fl h => ⟨h.1, h.2, by intro h; cases h⟩
  | ok f =>
    show Hoare _ (do
      tryExcept (do
        tryExcept (rmtree dir) fun _ => pure ()
        other
        other) fun _ => raise (fileError c!"Cannot create directory" dir)
      writeAll dir f) _
    refine Hoare.bind (Q := fun _ fs n => (∀ q, ¬ InDir dir q → fs q = fs0 q) ∧ n ≤ k) ?_ ?_ ?_ ?_
    · refine Hoare.tryExcept (Q := fun _ fs n => (∀ q, ¬ InDir dir q → fs q = fs0 q) ∧ n ≤ k) ?_ ?_ ?_ ?_
      · refine Hoare.bind (Q := fun _ fs n => (∀ q, ¬ InDir dir q → fs q = fs0 q) ∧ n ≤ k) ?_ ?_ (fun _ _ _ h => h) (fun _ _ h => h)
        · exact Hoare.tryExcept (rmtree_spec dir fs0 k) (fun e => Hoare.pure (fun _ _ h => h)) (fun _ _ _ h => h) (fun _ _ h => h)
        · intro _
          refine Hoare.bind (other_spec (fun fs => ∀ q, ¬ InDir dir q → fs q = fs0 q) k) (fun _ => other_spec _ k) (fun _ _ _ h => h) (fun _ _ h => h)
      · exact fun e => Hoare.raise (fun _ _ h => h)
      · exact fun _ _ _ h => h
      · exact fun _ _ h => h
    · intro _
      refine Hoare.mono (writeAll_spec dir fs0 k f [] (hn f rfl)) ?_ ?_
      · rintro fs n ⟨h1, h2⟩; exact ⟨h1, fun x hx => by simp at hx, h2⟩
      · rintro r fs n ⟨h1, h2, h3⟩; exact ⟨h1, h2, fun h => ⟨f, rfl, h3 h⟩⟩
    · rintro e fs n ⟨h1, h2⟩; exact ⟨h1, h2, by intro h; cases h⟩
    · rintro fs n ⟨h1, h2⟩; exact ⟨h1, h2, by intro h; cases h⟩

theorem zipAll_spec (entry : Str → Str → Str) (p dir : Str) (hp : ¬ InDir dir p) (files : OdfFiles) (fs0 : FS) (k : Nat)
    (comps : List Str) (hc : ∀ n ∈ comps, n ∈ files.map Prod.fst) (hF : Holds dir files fs0) : ∀ (s : Str),
    Hoare (fun fs n => (∀ q, q ≠ p → fs q = fs0 q) ∧ fs p = some s ∧ n ≤ k) (zipAll entry p dir comps)
      (fun r fs n => (∀ q, q ≠ p → fs q = fs0 q) ∧ n ≤ k ∧ (r ≠ .ok () → n + 1 ≤ k) ∧
        (r = .ok () → ∃ s', Archive entry files comps s' ∧ fs p = some (s ++ s'))) := by
  induction comps with
  | nil =>
    intro s
    refine Hoare.pure ?_
    rintro fs n ⟨h1, h2, h3⟩
    exact ⟨h1, h3, fun h => absurd rfl h, fun _ => ⟨[], rfl, by rw [List.append_nil]; exact h2⟩⟩
  | cons name r ih =>
    intro s
    have hm := hc name (by simp)
    rw [List.mem_map] at hm
    obtain ⟨⟨n', c⟩, hx, rfl⟩ := hm
    have hloc : dir ++ '/' :: n' ≠ p := fun e => hp (e ▸ inDir_loc dir n')
    refine Hoare.bind (Q := fun r fs n => (∀ q, q ≠ p → fs q = fs0 q) ∧ fs p = some s ∧ n ≤ k ∧ (r ≠ .ok c → n + 1 ≤ k) ∧ (∀ a, r = .ok a → a = c)) (Hoare.step ?_ ?_ ?_) ?_ ?_ ?_
    · rintro fs n ⟨h1, h2, h3⟩ a fs' he
      have hr : fs (dir ++ '/' :: n') = some c := by rw [h1 _ hloc]; exact hF _ hx
      have he : some (c, fs) = some (a, fs') := by rw [← he]; show _ = Option.map _ (fs (dir ++ '/' :: n')); rw [hr]; rfl
      injection he with he; injection he with ha hf
      subst ha; subst hf
      exact ⟨h1, h2, h3, fun h => absurd rfl h, fun a h => by injection h with h; exact h.symm⟩
    · rintro fs n ⟨h1, h2, h3⟩ he
      have hr : fs (dir ++ '/' :: n') = some c := by rw [h1 _ hloc]; exact hF _ hx
      have he : Option.map (fun c => (c, fs)) (fs (dir ++ '/' :: n')) = none := he
      rw [hr] at he; cases he
    · rintro fs n ⟨h1, h2, h3⟩
      exact ⟨⟨h1, h2, by omega, fun _ => h3, fun a h => by cases h⟩, ⟨h1, h2, by omega, fun _ => h3, fun a h => by cases h⟩⟩
    · intro a
      by_cases ha : a = c
      · subst ha
        refine Hoare.bind (Q := fun r fs n => (∀ q, q ≠ p → fs q = fs0 q) ∧ n ≤ k ∧ (r = .ok () → fs p = some (s ++ entry n' a)) ∧ (r ≠ .ok () → n + 1 ≤ k))
          (Hoare.append ?_ ?_) ?_ ?_ ?_
        · rintro fs n ⟨h1, h2, h3, h4, _⟩
          exact ⟨fun q hq => (FS.upd_ne _ _ hq).trans (h1 q hq), h3, fun _ => by rw [FS.upd_self, h2]; rfl, fun h => absurd rfl h⟩
        · rintro fs n j ⟨h1, h2, h3, h4, _⟩
          exact ⟨⟨fun q hq => (FS.upd_ne _ _ hq).trans (h1 q hq), by omega, (by intro h; cases h), fun _ => h3⟩,
            ⟨fun q hq => (FS.upd_ne _ _ hq).trans (h1 q hq), by omega, (by intro h; cases h), fun _ => h3⟩⟩
        · intro _
          refine Hoare.mono (ih (fun n hn => hc n (List.mem_cons_of_mem _ hn)) (s ++ entry n' a)) ?_ ?_
          · rintro fs n ⟨h1, h2, h3, h4⟩; exact ⟨h1, h3 rfl, h2⟩
          · rintro r' fs n ⟨h1, h2, h3, h4⟩
            refine ⟨h1, h2, h3, fun h => ?_⟩
            obtain ⟨s', hs, hp'⟩ := h4 h
            exact ⟨entry n' a ++ s', ⟨a, s', hx, rfl, hs⟩, by rw [hp', List.append_assoc]⟩
        · rintro e fs n ⟨h1, h2, h3, h4⟩; exact ⟨h1, h2, fun _ => h4 (by simp), by intro h; cases h⟩
        · rintro fs n ⟨h1, h2, h3, h4⟩; exact ⟨h1, h2, fun _ => h4 (by simp), by intro h; cases h⟩
      · intro fs fl h
        exact absurd (h.2.2.2.2 a rfl) ha
    · rintro e fs n ⟨h1, h2, h3, h4, _⟩; exact ⟨h1, h3, fun _ => h4 (by simp), by intro h; cases h⟩
    · rintro fs n ⟨h1, h2, h3, h4, _⟩; exact ⟨h1, h3, fun _ => h4 (by simp), by intro h; cases h⟩

/-- What `OdfFile.write` does to the files outside of the temporary directory. -/
theorem odfWrite_spec (zip : ZipFormat) (dir : Str) (files : Except Exc OdfFiles) (content : Except Exc Str) (comps : List Str)
    (p : Str) (hp : ¬ InDir dir p) (hb : ¬ InDir dir (bak p)) (fs0 : FS) (k : Nat)
    (hn : ∀ f, files = .ok f → (f.map Prod.fst).Nodup ∧ c!"content.xml" ∉ f.map Prod.fst ∧ c!"content.xml.bak" ∉ f.map Prod.fst ∧
      ∀ n ∈ comps, n ∈ f.map Prod.fst ∨ n = c!"content.xml") :
    Hoare (fun fs n => fs = fs0 ∧ n ≤ k) (odfWrite zip dir files content comps p)
      (fun r fs _ => (∀ q, ¬ InDir dir q → q ≠ p → q ≠ bak p → fs q = fs0 q) ∧
        (∀ c, fs0 p = some c → fs p = some c ∨ fs (bak p) = some c) ∧
        (fs0 p = none → fs (bak p) = fs0 (bak p)) ∧
        (r = .ok () → (∃ f t s, files = .ok f ∧ content = .ok t ∧ Archive zip.entry (f ++ [(c!"content.xml", t)]) comps s ∧
            fs p = some (s ++ zip.directory comps)) ∧ ∀ c, fs0 p = some c → fs (bak p) = some c) ∧
        (∀ e c, r = .err e → k ≤ 1 → fs0 p = some c → fs p = some c ∨
            ∃ f t s, files = .ok f ∧ content = .ok t ∧ Archive zip.entry (f ++ [(c!"content.xml", t)]) comps s ∧ fs p = some (s ++ zip.directory comps))) := by
  have hbad : ∀ {r : Res Unit} {fs : FS} {n : Nat}, r ≠ .ok () → ((∀ q, ¬ InDir dir q → fs q = fs0 q) ∧ n ≤ k) →
      ((∀ q, ¬ InDir dir q → q ≠ p → q ≠ bak p → fs q = fs0 q) ∧
        (∀ c, fs0 p = some c → fs p = some c ∨ fs (bak p) = some c) ∧
        (fs0 p = none → fs (bak p) = fs0 (bak p)) ∧
        (r = .ok () → (∃ f t s, files = .ok f ∧ content = .ok t ∧ Archive zip.entry (f ++ [(c!"content.xml", t)]) comps s ∧
            fs p = some (s ++ zip.directory comps)) ∧ ∀ c, fs0 p = some c → fs (bak p) = some c) ∧
        (∀ e c, r = .err e → k ≤ 1 → fs0 p = some c → fs p = some c ∨
            ∃ f t s, files = .ok f ∧ content = .ok t ∧ Archive zip.entry (f ++ [(c!"content.xml", t)]) comps s ∧ fs p = some (s ++ zip.directory comps))) := by
    intro r fs n hr h
    exact ⟨fun q hq _ _ => h.1 q hq, fun c hc => Or.inl (by rw [h.1 p hp, hc]), fun _ => h.1 _ hb, fun h' => absurd h' hr,
      fun e c _ _ hc => Or.inl (by rw [h.1 p hp, hc])⟩
  unfold odfWrite
  refine Hoare.bind (Q := fun r fs n => (∀ q, ¬ InDir dir q → fs q = fs0 q) ∧ n ≤ k ∧ (r = .ok () → ∃ f, files = .ok f ∧ Holds dir f fs))
    (Hoare.mono (odfSetUp_spec dir files fs0 k (fun f h => (hn f h).1)) (fun fs n h => ⟨fun q _ => by rw [h.1], h.2⟩) (fun _ _ _ h => h)) ?_ ?_ ?_
  · intro _
    refine Hoare.bind (Q := fun r fs n => (∀ q, ¬ InDir dir q → fs q = fs0 q) ∧ n ≤ k ∧ (r = .ok () → ∃ f t, files = .ok f ∧ content = .ok t ∧
        Holds dir (f ++ [(c!"content.xml", t)]) fs)) ?_ ?_ ?_ ?_
    · refine Hoare.at ?_
      rintro fs1 m ⟨h1, h2, h3⟩
      obtain ⟨f, hf, hh⟩ := h3 rfl
      refine Hoare.mono (exportWrite_spec noTemp _ content fs1 m id id) (fun fs n h => ⟨fun q _ => by rw [h.1], Nat.le_of_eq h.2⟩) ?_
      rintro r fs n ⟨hm, hg⟩
      have hloc : ∀ q, ¬ InDir dir q → fs q = fs0 q := by
        intro q hq
        rw [hg.frame q id (fun e => hq (e ▸ inDir_loc dir _)) (fun e => hq (by
          rw [e]; exact ⟨c!"content.xml.bak", by simp [bak]⟩)), h1 q hq]
      refine ⟨hloc, by omega, fun hr => ?_⟩
      obtain ⟨t, ht, hpt, _⟩ := hg.done hr
      refine ⟨f, t, hf, ht, ?_⟩
      intro x hx
      rcases List.mem_append.1 hx with hx | hx
      · have hxm : x.1 ∈ f.map Prod.fst := List.mem_map_of_mem hx
        have hne1 : dir ++ '/' :: x.1 ≠ dir ++ c!"/content.xml" := fun e => (hn f hf).2.1 (loc_inj e ▸ hxm)
        have hne2 : dir ++ '/' :: x.1 ≠ bak (dir ++ c!"/content.xml") := by
          intro e
          have e' : dir ++ '/' :: x.1 = dir ++ '/' :: c!"content.xml.bak" := by rw [e]; simp [bak]
          exact (hn f hf).2.2.1 (loc_inj e' ▸ hxm)
        rw [hg.frame _ id hne1 hne2]
        exact hh x hx
      · rw [List.mem_singleton] at hx; subst hx; exact hpt
    · intro _
      refine Hoare.at ?_
      rintro fs1 m ⟨h1, h2, h3⟩
      obtain ⟨f, t, hf, ht, hh⟩ := h3 rfl
      have hcomp : ∀ n ∈ comps, n ∈ (f ++ [(c!"content.xml", t)]).map Prod.fst := by
        intro n hnn
        rw [List.map_append, List.mem_append]
        rcases (hn f hf).2.2.2 n hnn with h | h
        · exact Or.inl h
        · exact Or.inr (by simp [h])
      have hg := guarded (InDir dir) p c!"Cannot create file" fs1 m
        (fun u => ∃ s, Archive zip.entry (f ++ [(c!"content.xml", t)]) comps s ∧ u = s ++ zip.directory comps) hp hb
        (do
          openW p
          other
          zipAll zip.entry p dir comps
          append p (zip.directory comps)) (fun b _ => do
            other
            restoreBackup b p c!"Cannot create file") (Holds dir (f ++ [(c!"content.xml", t)])) ?_ ?_ ?_
      · rw [← Prog.bind_assoc]
        refine Hoare.bind (Hoare.mono hg (fun fs n h => ⟨fun q _ => by rw [h.1], h.1 ▸ hh, Nat.le_of_eq h.2⟩) (fun _ _ _ h => h)) ?_ ?_ ?_
        · intro _
          refine Hoare.at ?_
          rintro fs2 m2 ⟨ha, hG⟩
          obtain ⟨u, ⟨s, hs, rfl⟩, hpu, hbu⟩ := hG.done rfl
          have hend : ∀ (r : Res Unit) (fs : FS), (∀ q, ¬ InDir dir q → fs q = fs2 q) →
              ((∀ q, ¬ InDir dir q → q ≠ p → q ≠ bak p → fs q = fs0 q) ∧
              (∀ c, fs0 p = some c → fs p = some c ∨ fs (bak p) = some c) ∧
              (fs0 p = none → fs (bak p) = fs0 (bak p)) ∧
              (r = .ok () → (∃ f t s, files = .ok f ∧ content = .ok t ∧ Archive zip.entry (f ++ [(c!"content.xml", t)]) comps s ∧
                  fs p = some (s ++ zip.directory comps)) ∧ ∀ c, fs0 p = some c → fs (bak p) = some c) ∧
              (∀ e c, r = .err e → k ≤ 1 → fs0 p = some c → fs p = some c ∨
                  ∃ f t s, files = .ok f ∧ content = .ok t ∧ Archive zip.entry (f ++ [(c!"content.xml", t)]) comps s ∧ fs p = some (s ++ zip.directory comps))) := by
            intro r fs he
            have hbk : ∀ c, fs0 p = some c → fs (bak p) = some c := fun c hc => by
              rw [he _ hb]; exact hbu c (by rw [h1 p hp, hc])
            have hnew : fs p = some (s ++ zip.directory comps) := by rw [he p hp, hpu]
            refine ⟨fun q hq h4 h5 => ?_, fun c hc => Or.inr (hbk c hc), fun hc => ?_, fun _ => ⟨⟨f, t, s, hf, ht, hs, hnew⟩, hbk⟩,
              fun e c _ _ _ => Or.inr ⟨f, t, s, hf, ht, hs, hnew⟩⟩
            · rw [he q hq, hG.frame q hq h4 h5, h1 q hq]
            · rw [he _ hb, hG.fresh (by rw [h1 p hp, hc]), h1 _ hb]
          refine Hoare.bind (Q := fun _ fs _ => ∀ q, ¬ InDir dir q → fs q = fs2 q)
            (Hoare.mono (other_spec (fun fs => fs = fs2) m2) (fun _ _ h => ⟨h.1, Nat.le_of_eq h.2⟩) (fun _ _ _ h => fun q _ => by rw [h.1])) ?_
            (fun e fs n h => hend _ fs h) (fun fs n h => hend _ fs h)
          intro _
          refine Hoare.tryExcept (Q := fun _ fs _ => ∀ q, ¬ InDir dir q → fs q = fs2 q) ?_ ?_ (fun a fs n h => hend _ fs h) (fun fs n h => hend _ fs h)
          · refine Hoare.at ?_
            intro fs3 m3 h4
            exact Hoare.mono (rmtree_spec dir fs3 m3) (fun _ _ h => ⟨fun q _ => by rw [h.1], Nat.le_of_eq h.2⟩)
              (fun _ _ _ h => fun q hq => (h.1 q hq).trans (h4 q hq))
          · exact fun e => Hoare.pure (fun fs n h => hend _ fs h)
        · rintro e fs n ⟨ha, hG⟩
          refine ⟨fun q hq h4 h5 => ?_, fun c hc => hG.intact c (by rw [h1 p hp, hc]), fun hc => ?_, (by intro h; cases h), fun e c _ hk hc => Or.inl ?_⟩
          · rw [hG.frame q hq h4 h5, h1 q hq]
          · rw [hG.fresh (by rw [h1 p hp, hc]), h1 _ hb]
          · exact hG.kept _ c rfl (by omega) (by rw [h1 p hp, hc])
        · rintro fs n ⟨ha, hG⟩
          refine ⟨fun q hq h4 h5 => ?_, fun c hc => hG.intact c (by rw [h1 p hp, hc]), fun hc => ?_, (by intro h; cases h), fun e c h => by cases h⟩
          · rw [hG.frame q hq h4 h5, h1 q hq]
          · rw [hG.fresh (by rw [h1 p hp, hc]), h1 _ hb]
      · intro fs hfs x hx
        have hin := inDir_loc dir x.1
        have h4 : dir ++ '/' :: x.1 ≠ p := fun e => hp (e ▸ hin)
        have h5 : dir ++ '/' :: x.1 ≠ bak p := fun e => hb (e ▸ hin)
        rw [← hfs x hx]
        unfold moved
        cases fs p with
        | none => rfl
        | some c => exact (FS.upd_ne _ _ h5).trans (FS.upd_ne _ _ h4)
      · intro fs2 m2 hfs
        refine Hoare.bind (Q := fun r fs n => n ≤ m2 ∧ (∀ q, q ≠ p → fs q = fs2 q) ∧ (r = .ok () → fs p = some []) ∧ (r ≠ .ok () → n + 1 ≤ m2)) (Hoare.step ?_ ?_ ?_) ?_ ?_ ?_
        · rintro fs n ⟨rfl, rfl⟩ a fs' he
          injection he with he; injection he with _ he; subst he
          exact ⟨Nat.le_refl _, fun q hq => FS.upd_ne _ _ hq, fun _ => FS.upd_self _ _ _, fun h => absurd rfl h⟩
        · rintro fs n h he; cases he
        · rintro fs n ⟨rfl, hm⟩
          exact ⟨⟨by omega, fun _ _ => rfl, (by intro h; cases h), fun _ => by omega⟩, ⟨by omega, fun _ _ => rfl, (by intro h; cases h), fun _ => by omega⟩⟩
        · intro _
          refine Hoare.at ?_
          rintro fs3 m3 ⟨h4, h5, h6, _⟩
          have h6 := h6 rfl
          refine Hoare.bind (other_at fs3 m3) ?_ ?_ ?_
          · intro _
            refine Hoare.bind (Hoare.mono (zipAll_spec zip.entry p dir hp (f ++ [(c!"content.xml", t)]) fs2 m2 comps hcomp hfs []) ?_ (fun _ _ _ h => h)) ?_ ?_ ?_
            · rintro fs n ⟨rfl, h7, _⟩; exact ⟨h5, h6, by omega⟩
            · intro _
              refine Hoare.append ?_ ?_
              · rintro fs n ⟨h7, h8, _, h9⟩
                obtain ⟨s', hs', hps⟩ := h9 rfl
                refine ⟨h8, fun q hq => (FS.upd_ne _ _ hq).trans (h7 q hq), s' ++ zip.directory comps, ⟨s', hs', rfl⟩, ?_⟩
                rw [FS.upd_self, hps]; rfl
              · rintro fs n j ⟨h7, h8, _, h9⟩
                exact ⟨⟨by omega, fun q hq => (FS.upd_ne _ _ hq).trans (h7 q hq), by omega⟩,
                  ⟨by omega, fun q hq => (FS.upd_ne _ _ hq).trans (h7 q hq), by omega⟩⟩
            · rintro e fs n ⟨h7, h8, h9, _⟩; exact ⟨h8, h7, h9 (by simp)⟩
            · rintro fs n ⟨h7, h8, h9, _⟩; exact ⟨h8, h7, h9 (by simp)⟩
          · rintro e fs n ⟨rfl, h7, _, h8⟩; exact ⟨by omega, h5, by have := h8 (by simp); omega⟩
          · rintro fs n ⟨rfl, h7, _, h8⟩; exact ⟨by omega, h5, by have := h8 (by simp); omega⟩
        · rintro e fs n ⟨h4, h5, _, h6⟩; exact ⟨h4, h5, h6 (by simp)⟩
        · rintro fs n ⟨h4, h5, _, h6⟩; exact ⟨h4, h5, h6 (by simp)⟩
      · intro b e fs2 m2 hbs
        refine Hoare.bind (other_at fs2 m2) ?_ ?_ ?_
        · intro _
          refine Hoare.at ?_
          rintro fs3 m3 ⟨rfl, h4, h5, _⟩
          refine Hoare.mono (restoreBackup_spec b p _ fs3 m3 hbs) (fun _ _ h => h) ?_
          rintro r fs n ⟨h6, h7, h8, h9⟩
          exact ⟨by omega, h7, h8, fun h => h9 (by omega)⟩
        · rintro e' fs n ⟨rfl, h4, _, h5⟩
          exact ⟨h4, by simp, Or.inl rfl, fun h => by have := h5 (by simp); omega⟩
        · rintro fs n ⟨rfl, h4, _, h5⟩
          exact ⟨h4, by simp, Or.inl rfl, fun h => by have := h5 (by simp); omega⟩
    · rintro e fs n ⟨h1, h2, _⟩; exact hbad (n := n) (by simp) ⟨h1, h2⟩
    · rintro fs n ⟨h1, h2, _⟩; exact hbad (n := n) (by simp) ⟨h1, h2⟩
  · rintro e fs n ⟨h1, h2, _⟩; exact hbad (n := n) (by simp) ⟨h1, h2⟩
  · rintro fs n ⟨h1, h2, _⟩; exact hbad (n := n) (by simp) ⟨h1, h2⟩

end Verif
