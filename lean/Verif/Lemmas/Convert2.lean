import Verif.Lemmas.Convert

namespace Verif
open Prog Spec Path

/-! ### Programs without faults -/

/-- Without faults, the program succeeds. -/
def Ok {α : Type} (P : FS → Prop) (p : Prog α) (Q : α → FS → Prop) : Prop :=
  ∀ fs, P fs → ∃ a fs', p fs [] = (.ok a, fs', []) ∧ Q a fs'

namespace Ok
variable {α β : Type} {P : FS → Prop}

theorem pure {a : α} {Q : α → FS → Prop} (h : ∀ fs, P fs → Q a fs) : Ok P (Pure.pure a : Prog α) Q :=
  fun fs hp => ⟨a, fs, rfl, h fs hp⟩

theorem bind {p : Prog α} {f : α → Prog β} {Q : α → FS → Prop} {R : β → FS → Prop} (h1 : Ok P p Q) (h2 : ∀ a, Ok (Q a) (f a) R) :
    Ok P (p >>= f) R := by
  intro fs hp
  obtain ⟨a, fs', e, hq⟩ := h1 fs hp
  obtain ⟨b, fs'', e', hr⟩ := h2 a fs' hq
  refine ⟨b, fs'', ?_, hr⟩
  show Prog.bind p f fs [] = _
  unfold Prog.bind
  rw [e]; exact e'

theorem tryExcept {p : Prog α} {h : Exc → Prog α} {Q : α → FS → Prop} (h1 : Ok P p Q) : Ok P (Prog.tryExcept p h) Q := by
  intro fs hp
  obtain ⟨a, fs', e, hq⟩ := h1 fs hp
  refine ⟨a, fs', ?_, hq⟩
  unfold Prog.tryExcept
  rw [e]

theorem step {eff : FS → Option (α × FS)} {Q : α → FS → Prop} (h : ∀ fs, P fs → ∃ a fs', eff fs = some (a, fs') ∧ Q a fs') : Ok P (Prog.step eff) Q := by
  intro fs hp
  obtain ⟨a, fs', e, hq⟩ := h fs hp
  refine ⟨a, fs', ?_, hq⟩
  unfold Prog.step
  simp only [e]
  rfl

theorem append {p data : Str} {Q : Unit → FS → Prop} (h : ∀ fs, P fs → Q () (fs.upd p (some ((fs p).getD [] ++ data)))) :
    Ok P (Prog.append p data) Q := fun fs hp => ⟨(), _, rfl, h fs hp⟩

theorem lift {x : Except Exc α} {Q : α → FS → Prop} {a : α} (hx : x = .ok a) (h : ∀ fs, P fs → Q a fs) : Ok P (Prog.lift x) Q := by
  subst hx; exact pure h

theorem mono {p : Prog α} {P' : FS → Prop} {Q Q' : α → FS → Prop} (h : Ok P p Q) (hp : ∀ fs, P' fs → P fs)
    (hq : ∀ a fs, Q a fs → Q' a fs) : Ok P' p Q' := by
  intro fs h'
  obtain ⟨a, fs', e, h2⟩ := h fs (hp fs h')
  exact ⟨a, fs', e, hq a fs' h2⟩

end Ok

/-- The files that exist. -/
def Have (L : Str → Prop) (fs : FS) : Prop := ∀ q, L q → fs q ≠ none

theorem Have.upd {L : Str → Prop} {fs : FS} (h : Have L fs) (p c : Str) : Have L (fs.upd p (some c)) := by
  intro q hq
  by_cases e : q = p
  · subst e; rw [FS.upd_self]; simp
  · rw [FS.upd_ne _ _ e]; exact h q hq

theorem Have.self {L : Str → Prop} {fs : FS} {p c : Str} (h : Have L fs) : Have (fun q => q = p ∨ L q) (fs.upd p (some c)) := by
  intro q hq
  by_cases e : q = p
  · subst e; rw [FS.upd_self]; simp
  · rw [FS.upd_ne _ _ e]; exact h q (hq.resolve_left e)

theorem openW_ok (L : Str → Prop) (p : Str) : Ok (Have L) (openW p) (fun _ => Have L) :=
  Ok.step fun fs h => ⟨(), _, rfl, h.upd p []⟩

theorem append_ok (L : Str → Prop) (p data : Str) : Ok (Have L) (append p data) (fun _ => Have L) :=
  Ok.append fun _ h => h.upd p _

theorem other_ok (L : Str → Prop) : Ok (Have L) other (fun _ => Have L) :=
  Ok.step fun fs h => ⟨(), fs, rfl, h⟩

theorem writeFile_ok (L : Str → Prop) (p data : Str) : Ok (Have L) (writeFile p data) (fun _ => Have (fun q => q = p ∨ L q)) :=
  Ok.bind (openW_ok L p) fun _ => Ok.append fun _ h => h.self

theorem backUp_ok (L : Str → Prop) (p : Str) (hp : ¬ L p) : Ok (Have L) (backUp p) (fun _ => Have L) := by
  intro fs h
  unfold backUp
  cases hx : fs p with
  | none =>
    refine ⟨false, fs, ?_, h⟩
    simp only [Bind.bind, Prog.bind, isfile, hx]; rfl
  | some c =>
    refine ⟨true, (fs.upd p none).upd (bak p) (some c), ?_, ?_⟩
    · have : Prog.replace p (bak p) fs [] = (.ok (), (fs.upd p none).upd (bak p) (some c), []) := by
        unfold Prog.replace Prog.step
        simp only [hx]
        rfl
      simp only [Bind.bind, Prog.bind, isfile, hx, Option.isSome, if_true, Prog.tryExcept, this]; rfl
    · intro q hq
      by_cases e : q = bak p
      · subst e; rw [FS.upd_self]; simp
      · rw [FS.upd_ne _ _ e, FS.upd_ne _ _ (fun (e : q = p) => hp (e ▸ hq))]; exact h q hq

theorem writeAll_ok (dir : Str) (files : OdfFiles) : ∀ (L : Str → Prop),
    Ok (Have L) (writeAll dir files) (fun _ => Have (fun q => L q ∨ ∃ n ∈ files.map Prod.fst, q = dir ++ '/' :: n)) := by
  induction files with
  | nil => intro L; exact Ok.pure fun fs h q hq => h q (hq.resolve_right (by rintro ⟨n, h, _⟩; cases h))
  | cons x r ih =>
    intro L
    refine Ok.bind (Ok.tryExcept (writeFile_ok L _ _)) fun _ => ?_
    refine Ok.mono (ih _) (fun _ h => h) ?_
    intro _ fs h q hq
    refine h q ?_
    rcases hq with hq | ⟨n, hn, hq⟩
    · exact Or.inl (Or.inr hq)
    · rcases List.mem_cons.1 hn with rfl | hn
      · exact Or.inl (Or.inl hq)
      · exact Or.inr ⟨n, hn, hq⟩

theorem zipAll_ok (entry : Str → Str → Str) (p dir : Str) (L : Str → Prop) (comps : List Str) (hc : ∀ n ∈ comps, L (dir ++ '/' :: n)) :
    Ok (Have L) (zipAll entry p dir comps) (fun _ => Have L) := by
  induction comps with
  | nil => exact Ok.pure fun _ h => h
  | cons n r ih =>
    refine Ok.bind (Q := fun _ => Have L) (Ok.step ?_) fun c => Ok.bind (append_ok L _ _) fun _ => ih (fun m hm => hc m (List.mem_cons_of_mem _ hm))
    intro fs h
    have := h _ (hc n (by simp))
    cases hx : fs (dir ++ '/' :: n) with
    | none => exact absurd hx this
    | some c => exact ⟨c, fs, rfl, h⟩

/-- If nothing fails, an ODF document is written. -/
theorem odfWrite_ok (zip : ZipFormat) (dir : Str) (f : OdfFiles) (t : Str) (comps : List Str) (p : Str) (hp : ¬ InDir dir p)
    (hn : OdfComplete (.ok f) comps) :
    Ok (fun _ => True) (odfWrite zip dir (.ok f) (.ok t) comps p) (fun _ _ => True) := by
  obtain ⟨_, hnc, _, hall⟩ := hn f rfl
  unfold odfWrite
  let L1 : Str → Prop := fun q => ∃ n ∈ f.map Prod.fst, q = dir ++ '/' :: n
  let L2 : Str → Prop := fun q => q = dir ++ c!"/content.xml" ∨ L1 q
  have hpc : p ≠ dir ++ c!"/content.xml" := fun e => hp (e ▸ inDir_loc dir _)
  have hp1 : ∀ n, p ≠ dir ++ '/' :: n := fun n e => hp (e ▸ inDir_loc dir _)
  have hL2p : ¬ L2 p := by
    rintro (h | ⟨n, _, h⟩)
    · exact hpc h
    · exact hp1 n h
  refine Ok.bind (Q := fun _ => Have L1) ?_ fun _ => ?_
  · show Ok _ (do
      tryExcept (do
        tryExcept (rmtree dir) fun _ => Pure.pure ()
        other
        other) fun _ => raise (fileError c!"Cannot create directory" dir)
      writeAll dir f) _
    refine Ok.bind (Q := fun _ => Have (fun _ => False)) (Ok.tryExcept ?_) fun _ => ?_
    · refine Ok.bind (Q := fun _ => Have (fun _ => False)) (Ok.tryExcept (Ok.step fun fs _ => ⟨(), _, rfl, fun _ h => h.elim⟩)) fun _ => ?_
      exact Ok.bind (other_ok _) fun _ => other_ok _
    · exact Ok.mono (writeAll_ok dir f _) (fun _ h => h) (fun _ fs h q hq => h q (Or.inr hq))
  · refine Ok.bind (Q := fun _ => Have L2) ?_ fun _ => ?_
    · show Ok _ (do
        let b ← backUp (dir ++ c!"/content.xml")
        tryExcept (writeFile (dir ++ c!"/content.xml") t) fun _ => restoreBackup b (dir ++ c!"/content.xml") c!"Cannot write file") _
      refine Ok.bind (backUp_ok L1 _ ?_) fun b => Ok.tryExcept (writeFile_ok L1 _ _)
      rintro ⟨n, hnm, h⟩
      exact hnc (loc_inj h ▸ hnm)
    · refine Ok.bind (backUp_ok L2 p hL2p) fun b => ?_
      refine Ok.bind (Q := fun _ _ => True) (Ok.tryExcept ?_) fun _ => ?_
      · refine Ok.bind (openW_ok L2 p) fun _ => Ok.bind (other_ok L2) fun _ => Ok.bind (zipAll_ok zip.entry p dir L2 comps ?_) fun _ =>
          Ok.mono (append_ok L2 _ _) (fun _ h => h) (fun _ _ _ => trivial)
        intro n hnn
        rcases hall n hnn with h | rfl
        · exact Or.inr ⟨n, h, rfl⟩
        · exact Or.inl rfl
      · exact Ok.bind (Q := fun _ _ => True) (Ok.step fun fs _ => ⟨(), fs, rfl, trivial⟩) fun _ =>
          Ok.tryExcept (Ok.step fun fs _ => ⟨(), _, rfl, trivial⟩)

/-- If nothing fails and the project is not locked, the project file is written. -/
theorem yw7Write_ok (p : Str) (root : Elem) (hc : Bool) (fs : FS) (h : fs (p ++ c!".lock") = none) :
    ∃ fs', yw7Write p (.ok root) hc fs [] = (.ok (), fs', []) := by
  have e1 : yw7Write p (.ok root) hc fs [] = (do
        writeElementTree p root
        postprocessFile p hc : Prog Unit) fs [] := by
    unfold yw7Write
    show Prog.bind _ _ _ _ = _
    unfold Prog.bind isLocked isfile
    rw [h]; rfl
  have key : Ok (Have (fun _ => False)) (do
        writeElementTree p root
        postprocessFile p hc : Prog Unit) (fun _ _ => True) := by
    refine Ok.bind (Ok.bind (backUp_ok _ p id) fun b => Ok.tryExcept (writeFile_ok _ _ _)) fun _ => ?_
    refine Ok.bind (Q := fun _ => Have (fun _ => False)) (Ok.step ?_) fun t => Ok.tryExcept (Ok.mono (writeFile_ok _ _ _) (fun _ h => h) (fun _ _ _ => trivial))
    intro fs' h'
    cases hx : fs' p with
    | none => exact absurd hx (h' p (Or.inl rfl))
    | some c => exact ⟨c, fs', rfl, fun _ h => h.elim⟩
  obtain ⟨_, fs', e, _⟩ := key fs (fun _ h => h.elim)
  exact ⟨fs', e1.trans e⟩

/-! ### The name of the project file -/

theorem join_nil_length (l : List Str) : (Str.join [] l).length = (l.map List.length).sum := by
  induction l with
  | nil => rfl
  | cons a r ih =>
    cases r with
    | nil => simp [Str.join]
    | cons b r =>
      rw [Str.join]
      simp only [List.append_nil, List.length_append, ih, List.map_cons, List.sum_cons]

theorem join_length (sep : Str) : ∀ (l : List Str), l ≠ [] → (Str.join sep l).length = (l.map List.length).sum + (l.length - 1) * sep.length
  | [], h => absurd rfl h
  | [a], _ => by simp [Str.join]
  | a :: b :: r, _ => by
    rw [Str.join]
    simp only [List.length_append, join_length sep (b :: r) (by simp), List.map_cons, List.sum_cons, List.length_cons]
    have : (r.length + 1 + 1 - 1) * sep.length = (r.length + 1 - 1) * sep.length + sep.length := by
      have : r.length + 1 + 1 - 1 = (r.length + 1 - 1) + 1 := by omega
      rw [this, Nat.add_mul, Nat.one_mul]
    rw [this]
    omega

theorem borderFree_cons {c : Char} {r : Str} (h : c ∉ r) : BorderFree (c :: r) := by
  intro k h1 h2 e
  obtain ⟨k, rfl⟩ : ∃ j, k = j + 1 := ⟨k - 1, by omega⟩
  rw [List.take_succ_cons] at e
  obtain ⟨m, hm⟩ : ∃ m, (c :: r).length - (k + 1) = m + 1 := ⟨(c :: r).length - (k + 1) - 1, by simp at h2 ⊢; omega⟩
  rw [hm, List.drop_succ_cons] at e
  have : c ∈ r.drop m := by rw [← e]; simp
  exact h (List.mem_of_mem_drop this)

/-- Removing the suffix gives a shorter name if the name contains the suffix. -/
theorem ywBasis_length {base s : Str} (hs : s ≠ []) (h : (ywBasis (base ++ s) (some s)).length = base.length) : ¬ s <:+: base := by
  obtain ⟨c, s', rfl⟩ : ∃ c s', s = c :: s' := by cases s with | nil => exact absurd rfl hs | cons c s' => exact ⟨c, s', rfl⟩
  replace h : (Str.join [] (if (Str.split (base ++ c :: s') (c :: s')).length > 1 then (Str.split (base ++ c :: s') (c :: s')).dropLast
    else Str.split (base ++ c :: s') (c :: s'))).length = base.length := h
  generalize hS : c :: s' = s at *
  have hj := Str.join_split s hs (base ++ s)
  have hne := Str.split_ne_nil (base ++ s) s
  have hfree := Str.not_infix_of_mem_split s hs (base ++ s)
  generalize Str.split (base ++ s) s = e at h hj hne hfree
  match e, hne with
  | [a], _ =>
    have : a = base ++ s := hj
    exact absurd ⟨base, [], by rw [List.append_nil]; exact this.symm⟩ (hfree a (by simp))
  | a :: b :: r, _ =>
    have hlen : (Str.join [] ((a :: b :: r).dropLast)).length = base.length := by rw [← h, if_pos (by simp)]
    have hlen0 := hlen
    rw [join_nil_length] at hlen
    have hlen2 := congrArg List.length hj
    rw [join_length s _ (by simp), List.length_append, ← hlen] at hlen2
    have hlast : ((a :: b :: r).map List.length).sum = (((a :: b :: r).dropLast).map List.length).sum + ((a :: b :: r).getLast (by simp)).length := by
      conv => lhs; rw [← List.dropLast_concat_getLast (l := a :: b :: r) (by simp)]
      rw [List.map_append, List.sum_append]; simp
    rw [hlast] at hlen2
    have hr : r = [] := by
      cases r with
      | nil => rfl
      | cons d r =>
        exfalso
        have h2 : (2 : Nat) ≤ (a :: b :: d :: r).length - 1 := by simp
        have h3 : 2 * s.length ≤ ((a :: b :: d :: r).length - 1) * s.length := Nat.mul_le_mul_right _ h2
        have : 0 < s.length := List.length_pos_iff.2 hs
        omega
    subst hr
    have hab : a ++ s ++ b = base ++ s := hj
    rw [List.append_assoc] at hab
    have : a = base := (List.append_inj hab hlen0).1
    exact this ▸ hfree a (by simp)

theorem ywBasis_free {base s : Str} (hs : s ≠ []) (hb : BorderFree s) (h : ¬ s <:+: base) : ywBasis (base ++ s) (some s) = base := by
  have := Str.split_append_sep s base [] hs (freeOf_of_borderFree hs hb h)
  rw [List.append_nil] at this
  cases s with
  | nil => exact absurd rfl hs
  | cons c s' =>
    show Str.join [] (if (Str.split (base ++ c :: s') (c :: s')).length > 1 then (Str.split (base ++ c :: s') (c :: s')).dropLast
      else Str.split (base ++ c :: s') (c :: s')) = base
    rw [this]
    rfl

/-! ### Paths in the temporary directory -/

theorem inDir_of_append {dir a e : Str} (he : '/' ∉ e) (h : InDir dir (a ++ e)) : InDir dir a := by
  obtain ⟨t, ht⟩ := h
  refine List.prefix_of_prefix_length_le (l₃ := a ++ e) ⟨t, ht⟩ (List.prefix_append _ _) ?_
  rcases Nat.lt_or_ge a.length (dir ++ ['/']).length with hlt | hge
  · exfalso
    simp only [List.length_append, List.length_singleton] at hlt
    have h1 : (dir ++ ['/'] ++ t)[dir.length]? = some '/' := by
      rw [List.append_assoc, List.getElem?_append_right (Nat.le_refl _)]; simp
    rw [ht, List.getElem?_append_right (by omega)] at h1
    exact he (List.mem_of_getElem? h1)
  · exact hge

theorem inDir_append {dir a : Str} (e : Str) (h : InDir dir a) : InDir dir (a ++ e) := h.trans (List.prefix_append _ _)

theorem slashes_append (a b : Str) : slashes (a ++ b) = slashes a ++ slashes b := List.map_append

theorem slashes_id {a : Str} (h : '\\' ∉ a) : slashes a = a := by
  unfold slashes
  conv => rhs; rw [← List.map_id a]
  refine List.map_congr_left ?_
  intro c hc
  have : c ≠ '\\' := fun e => h (e ▸ hc)
  simp [this]

theorem mkDoc_path {c : DocClass} {p q : Str} (h : (mkDoc c p).filePath = some q) : q = slashes p := by
  unfold mkDoc Doc.setPath at h
  dsimp only at h
  split at h
  · injection h with h; exact h.symm
  · cases h

theorem mkDoc_cls (c : DocClass) (p : Str) : (mkDoc c p).cls = c := by
  unfold mkDoc Doc.setPath
  dsimp only
  split <;> rfl

theorem mkDoc_eq {c : DocClass} {p : Str} (h : c.ending <:+ slashes p) : mkDoc c p = ⟨c, some (slashes p)⟩ := by
  unfold mkDoc Doc.setPath
  dsimp only
  rw [if_pos]
  rw [endsWith_iff]
  obtain ⟨t, ht⟩ := h
  refine ⟨Str.lower t, ?_⟩
  rw [← ht]
  unfold Str.lower
  rw [List.map_append]

end Verif
