import Verif.Lemmas.Path
import Verif.Props.C24_C25_Save
import Verif.Spec.Conversion

namespace Verif
open Prog Spec Path

variable {ν : Type}

/-- What `check` does. -/
theorem check_eq (env : Env ν) (s t : Doc) (fs : FS) (fl : List Fault) :
    (∃ e, check env s t fs fl = (.err e, fs, fl)) ∨
    (check env s t fs fl = (.ok (), fs, fl) ∧ (∃ sp c, s.filePath = some sp ∧ fs sp = some c) ∧
      ∃ tp, t.filePath = some tp ∧ (fs tp = none ∨ env.confirm tp = true)) := by
  obtain ⟨sc, sp⟩ := s
  obtain ⟨tc, tp⟩ := t
  cases sp with
  | none => exact Or.inl ⟨_, rfl⟩
  | some sp =>
    cases hc : fs sp with
    | none =>
      refine Or.inl ⟨.error (c!"File not found: \"" ++ env.norm sp ++ c!"\"."), ?_⟩
      unfold check
      simp only [Bind.bind, Prog.bind, isfile, hc]
      rfl
    | some c =>
      cases tp with
      | none =>
        refine Or.inl ⟨.error c!"File type is not supported.", ?_⟩
        unfold check
        simp only [Bind.bind, Prog.bind, isfile, hc]
        rfl
      | some tp =>
        have e : check env ⟨sc, some sp⟩ ⟨tc, some tp⟩ fs fl =
            (if ((fs tp).isSome && !env.confirm tp) = true then raise (.error c!"Action canceled by user.") else (Prog.pure () : Prog Unit)) fs fl := by
          unfold check
          simp only [Bind.bind, Prog.bind, isfile, hc]
          rfl
        rw [e]
        cases htp : fs tp with
        | none => exact Or.inr ⟨rfl, ⟨sp, c, rfl, hc⟩, tp, rfl, Or.inl htp⟩
        | some old =>
          cases hcf : env.confirm tp with
          | true => exact Or.inr ⟨rfl, ⟨sp, c, rfl, hc⟩, tp, rfl, Or.inr hcf⟩
          | false => exact Or.inl ⟨_, rfl⟩

theorem check_spec (env : Env ν) (s t : Doc) (fs0 : FS) (k : Nat) :
    Hoare (fun fs n => fs = fs0 ∧ n ≤ k) (check env s t) (fun r fs n => fs = fs0 ∧ n ≤ k ∧ r ≠ .crashed ∧
      (r = .ok () → (∃ sp c, s.filePath = some sp ∧ fs0 sp = some c) ∧ ∃ tp, t.filePath = some tp ∧ (fs0 tp = none ∨ env.confirm tp = true))) := by
  intro fs fl ⟨h1, h2⟩
  subst h1
  rcases check_eq env s t fs fl with ⟨e, h⟩ | ⟨h, h3⟩
  · rw [h]; exact ⟨rfl, h2, (by intro h; cases h), by intro h; cases h⟩
  · rw [h]; exact ⟨rfl, h2, (by intro h; cases h), fun _ => h3⟩

theorem readDoc_spec (env : Env ν) (d : Doc) (nv : ν) (fs0 : FS) (k : Nat) :
    Hoare (fun fs n => fs = fs0 ∧ n ≤ k) (readDoc env d nv) (fun r fs n => fs = fs0 ∧ n ≤ k ∧
      (∀ x, r = .ok x → (d.cls = yw7Class → fs0 (d.filePath.getD [] ++ c!".lock") = none) ∧
        ∃ text, fs0 (d.filePath.getD []) = some text ∧ env.parse d.cls text nv = .ok x)) := by
  have tail : Hoare (fun fs n => fs = fs0 ∧ n ≤ k) (do
      let text ← readFile (d.filePath.getD [])
      lift (env.parse d.cls text nv)) (fun r fs n => fs = fs0 ∧ n ≤ k ∧
      (∀ x, r = .ok x → ∃ text, fs0 (d.filePath.getD []) = some text ∧ env.parse d.cls text nv = .ok x)) := by
    refine Hoare.bind (Q := fun r fs n => fs = fs0 ∧ n ≤ k ∧ ∀ t, r = .ok t → fs0 (d.filePath.getD []) = some t) (Hoare.step ?_ ?_ ?_) ?_ ?_ ?_
    · rintro fs n ⟨rfl, hn⟩ a fs' he
      cases hx : fs (d.filePath.getD []) with
      | none => rw [hx] at he; cases he
      | some t =>
        rw [hx] at he; injection he with he; injection he with h1 h2
        exact ⟨h2.symm, hn, fun t' ht => by injection ht with ht; rw [← ht, ← h1]⟩
    · rintro fs n ⟨rfl, hn⟩ he; exact ⟨rfl, hn, fun t' ht => by cases ht⟩
    · rintro fs n ⟨rfl, hn⟩; exact ⟨⟨rfl, by omega, fun t' ht => by cases ht⟩, ⟨rfl, by omega, fun t' ht => by cases ht⟩⟩
    · intro t
      refine Hoare.lift ?_ ?_
      · rintro a ha fs n ⟨rfl, h2, h3⟩
        exact ⟨rfl, h2, fun x hx => by injection hx with hx; subst hx; exact ⟨t, h3 t rfl, ha⟩⟩
      · rintro e ha fs n ⟨rfl, h2, h3⟩
        exact ⟨rfl, h2, fun x hx => by cases hx⟩
    · rintro e fs n ⟨rfl, h2, h3⟩; exact ⟨rfl, h2, fun x hx => by cases hx⟩
    · rintro fs n ⟨rfl, h2, h3⟩; exact ⟨rfl, h2, fun x hx => by cases hx⟩
  unfold readDoc
  dsimp only
  by_cases hy : d.cls = yw7Class
  · rw [if_pos hy]
    intro fs fl ⟨h1, h2⟩
    subst h1
    cases hl : fs (d.filePath.getD [] ++ c!".lock") with
    | some l =>
      have : (do
          let __do_lift ← isLocked (d.filePath.getD [])
          if __do_lift = true then raise lockedError
          let text ← readFile (d.filePath.getD [])
          lift (env.parse d.cls text nv) : Prog (ν × Bool)) fs fl = (.err lockedError, fs, fl) := by
        show Prog.bind _ _ _ _ = _
        unfold Prog.bind isLocked isfile
        rw [hl]; rfl
      refine (fun h => ?_) this
      have e := this
      rw [show (do
          let __do_lift ← isLocked (d.filePath.getD [])
          if __do_lift = true then raise lockedError
          let text ← readFile (d.filePath.getD [])
          lift (env.parse d.cls text nv) : Prog (ν × Bool)) fs fl = (.err lockedError, fs, fl) from e]
      exact ⟨rfl, h2, fun x hx => by cases hx⟩
    | none =>
      have e : (do
          let __do_lift ← isLocked (d.filePath.getD [])
          if __do_lift = true then raise lockedError
          let text ← readFile (d.filePath.getD [])
          lift (env.parse d.cls text nv) : Prog (ν × Bool)) fs fl = (do
          let text ← readFile (d.filePath.getD [])
          lift (env.parse d.cls text nv) : Prog (ν × Bool)) fs fl := by
        show Prog.bind _ _ _ _ = _
        unfold Prog.bind isLocked isfile
        rw [hl]; rfl
      rw [e]
      have := tail fs fl ⟨rfl, h2⟩
      exact ⟨this.1, this.2.1, fun x hx => ⟨fun _ => rfl, this.2.2 x hx⟩⟩
  · rw [if_neg hy]
    refine Hoare.mono tail (fun _ _ h => h) ?_
    rintro r fs n ⟨h1, h2, h3⟩
    exact ⟨h1, h2, fun x hx => ⟨fun h => absurd h hy, h3 x hx⟩⟩

/-- The paths of temporary files that a write of `d` uses. -/
def tempOf (env : Env ν) (d : Doc) (q : Str) : Prop := d.cls ≠ yw7Class ∧ InDir env.dir q

theorem writeDoc_spec (env : Env ν) (d : Doc) (old : Option ν) (nv : ν) (fs0 : FS) (k : Nat) (p : Str) (hd : d.filePath = some p)
    (henv : ∀ c n, OdfComplete (env.odfFiles c n) (env.comps c)) (hp : ¬ tempOf env d p) (hb : ¬ tempOf env d (bak p)) :
    Hoare (fun fs n => fs = fs0 ∧ n ≤ k) (writeDoc env d old nv) (fun r fs _ =>
      (∀ q, ¬ tempOf env d q → q ≠ p → q ≠ bak p → fs q = fs0 q) ∧
      (∀ c, fs0 p = some c → fs p = some c ∨ fs (bak p) = some c) ∧
      (fs0 p = none → fs (bak p) = fs0 (bak p)) ∧
      (r = .ok () → Complete env d old nv fs) ∧
      (d.cls = yw7Class → fs0 (p ++ c!".lock") ≠ none → fs = fs0 ∧ r = .err lockedError)) := by
  unfold writeDoc Complete
  rw [hd]
  dsimp only [Option.getD]
  by_cases hy : d.cls = yw7Class
  · rw [if_pos hy]
    refine Hoare.mono (yw7Write_spec p _ _ fs0 k) (fun _ _ h => h) ?_
    rintro r fs n ⟨h1, h2, h3, h4, h5⟩
    refine ⟨fun q _ => h1 q, h2, h3, fun hr => Or.inl ⟨hy, ?_⟩, fun _ => h5⟩
    obtain ⟨_, root, h6, h7, _⟩ := h4 hr
    exact ⟨root, h6, h7⟩
  · rw [if_neg hy]
    have hp' : ¬ InDir env.dir p := fun h => hp ⟨hy, h⟩
    have hb' : ¬ InDir env.dir (bak p) := fun h => hb ⟨hy, h⟩
    refine Hoare.mono (odfWrite_spec env.zip env.dir _ _ _ p hp' hb' fs0 k (henv _ _)) (fun _ _ h => h) ?_
    rintro r fs n ⟨h1, h2, h3, h4, h5⟩
    exact ⟨fun q hq => h1 q (fun h => hq ⟨hy, h⟩), h2, h3, fun hr => Or.inr ⟨hy, (h4 hr).1⟩, fun h => absurd h hy⟩

/-- The target is only touched if it did not exist or the user agreed. -/
def Consented (env : Env ν) (d : Doc) (fs0 fs : FS) : Prop :=
  ∀ q, fs q ≠ fs0 q → tempOf env d q ∨ ∃ p, d.filePath = some p ∧ ((q = p ∧ (fs0 p = none ∨ env.confirm p = true)) ∨
    (q = bak p ∧ fs0 p ≠ none ∧ env.confirm p = true))

theorem Consented.refl (env : Env ν) (d : Doc) (fs : FS) : Consented env d fs fs := fun _ h => absurd rfl h

/-- The result of a body: what it has done, and, if it succeeded, from what. -/
structure Body (env : Env ν) (d : Doc) (fs0 : FS) (G : FS → Prop) (ok : Bool) (fs : FS) : Prop where
  consent : Consented env d fs0 fs
  good : ok = true → G fs
  locked : d.cls = yw7Class → fs0 (d.filePath.getD [] ++ c!".lock") ≠ none → fs = fs0
  intact : ∀ p c, d.filePath = some p → fs0 p = some c → fs p = some c ∨ fs (bak p) = some c

theorem Body.same (env : Env ν) (d : Doc) (fs : FS) (G : FS → Prop) : Body env d fs G false fs :=
  ⟨Consented.refl env d fs, (by intro h; cases h), fun _ _ => rfl, fun _ _ _ h => Or.inl h⟩

/-- Whether a program succeeded. -/
def Res.isOk {α : Type} : Res α → Bool
  | .ok _ => true
  | _ => false

theorem write_body (env : Env ν) (d : Doc) (old : Option ν) (nv : ν) (fs0 : FS) (k : Nat) (b : Bool) (p : Str) (hd : d.filePath = some p)
    (hc : fs0 p = none ∨ env.confirm p = true)
    (henv : ∀ c n, OdfComplete (env.odfFiles c n) (env.comps c)) (hp : ¬ tempOf env d p) (hb : ¬ tempOf env d (bak p)) :
    Hoare (fun fs n => fs = fs0 ∧ n ≤ k) (do writeDoc env d old nv; return b)
      (fun r fs _ => Body env d fs0 (Complete env d old nv) r.isOk fs) := by
  have key : ∀ {fs : FS}, (∀ q, ¬ tempOf env d q → q ≠ p → q ≠ bak p → fs q = fs0 q) →
      (fs0 p = none → fs (bak p) = fs0 (bak p)) → Consented env d fs0 fs := by
    intro fs h1 h3 q hq
    by_cases ht : tempOf env d q
    · exact Or.inl ht
    · refine Or.inr ⟨p, hd, ?_⟩
      by_cases e1 : q = p
      · exact Or.inl ⟨e1, hc⟩
      · by_cases e2 : q = bak p
        · subst e2
          have hne : fs0 p ≠ none := fun e => hq (h3 e)
          exact Or.inr ⟨rfl, hne, hc.resolve_left hne⟩
        · exact absurd (h1 q ht e1 e2) hq
  refine Hoare.bind (writeDoc_spec env d old nv fs0 k p hd henv hp hb) ?_ ?_ ?_
  · intro _
    refine Hoare.pure ?_
    rintro fs n ⟨h1, h2, h3, h4, h5⟩
    exact ⟨key h1 h3, fun _ => h4 rfl, fun hy hl => (h5 hy (by rw [hd] at hl; exact hl)).1, fun p' c hp' => by
      rw [hd] at hp'; injection hp' with hp'; subst hp'; exact h2 c⟩
  · rintro e fs n ⟨h1, h2, h3, h4, h5⟩
    exact ⟨key h1 h3, (by intro h; cases h), fun hy hl => (h5 hy (by rw [hd] at hl; exact hl)).1, fun p' c hp' => by
      rw [hd] at hp'; injection hp' with hp'; subst hp'; exact h2 c⟩
  · rintro fs n ⟨h1, h2, h3, h4, h5⟩
    exact ⟨key h1 h3, (by intro h; cases h), fun hy hl => (h5 hy (by rw [hd] at hl; exact hl)).1, fun p' c hp' => by
      rw [hd] at hp'; injection hp' with hp'; subst hp'; exact h2 c⟩

theorem convert_body (env : Env ν) (s t : Doc) (fs0 : FS) (k : Nat) (henv : ∀ c n, OdfComplete (env.odfFiles c n) (env.comps c))
    (ht : ∀ p, t.filePath = some p → ¬ tempOf env t p ∧ ¬ tempOf env t (bak p)) :
    Hoare (fun fs n => fs = fs0 ∧ n ≤ k) (do
      check env s t
      let n ← readDoc env s env.empty
      writeDoc env t none n.1
      return false) (fun r fs _ => Body env t fs0 (Converted env s t fs0) r.isOk fs) := by
  refine Hoare.bind (check_spec env s t fs0 k) ?_ ?_ ?_
  · intro _
    intro fs fl ⟨h1, h2, _, h3⟩
    obtain ⟨_, tp, htp, hc⟩ := h3 rfl
    subst h1
    refine (Hoare.bind (P := fun f n => f = fs ∧ n ≤ k) (R := fun r f _ => Body env t fs (Converted env s t fs) r.isOk f) (readDoc_spec env s env.empty fs k) ?_ ?_ ?_) fs fl ⟨rfl, h2⟩
    · intro x f fl ⟨h4, h5, h6⟩
      obtain ⟨_, text, h7, h8⟩ := h6 x rfl
      have := write_body env t none x.1 fs k false tp htp hc henv (ht tp htp).1 (ht tp htp).2 f fl ⟨h4, h5⟩
      exact ⟨this.consent, fun h => ⟨text, x, h7, h8, this.good h⟩, this.locked, this.intact⟩
    · rintro e f n ⟨rfl, _⟩; exact Body.same env t _ _
    · rintro f n ⟨rfl, _⟩; exact Body.same env t _ _
  · rintro e f n ⟨rfl, _⟩; exact Body.same env t _ _
  · rintro f n ⟨rfl, _⟩; exact Body.same env t _ _

theorem update_body (env : Env ν) (s t : Doc) (fs0 : FS) (k : Nat) (henv : ∀ c n, OdfComplete (env.odfFiles c n) (env.comps c))
    (ht : ∀ p, t.filePath = some p → ¬ tempOf env t p ∧ ¬ tempOf env t (bak p)) :
    Hoare (fun fs n => fs = fs0 ∧ n ≤ k) (do
      check env s t
      let old ← readDoc env t env.empty
      let n ← readDoc env s old.1
      writeDoc env t (some old.1) n.1
      return n.2) (fun r fs _ => Body env t fs0 (Updated env s t fs0) r.isOk fs) := by
  refine Hoare.bind (check_spec env s t fs0 k) ?_ ?_ ?_
  · intro _
    intro fs fl ⟨h1, h2, _, h3⟩
    obtain ⟨_, tp, htp, hc⟩ := h3 rfl
    subst h1
    refine (Hoare.bind (P := fun f n => f = fs ∧ n ≤ k) (R := fun r f _ => Body env t fs (Updated env s t fs) r.isOk f) (readDoc_spec env t env.empty fs k) ?_ ?_ ?_) fs fl ⟨rfl, h2⟩
    · intro old f fl ⟨h4, h5, h6⟩
      obtain ⟨_, text0, h7, h8⟩ := h6 old rfl
      refine (Hoare.bind (P := fun f n => f = fs ∧ n ≤ k) (R := fun r f _ => Body env t fs (Updated env s t fs) r.isOk f) (readDoc_spec env s old.1 fs k) ?_ ?_ ?_) f fl ⟨h4, h5⟩
      · intro x f fl ⟨h4, h5, h6⟩
        obtain ⟨_, text, h9, h10⟩ := h6 x rfl
        have := write_body env t (some old.1) x.1 fs k x.2 tp htp hc henv (ht tp htp).1 (ht tp htp).2 f fl ⟨h4, h5⟩
        exact ⟨this.consent, fun h => ⟨text0, old, text, x, h7, h8, h9, h10, this.good h⟩, this.locked, this.intact⟩
      · rintro e f n ⟨rfl, _⟩; exact Body.same env t _ _
      · rintro f n ⟨rfl, _⟩; exact Body.same env t _ _
    · rintro e f n ⟨rfl, _⟩; exact Body.same env t _ _
    · rintro f n ⟨rfl, _⟩; exact Body.same env t _ _
  · rintro e f n ⟨rfl, _⟩; exact Body.same env t _ _
  · rintro f n ⟨rfl, _⟩; exact Body.same env t _ _

/-- The message of a success and that of a failure. -/
theorem infoHow_bang (m : Str) : infoHow ('!' :: m) = c!"FAIL: " ++ Str.strip m := rfl

theorem infoHow_written (m : Str) : infoHow (c!"File written: \"" ++ m ++ c!"\".") = c!"File written: \"" ++ m ++ c!"\"." := rfl

theorem conclude_spec (env : Env ν) (t : Doc) (body : Prog Bool) (fs0 : FS) (k : Nat) (G : FS → Prop)
    (h : Hoare (fun fs n => fs = fs0 ∧ n ≤ k) body (fun r fs _ => Body env t fs0 G r.isOk fs)) :
    Hoare (fun fs n => fs = fs0 ∧ n ≤ k) (conclude env t body) (fun r fs _ => (∃ b, Body env t fs0 G b fs) ∧ (∀ e, r ≠ .err e) ∧
      ∀ o, r = .ok o →
        (Body env t fs0 G true fs ∧ o.newFile = t.filePath ∧ o.how = c!"File written: \"" ++ env.norm (t.filePath.getD []) ++ c!"\".") ∨
        (o.newFile = none ∧ ∃ m, o.how = c!"FAIL: " ++ m)) := by
  unfold conclude
  refine Hoare.tryExcept (Q := fun r fs _ => (∃ b, Body env t fs0 G b fs) ∧ ∀ o, r = .ok o →
        (Body env t fs0 G true fs ∧ o.newFile = t.filePath ∧ o.how = c!"File written: \"" ++ env.norm (t.filePath.getD []) ++ c!"\".")) ?_ ?_ ?_ ?_
  · refine Hoare.bind h ?_ ?_ ?_
    · intro b
      refine Hoare.pure ?_
      intro fs n hB
      exact ⟨⟨_, hB⟩, fun o ho => by injection ho with ho; subst ho; exact ⟨hB, rfl, infoHow_written _⟩⟩
    · intro e fs n hB; exact ⟨⟨_, hB⟩, fun o ho => by cases ho⟩
    · intro fs n hB; exact ⟨⟨_, hB⟩, fun o ho => by cases ho⟩
  · intro e
    refine Hoare.pure ?_
    intro fs n hB
    exact ⟨hB.1, (by intro e h; cases h), fun o ho => Or.inr (by injection ho with ho; subst ho; exact ⟨rfl, _, infoHow_bang _⟩)⟩
  · intro a fs n hB
    exact ⟨hB.1, (by intro e h; cases h), fun o ho => Or.inl (hB.2 o ho)⟩
  · intro fs n hB
    exact ⟨hB.1, (by intro e h; cases h), fun o ho => by cases ho⟩

end Verif
