/-
The conversation of a converter is a run of the converter.
-/
import Verif.Spec.Facade
import Verif.Lemmas.Save

namespace Verif
open Spec Prog Talk Path

variable {ν : Type}

/-- The environment in which the answers are those of the user interface. -/
def Env.asking (env : Env ν) (answer : Str → Bool) : Env ν := { env with confirm := fun p => answer (overwriteQuestion (env.norm p)) }

theorem talk_bind {α β : Type} (p : Talk α) (f : α → Talk β) (fs : FS) (fl : List Fault) : (p >>= f) fs fl =
    match p fs fl with
    | ((.ok a, fs', fl'), l) => ((f a fs' fl').1, l ++ (f a fs' fl').2)
    | ((.err e, fs', fl'), l) => ((.err e, fs', fl'), l)
    | ((.crashed, fs', fl'), l) => ((.crashed, fs', fl'), l) := rfl

theorem talk_pure {α : Type} (a : α) (fs : FS) (fl : List Fault) : (pure a : Talk α) fs fl = ((.ok a, fs, fl), []) := rfl

/-- The questions of a check. -/
def checkCalls (norm : Str → Str) (source target : Doc) (fs : FS) : List UiCall :=
  match source.filePath, target.filePath with
  | some s, some t => if (fs s).isSome && (fs t).isSome then [.ask (overwriteQuestion (norm t))] else []
  | _, _ => []

theorem talk_isfile {β : Type} (t : Str) (f : Bool → Talk β) (fs : FS) (fl : List Fault) : (io (isfile t) >>= f) fs fl = f (fs t).isSome fs fl := rfl

theorem prog_isfile {β : Type} (t : Str) (f : Bool → Prog β) (fs : FS) (fl : List Fault) : (isfile t >>= f) fs fl = f (fs t).isSome fs fl := rfl

theorem talkCheck_eq (env : Env ν) (answer : Str → Bool) (source target : Doc) (fs : FS) (fl : List Fault) :
    talkCheck env answer source target fs fl = (check (env.asking answer) source target fs fl, checkCalls env.norm source target fs) := by
  unfold talkCheck check checkCalls
  cases hs : source.filePath with
  | none => rfl
  | some s =>
    dsimp only
    rw [talk_isfile, prog_isfile]
    cases h1 : (fs s).isSome with
    | false =>
      cases target.filePath with
      | none => rfl
      | some t => dsimp only; rw [h1]; rfl
    | true =>
      rw [if_neg (by decide), if_neg (by decide)]
      cases ht : target.filePath with
      | none => rfl
      | some t =>
        dsimp only
        rw [talk_isfile, prog_isfile]
        have e3 : (env.asking answer).confirm t = answer (overwriteQuestion (env.norm t)) := rfl
        rw [e3]
        cases h2 : (fs t).isSome with
        | false => rw [h1]; rfl
        | true =>
          rw [h1, if_pos rfl]
          unfold askYesNo
          cases ha : answer (overwriteQuestion (env.norm t)) <;> rfl

/-- The calls of a conversion of the three kinds. -/
theorem talkConclude_eq (env : Env ν) (answer : Str → Bool) (target : Doc) (body : Talk Bool) (body' : Prog Bool) (fs : FS) (fl : List Fault) (q : List UiCall)
    (h : body fs fl = (body' fs fl, q)) (hq : ∀ c ∈ q, ∃ x, c = .ask x) :
    (talkConclude env target body fs fl).1 = ((conclude (env.asking answer) target body' fs fl).1 |> Res.onOk (·.newFile), (conclude (env.asking answer) target body' fs fl).2) ∧
    (∀ o, (conclude (env.asking answer) target body' fs fl).1 = .ok o →
      ∃ m, (talkConclude env target body fs fl).2 = q ++ (if o.warned then [.warn c!"New scenes created during conversion."] else []) ++ [.how m] ∧
        ((∃ t, m = '!' :: t ∧ o.newFile = none ∧ o.how = c!"FAIL: " ++ Str.strip t ∧ o.warned = false) ∨
          (m = c!"File written: \"" ++ env.norm (target.filePath.getD []) ++ c!"\"." ∧ o.newFile = target.filePath ∧ o.how = m))) ∧
    (∀ x ∈ q, x ∈ (talkConclude env target body fs fl).2) := by
  unfold talkConclude conclude
  rw [talk_bind]
  unfold attempt tryExcept
  rw [h]
  simp only [Bind.bind, Prog.bind]
  rcases hb : body' fs fl with ⟨r, fs', fl'⟩
  cases r with
  | ok split =>
    cases split with
    | false =>
      refine ⟨rfl, ?_, ?_⟩
      · intro o ho
        cases ho
        exact ⟨_, (by simp; rfl), .inr ⟨rfl, rfl, rfl⟩⟩
      · intro x hx; exact List.mem_append_left _ hx
    | true =>
      refine ⟨rfl, ?_, ?_⟩
      · intro o ho
        cases ho
        exact ⟨_, (by simp; rfl), .inr ⟨rfl, rfl, rfl⟩⟩
      · intro x hx; exact List.mem_append_left _ hx
  | err e =>
    refine ⟨rfl, ?_, ?_⟩
    · intro o ho
      cases ho
      exact ⟨_, (by simp; rfl), .inl ⟨_, rfl, rfl, rfl, rfl⟩⟩
    · intro x hx; exact List.mem_append_left _ hx
  | crashed =>
    refine ⟨rfl, ?_, ?_⟩
    · intro o ho; cases ho
    · intro x hx; exact hx

theorem io_bind {α β : Type} (p : Prog α) (q : α → Prog β) : (io p >>= fun a => io (q a)) = io (p >>= q) := by
  funext fs fl
  rw [talk_bind]
  unfold io
  simp only [Bind.bind, Prog.bind]
  rcases p fs fl with ⟨r, fs', fl'⟩
  cases r <;> rfl

theorem talk_then {α β : Type} (p : Talk α) (p' : Prog α) (f : α → Prog β) (fs : FS) (fl : List Fault) (l : List UiCall) (h : p fs fl = (p' fs fl, l)) :
    (p >>= fun a => io (f a)) fs fl = ((p' >>= f) fs fl, l) := by
  rw [talk_bind, h]
  simp only [Bind.bind, Prog.bind]
  rcases p' fs fl with ⟨r, fs', fl'⟩
  cases r with
  | ok a => simp [io]
  | err e => rfl
  | crashed => rfl

theorem exportBody_eq (env : Env ν) (answer : Str → Bool) (source target : Doc) (fs : FS) (fl : List Fault) :
    (do
      talkCheck env answer source target
      let n ← io (readDoc env source env.empty)
      io (writeDoc env target none n.1)
      return false : Talk Bool) fs fl =
    ((do
      check (env.asking answer) source target
      let n ← readDoc (env.asking answer) source (env.asking answer).empty
      writeDoc (env.asking answer) target none n.1
      return false : Prog Bool) fs fl, checkCalls env.norm source target fs) := by
  have e : (fun _ : Unit => (do
      let n ← io (readDoc env source env.empty)
      io (writeDoc env target none n.1)
      return false : Talk Bool)) = fun _ => io (do
      let n ← readDoc env source env.empty
      writeDoc env target none n.1
      return false) := by
    funext _
    rw [← io_bind]
    congr 1
    funext n
    rw [← io_bind]
    rfl
  show (talkCheck env answer source target >>= fun _ : Unit => (do
      let n ← io (readDoc env source env.empty)
      io (writeDoc env target none n.1)
      return false : Talk Bool)) fs fl = _
  rw [e]
  exact talk_then _ _ _ _ _ _ (talkCheck_eq env answer source target fs fl)

theorem importBody_eq (env : Env ν) (answer : Str → Bool) (source target : Doc) (fs : FS) (fl : List Fault) :
    (do
      talkCheck env answer source target
      let old ← io (readDoc env target env.empty)
      let n ← io (readDoc env source old.1)
      io (writeDoc env target (some old.1) n.1)
      return n.2 : Talk Bool) fs fl =
    ((do
      check (env.asking answer) source target
      let old ← readDoc (env.asking answer) target (env.asking answer).empty
      let n ← readDoc (env.asking answer) source old.1
      writeDoc (env.asking answer) target (some old.1) n.1
      return n.2 : Prog Bool) fs fl, checkCalls env.norm source target fs) := by
  have e : (fun _ : Unit => (do
      let old ← io (readDoc env target env.empty)
      let n ← io (readDoc env source old.1)
      io (writeDoc env target (some old.1) n.1)
      return n.2 : Talk Bool)) = fun _ => io (do
      let old ← readDoc env target env.empty
      let n ← readDoc env source old.1
      writeDoc env target (some old.1) n.1
      return n.2) := by
    funext _
    rw [← io_bind]
    congr 1
    funext old
    rw [← io_bind]
    congr 1
    funext n
    rw [← io_bind]
    rfl
  show (talkCheck env answer source target >>= fun _ : Unit => (do
      let old ← io (readDoc env target env.empty)
      let n ← io (readDoc env source old.1)
      io (writeDoc env target (some old.1) n.1)
      return n.2 : Talk Bool)) fs fl = _
  rw [e]
  exact talk_then _ _ _ _ _ _ (talkCheck_eq env answer source target fs fl)

theorem checkCalls_cases (norm : Str → Str) (source target : Doc) (fs : FS) :
    ∃ q : Option Str, checkCalls norm source target fs = q.toList.map .ask ∧ ∀ x, q = some x → ∃ p, target.filePath = some p ∧ (fs p).isSome = true ∧ x = overwriteQuestion (norm p) := by
  unfold checkCalls
  cases source.filePath with
  | none => exact ⟨none, rfl, by intro x h; cases h⟩
  | some s =>
    cases target.filePath with
    | none => exact ⟨none, rfl, by intro x h; cases h⟩
    | some t =>
      dsimp only
      split
      · rename_i h
        rw [Bool.and_eq_true] at h
        exact ⟨some _, rfl, by intro x hx; cases hx; exact ⟨t, rfl, h.2, rfl⟩⟩
      · exact ⟨none, rfl, by intro x h; cases h⟩

/-- What a conversation that comes to its end is. -/
structure Conversation (norm : Str → Str) (fs : FS) (o : Outcome) (calls : List UiCall) : Prop where
  shape : ∃ what question m, calls = dialog what question o.warned m ∧
    (∀ x, question = some x → ∃ p, (fs p).isSome = true ∧ x = overwriteQuestion (norm p)) ∧
    ((∃ t, m = '!' :: t ∧ o.newFile = none ∧ o.how = c!"FAIL: " ++ Str.strip t ∧ o.warned = false) ∨
      (∃ p, m = c!"File written: \"" ++ norm (p.getD []) ++ c!"\"." ∧ o.newFile = p ∧ o.how = m))

/-- The converter behaves as `run`. -/
structure Agree (norm : Str → Str) (fs : FS) (r : (Res (Option Str) × FS × List Fault) × List UiCall) (r' : Res Outcome × FS × List Fault) : Prop where
  result : r.1 = (Res.onOk (·.newFile) r'.1, r'.2)
  calls : ∀ o, r'.1 = .ok o → Conversation norm fs o r.2

theorem conclude_agree (env : Env ν) (answer : Str → Bool) (source target : Doc) (body : Talk Bool) (body' : Prog Bool) (what : Str) (fs : FS) (fl : List Fault)
    (h : body fs fl = (body' fs fl, checkCalls env.norm source target fs)) :
    Agree env.norm fs ((do say (.what what); talkConclude env target body : Talk (Option Str)) fs fl) (conclude (env.asking answer) target body' fs fl) := by
  obtain ⟨q, hq, hq2⟩ := checkCalls_cases env.norm source target fs
  have hask : ∀ c ∈ checkCalls env.norm source target fs, ∃ x, c = .ask x := by
    intro c hc
    rw [hq] at hc
    obtain ⟨x, _, rfl⟩ := List.mem_map.1 hc
    exact ⟨x, rfl⟩
  obtain ⟨h1, h2, _⟩ := talkConclude_eq env answer target body body' fs fl _ h hask
  have e : (do say (.what what); talkConclude env target body : Talk (Option Str)) fs fl = ((talkConclude env target body fs fl).1, [.what what] ++ (talkConclude env target body fs fl).2) := rfl
  rw [e]
  refine ⟨h1, ?_⟩
  intro o ho
  obtain ⟨m, hm, hm2⟩ := h2 o ho
  refine ⟨some what, q, m, ?_, ?_, ?_⟩
  · rw [hm, hq]
    unfold dialog
    simp
  · intro x hx
    obtain ⟨p, _, hp2, hp3⟩ := hq2 x hx
    exact ⟨p, hp2, hp3⟩
  · rcases hm2 with hm2 | ⟨g1, g2, g3⟩
    · exact .inl hm2
    · exact .inr ⟨_, g1, g2, g3⟩

theorem say_if (p : Str) (X Y : Talk (Option Str)) (w : UiCall) (fs : FS) (fl : List Fault) : (do say w; if ← io (isfile p) then X else Y : Talk (Option Str)) fs fl =
    if (fs p).isSome then (do say w; X : Talk (Option Str)) fs fl else (do say w; Y : Talk (Option Str)) fs fl := by
  have e : ∀ Z : Talk (Option Str), (do say w; Z : Talk (Option Str)) fs fl = ((Z fs fl).1, [w] ++ (Z fs fl).2) := fun _ => rfl
  rw [e, e, e, talk_isfile]
  split <;> rfl

/-- **The conversation is a run.** -/
theorem talkRun_agree (env : Env ν) (description : DocClass → Str) (answer : Str → Bool) (cfg : Config) (path : Str) (suffix : Option Str) (fs : FS) (fl : List Fault) :
    Agree env.norm fs (talkRun env description answer cfg path suffix fs fl) (run (env.asking answer) cfg path suffix fs fl) := by
  have plain : ∀ t, Agree env.norm fs ((.ok none, fs, fl), [.how ('!' :: t)]) (.ok { newFile := none, how := infoHow ('!' :: t) }, fs, fl) := by
    intro t
    refine ⟨rfl, fun o ho => ?_⟩
    cases ho
    exact ⟨none, none, _, rfl, (by intro x hx; cases hx), .inl ⟨t, rfl, rfl, rfl, rfl⟩⟩
  unfold talkRun run
  split
  · show Agree env.norm fs (match plan cfg env.contentXml env.norm fs path suffix with | .error e => _ | .ok (.refuse msg) => _ | .ok (.export s t) => _ | .ok (.update s t) => _ | .ok (.create s t) => _)
      (match plan cfg env.contentXml env.norm fs path suffix with | .error e => _ | .ok (.refuse msg) => _ | .ok (.export s t) => _ | .ok (.update s t) => _ | .ok (.create s t) => _)
    rcases plan cfg env.contentXml env.norm fs path suffix with e | pl
    · exact ⟨rfl, fun o ho => by cases ho⟩
    · cases pl with
      | refuse msg => exact plain msg
      | «export» s t => exact conclude_agree env answer s t _ _ _ fs fl (exportBody_eq env answer s t fs fl)
      | update s t => exact conclude_agree env answer s t _ _ _ fs fl (importBody_eq env answer s t fs fl)
      | create s t =>
        show Agree env.norm fs (talkCreate env description answer none s t fs fl) (createYw7 (env.asking answer) none s t fs fl)
        unfold talkCreate createYw7
        rw [prog_isfile]
        cases h : (fs (t.filePath.getD [])).isSome with
        | true =>
          rw [say_if _ _ _ _ _ _, if_pos h]
          refine ⟨rfl, ?_⟩
          intro o ho
          cases ho
          exact ⟨some (c!"Create a yWriter project file from " ++ description s.cls ++ c!"\nNew project: \"" ++ env.norm (t.filePath.getD []) ++ c!"\""), none, c!"!File already exists: \"" ++ env.norm (t.filePath.getD []) ++ c!"\".", rfl, (by intro x hx; cases hx), .inl ⟨_, rfl, rfl, rfl, rfl⟩⟩
        | false =>
          rw [say_if _ _ _ _ _ _, if_neg (by rw [h]; decide)]
          exact conclude_agree env answer s t _ _ _ fs fl (exportBody_eq env answer s t fs fl)
  · exact plain _

end Verif
