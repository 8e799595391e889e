/-
C69: every user interface tells the user the truth about a conversion.
-/
import Verif.Lemmas.Facade2
import Verif.Props.C26_C28_Converter

namespace Verif
open Spec Prog Talk Path

variable {ν : Type}

/-- The result is shown by the last call. -/
theorem dialog_last (k : UiKind) (s : UiState) (what question : Option Str) (w : Bool) (m : Str) :
    ∃ s1 : UiState, (dialog what question w m).foldl (UiState.call k) s = s1.call k (.how m) := by
  unfold dialog
  rw [List.foldl_append]
  exact ⟨_, rfl⟩

/-- **The user interface only matters for the answers**: with every user interface, a conversion does to the files, and ends, as the converter of C25 to
C29, C40, C42 and C67 does, when asked for permission as this user interface answers. -/
theorem C69_same_run (env : Env ν) (description : DocClass → Str) (cfg : Config) (k : UiKind) (user : User) (s : UiState) (path : Str) (suffix : Option Str) (fs : FS) (faults : List Fault) :
    (converse env description cfg k user s path suffix fs faults).1 =
      (Res.onOk (·.newFile) (run { env with confirm := fun p => k.answer user (c!"Overwrite existing file \"" ++ env.norm p ++ c!"\"?") } cfg path suffix fs faults).1,
        (run { env with confirm := fun p => k.answer user (c!"Overwrite existing file \"" ++ env.norm p ++ c!"\"?") } cfg path suffix fs faults).2) :=
  (talkRun_agree env description (k.answer user) cfg path suffix fs faults).result

theorem onOk_ok {r : Res Outcome} {nf : Option Str} (h : Res.onOk (·.newFile) r = .ok nf) : ∃ o, r = .ok o ∧ o.newFile = nf := by
  cases r with
  | ok o => exact ⟨o, rfl, by cases h; rfl⟩
  | err e => cases h
  | crashed => cases h

/-- **The user learns the truth**: after a conversion with any user interface, whatever it has shown before, either the file named by `newFile` is the
complete result, and success is shown; or `newFile` is `None`, and a failure is shown. -/
theorem C69_reported (env : Env ν) (description : DocClass → Str) (cfg : Config) (hcfg : IsConverter cfg) (k : UiKind) (user : User) (s : UiState) (path : Str) (suffix : Option Str)
    (fs : FS) (faults : List Fault) (h : Setting env path) (newFile : Option Str) (fs' : FS) (faults' : List Fault) (s' : UiState)
    (hr : converse env description cfg k user s path suffix fs faults = ((.ok newFile, fs', faults'), s')) :
    (∃ d t p, d.filePath = some (slashes path) ∧ t.filePath = some p ∧ newFile = some p ∧ ResultShown k s' false (c!"File written: \"" ++ env.norm p ++ c!"\".") ∧
      (Converted env d t fs fs' ∨ Updated env d t fs fs')) ∨
    (newFile = none ∧ ∃ text, ResultShown k s' true text) := by
  have ha := talkRun_agree env description (k.answer user) cfg path suffix fs faults
  have e1 : (talkRun env description (k.answer user) cfg path suffix fs faults).1 = (.ok newFile, fs', faults') := congrArg Prod.fst hr
  have e2 : (talkRun env description (k.answer user) cfg path suffix fs faults).2.foldl (UiState.call k) s = s' := congrArg Prod.snd hr
  have e3 := e1.symm.trans ha.result
  obtain ⟨o, ho, hnf⟩ := onOk_ok (congrArg Prod.fst e3).symm
  have hfs : (run (env.asking (k.answer user)) cfg path suffix fs faults).2.1 = fs' := (congrArg (fun x => x.2.1) e3).symm
  obtain ⟨what, question, m, hc, _, hm⟩ := (ha.calls o ho).shape
  rw [hc] at e2
  obtain ⟨s1, hs1⟩ := dialog_last k s what question o.warned m
  rw [hs1] at e2
  have hset : Setting (env.asking (k.answer user)) path := ⟨h.odf, h.dir⟩
  rcases C28_reported (env.asking (k.answer user)) cfg hcfg path suffix fs faults hset o ho with ⟨d, t, p, h1, h2, h3, h4, h5⟩ | ⟨h1, m', h2⟩
  · have h4 : o.how = c!"File written: \"" ++ env.norm p ++ c!"\"." := h4
    refine .inl ⟨d, t, p, h1, h2, hnf ▸ h3, ?_, ?_⟩
    · rcases hm with ⟨x, _, hx, _⟩ | ⟨p', g1, g2, g3⟩
      · rw [hx] at h3; cases h3
      · rw [← e2, show m = c!"File written: \"" ++ env.norm p ++ c!"\"." from g3.symm.trans h4]
        exact how_success k s1 _ (by show some 'F' ≠ some '!'; decide)
    · rw [hfs] at h5
      exact h5
  · refine .inr ⟨hnf ▸ h1, ?_⟩
    rcases hm with ⟨x, hx, _⟩ | ⟨p', g1, g2, g3⟩
    · rw [← e2, hx]
      exact ⟨_, how_fail k s1 x⟩
    · rw [g3, g1] at h2
      cases h2

/-- Failure and success are never shown at the same time. -/
theorem C69_unambiguous (k : UiKind) (s : UiState) (n m : Str) (h1 : ResultShown k s false (c!"File written: \"" ++ n ++ c!"\".")) (h2 : ResultShown k s true m) : False := by
  cases k with
  | silent =>
    have := h1.1.symm.trans h2.1
    cases this
  | console =>
    have := h1.2.symm.trans h2.2
    cases this
  | boxes =>
    have := h1.symm.trans h2
    cases this
  | window =>
    have := h1.2.1.symm.trans h2.2.1
    cases this
  | main =>
    have := h1.2.1.symm.trans h2.2.1
    cases this

/-- **What appears during a conversation**: at most one announcement, then at most one question, which names an existing file, then perhaps the warning
about new scenes, and one result at the end. -/
theorem C69_dialog (env : Env ν) (description : DocClass → Str) (cfg : Config) (hcfg : IsConverter cfg) (k : UiKind) (user : User) (s : UiState) (path : Str) (suffix : Option Str)
    (fs : FS) (faults : List Fault) (h : Setting env path) (newFile : Option Str) (fs' : FS) (faults' : List Fault) (s' : UiState)
    (hr : converse env description cfg k user s path suffix fs faults = ((.ok newFile, fs', faults'), s')) :
    ∃ what question warning result, s'.shown = s.shown ++ (dialog what question warning result).flatMap (appears k s.title) ∧
      (∀ x, question = some x → ∃ p, fs p ≠ none ∧ x = c!"Overwrite existing file \"" ++ env.norm p ++ c!"\"?") ∧
      (warning = true → newFile ≠ none) := by
  have ha := talkRun_agree env description (k.answer user) cfg path suffix fs faults
  have e1 : (talkRun env description (k.answer user) cfg path suffix fs faults).1 = (.ok newFile, fs', faults') := congrArg Prod.fst hr
  have e2 : (talkRun env description (k.answer user) cfg path suffix fs faults).2.foldl (UiState.call k) s = s' := congrArg Prod.snd hr
  have e3 := e1.symm.trans ha.result
  obtain ⟨o, ho, hnf⟩ := onOk_ok (congrArg Prod.fst e3).symm
  obtain ⟨what, question, m, hc, hq, hm⟩ := (ha.calls o ho).shape
  refine ⟨what, question, o.warned, m, ?_, ?_, ?_⟩
  · rw [← e2, (calls_shown k s _).2, hc]
  · intro x hx
    obtain ⟨p, h1, h2⟩ := hq x hx
    refine ⟨p, ?_, h2⟩
    intro h
    rw [h] at h1
    cases h1
  · intro hw
    rcases hm with ⟨_, _, _, _, h0⟩ | ⟨p, h1, h2, h3⟩
    · rw [hw] at h0; cases h0
    · rcases C28_reported (env.asking (k.answer user)) cfg hcfg path suffix fs faults ⟨h.odf, h.dir⟩ o ho with ⟨_, _, p', _, _, h5, _⟩ | ⟨_, m', h5⟩
      · rw [← hnf, h5]; simp
      · rw [h3, h1] at h5; cases h5

theorem lower_y (t : Str) : (Str.lower t == c!"y") = true ↔ t = c!"y" ∨ t = c!"Y" := by
  rw [beq_iff_eq]
  constructor
  · intro h
    unfold Str.lower at h
    cases t with
    | nil => cases h
    | cons c r =>
      cases r with
      | cons d r => exact absurd (congrArg List.length h) (by simp)
      | nil =>
        injection h with h _
        unfold Str.lowerChar at h
        split at h
        · rename_i hc
          right
          have h1 : c.toNat ≤ 90 := hc.2
          have h2 : 65 ≤ c.toNat := hc.1
          have key : ∀ n, n ≤ 90 → Char.ofNat (n + 32) = 'y' → n = 89 := by
            intro n hn
            have : ∀ n < 91, Char.ofNat (n + 32) = 'y' → n = 89 := by decide +kernel
            exact this n (by omega)
          have h3 := key c.toNat h1 h
          have : c = Char.ofNat c.toNat := (Char.ofNat_toNat c).symm
          rw [this, h3]
        · left; rw [h]
  · rintro (rfl | rfl) <;> rfl

/-- What the answer of a user interface means. -/
theorem C69_yes (k : UiKind) (user : User) (question : Str) : k.answer user question = true ↔ Agrees k user question := by
  cases k with
  | silent => exact ⟨fun _ => trivial, fun _ => rfl⟩
  | console => exact lower_y _
  | boxes => exact Iff.rfl
  | window => exact Iff.rfl
  | main => exact Iff.rfl

/-- **Nothing is overwritten without being asked for**: if an existing file is changed by a conversion, however it ends, then the user has been asked about this file (or about
the file whose backup it is), and has agreed. The silent user interface, which cannot ask, is taken to agree. -/
theorem C69_consent (env : Env ν) (description : DocClass → Str) (cfg : Config) (hcfg : IsConverter cfg) (k : UiKind) (user : User) (path : Str) (suffix : Option Str)
    (fs : FS) (faults : List Fault) (h : Setting env path) (q : Str) (hq : ¬ InDir env.dir q) (hex : fs q ≠ none)
    (hch : (talkRun env description (k.answer user) cfg path suffix fs faults).1.2.1 q ≠ fs q) :
    ∃ p, (p = q ∨ q = p ++ c!".bak") ∧ fs p ≠ none ∧ .ask (c!"Overwrite existing file \"" ++ env.norm p ++ c!"\"?") ∈ (talkRun env description (k.answer user) cfg path suffix fs faults).2 ∧
      Agrees k user (c!"Overwrite existing file \"" ++ env.norm p ++ c!"\"?") := by
  let l := (talkRun env description (k.answer user) cfg path suffix fs faults).2
  let b : Str → Bool := fun x => k.answer user x && decide (UiCall.ask x ∈ l)
  have e := talkRun_congr env description (k.answer user) b cfg path suffix fs faults (by
    intro x hx
    show k.answer user x = (k.answer user x && decide (UiCall.ask x ∈ l))
    rw [decide_eq_true hx, Bool.and_true])
  rw [e, (talkRun_agree env description b cfg path suffix fs faults).result] at hch
  have yes : ∀ p, (env.asking b).confirm p = true → UiCall.ask (overwriteQuestion (env.norm p)) ∈ l ∧ Agrees k user (overwriteQuestion (env.norm p)) := by
    intro p hp
    have hp : (k.answer user (overwriteQuestion (env.norm p)) && decide (UiCall.ask (overwriteQuestion (env.norm p)) ∈ l)) = true := hp
    rw [Bool.and_eq_true, decide_eq_true_eq] at hp
    exact ⟨hp.2, (C69_yes k user _).1 hp.1⟩
  rcases C26_consent (env.asking b) cfg hcfg path suffix fs faults ⟨h.odf, h.dir⟩ q hq hex hch with h1 | ⟨p, h1, h2, h3⟩
  · exact ⟨q, .inl rfl, hex, (yes q h1).1, (yes q h1).2⟩
  · exact ⟨p, .inr h1, h2, (yes p h3).1, (yes p h3).2⟩

/-! ### Examples -/

/-- A user who answers "Y" and clicks on "No". -/
def exUser : User := ⟨fun _ => c!"Y", fun _ => false⟩

/-- An export over an existing document, at the console, with message boxes, and in the silent mode. -/
example :
    let fs : FS := fun q => if q = c!"/home/a.yw7" then some c!"text" else if q = c!"/home/a_charlist.ods" then some c!"old" else none
    let r := fun k => converse (demoEnv true) (fun _ => c!"D") yw7Converter k exUser (.init k c!"T") c!"/home/a.yw7" (some c!"_charlist") fs []
    (r .console).2.shown = [.out c!"T", .out c!"Input: D \"/home/a.yw7\"\nOutput: D \"/home/a_charlist.ods\"", .out c!"WARNING: Overwrite existing file \"/home/a_charlist.ods\"? (y/n)",
      .out c!"File written: \"/home/a_charlist.ods\"."] ∧ (r .console).1.1 = .ok (some c!"/home/a_charlist.ods") ∧
    (r .boxes).2.shown = [.box .question c!"T" c!"Overwrite existing file \"/home/a_charlist.ods\"?", .box .error c!"T" c!"error"] ∧ (r .boxes).1.1 = .ok none ∧
      (r .boxes).1.2.1 c!"/home/a_charlist.ods" = some c!"old" ∧
    (r .window).2.color = .red ∧ (r .window).2.processInfo = c!"error" ∧
    (r .silent).2.shown = [] ∧ (r .silent).2.infoHowText = c!"File written: \"/home/a_charlist.ods\"." ∧ (r .silent).1.2.1 c!"/home/a_charlist.ods.bak" = some c!"old" := by
  refine ⟨rfl, rfl, rfl, rfl, rfl, rfl, rfl, rfl, rfl, rfl⟩

/-! ### Limits -/

/-- The buffers are not reliable: message boxes do not store the result, and the console does not store the announcement. -/
theorem C69_buffers (s : UiState) (m : Str) : (s.call .boxes (.how m)).infoHowText = s.infoHowText ∧ (s.call .console (.what m)).infoWhatText = s.infoWhatText := by
  refine ⟨?_, rfl⟩
  simp only [UiState.call, UiState.setInfoHow]
  split <;> rfl

/-- Message boxes and the main window do not show what the converter is going to do. -/
theorem C69_announcement (k : UiKind) (hk : k = .boxes ∨ k = .main ∨ k = .silent) (s : UiState) (m : Str) :
    (s.call k (.what m)).shown = s.shown ∧ (s.call k (.what m)).appInfo = s.appInfo ∧ (s.call k (.what m)).processInfo = s.processInfo := by
  rcases hk with rfl | rfl | rfl <;> exact ⟨rfl, rfl, rfl⟩

/-- In the silent mode, a warning is lost. -/
theorem C69_silent_warning (s : UiState) (m : Str) : s.call .silent (.warn m) = s := rfl

end Verif
