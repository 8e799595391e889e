/-
Only the questions that are asked matter; what the user interfaces make of a conversation.
-/
import Verif.Lemmas.Facade

namespace Verif
open Spec Prog Talk Path

variable {ν : Type}

theorem check_congr (env : Env ν) (a b : Str → Bool) (source target : Doc) (fs : FS) (fl : List Fault)
    (h : ∀ x, UiCall.ask x ∈ checkCalls env.norm source target fs → a x = b x) :
    talkCheck env a source target fs fl = talkCheck env b source target fs fl := by
  rw [talkCheck_eq, talkCheck_eq]
  congr 1
  unfold check
  unfold checkCalls at h
  cases hs : source.filePath with
  | none => rfl
  | some s =>
    dsimp only
    rw [prog_isfile, prog_isfile]
    cases h1 : (fs s).isSome with
    | false => rfl
    | true =>
      rw [if_neg (by decide), if_neg (by decide)]
      cases ht : target.filePath with
      | none => rfl
      | some t =>
        dsimp only
        rw [prog_isfile, prog_isfile]
        have ea : (env.asking a).confirm t = a (overwriteQuestion (env.norm t)) := rfl
        have eb : (env.asking b).confirm t = b (overwriteQuestion (env.norm t)) := rfl
        rw [ea, eb]
        cases h2 : (fs t).isSome with
        | false => rfl
        | true =>
          rw [hs, ht] at h
          dsimp only at h
          rw [h1, h2] at h
          rw [h (overwriteQuestion (env.norm t)) (by simp)]

theorem bind_congr {α β : Type} {p q : Talk α} (f : α → Talk β) {fs : FS} {fl : List Fault} (h : p fs fl = q fs fl) : (p >>= f) fs fl = (q >>= f) fs fl := by
  rw [talk_bind, talk_bind, h]

theorem conclude_congr (env : Env ν) (target : Doc) {p q : Talk Bool} {fs : FS} {fl : List Fault} (h : p fs fl = q fs fl) :
    talkConclude env target p fs fl = talkConclude env target q fs fl := by
  unfold talkConclude
  refine bind_congr _ ?_
  unfold attempt
  rw [h]

theorem say_then (w : UiCall) (Z : Talk (Option Str)) (fs : FS) (fl : List Fault) : (do say w; Z : Talk (Option Str)) fs fl = ((Z fs fl).1, [w] ++ (Z fs fl).2) := rfl

theorem say_congr (w : UiCall) {Y Z : Talk (Option Str)} {fs : FS} {fl : List Fault} (h : Y fs fl = Z fs fl) :
    (do say w; Y : Talk (Option Str)) fs fl = (do say w; Z : Talk (Option Str)) fs fl := by
  rw [say_then, say_then, h]

theorem conclude_calls (env : Env ν) (answer : Str → Bool) (source target : Doc) (body : Talk Bool) (body' : Prog Bool) (fs : FS) (fl : List Fault)
    (h : body fs fl = (body' fs fl, checkCalls env.norm source target fs)) : ∀ x ∈ checkCalls env.norm source target fs, x ∈ (talkConclude env target body fs fl).2 := by
  refine (talkConclude_eq env answer target body body' fs fl _ h ?_).2.2
  obtain ⟨q, hq, _⟩ := checkCalls_cases env.norm source target fs
  intro c hc
  rw [hq] at hc
  obtain ⟨x, _, rfl⟩ := List.mem_map.1 hc
  exact ⟨x, rfl⟩

/-- The answers to other questions than those that are asked do not matter. -/
theorem talkRun_congr (env : Env ν) (description : DocClass → Str) (a b : Str → Bool) (cfg : Config) (path : Str) (suffix : Option Str) (fs : FS) (fl : List Fault)
    (h : ∀ x, UiCall.ask x ∈ (talkRun env description a cfg path suffix fs fl).2 → a x = b x) :
    talkRun env description a cfg path suffix fs fl = talkRun env description b cfg path suffix fs fl := by
  unfold talkRun at h ⊢
  split
  · rename_i hf
    rw [if_pos hf] at h
    rcases hp : plan cfg env.contentXml env.norm fs path suffix with e | pl
    · rfl
    · rw [hp] at h
      cases pl with
      | refuse msg => rfl
      | «export» s t =>
        have h : ∀ x, UiCall.ask x ∈ (talkExport env description a s t fs fl).2 → a x = b x := h
        show talkExport env description a s t fs fl = talkExport env description b s t fs fl
        unfold talkExport at h ⊢
        rw [say_then] at h
        refine say_congr _ (conclude_congr env t (bind_congr _ (check_congr env a b s t fs fl fun x hx =>
          h x (List.mem_append_right _ (conclude_calls env a s t _ _ fs fl (exportBody_eq env a s t fs fl) _ hx)))))
      | update s t =>
        have h : ∀ x, UiCall.ask x ∈ (talkImport env description a s t fs fl).2 → a x = b x := h
        show talkImport env description a s t fs fl = talkImport env description b s t fs fl
        unfold talkImport at h ⊢
        rw [say_then] at h
        refine say_congr _ (conclude_congr env t (bind_congr _ (check_congr env a b s t fs fl fun x hx =>
          h x (List.mem_append_right _ (conclude_calls env a s t _ _ fs fl (importBody_eq env a s t fs fl) _ hx)))))
      | create s t =>
        have h : ∀ x, UiCall.ask x ∈ (talkCreate env description a none s t fs fl).2 → a x = b x := h
        show talkCreate env description a none s t fs fl = talkCreate env description b none s t fs fl
        unfold talkCreate at h ⊢
        rw [say_if] at h
        rw [say_if, say_if]
        split
        · rfl
        · rename_i hn
          rw [if_neg hn] at h
          rw [say_then] at h
          refine say_congr _ (conclude_congr env t (bind_congr _ (check_congr env a b s t fs fl fun x hx =>
            h x (List.mem_append_right _ (conclude_calls env a s t _ _ fs fl (exportBody_eq env a s t fs fl) _ hx)))))
  · rfl

/-! ### The user interfaces -/

theorem call_title (k : UiKind) (s : UiState) (c : UiCall) : (s.call k c).title = s.title := by
  cases c <;> cases k <;> simp only [UiState.call, UiState.setInfoWhat, UiState.setInfoHow, UiState.showWarning, UiState.ask] <;> (try split) <;> rfl

theorem call_shown (k : UiKind) (s : UiState) (c : UiCall) : (s.call k c).shown = s.shown ++ appears k s.title c := by
  cases c with
  | what m => cases k <;> simp [UiState.call, UiState.setInfoWhat, appears]
  | ask m => cases k <;> simp [UiState.call, UiState.ask, appears, consolePrompt]
  | warn m => cases k <;> simp [UiState.call, UiState.showWarning, appears]
  | how m =>
    by_cases hm : ∃ t, m = '!' :: t
    · obtain ⟨t, rfl⟩ := hm
      have e : Str.startsWith ('!' :: t) c!"!" = true := by simp [Str.startsWith]
      cases k <;> simp [UiState.call, UiState.setInfoHow, appears, e, unmarked]
    · have e : Str.startsWith m c!"!" = false := by
        cases m with
        | nil => rfl
        | cons x t =>
          have : x ≠ '!' := by rintro rfl; exact hm ⟨t, rfl⟩
          simp [Str.startsWith, List.isPrefixOf, this.symm]
      have e2 : appears k s.title (.how m) = match k with | .silent => [] | .console => [.out m] | .boxes => [.box .info s.title m] | .main => [] | .window => [] := by
        cases m with
        | nil => rfl
        | cons x t =>
          have : x ≠ '!' := by rintro rfl; exact hm ⟨t, rfl⟩
          unfold appears
          split
          all_goals first
            | (rename_i h; cases h; exact absurd rfl this)
            | (rename_i h; cases h; rfl)
            | (rename_i h; cases h; done)
            | (rename_i h _; cases h; exact absurd rfl this)
            | (rename_i h _; cases h; rfl)
            | (rename_i h _; cases h; done)
      rw [e2]
      cases k <;> simp [UiState.call, UiState.setInfoHow, e]

theorem calls_shown (k : UiKind) (s : UiState) (l : List UiCall) : (l.foldl (UiState.call k) s).title = s.title ∧ (l.foldl (UiState.call k) s).shown = s.shown ++ l.flatMap (appears k s.title) := by
  induction l generalizing s with
  | nil => simp
  | cons c l ih =>
    obtain ⟨h1, h2⟩ := ih (s.call k c)
    rw [call_title, call_shown] at *
    refine ⟨h1, ?_⟩
    rw [List.foldl_cons, h2, List.flatMap_cons, List.append_assoc]

theorem how_fail (k : UiKind) (s : UiState) (t : Str) : ResultShown k (s.call k (.how ('!' :: t))) true (Str.strip t) := by
  have e : Str.startsWith ('!' :: t) c!"!" = true := by simp [Str.startsWith]
  cases k <;> simp [ResultShown, UiState.call, UiState.setInfoHow, e, unmarked, resultText]

theorem how_success (k : UiKind) (s : UiState) (m : Str) (h : m.head? ≠ some '!') : ResultShown k (s.call k (.how m)) false m := by
  have e : Str.startsWith m c!"!" = false := by
    cases m with
    | nil => rfl
    | cons x t =>
      have : x ≠ '!' := by rintro rfl; exact h rfl
      simp [Str.startsWith, List.isPrefixOf, this.symm]
  cases k <;> simp [ResultShown, UiState.call, UiState.setInfoHow, e, resultText]

end Verif
