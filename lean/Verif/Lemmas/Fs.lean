/-
Program logic for `Prog`: what holds of the files at the end of a program, however it ends.
-/
import Verif.Py.Fs

namespace Verif

/-- The number of faults in a list. -/
def faultCount : List Fault → Nat
  | [] => 0
  | .none :: r => faultCount r
  | _ :: r => faultCount r + 1

/-- Whenever `p` is started with files and a number of faults to come that satisfy `P`, then its result,
the files and the number of faults still to come satisfy `Q`. -/
def Hoare {α : Type} (P : FS → Nat → Prop) (p : Prog α) (Q : Res α → FS → Nat → Prop) : Prop :=
  ∀ fs fl, P fs (faultCount fl) → Q (p fs fl).1 (p fs fl).2.1 (faultCount (p fs fl).2.2)

namespace Hoare
variable {α β : Type} {P : FS → Nat → Prop}

theorem pure {a : α} {Q : Res α → FS → Nat → Prop} (h : ∀ fs n, P fs n → Q (.ok a) fs n) :
    Hoare P (Pure.pure a : Prog α) Q := fun fs fl hp => h fs _ hp

theorem raise {e : Exc} {Q : Res α → FS → Nat → Prop} (h : ∀ fs n, P fs n → Q (.err e) fs n) :
    Hoare P (Prog.raise e : Prog α) Q := fun fs fl hp => h fs _ hp

theorem bind {p : Prog α} {f : α → Prog β} {Q : Res α → FS → Nat → Prop} {R : Res β → FS → Nat → Prop}
    (h1 : Hoare P p Q) (h2 : ∀ a, Hoare (Q (.ok a)) (f a) R) (h3 : ∀ e fs n, Q (.err e) fs n → R (.err e) fs n)
    (h4 : ∀ fs n, Q .crashed fs n → R .crashed fs n) : Hoare P (p >>= f) R := by
  intro fs fl hp
  have hq := h1 fs fl hp
  show R (Prog.bind p f fs fl).1 (Prog.bind p f fs fl).2.1 (faultCount (Prog.bind p f fs fl).2.2)
  unfold Prog.bind
  generalize p fs fl = x at hq
  obtain ⟨r, fs', fl'⟩ := x
  cases r with
  | ok a => exact h2 a fs' fl' hq
  | err e => exact h3 e _ _ hq
  | crashed => exact h4 _ _ hq

theorem tryExcept {p : Prog α} {h : Exc → Prog α} {Q R : Res α → FS → Nat → Prop}
    (h1 : Hoare P p Q) (h2 : ∀ e, Hoare (Q (.err e)) (h e) R) (h3 : ∀ a fs n, Q (.ok a) fs n → R (.ok a) fs n)
    (h4 : ∀ fs n, Q .crashed fs n → R .crashed fs n) : Hoare P (Prog.tryExcept p h) R := by
  intro fs fl hp
  have hq := h1 fs fl hp
  unfold Prog.tryExcept
  generalize p fs fl = x at hq
  obtain ⟨r, fs', fl'⟩ := x
  cases r with
  | ok a => exact h3 a _ _ hq
  | err e => exact h2 e fs' fl' hq
  | crashed => exact h4 _ _ hq

theorem mono {p : Prog α} {P' : FS → Nat → Prop} {Q Q' : Res α → FS → Nat → Prop} (h : Hoare P p Q)
    (hp : ∀ fs n, P' fs n → P fs n) (hq : ∀ r fs n, Q r fs n → Q' r fs n) : Hoare P' p Q' :=
  fun fs fl h' => hq _ _ _ (h fs fl (hp _ _ h'))

theorem lift {x : Except Exc α} {Q : Res α → FS → Nat → Prop}
    (h1 : ∀ a, x = .ok a → ∀ fs n, P fs n → Q (.ok a) fs n)
    (h2 : ∀ e, x = .error e → ∀ fs n, P fs n → Q (.err e) fs n) : Hoare P (Prog.lift x) Q := by
  cases x with
  | ok a => exact fun fs fl hp => h1 a rfl fs _ hp
  | error e => exact fun fs fl hp => h2 e rfl fs _ hp

theorem isfile {p : Str} {Q : Res Bool → FS → Nat → Prop} (h : ∀ fs n, P fs n → Q (.ok (fs p).isSome) fs n) :
    Hoare P (Prog.isfile p) Q := fun fs fl hp => h fs _ hp

theorem step {eff : FS → Option (α × FS)} {Q : Res α → FS → Nat → Prop}
    (h1 : ∀ fs n, P fs n → ∀ a fs', eff fs = some (a, fs') → Q (.ok a) fs' n)
    (h2 : ∀ fs n, P fs n → eff fs = none → Q (.err .osError) fs n)
    (h3 : ∀ fs n, P fs (n + 1) → Q (.err .osError) fs n ∧ Q .crashed fs n) : Hoare P (Prog.step eff) Q := by
  intro fs fl hp
  match fl, hp with
  | .fail _ :: fl', hp => exact (h3 fs _ hp).1
  | .crash _ :: fl', hp => exact (h3 fs _ hp).2
  | .none :: fl', hp =>
    unfold Prog.step
    cases he : eff fs with
    | none => simp only [he]; exact h2 fs _ hp he
    | some x => simp only [he]; exact h1 fs _ hp x.1 x.2 he
  | [], hp =>
    unfold Prog.step
    cases he : eff fs with
    | none => simp only [he]; exact h2 fs _ hp he
    | some x => simp only [he]; exact h1 fs _ hp x.1 x.2 he

theorem append {p data : Str} {Q : Res Unit → FS → Nat → Prop}
    (h1 : ∀ fs n, P fs n → Q (.ok ()) (fs.upd p (some ((fs p).getD [] ++ data))) n)
    (h2 : ∀ fs n k, P fs (n + 1) → Q (.err .osError) (fs.upd p (some ((fs p).getD [] ++ data.take k))) n ∧
      Q .crashed (fs.upd p (some ((fs p).getD [] ++ data.take k))) n) : Hoare P (Prog.append p data) Q := by
  intro fs fl hp
  match fl, hp with
  | .fail k :: fl', hp => exact (h2 fs _ k hp).1
  | .crash k :: fl', hp => exact (h2 fs _ k hp).2
  | .none :: fl', hp => exact h1 fs _ hp
  | [], hp => exact h1 fs _ hp

theorem ite {c : Bool} {p q : Prog α} {Q : Res α → FS → Nat → Prop} (h1 : c = true → Hoare P p Q) (h2 : c = false → Hoare P q Q) :
    Hoare P (if c = true then p else q) Q := by
  cases c with
  | true => exact h1 rfl
  | false => exact h2 rfl

end Hoare

theorem Prog.bind_assoc {α β γ : Type} (p : Prog α) (f : α → Prog β) (g : β → Prog γ) :
    p >>= f >>= g = p >>= fun a => f a >>= g := by
  funext fs fl
  show Prog.bind (Prog.bind p f) g fs fl = Prog.bind p (fun a => Prog.bind (f a) g) fs fl
  unfold Prog.bind
  generalize p fs fl = x
  obtain ⟨r, fs', fl'⟩ := x
  cases r <;> rfl

theorem FS.upd_self (fs : FS) (p : Str) (c : Option Str) : fs.upd p c p = c := if_pos rfl

theorem FS.upd_ne (fs : FS) {p q : Str} (c : Option Str) (h : q ≠ p) : fs.upd p c q = fs q := if_neg h

end Verif
