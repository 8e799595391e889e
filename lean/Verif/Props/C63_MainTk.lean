/-
C63: the main window always shows the project that is open.
-/
import Verif.Spec.MainTk
import Verif.Props.C62_Opening
import Verif.Props.C20_Example

namespace Verif
open Spec

theorem select_chosen (f : Str) (w : World) : chosen f w = (if selectProject w f = [] then none else some (selectProject w f)) := by
  unfold chosen selectProject
  cases h : w.file f with
  | none => simp
  | some b =>
    by_cases hf : f = []
    · simp [hf]
    · simp [hf]

theorem orElse_eq (v : Option Str) (d : Str) : (if v.getD [] = [] then d else v.getD []) = orElse v d := by
  cases v with
  | none => rfl
  | some s => cases s <;> rfl

theorem closeProject_shows (norm : Str → Str) (s : Window) : Shows norm s.closeProject none :=
  ⟨rfl, rfl, rfl, rfl, fun p h => by cases h⟩

theorem Spec.Shows.how {norm : Str → Str} {s : Window} {cur : Option Project} (h : Shows norm s cur) (m : Str) : Shows norm (s.setInfoHow m) cur := by
  unfold Window.setInfoHow
  split
  · exact ⟨h.file, h.menu, h.path, h.caption, h.novel⟩
  · exact ⟨h.file, h.menu, h.path, h.caption, h.novel⟩

theorem Spec.Shows.status {norm : Str → Str} {s : Window} {cur : Option Project} (h : Shows norm s cur) (m : Str) : Shows norm (s.showStatus m) cur :=
  ⟨h.file, h.menu, h.path, h.caption, h.novel⟩

/-- The path of a project that cannot be opened because of its extension is reported. -/
theorem noPath_error {lib : PyLib} {xml : XmlLib} (hx : ∃ m, xml.parse none = .error m) {w : World} : ∃ msg, readChosen lib xml w none = .error (.error msg) := by
  obtain ⟨m, hm⟩ := hx
  unfold readChosen openYw7
  rw [Option.bind_none, Option.bind_none]
  split
  · exact ⟨_, rfl⟩
  · simp only [hm]
    exact ⟨_, rfl⟩

/-- Opening a file ends in a window that shows the project, whatever the window was before. -/
theorem open_shows {lib : PyLib} {xml : XmlLib} (norm : Str → Str) (hx : ∃ m, xml.parse none = .error m) (s : Window) (f : Str) (w : World) (g : Str)
    (hg : chosen f w = some g) (hr : Reported lib xml (.open f w)) :
    Shows norm (s.openProject lib xml norm w f).2 (afterAct lib xml none (.open f w)) := by
  have hr := hr g hg
  rw [select_chosen] at hg
  split at hg
  · cases hg
  · rename_i hne
    cases hg
    have hc : chosen f w = some (selectProject w f) := by rw [select_chosen, if_neg hne]
    have ha : afterAct lib xml none (.open f w) = projectIn lib xml w (selectProject w f) := by
      simp only [afterAct, hc]
    rw [ha]
    unfold projectIn
    unfold Window.openProject
    simp only [if_neg hne]
    unfold contents projectPath at *
    generalize (mkDoc yw7Class (selectProject w f)).filePath = path at *
    rcases hr with ⟨⟨x, n⟩, hok⟩ | ⟨msg, herr⟩
    · cases path with
      | none =>
        obtain ⟨m, hm⟩ := noPath_error (lib := lib) hx (w := w)
        rw [hm] at hok
        cases hok
      | some p =>
        rw [hok]
        refine ⟨rfl, rfl, rfl, ?_, fun q hq => by cases hq; rfl⟩
        unfold Window.enableMenu Window.setTitle Window.showPath
        simp only [orElse_eq]
        rfl
    · rw [herr]
      simp only
      exact (closeProject_shows norm _).how _

/-- What follows from one action. -/
theorem act_shows {lib : PyLib} {xml : XmlLib} (norm : Str → Str) (hx : ∃ m, xml.parse none = .error m) {s : Window} {cur : Option Project}
    (h : Shows norm s cur) (a : Act) (hr : Reported lib xml a) : Shows norm (s.act lib xml norm a) (afterAct lib xml cur a) := by
  cases a with
  | «open» f w =>
    cases hg : chosen f w with
    | some g =>
      have := open_shows norm hx s f w g hg hr
      have e : ∀ c, afterAct lib xml c (.open f w) = afterAct lib xml none (.open f w) := by
        intro c
        simp only [afterAct, hg]
      rw [e cur]
      exact this
    | none =>
      have e : afterAct lib xml cur (.open f w) = cur := by
        simp only [afterAct, hg]
      rw [e]
      show Shows norm (s.openProject lib xml norm w f).2 cur
      rw [select_chosen] at hg
      split at hg
      · rename_i he
        unfold Window.openProject
        simp only [if_pos he]
        exact h.status _
      · cases hg
  | close => exact closeProject_shows norm s
  | clickClose =>
    show Shows norm (if s.closeOn then s.closeProject else s) none
    split
    · exact closeProject_shows norm s
    · rename_i hc
      have := h.menu
      cases cur with
      | none => exact h
      | some p => rw [this] at hc; exact absurd rfl hc
  | restore => exact h.status _
  | status m => exact h.status m
  | how m => exact h.how m

theorem acts_shows {lib : PyLib} {xml : XmlLib} (norm : Str → Str) (hx : ∃ m, xml.parse none = .error m) (h : List Act) :
    ∀ {s : Window} {cur : Option Project}, Shows norm s cur → (∀ a ∈ h, Reported lib xml a) →
      Shows norm (s.acts lib xml norm h) (h.foldl (afterAct lib xml) cur) := by
  induction h with
  | nil => exact fun hs _ => hs
  | cons a h ih =>
    intro s cur hs hr
    exact ih (act_shows norm hx hs a (hr a List.mem_cons_self)) fun b hb => hr b (List.mem_cons_of_mem _ hb)

/-- After every history of actions, the window shows the project that is open: the menu entry "Close" is enabled exactly if there is
one, the path bar shows its path, the title of the window its title and author, and the data are those of the file when it
was opened. Openings that fail with a message leave no project open; dialogs that are cancelled change nothing.
Missing: readings that end with another exception, see `C63_refute_exception`. -/
theorem C63_window_partial (lib : PyLib) (xml : XmlLib) (norm : Str → Str) (hx : ∃ m, xml.parse none = .error m) (app : Str) (last : Option Str)
    (h : List Act) (hr : ∀ a ∈ h, Reported lib xml a) :
    Shows norm ((Window.init app last).acts lib xml norm h) (current lib xml h) :=
  acts_shows norm hx h ⟨rfl, rfl, rfl, rfl, fun p hp => by cases hp⟩ hr

theorem act_app (lib : PyLib) (xml : XmlLib) (norm : Str → Str) (s : Window) (a : Act) : (s.act lib xml norm a).app = s.app := by
  have hh : ∀ (s : Window) m, (s.setInfoHow m).app = s.app := by
    intro s m; unfold Window.setInfoHow; split <;> rfl
  cases a with
  | «open» f w =>
    show (s.openProject lib xml norm w f).2.app = s.app
    unfold Window.openProject
    simp only
    split
    · rfl
    · have hcl : ∀ t : Window, (if t.prj.isSome then t.closeProject else t).app = t.app := by
        intro t; split <;> rfl
      split
      · rw [hh]
        exact hcl _
      · exact hcl _
      · exact hcl _
  | close => rfl
  | clickClose =>
    show (if s.closeOn then s.closeProject else s).app = s.app
    split <;> rfl
  | restore => rfl
  | status m => rfl
  | how m => exact hh s m

/-- The application title is always the end of the window's title, and it is the whole title exactly if no project is open. -/
theorem C63_caption_partial (lib : PyLib) (xml : XmlLib) (norm : Str → Str) (hx : ∃ m, xml.parse none = .error m) (app : Str) (last : Option Str)
    (h : List Act) (hr : ∀ a ∈ h, Reported lib xml a) :
    app <:+ ((Window.init app last).acts lib xml norm h).caption ∧
      (((Window.init app last).acts lib xml norm h).caption = app ↔ ((Window.init app last).acts lib xml norm h).prj = none) := by
  have hs := C63_window_partial lib xml norm hx app last h hr
  have happ : ((Window.init app last).acts lib xml norm h).app = app := by
    have : ∀ (h : List Act) (s : Window), (s.acts lib xml norm h).app = s.app := by
      intro h
      induction h with
      | nil => exact fun _ => rfl
      | cons a h ih => exact fun s => (ih _).trans (act_app lib xml norm s a)
    exact this h _
  rw [hs.caption, hs.file, happ]
  cases current lib xml h with
  | none => exact ⟨List.suffix_refl _, by simp [captionOf]⟩
  | some p =>
    refine ⟨⟨_, rfl⟩, ?_⟩
    constructor
    · intro e
      have := congrArg List.length e
      simp [captionOf] at this
      omega
    · intro e
      cases e

/-- The method returns True exactly if a project has been opened now. -/
theorem C63_result (lib : PyLib) (xml : XmlLib) (norm : Str → Str) (hx : ∃ m, xml.parse none = .error m) (s : Window) (f : Str) (w : World) :
    (s.openProject lib xml norm w f).1 = .ok true ↔ ∃ g p x n, chosen f w = some g ∧ projectPath g = some p ∧ contents lib xml w g = .ok (x, n) := by
  unfold Window.openProject
  rw [select_chosen]
  simp only
  split
  · rename_i he
    simp
  · rename_i hne
    unfold contents projectPath
    constructor
    · intro h
      split at h
      · cases h
      · cases h
      · rename_i x n hok
        cases hp : (mkDoc yw7Class (selectProject w f)).filePath with
        | none =>
          obtain ⟨m, hm⟩ := noPath_error (lib := lib) hx (w := w)
          rw [hp, hm] at hok
          cases hok
        | some p => exact ⟨_, p, x, n, rfl, hp, hok⟩
    · rintro ⟨g, p, x, n, hg, hp, hok⟩
      cases hg
      rw [hok]

/-- An opening that fails with a message, from any state of the window: no project is open any more, the message is shown in red,
and restoring the status removes it. -/
theorem C63_failed (lib : PyLib) (xml : XmlLib) (norm : Str → Str) (s : Window) (f : Str) (w : World) (g msg : Str)
    (hg : chosen f w = some g) (he : contents lib xml w g = .error (.error msg)) :
    let t := (s.openProject lib xml norm w f).2
    t.prj = none ∧ t.closeOn = false ∧ t.bar = Str.strip msg ∧ t.color = .red ∧ t.restoreStatus.bar = [] ∧ t.restoreStatus.color = .plain ∧ t.lastOpen = some g := by
  rw [select_chosen] at hg
  split at hg
  · cases hg
  · rename_i hne
    cases hg
    unfold contents projectPath at he
    unfold Window.openProject
    simp only [if_neg hne, he]
    exact ⟨rfl, rfl, rfl, rfl, rfl, rfl, rfl⟩

/-- A message that is shown for a while does not replace the status: restoring brings back the text that was shown last with
`show_status`, after any number of messages. -/
theorem C63_restored (lib : PyLib) (xml : XmlLib) (norm : Str → Str) (s : Window) (m : Str) (l : List Str) :
    let t := s.acts lib xml norm (.status m :: l.map .how ++ [.restore])
    t.bar = m ∧ t.color = .plain := by
  have key : ∀ (l : List Str) (s : Window), (s.acts lib xml norm (l.map .how)).statusText = s.statusText := by
    intro l
    induction l with
    | nil => exact fun _ => rfl
    | cons x l ih =>
      intro s
      refine (ih _).trans ?_
      show (s.setInfoHow x).statusText = _
      unfold Window.setInfoHow
      split <;> rfl
  have e : s.acts lib xml norm (.status m :: l.map .how ++ [.restore]) = ((s.showStatus m).acts lib xml norm (l.map .how)).restoreStatus := by
    unfold Window.acts
    rw [List.foldl_append]
    rfl
  simp only [e]
  refine ⟨?_, rfl⟩
  exact key l (s.showStatus m)

/-- How messages are shown: with the mark in red, without the mark and surrounding white space; others in green as they are. -/
theorem C63_message (s : Window) (m : Str) :
    ((s.setInfoHow ('!' :: m)).bar = Str.strip m ∧ (s.setInfoHow ('!' :: m)).color = .red) ∧
      (m.head? ≠ some '!' → (s.setInfoHow m).bar = m ∧ (s.setInfoHow m).color = .green) := by
  refine ⟨⟨rfl, rfl⟩, fun h => ?_⟩
  unfold Window.setInfoHow
  have : Str.startsWith m c!"!" = false := by
    cases m with
    | nil => rfl
    | cons c r =>
      have : c ≠ '!' := fun e => h (by rw [e]; rfl)
      simp [Str.startsWith, List.isPrefixOf, this.symm]
  simp [this]

/-- The next dialog starts in the directory of the file that was chosen last, whether it could be opened or not. -/
theorem C63_lastDir (lib : PyLib) (xml : XmlLib) (norm : Str → Str) (s : Window) (f : Str) (w : World) (g : Str) (hg : chosen f w = some g) :
    (s.openProject lib xml norm w f).2.lastOpen = some g := by
  rw [select_chosen] at hg
  split at hg
  · cases hg
  · rename_i hne
    cases hg
    unfold Window.openProject
    simp only [if_neg hne]
    split
    · unfold Window.setInfoHow; split <;> rfl
    · rfl
    · rfl

theorem act_lastOpen (lib : PyLib) (xml : XmlLib) (norm : Str → Str) (s : Window) (a : Act) :
    (s.act lib xml norm a).lastOpen = lastChosen s.lastOpen [a] := by
  cases a with
  | «open» f w =>
    show (s.openProject lib xml norm w f).2.lastOpen = (chosen f w).orElse fun _ => s.lastOpen
    cases hg : chosen f w with
    | some g => exact C63_lastDir lib xml norm s f w g hg
    | none =>
      rw [select_chosen] at hg
      split at hg
      · rename_i he
        unfold Window.openProject
        simp only [if_pos he]
        rfl
      · cases hg
  | close => rfl
  | clickClose =>
    show (if s.closeOn then s.closeProject else s).lastOpen = s.lastOpen
    split <;> rfl
  | restore => rfl
  | status m => rfl
  | how m =>
    show (s.setInfoHow m).lastOpen = s.lastOpen
    unfold Window.setInfoHow; split <;> rfl

theorem dirname_of (dir name : Str) (hn : '/' ∉ name) (hd : dir.getLast? ≠ some '/') (hne : dir ≠ []) : dirname (dir ++ '/' :: name) = dir := by
  have e : ((dir ++ '/' :: name).reverse.dropWhile (· ≠ '/')).reverse = dir ++ ['/'] := by
    have h1 : (dir ++ '/' :: name).reverse = name.reverse ++ '/' :: dir.reverse := by simp
    rw [h1, List.dropWhile_append_of_pos (by
      intro c hc
      have : c ∈ name := by simpa using hc
      simpa using fun h : c = '/' => hn (h ▸ this))]
    simp
  unfold dirname
  simp only [e]
  obtain ⟨d, x, rfl⟩ : ∃ d x, dir = d ++ [x] := ⟨dir.dropLast, dir.getLast hne, (List.dropLast_concat_getLast hne).symm⟩
  have hx : x ≠ '/' := by simpa using hd
  rw [if_neg (by simp [hx])]
  simp [hx]

theorem dirname_none (name : Str) (hn : '/' ∉ name) : dirname name = [] := by
  have e : (name.reverse.dropWhile (· ≠ '/')) = [] := by
    have := List.dropWhile_append_of_pos (p := (· ≠ '/')) (l₁ := name.reverse) (l₂ := []) (by
      intro c hc
      have : c ∈ name := by simpa using hc
      simpa using fun h : c = '/' => hn (h ▸ this))
    simpa using this
  unfold dirname
  rw [e]; rfl

/-- After every history of actions, the dialog starts in the directory of the file that was chosen last, in this session or in the one before,
whether it could be opened or not; if there is none, or if its name has no directory, in the working directory. -/
theorem C63_dialog (lib : PyLib) (xml : XmlLib) (norm : Str → Str) (app : Str) (last : Option Str) (h : List Act) :
    let s := (Window.init app last).acts lib xml norm h
    (lastChosen last h = none → s.initDir = c!"./") ∧
    (∀ name, '/' ∉ name → lastChosen last h = some name → s.initDir = c!"./") ∧
    ∀ dir name, '/' ∉ name → dir ≠ [] → dir.getLast? ≠ some '/' → lastChosen last h = some (dir ++ '/' :: name) → s.initDir = dir := by
  have key : ∀ (h : List Act) (s : Window), (s.acts lib xml norm h).lastOpen = lastChosen s.lastOpen h := by
    intro h
    induction h with
    | nil => exact fun _ => rfl
    | cons a h ih =>
      intro s
      refine (ih _).trans ?_
      rw [act_lastOpen]
      rfl
  have hs := key h (Window.init app last)
  have hi : (Window.init app last).lastOpen = last := rfl
  rw [hi] at hs
  refine ⟨fun h0 => ?_, fun name hn h0 => ?_, fun dir name hn hne hd h0 => ?_⟩
  · unfold Window.initDir
    rw [hs, h0]; rfl
  · unfold Window.initDir
    rw [hs, h0]
    show (if dirname name = [] then _ else _) = _
    rw [dirname_none name hn]; rfl
  · unfold Window.initDir
    rw [hs, h0]
    show (if dirname (dir ++ '/' :: name) = [] then _ else dirname (dir ++ '/' :: name)) = _
    rw [dirname_of dir name hn hd hne, if_neg hne]

/-- An example of such a history: a file is opened by name, then the dialog is cancelled. -/
example : lastChosen (some c!"old/x.yw7") [.open c!"a/b.yw7" ⟨fun f => if f = c!"a/b.yw7" then some [] else none, fun _ => false, []⟩, .close,
    .open c!"" ⟨fun _ => none, fun _ => false, []⟩] = some (c!"a" ++ '/' :: c!"b.yw7") := by decide

/-- Whatever state the window is in, for example after an exception: closing, or opening a file that can be read or fails
with a message, brings it back to showing the project that is open. -/
theorem C63_recovers (lib : PyLib) (xml : XmlLib) (norm : Str → Str) (hx : ∃ m, xml.parse none = .error m) (s : Window) :
    Shows norm s.closeProject none ∧
      ∀ f w g, chosen f w = some g → Reported lib xml (.open f w) → Shows norm (s.openProject lib xml norm w f).2 (afterAct lib xml none (.open f w)) :=
  ⟨closeProject_shows norm s, fun f w g hg hr => open_shows norm hx s f w g hg hr⟩

/-- A file that raises another exception, such as a file that is not well-formed (see `C62_refute_malformed`), leaves a window with
a project, but without a path and with the menu entry "Close" disabled. -/
theorem C63_refute_exception (lib : PyLib) (xml : XmlLib) (norm : Str → Str) (app : Str) (f : Str) (w : World) (g : Str) (e : Exc)
    (hg : chosen f w = some g) (he : contents lib xml w g = .error e) (hne : ¬ ∃ m, e = .error m) :
    let t := (Window.init app none).act lib xml norm (.open f w)
    t.prj = some (projectPath g) ∧ t.closeOn = false ∧ t.pathBar = [] ∧ ¬ ∃ cur, Shows norm t cur := by
  rw [select_chosen] at hg
  split at hg
  · cases hg
  · rename_i h0
    cases hg
    have key : (Window.init app none).openProject lib xml norm w f = (.error e, { ((Window.init app none).restoreStatus) with
        lastOpen := some (selectProject w f), prj := some (projectPath (selectProject w f)), novel := some {} }) := by
      unfold contents at he
      unfold projectPath at he ⊢
      unfold Window.openProject
      simp only [if_neg h0, he]
      cases e with
      | error m => exact absurd ⟨m, rfl⟩ hne
      | _ => rfl
    show (Window.openProject lib xml norm w (Window.init app none) f).2.prj = _ ∧ (Window.openProject lib xml norm w (Window.init app none) f).2.closeOn = _ ∧
      (Window.openProject lib xml norm w (Window.init app none) f).2.pathBar = _ ∧ ¬ ∃ cur, Shows norm (Window.openProject lib xml norm w (Window.init app none) f).2 cur
    rw [key]
    refine ⟨rfl, rfl, rfl, ?_⟩
    rintro ⟨cur, hs⟩
    have h1 := hs.file
    have h2 := hs.menu
    cases cur with
    | none => cases h1
    | some p => cases h2

/-! ### An example -/

/-- The bytes of a small project. -/
def demoBytes : Bytes := utf8 c!"<YWRITER7><PROJECT><Title>T</Title></PROJECT><LOCATIONS/><ITEMS/><CHARACTERS/><SCENES/><CHAPTERS/></YWRITER7>"

/-- A file with a small project, and a file with another extension. -/
def demoWorld : World :=
  { file := fun p => if p = c!"a/b.yw7" then some demoBytes else if p = c!"c.txt" then some [] else none
    locked := fun _ => false
    answer := c!"c.txt" }

/-- An XML library. -/
def demoXml : XmlLib := ⟨parseXml, fun _ => .error c!"no file"⟩

theorem demo_contents : ∃ x n, contents exLib demoXml demoWorld c!"a/b.yw7" = .ok (x, n) ∧ n.title = some c!"T" ∧ n.authorName = none := by
  have e : contents exLib demoXml demoWorld c!"a/b.yw7" = openYw7 exLib demoXml false (some demoBytes) := rfl
  have hp : (loadFile exLib c!"<YWRITER7><PROJECT><Title>T</Title></PROJECT><LOCATIONS/><ITEMS/><CHARACTERS/><SCENES/><CHAPTERS/></YWRITER7>").map (fun r => (r.2.title, r.2.authorName)) = some (some c!"T", none) := by
    decide +kernel
  obtain ⟨⟨x, n⟩, hl, hv⟩ := Option.map_eq_some_iff.mp hp
  have hv := Prod.mk.inj hv
  exact ⟨x, n, e.trans ((C62_utf8 exLib _ _ (x, n)).mpr hl), hv.1, hv.2⟩

/-- A history that meets the conditions: a project is opened; then a file of another type is chosen in the dialog. -/
example : ∀ a ∈ [Act.open c!"a/b.yw7" demoWorld, .how c!"ok", .restore, .open c!"" demoWorld], Reported exLib demoXml a := by
  intro a ha
  simp only [List.mem_cons, List.not_mem_nil, or_false] at ha
  rcases ha with rfl | rfl | rfl | rfl
  · intro g hg
    have : g = c!"a/b.yw7" := by
      have e : chosen c!"a/b.yw7" demoWorld = some c!"a/b.yw7" := by decide +kernel
      rw [e] at hg
      exact (Option.some.inj hg).symm
    subst this
    obtain ⟨x, n, h, _⟩ := demo_contents
    exact Or.inl ⟨_, h⟩
  · trivial
  · trivial
  · intro g hg
    have : g = c!"c.txt" := by
      have e : chosen c!"" demoWorld = some c!"c.txt" := by decide +kernel
      rw [e] at hg
      exact (Option.some.inj hg).symm
    subst this
    refine Or.inr ?_
    have hp : projectPath c!"c.txt" = none := by decide +kernel
    show IsError (readChosen exLib demoXml demoWorld (projectPath c!"c.txt"))
    rw [hp]
    exact noPath_error ⟨_, rfl⟩

set_option maxRecDepth 100000 in
/-- What the window shows after the first action. -/
theorem C63_demo : ((Window.init c!"App" none).acts exLib demoXml id [Act.open c!"a/b.yw7" demoWorld]).caption = c!"T by Unknown author - App" := by
  obtain ⟨x, n, h, ht, ha⟩ := demo_contents
  have hr : ∀ a ∈ [Act.open c!"a/b.yw7" demoWorld], Reported exLib demoXml a := by
    intro a ha
    rw [List.mem_singleton] at ha
    subst ha
    intro g hg
    have e : chosen c!"a/b.yw7" demoWorld = some c!"a/b.yw7" := by decide +kernel
    rw [e] at hg
    cases hg
    exact Or.inl ⟨_, h⟩
  have hs := C63_window_partial exLib demoXml id ⟨_, rfl⟩ c!"App" none _ hr
  have hc : current exLib demoXml [Act.open c!"a/b.yw7" demoWorld] = some ⟨c!"a/b.yw7", n⟩ := by
    have e : chosen c!"a/b.yw7" demoWorld = some c!"a/b.yw7" := by decide +kernel
    have hp : projectPath c!"a/b.yw7" = some c!"a/b.yw7" := by decide +kernel
    show afterAct exLib demoXml none (.open c!"a/b.yw7" demoWorld) = _
    simp only [afterAct, e, projectIn, h, hp]
    rfl
  have happ : ((Window.init c!"App" none).acts exLib demoXml id [Act.open c!"a/b.yw7" demoWorld]).app = c!"App" := act_app exLib demoXml id (Window.init c!"App" none) (.open c!"a/b.yw7" demoWorld)
  rw [hs.caption, hc, happ]
  show orElse n.title _ ++ _ ++ orElse n.authorName _ ++ _ ++ _ = _
  rw [ht, ha]
  rfl

end Verif
