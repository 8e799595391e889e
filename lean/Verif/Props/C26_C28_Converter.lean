/-
C25 to C28, C40 and C42: the converter.
-/
import Verif.Lemmas.Convert3

namespace Verif
open Prog Spec Path

variable {ν : Type}

/-- One of the converters of PyWriter. -/
def IsConverter (cfg : Config) : Prop := cfg = yw7Converter ∨ cfg = yw7Importer ∨ cfg = yw7Exporter

theorem IsConverter.targets {cfg : Config} (h : IsConverter cfg) : ∀ c ∈ cfg.targets, c ∈ exportTargets := by
  rcases h with rfl | rfl | rfl
  · exact fun _ h => h
  · intro c h; cases h
  · exact fun _ h => h

theorem IsConverter.sources {cfg : Config} (h : IsConverter cfg) : ∀ c ∈ cfg.sources, c ∈ importSources := by
  rcases h with rfl | rfl | rfl
  · exact fun _ h => h
  · exact fun _ h => h
  · intro c h; cases h

/-- The environment of a run: the generated ODF files are complete (`odf_complete`), and the source file is not in
the temporary directory that the program has just created. -/
structure Setting (env : Env ν) (path : Str) : Prop where
  odf : ∀ c n, OdfComplete (env.odfFiles c n) (env.comps c)
  dir : ¬ InDir env.dir (slashes path)

/-- Different endings of the same length exclude each other. -/
theorem not_both {a b q : Str} (ha : a <:+ q) (hb : b <:+ q) (hab : a ≠ b) (hl : a.length = b.length) : False := by
  have := List.suffix_of_suffix_length_le ha hb (Nat.le_of_eq hl)
  exact hab (this.eq_of_length hl)

/-! ### C26 -/

/-- **C26**: whatever happens during a run, an existing file is changed only if the user agreed to replace it, or it is
the backup of a file that the user agreed to replace. -/
theorem C26_consent (env : Env ν) (cfg : Config) (hcfg : IsConverter cfg) (path : Str) (suffix : Option Str) (fs : FS) (faults : List Fault)
    (h : Setting env path) (q : Str) (hq : ¬ InDir env.dir q) (hex : fs q ≠ none)
    (hch : (run env cfg path suffix fs faults).2.1 q ≠ fs q) :
    env.confirm q = true ∨ ∃ p, q = p ++ c!".bak" ∧ fs p ≠ none ∧ env.confirm p = true := by
  cases run_spec env cfg path suffix fs faults hcfg.targets hcfg.sources h.odf h.dir with
  | nothing h1 _ => exact absurd (congrFun h1 q) hch
  | converted s t sp tp b G _ _ ht _ hB _ _ _ =>
    rcases hB.consent q hch with h1 | ⟨p, hp, ⟨rfl, h1⟩ | ⟨h1, h2, h3⟩⟩
    · exact absurd h1.2 hq
    · exact Or.inl (h1.resolve_left hex)
    · exact Or.inr ⟨p, h1, h2, h3⟩

/-- **C26**: if the user refuses, no existing file is changed. -/
theorem C26_refused (env : Env ν) (cfg : Config) (hcfg : IsConverter cfg) (path : Str) (suffix : Option Str) (fs : FS) (faults : List Fault)
    (h : Setting env path) (hno : ∀ p, env.confirm p = false) (q : Str) (hq : ¬ InDir env.dir q) (hex : fs q ≠ none) :
    (run env cfg path suffix fs faults).2.1 q = fs q := by
  refine Decidable.byContradiction fun hch => ?_
  rcases C26_consent env cfg hcfg path suffix fs faults h q hq hex hch with h1 | ⟨p, _, _, h1⟩ <;> rw [hno] at h1 <;> cases h1

/-- **C26**: creating a new project never touches an existing one; nothing is written, even if the user would agree. -/
theorem C26_create (env : Env ν) (newFile : Option Str) (s t : Doc) (p old : Str) (fs : FS) (faults : List Fault) (ht : t.filePath = some p)
    (hex : fs p = some old) :
    createYw7 env newFile s t fs faults =
      (.ok { newFile := newFile, how := c!"FAIL: " ++ Str.strip (c!"File already exists: \"" ++ env.norm p ++ c!"\".") }, fs, faults) := by
  unfold createYw7
  rw [ht]
  simp only [Bind.bind, Prog.bind, isfile, Option.getD, hex]
  rfl

/-! ### C25 -/

/-- **C25, conversions**: no run of a converter changes a project that is locked by yWriter. -/
theorem C25_run (env : Env ν) (cfg : Config) (hcfg : IsConverter cfg) (path : Str) (suffix : Option Str) (fs : FS) (faults : List Fault)
    (h : Setting env path) (q lock : Str) (hy : c!".yw7" <:+ q) (hq : ¬ InDir env.dir q) (hl : fs (q ++ c!".lock") = some lock) :
    (run env cfg path suffix fs faults).2.1 q = fs q := by
  refine Decidable.byContradiction fun hch => ?_
  cases run_spec env cfg path suffix fs faults hcfg.targets hcfg.sources h.odf h.dir with
  | nothing h1 _ => exact hch (congrFun h1 q)
  | converted s t sp tp b G _ _ ht hk hB _ _ _ =>
    rcases hB.consent q hch with h1 | ⟨p, hp, h1⟩
    · exact hq h1.2
    · rw [ht] at hp; injection hp with hp; subst hp
      rcases h1 with ⟨rfl, _⟩ | ⟨rfl, _⟩
      · rcases hk with ⟨_, _, _, _, h2⟩ | ⟨h2, _⟩
        · rcases h2 with h2 | h2
          · exact not_both hy h2 (by decide) (by decide)
          · exact not_both hy h2 (by decide) (by decide)
        · exact hch (congrFun (hB.locked h2 (by rw [ht]; show fs (q ++ c!".lock") ≠ none; rw [hl]; simp)) q)
      · exact not_both hy (b := c!".bak") ⟨tp, rfl⟩ (by decide) (by decide)

/-! ### C28 -/

/-- **C28**: after a run, either `newFile` names the written file, the message says so and the file is the complete result
of the conversion of the source as it was before, or `newFile` is `None` and the message has the error mark. -/
theorem C28_reported (env : Env ν) (cfg : Config) (hcfg : IsConverter cfg) (path : Str) (suffix : Option Str) (fs : FS) (faults : List Fault)
    (h : Setting env path) (o : Outcome) (ho : (run env cfg path suffix fs faults).1 = .ok o) :
    (∃ s t p, s.filePath = some (slashes path) ∧ t.filePath = some p ∧ o.newFile = some p ∧
      o.how = c!"File written: \"" ++ env.norm p ++ c!"\"." ∧
      (Converted env s t fs (run env cfg path suffix fs faults).2.1 ∨ Updated env s t fs (run env cfg path suffix fs faults).2.1)) ∨
    (o.newFile = none ∧ ∃ m, o.how = c!"FAIL: " ++ m) := by
  cases run_spec env cfg path suffix fs faults hcfg.targets hcfg.sources h.odf h.dir with
  | nothing _ h1 => exact Or.inr (h1 o ho)
  | converted s t sp tp b G hs hsp ht hk hB hG _ h1 =>
    rcases h1 o ho with ⟨h2, h3, h4⟩ | h2
    · exact Or.inl ⟨s, t, tp, hsp ▸ hs, ht, h3, h4, (hG _ h2).imp id And.right⟩
    · exact Or.inr h2

/-- **C28**: the source file is never changed. -/
theorem C28_source_kept (env : Env ν) (cfg : Config) (hcfg : IsConverter cfg) (path : Str) (suffix : Option Str) (fs : FS) (faults : List Fault)
    (h : Setting env path) (hd : ¬ InDir env.dir path) :
    (run env cfg path suffix fs faults).2.1 path = fs path ∧ (run env cfg path suffix fs faults).2.1 (slashes path) = fs (slashes path) := by
  cases run_spec env cfg path suffix fs faults hcfg.targets hcfg.sources h.odf h.dir with
  | nothing h1 _ => exact ⟨congrFun h1 _, congrFun h1 _⟩
  | converted s t sp tp b G hs hsp ht hk hB _ _ _ =>
    have key : ∀ q, ¬ InDir env.dir q → ((c!".yw7" <:+ q ∧ (c!".odt" <:+ tp ∨ c!".ods" <:+ tp)) ∨
        ((c!".odt" <:+ q ∨ c!".ods" <:+ q) ∧ c!".yw7" <:+ tp)) → (run env cfg path suffix fs faults).2.1 q = fs q := by
      intro q hq hends
      refine Decidable.byContradiction fun hch => ?_
      rcases hB.consent q hch with h1 | ⟨p, hp, h1⟩
      · exact hq h1.2
      · rw [ht] at hp; injection hp with hp; subst hp
        rcases h1 with ⟨rfl, _⟩ | ⟨rfl, _⟩
        · rcases hends with ⟨h2, h3 | h3⟩ | ⟨h2 | h2, h3⟩
          · exact not_both h2 h3 (by decide) (by decide)
          · exact not_both h2 h3 (by decide) (by decide)
          · exact not_both h2 h3 (by decide) (by decide)
          · exact not_both h2 h3 (by decide) (by decide)
        · have hbk : c!".bak" <:+ tp ++ c!".bak" := ⟨tp, rfl⟩
          rcases hends with ⟨h2, _⟩ | ⟨h2 | h2, _⟩
          · exact not_both hbk h2 (by decide) (by decide)
          · exact not_both hbk h2 (by decide) (by decide)
          · exact not_both hbk h2 (by decide) (by decide)
    subst hsp
    rcases hk with ⟨_, _, h1, h2, h3⟩ | ⟨_, _, h1, h2, h3⟩
    · exact ⟨key path hd (Or.inl ⟨h1, h3⟩), key _ h.dir (Or.inl ⟨h2, h3⟩)⟩
    · exact ⟨key path hd (Or.inr ⟨h2, h1⟩), key _ h.dir (Or.inr ⟨h3, h1⟩)⟩

/-- The document can be written: the project is not locked and its tree can be built; the ODF files can be generated. -/
def Writable (env : Env ν) (d : Doc) (old : Option ν) (n : ν) (fs : FS) : Prop :=
  (d.cls = yw7Class ∧ fs (d.filePath.getD [] ++ c!".lock") = none ∧ ∃ root, env.tree old n = .ok root) ∨
  (d.cls ≠ yw7Class ∧ (∃ f, env.odfFiles d.cls n = .ok f) ∧ ∃ t, env.content d.cls n = .ok t)

/-- The document can be read: the file exists, is not locked if it is a project, and its contents are well-formed. -/
def Readable (env : Env ν) (d : Doc) (n : ν) (x : ν × Bool) (fs : FS) : Prop :=
  (d.cls = yw7Class → fs (d.filePath.getD [] ++ c!".lock") = none) ∧ ∃ text, fs (d.filePath.getD []) = some text ∧ env.parse d.cls text n = .ok x

theorem readDoc_ok (env : Env ν) (d : Doc) (n : ν) (x : ν × Bool) (fs : FS) (h : Readable env d n x fs) :
    readDoc env d n fs [] = (.ok x, fs, []) := by
  obtain ⟨h1, text, h2, h3⟩ := h
  unfold readDoc
  dsimp only
  have hr : readFile (d.filePath.getD []) fs [] = (.ok text, fs, []) := by
    unfold readFile Prog.step
    simp only [h2]; rfl
  by_cases hy : d.cls = yw7Class
  · rw [if_pos hy]
    have e : (do
        if ← isLocked (d.filePath.getD []) then raise lockedError
        let text ← readFile (d.filePath.getD [])
        lift (env.parse d.cls text n) : Prog (ν × Bool)) fs [] = (do
        let text ← readFile (d.filePath.getD [])
        lift (env.parse d.cls text n) : Prog (ν × Bool)) fs [] := by
      show Prog.bind _ _ _ _ = _
      unfold Prog.bind isLocked isfile
      rw [h1 hy]; rfl
    rw [e]
    simp only [Bind.bind, Prog.bind, hr, h3]
    rfl
  · rw [if_neg hy]
    simp only [Bind.bind, Prog.bind, hr, h3]
    rfl

theorem writeDoc_ok (env : Env ν) (d : Doc) (old : Option ν) (n : ν) (fs : FS) (henv : ∀ c n, OdfComplete (env.odfFiles c n) (env.comps c))
    (hd : d.cls ≠ yw7Class → ¬ InDir env.dir (d.filePath.getD [])) (h : Writable env d old n fs) :
    ∃ fs', writeDoc env d old n fs [] = (.ok (), fs', []) := by
  unfold writeDoc
  rcases h with ⟨hy, hl, root, hr⟩ | ⟨hy, ⟨f, hf⟩, t, ht⟩
  · rw [if_pos hy, hr]
    exact yw7Write_ok _ root _ fs hl
  · rw [if_neg hy, hf, ht]
    have := henv d.cls n
    rw [hf] at this
    obtain ⟨_, fs', e, _⟩ := odfWrite_ok env.zip env.dir f t (env.comps d.cls) _ (hd hy) this fs trivial
    exact ⟨fs', e⟩

theorem check_ok (env : Env ν) (s t : Doc) (sp tp c : Str) (fs : FS) (hs : s.filePath = some sp) (ht : t.filePath = some tp)
    (hc : fs sp = some c) (hk : fs tp = none ∨ env.confirm tp = true) : check env s t fs [] = (.ok (), fs, []) := by
  have e : check env s t fs [] =
      (if ((fs tp).isSome && !env.confirm tp) = true then raise (.error c!"Action canceled by user.") else (Prog.pure () : Prog Unit)) fs [] := by
    unfold check
    rw [hs, ht]
    simp only [Bind.bind, Prog.bind, isfile, hc]
    rfl
  rw [e]
  rcases hk with hk | hk
  · rw [hk]; rfl
  · rw [hk]
    cases fs tp <;> rfl

/-- **C28, success**: if the project can be read and the document can be generated, the target is new or the user agrees, and nothing
fails, then the export succeeds. -/
theorem C28_export_succeeds (env : Env ν) (s t : Doc) (sp tp : Str) (x : ν × Bool) (fs : FS) (henv : ∀ c n, OdfComplete (env.odfFiles c n) (env.comps c))
    (hs : s.filePath = some sp) (ht : t.filePath = some tp) (hd : t.cls ≠ yw7Class → ¬ InDir env.dir tp) (hk : fs tp = none ∨ env.confirm tp = true)
    (hr : Readable env s env.empty x fs) (hw : Writable env t none x.1 fs) :
    (exportFromYw env s t fs []).1 = .ok { newFile := some tp, how := c!"File written: \"" ++ env.norm tp ++ c!"\"." } := by
  have hc := hr.2
  obtain ⟨text, hc, _⟩ := hc
  rw [hs] at hc
  have h1 := check_ok env s t sp tp text fs hs ht hc hk
  have h2 := readDoc_ok env s env.empty x fs hr
  obtain ⟨fs', h3⟩ := writeDoc_ok env t none x.1 fs henv (by rw [ht]; exact hd) hw
  unfold exportFromYw conclude Prog.tryExcept
  simp only [Bind.bind, Prog.bind, h1, h2, h3, ht]
  rfl

/-- **C28, success**: the same for the creation of a new project. -/
theorem C28_create_succeeds (env : Env ν) (nf : Option Str) (s t : Doc) (sp tp : Str) (x : ν × Bool) (fs : FS) (henv : ∀ c n, OdfComplete (env.odfFiles c n) (env.comps c))
    (hs : s.filePath = some sp) (ht : t.filePath = some tp) (hd : t.cls ≠ yw7Class → ¬ InDir env.dir tp) (hk : fs tp = none)
    (hr : Readable env s env.empty x fs) (hw : Writable env t none x.1 fs) :
    (createYw7 env nf s t fs []).1 = .ok { newFile := some tp, how := c!"File written: \"" ++ env.norm tp ++ c!"\"." } := by
  have : createYw7 env nf s t fs [] = exportFromYw env s t fs [] := by
    unfold createYw7
    simp only [Bind.bind, Prog.bind, isfile, ht, Option.getD, hk]
    rfl
  rw [this]
  exact C28_export_succeeds env s t sp tp x fs henv hs ht hd (Or.inl hk) hr hw

/-- **C28, success**: the same for the update of an existing project; a warning is shown exactly if the document has new scenes. -/
theorem C28_update_succeeds (env : Env ν) (s t : Doc) (sp tp c : Str) (old x : ν × Bool) (fs : FS) (henv : ∀ c n, OdfComplete (env.odfFiles c n) (env.comps c))
    (hs : s.filePath = some sp) (ht : t.filePath = some tp) (hd : t.cls ≠ yw7Class → ¬ InDir env.dir tp) (hc : fs sp = some c)
    (hk : fs tp = none ∨ env.confirm tp = true) (ho : Readable env t env.empty old fs)
    (hr : Readable env s old.1 x fs) (hw : Writable env t (some old.1) x.1 fs) :
    (importToYw env s t fs []).1 = .ok { newFile := some tp, how := c!"File written: \"" ++ env.norm tp ++ c!"\".", warned := x.2 } := by
  have h1 := check_ok env s t sp tp c fs hs ht hc hk
  have h2 := readDoc_ok env t env.empty old fs ho
  have h4 := readDoc_ok env s old.1 x fs hr
  obtain ⟨fs', h3⟩ := writeDoc_ok env t (some old.1) x.1 fs henv (by rw [ht]; exact hd) hw
  unfold importToYw conclude Prog.tryExcept
  simp only [Bind.bind, Prog.bind, h1, h2, h3, h4, ht]
  rfl

/-- A finding: called directly, the creation of a project that exists already fails, but `newFile` keeps the value of the conversion
before, which claims success. (`run` resets it.) -/
theorem C28_stale (env : Env ν) (s t : Doc) (p old before : Str) (fs : FS) (faults : List Fault) (ht : t.filePath = some p)
    (hex : fs p = some old) :
    ∃ m, (createYw7 env (some before) s t fs faults).1 = .ok { newFile := some before, how := c!"FAIL: " ++ m } := by
  rw [C26_create env (some before) s t p old fs faults ht hex]
  exact ⟨_, rfl⟩

/-- A small environment: a novel is a text. -/
def demoEnv (answer : Bool) : Env Str where
  empty := []
  parse := fun c text n => if c = yw7Class then .ok (text, false) else .ok (n ++ text, true)
  tree := fun _ n => .ok (Elem.leaf c!"YWRITER7" (some n))
  hasChapters := fun _ => true
  odfFiles := fun _ _ => .ok (odsFiles c!"m" c!"s" c!"f" c!"y" c!"t")
  content := fun _ n => .ok n
  comps := fun _ => odsComponents
  zip := ⟨fun n c => n ++ ':' :: c ++ c!";", fun _ => c!"end"⟩
  contentXml := some
  confirm := fun _ => answer
  describe := fun _ => c!"error"
  norm := id
  dir := c!"/tmp/odf"

/-- The theorems apply to it. -/
theorem demo_setting (answer : Bool) : Setting (demoEnv answer) c!"/home/a.yw7" :=
  ⟨fun _ _ => (odf_complete c!"m" c!"s" c!"f" c!"y" c!"t" []).2,
   by rintro ⟨t, h⟩; cases h⟩

/-- An export over an existing document, with and without consent. -/
example :
    let fs : FS := fun q => if q = c!"/home/a.yw7" then some c!"text" else if q = c!"/home/a_charlist.ods" then some c!"old" else none
    let r1 := run (demoEnv true) yw7Converter c!"/home/a.yw7" (some c!"_charlist") fs []
    let r2 := run (demoEnv false) yw7Converter c!"/home/a.yw7" (some c!"_charlist") fs []
    r1.1 = .ok { newFile := some c!"/home/a_charlist.ods", how := c!"File written: \"/home/a_charlist.ods\"." } ∧
    r1.2.1 c!"/home/a_charlist.ods" = some c!"content.xml:text;meta.xml:t;mimetype:m;settings.xml:s;styles.xml:y;META-INF/manifest.xml:f;end" ∧
    r1.2.1 c!"/home/a_charlist.ods.bak" = some c!"old" ∧
    r2.1 = .ok { newFile := none, how := c!"FAIL: error" } ∧ r2.2.1 c!"/home/a_charlist.ods" = some c!"old" := by
  refine ⟨rfl, rfl, rfl, rfl, rfl⟩

end Verif
