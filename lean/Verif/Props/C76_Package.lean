/-
C76: every written document is an OpenDocument package in order.
-/
import Verif.Spec.Package
import Verif.Props.C67_Example

namespace Verif
open Prog Spec Path XNode

/-! ### The constant files -/

set_option maxRecDepth 1000000 in
theorem odtManifest_facts : ∃ root, parseDoc odtManifestXml = some root ∧ isTag c!"manifest:manifest" root = true ∧
    manifestParts root = [(c!"/", c!"application/vnd.oasis.opendocument.text"), (c!"content.xml", c!"application/xml"),
      (c!"manifest.rdf", c!"application/rdf+xml"), (c!"styles.xml", c!"application/xml"), (c!"meta.xml", c!"application/xml"),
      (c!"settings.xml", c!"application/xml")] := by
  refine ⟨(parseDoc odtManifestXml).getD (.text []), ?_, by decide +kernel, by decide +kernel⟩
  have : (parseDoc odtManifestXml).isSome = true := by decide +kernel
  obtain ⟨r, hr⟩ := Option.isSome_iff_exists.1 this
  rw [hr]; rfl

set_option maxRecDepth 1000000 in
theorem odsManifest_facts : ∃ root, parseDoc odsManifestXml = some root ∧ isTag c!"manifest:manifest" root = true ∧
    manifestParts root = [(c!"/", c!"application/vnd.oasis.opendocument.spreadsheet"), (c!"content.xml", c!"text/xml"),
      (c!"styles.xml", c!"text/xml"), (c!"meta.xml", c!"text/xml"), (c!"settings.xml", c!"text/xml")] := by
  refine ⟨(parseDoc odsManifestXml).getD (.text []), ?_, by decide +kernel, by decide +kernel⟩
  have : (parseDoc odsManifestXml).isSome = true := by decide +kernel
  obtain ⟨r, hr⟩ := Option.isSome_iff_exists.1 this
  rw [hr]; rfl

theorem odt_manifestOf {root : XNode} (h1 : isTag c!"manifest:manifest" root = true)
    (h2 : manifestParts root = [(c!"/", c!"application/vnd.oasis.opendocument.text"), (c!"content.xml", c!"application/xml"),
      (c!"manifest.rdf", c!"application/rdf+xml"), (c!"styles.xml", c!"application/xml"), (c!"meta.xml", c!"application/xml"),
      (c!"settings.xml", c!"application/xml")]) : ManifestOf (mediaType c!".odt") odtComponents root where
  tag := h1
  document := by rw [h2]; decide
  once := by rw [h2]; decide
  lists := by
    intro f
    rw [h2]
    constructor
    · intro h
      have : ∀ f ∈ [c!"/", c!"content.xml", c!"manifest.rdf", c!"styles.xml", c!"meta.xml", c!"settings.xml"],
          f = c!"/" ∨ (f ∈ odtComponents ∧ f ≠ c!"mimetype" ∧ ¬ c!"META-INF/" <+: f) := by decide
      exact this f h
    · rintro (rfl | ⟨h, h3, h4⟩)
      · decide
      · have : ∀ f ∈ odtComponents, f ≠ c!"mimetype" → ¬ c!"META-INF/" <+: f →
            f ∈ [c!"/", c!"content.xml", c!"manifest.rdf", c!"styles.xml", c!"meta.xml", c!"settings.xml"] := by decide
        exact this f h h3 h4

theorem ods_manifestOf {root : XNode} (h1 : isTag c!"manifest:manifest" root = true)
    (h2 : manifestParts root = [(c!"/", c!"application/vnd.oasis.opendocument.spreadsheet"), (c!"content.xml", c!"text/xml"),
      (c!"styles.xml", c!"text/xml"), (c!"meta.xml", c!"text/xml"), (c!"settings.xml", c!"text/xml")]) :
    ManifestOf (mediaType c!".ods") odsComponents root where
  tag := h1
  document := by rw [h2]; decide
  once := by rw [h2]; decide
  lists := by
    intro f
    rw [h2]
    constructor
    · intro h
      have : ∀ f ∈ [c!"/", c!"content.xml", c!"styles.xml", c!"meta.xml", c!"settings.xml"],
          f = c!"/" ∨ (f ∈ odsComponents ∧ f ≠ c!"mimetype" ∧ ¬ c!"META-INF/" <+: f) := by decide
      exact this f h
    · rintro (rfl | ⟨h, h3, h4⟩)
      · decide
      · have : ∀ f ∈ odsComponents, f ≠ c!"mimetype" → ¬ c!"META-INF/" <+: f →
            f ∈ [c!"/", c!"content.xml", c!"styles.xml", c!"meta.xml", c!"settings.xml"] := by decide
        exact this f h h3 h4

/-! ### The package -/

/-- What is read from a project file. -/
theorem yw7_loaded (w : Machine) {s : Str} {m n : Option Elem × Novel} {b : Bool} (h : w.program.parse yw7Class s m = .ok (n, b)) :
    ∃ x, loadFile w.lib s = some (x, n.2) := by
  have h : w.parse yw7Class s m = .ok (n, b) := h
  unfold Machine.parse at h
  rw [if_pos rfl] at h
  unfold Machine.readYw7 at h
  unfold loadFile
  cases hx : parseXml (parserInput s) with
  | none => rw [hx] at h; cases h
  | some x =>
    rw [hx] at h
    simp only [Machine.need, Bind.bind, Except.bind] at h ⊢
    cases hr : readTree w.lib x with
    | error e => rw [hr] at h; cases h
    | ok k =>
      rw [hr] at h
      simp only [Except.ok.injEq, Prod.mk.injEq] at h
      obtain ⟨rfl, _⟩ := h
      exact ⟨x, rfl⟩

/-- What a conversion to a document leaves: the archive, and what is in it. -/
theorem run_document (w : Machine) (cfg : Config) (hcfg : IsConverter cfg) (path : Str) (suffix : Option Str) (fs : FS) (faults : List Fault)
    (hdir : ¬ InDir w.dir (slashes path)) (o : Outcome) (ho : (run w.program cfg path suffix fs faults).1 = .ok o) (p : Str) (hp : o.newFile = some p)
    (hy : ¬ c!".yw7" <:+ p) :
    ∃ c ∈ exportTargets, c.ending <:+ p ∧ ∃ x n t a, (∃ s, fs (slashes path) = some s ∧ loadFile w.lib s = some (x, n)) ∧ w.content c n = .ok t ∧
      Archive w.zip.entry (w.otherFiles c n ++ [(c!"content.xml", t)]) (w.program.comps c) a ∧
      (run w.program cfg path suffix fs faults).2.1 p = some (a ++ w.zip.directory (w.program.comps c)) := by
  cases run_spec w.program cfg path suffix fs faults hcfg.targets hcfg.sources w.complete hdir with
  | nothing _ h1 => rw [(h1 o ho).1] at hp; cases hp
  | converted s t sp tp b G hs hsp ht hk hB hG _ h1 =>
    rcases h1 o ho with ⟨h2, h3, _⟩ | ⟨h2, _⟩
    · rw [h3] at hp
      injection hp with hp
      subst hp
      rcases hk with ⟨⟨h3', he⟩, hc, _⟩ | ⟨_, _, h4, _⟩
      · rcases hG _ h2 with ⟨text, n, hf, hpar, hC⟩ | ⟨h5, _⟩
        · rcases hC with ⟨h5, _⟩ | ⟨_, f, tx, a, h6, h7, h8, h9⟩
          · exact absurd h5 (targets_plain _ hc).2.2.1
          · have h6 : (Except.ok (w.otherFiles t.cls n.1.2) : Except Exc OdfFiles) = .ok f := h6
            injection h6 with h6
            subst h6
            rw [ht] at h9
            rw [hs] at hf
            rw [h3'] at hpar
            obtain ⟨x, hx⟩ := yw7_loaded w hpar
            exact ⟨t.cls, hc, he, x, n.1.2, tx, a, ⟨text, hsp ▸ hf, hx⟩, h7, h8, h9⟩
        · exact absurd h5 (targets_plain _ hc).2.2.1
      · exact absurd h4 hy
    · rw [h2] at hp; cases hp

/-- The classes of documents are text documents and spreadsheets. -/
theorem targets_ext : ∀ c ∈ exportTargets, c.ext = c!".odt" ∨ c.ext = c!".ods" := by decide

/-- The archive is a package in order. -/
theorem package_of (w : Machine) (hz : ArchivesWork w.zip w.unzip) (c : DocClass) (hc : c.ext = c!".odt" ∨ c.ext = c!".ods") (n : Novel) (t a : Str)
    (ha : Archive w.zip.entry (w.otherFiles c n ++ [(c!"content.xml", t)]) (w.program.comps c) a) :
    Package (mediaType c.ext) (w.program.comps c) (w.unzip (a ++ w.zip.directory (w.program.comps c))) := by
  have get : ∀ {name t'}, name ∈ w.program.comps c → (name, t') ∈ w.otherFiles c n ++ [(c!"content.xml", t)] → w.unzip (a ++ w.zip.directory (w.program.comps c)) name = some t' :=
    fun h1 h2 => unzip_archive hz ha (w.files_nodup c (none, n) t) (w.comps_nodup c) h1 h2
  have all : ∀ f ∈ w.program.comps c, ∃ t', (f, t') ∈ w.otherFiles c n ++ [(c!"content.xml", t)] := by
    intro f hf
    obtain ⟨_, _, h3, _⟩ := w.complete c (none, n) _ rfl
    rcases hc with hc | hc
    · have e1 : w.program.comps c = odtComponents := if_pos hc
      have e2 : w.otherFiles c n = odtFiles odtMimetype odtSettingsXml odtManifestXml (stylesText odtStylesXml w.sysLng w.sysCtr n) (metaText w.now n) odtManifestRdf := if_pos hc
      rw [e1] at hf
      rw [e2]
      have : ∀ f ∈ odtComponents, f ∈ [c!"mimetype", c!"settings.xml", c!"META-INF/manifest.xml", c!"styles.xml", c!"meta.xml", c!"manifest.rdf", c!"content.xml"] := by decide
      have := this f hf
      have e3 : (odtFiles odtMimetype odtSettingsXml odtManifestXml (stylesText odtStylesXml w.sysLng w.sysCtr n) (metaText w.now n) odtManifestRdf ++ [(c!"content.xml", t)]).map (·.1) =
          [c!"mimetype", c!"settings.xml", c!"META-INF/manifest.xml", c!"styles.xml", c!"meta.xml", c!"manifest.rdf", c!"content.xml"] := rfl
      rw [← e3] at this
      obtain ⟨x, hx, rfl⟩ := List.mem_map.1 this
      exact ⟨x.2, hx⟩
    · have hno : c.ext ≠ c!".odt" := by rw [hc]; decide
      have e1 : w.program.comps c = odsComponents := if_neg hno
      have e2 : w.otherFiles c n = odsFiles odsMimetype odsSettingsXml odsManifestXml (stylesText odsStylesXml w.sysLng w.sysCtr n) (metaText w.now n) := if_neg hno
      rw [e1] at hf
      rw [e2]
      have : ∀ f ∈ odsComponents, f ∈ [c!"mimetype", c!"settings.xml", c!"META-INF/manifest.xml", c!"styles.xml", c!"meta.xml", c!"content.xml"] := by decide
      have := this f hf
      have e3 : (odsFiles odsMimetype odsSettingsXml odsManifestXml (stylesText odsStylesXml w.sysLng w.sysCtr n) (metaText w.now n) ++ [(c!"content.xml", t)]).map (·.1) =
          [c!"mimetype", c!"settings.xml", c!"META-INF/manifest.xml", c!"styles.xml", c!"meta.xml", c!"content.xml"] := rfl
      rw [← e3] at this
      obtain ⟨x, hx, rfl⟩ := List.mem_map.1 this
      exact ⟨x.2, hx⟩
  rcases hc with hc | hc
  · have e1 : w.program.comps c = odtComponents := if_pos hc
    have e2 : w.otherFiles c n = odtFiles odtMimetype odtSettingsXml odtManifestXml (stylesText odtStylesXml w.sysLng w.sysCtr n) (metaText w.now n) odtManifestRdf := if_pos hc
    obtain ⟨root, h1, h2, h3⟩ := odtManifest_facts
    rw [hc]
    refine ⟨fun f hf => ?_, w.comps_nodup c, ?_, ?_, ?_⟩
    · obtain ⟨t', ht'⟩ := all f hf
      exact ⟨t', get hf ht'⟩
    · rw [e1]; decide
    · exact ⟨by rw [e1]; decide, get (by rw [e1]; decide) (by rw [e2]; exact List.mem_cons_self ..)⟩
    · refine ⟨by rw [e1]; decide, _, root, get (by rw [e1]; decide) ?_, h1, ?_⟩
      · rw [e2]; exact List.mem_cons_of_mem _ (List.mem_cons_of_mem _ (List.mem_cons_self ..))
      · rw [e1]; exact odt_manifestOf h2 h3
  · have hno : c.ext ≠ c!".odt" := by rw [hc]; decide
    have e1 : w.program.comps c = odsComponents := if_neg hno
    have e2 : w.otherFiles c n = odsFiles odsMimetype odsSettingsXml odsManifestXml (stylesText odsStylesXml w.sysLng w.sysCtr n) (metaText w.now n) := if_neg hno
    obtain ⟨root, h1, h2, h3⟩ := odsManifest_facts
    rw [hc]
    refine ⟨fun f hf => ?_, w.comps_nodup c, ?_, ?_, ?_⟩
    · obtain ⟨t', ht'⟩ := all f hf
      exact ⟨t', get hf ht'⟩
    · rw [e1]; decide
    · exact ⟨by rw [e1]; decide, get (by rw [e1]; decide) (by rw [e2]; exact List.mem_cons_self ..)⟩
    · refine ⟨by rw [e1]; decide, _, root, get (by rw [e1]; decide) ?_, h1, ?_⟩
      · rw [e2]; exact List.mem_cons_of_mem _ (List.mem_cons_of_mem _ (List.mem_cons_self ..))
      · rw [e1]; exact ods_manifestOf h2 h3

/-- The document `p` that a run of a converter reports: the ending, the files of the package, and what is in them. -/
theorem document_files (w : Machine) (hz : ArchivesWork w.zip w.unzip) (cfg : Config) (hcfg : IsConverter cfg) (path : Str) (suffix : Option Str) (fs : FS) (faults : List Fault)
    (hdir : ¬ InDir w.dir (slashes path)) (o : Outcome) (ho : (run w.program cfg path suffix fs faults).1 = .ok o) (p : Str) (hp : o.newFile = some p)
    (hy : ¬ c!".yw7" <:+ p) :
    ∃ c ∈ exportTargets, ∃ n t bytes, (∃ s x, fs (slashes path) = some s ∧ loadFile w.lib s = some (x, n)) ∧ c.ending <:+ p ∧ (run w.program cfg path suffix fs faults).2.1 p = some bytes ∧
      Package (mediaType c.ext) (w.program.comps c) (w.unzip bytes) ∧ w.content c n = .ok t ∧ w.unzip bytes c!"content.xml" = some t ∧
      w.unzip bytes c!"meta.xml" = some (metaText w.now n) ∧
      (c.ext = c!".odt" → w.unzip bytes c!"styles.xml" = some (stylesText odtStylesXml w.sysLng w.sysCtr n) ∧
        w.unzip bytes c!"settings.xml" = some odtSettingsXml ∧ w.unzip bytes c!"manifest.rdf" = some odtManifestRdf) ∧
      (c.ext = c!".ods" → w.unzip bytes c!"styles.xml" = some (stylesText odsStylesXml w.sysLng w.sysCtr n) ∧
        w.unzip bytes c!"settings.xml" = some odsSettingsXml) ∧
      ∃ x r, bytes = w.zip.entry (if c.ext = c!".odt" then c!"manifest.rdf" else c!"content.xml") x ++ r := by
  obtain ⟨c, hc, he, x, n, t, a, ⟨s, hs1, hs2⟩, h1, h2, h3⟩ := run_document w cfg hcfg path suffix fs faults hdir o ho p hp hy
  have get : ∀ {name t'}, name ∈ w.program.comps c → (name, t') ∈ w.otherFiles c n ++ [(c!"content.xml", t)] → w.unzip (a ++ w.zip.directory (w.program.comps c)) name = some t' :=
    fun h4 h5 => unzip_archive hz h2 (w.files_nodup c (none, n) t) (w.comps_nodup c) h4 h5
  refine ⟨c, hc, n, t, _, ⟨s, x, hs1, hs2⟩, he, h3, package_of w hz c (targets_ext c hc) n t a h2, h1, ?_⟩
  have hx := targets_ext c hc
  by_cases hx1 : c.ext = c!".odt"
  · have e1 : w.program.comps c = odtComponents := if_pos hx1
    have e2 : w.otherFiles c n = odtFiles odtMimetype odtSettingsXml odtManifestXml (stylesText odtStylesXml w.sysLng w.sysCtr n) (metaText w.now n) odtManifestRdf := if_pos hx1
    refine ⟨get (by rw [e1]; decide) (by simp), get (by rw [e1]; decide) (by rw [e2]; simp [odtFiles, odsFiles]), fun _ => ⟨get (by rw [e1]; decide) (by rw [e2]; simp [odtFiles, odsFiles]),
      get (by rw [e1]; decide) (by rw [e2]; simp [odtFiles, odsFiles]), get (by rw [e1]; decide) (by rw [e2]; simp [odtFiles, odsFiles])⟩, ?_, ?_⟩
    · intro h'; rw [h'] at hx1; exact absurd hx1 (by decide)
    · rw [e1] at h2 ⊢
      obtain ⟨x, r, _, h5, _⟩ := h2
      rw [if_pos hx1, h5, List.append_assoc]
      exact ⟨x, _, rfl⟩
  · have hx2 : c.ext = c!".ods" := hx.resolve_left hx1
    have e1 : w.program.comps c = odsComponents := if_neg hx1
    have e2 : w.otherFiles c n = odsFiles odsMimetype odsSettingsXml odsManifestXml (stylesText odsStylesXml w.sysLng w.sysCtr n) (metaText w.now n) := if_neg hx1
    refine ⟨get (by rw [e1]; decide) (by simp), get (by rw [e1]; decide) (by rw [e2]; simp [odsFiles]), fun h' => absurd h' hx1, fun _ => ⟨get (by rw [e1]; decide) (by rw [e2]; simp [odsFiles]),
      get (by rw [e1]; decide) (by rw [e2]; simp [odsFiles])⟩, ?_⟩
    rw [e1] at h2 ⊢
    obtain ⟨x, r, _, h5, _⟩ := h2
    rw [if_neg hx1, h5, List.append_assoc]
    exact ⟨x, _, rfl⟩

variable (w : Machine) (hz : ArchivesWork w.zip w.unzip) (cfg : Config) (hcfg : IsConverter cfg) (path : Str) (suffix : Option Str) (fs : FS) (faults : List Fault)
  (hdir : ¬ InDir w.dir (slashes path)) (o : Outcome) (ho : (run w.program cfg path suffix fs faults).1 = .ok o) (p : Str) (hp : o.newFile = some p)
  (hy : ¬ c!".yw7" <:+ p)

include hz hcfg hdir ho hp hy

/-- **C76, packages**: whenever a converter reports that it has written a document - a text document or a spreadsheet, whatever its suffix is, and
whatever step may have failed - the file is an OpenDocument package in order. -/
theorem C76_package : ∃ ext bytes files, (ext = c!".odt" ∨ ext = c!".ods") ∧ ext <:+ p ∧ (run w.program cfg path suffix fs faults).2.1 p = some bytes ∧
    Package (mediaType ext) files (w.unzip bytes) := by
  obtain ⟨c, hc, n, t, bytes, hsrc, h1, h2, h3, _⟩ := document_files w hz cfg hcfg path suffix fs faults hdir o ho p hp hy
  exact ⟨c.ext, bytes, _, targets_ext c hc, List.IsSuffix.trans ⟨_, rfl⟩ h1, h2, h3⟩

set_option maxRecDepth 1000000 in
omit hz hcfg hdir ho hp hy in
theorem settings_facts : ((parseDoc odtSettingsXml).any (isTag c!"office:document-settings") = true ∧
    (parseDoc odsSettingsXml).any (isTag c!"office:document-settings") = true) ∧
    ((parseDoc odsSettingsXml).any fun r => decide ((c!"Language", c!"$Language") ∈ configItems [r] ∧ (c!"Country", c!"$Country") ∈ configItems [r])) = true := by
  decide +kernel

/-- **C76, settings**: the settings of every written document are a well-formed settings file; those of a spreadsheet contain place holders of a
template that are never filled. -/
theorem C76_settings : ∃ bytes text root, (run w.program cfg path suffix fs faults).2.1 p = some bytes ∧ w.unzip bytes c!"settings.xml" = some text ∧
    parseDoc text = some root ∧ isTag c!"office:document-settings" root = true ∧
    (c!".ods" <:+ p → (c!"Language", c!"$Language") ∈ configItems [root] ∧ (c!"Country", c!"$Country") ∈ configItems [root]) := by
  obtain ⟨c, hc, n, t, bytes, hsrc, h1, h2, _, _, _, _, h7, h8, _⟩ := document_files w hz cfg hcfg path suffix fs faults hdir o ho p hp hy
  obtain ⟨⟨f1, f2⟩, f3⟩ := settings_facts
  rcases targets_ext c hc with hx | hx
  · rw [Option.any_eq_true] at f1
    obtain ⟨root, f4, f5⟩ := f1
    refine ⟨bytes, _, root, h2, (h7 hx).2.1, f4, f5, fun h' => ?_⟩
    have h1 : c.ext <:+ p := List.IsSuffix.trans ⟨_, rfl⟩ h1
    rw [hx] at h1
    exact (not_both h1 h' (by decide) rfl).elim
  · rw [Option.any_eq_true] at f2 f3
    obtain ⟨root, f4, f5⟩ := f2
    obtain ⟨root', f6, f7⟩ := f3
    rw [f4] at f6
    injection f6 with f6
    subst f6
    exact ⟨bytes, _, root, h2, (h8 hx).2, f4, f5, fun _ => of_decide_eq_true f7⟩

set_option maxRecDepth 1000000 in
omit hz hcfg hdir ho hp hy in
theorem rdf_facts : ((parseDoc odtManifestRdf).any fun r => decide (statements r =
    [(c!"styles.xml", c!"rdf:type", c!"http://docs.oasis-open.org/ns/office/1.2/meta/odf#StylesFile"), ([], c!"ns0:hasPart", c!"styles.xml"),
     (c!"content.xml", c!"rdf:type", c!"http://docs.oasis-open.org/ns/office/1.2/meta/odf#ContentFile"), ([], c!"ns0:hasPart", c!"content.xml"),
     ([], c!"rdf:type", c!"http://docs.oasis-open.org/ns/office/1.2/meta/pkg#Document")])) = true := by
  decide +kernel

/-- **C76, RDF metadata**: a text document says which of its files are the content and the styles. -/
theorem C76_rdf (hodt : c!".odt" <:+ p) : ∃ bytes text root, (run w.program cfg path suffix fs faults).2.1 p = some bytes ∧
    w.unzip bytes c!"manifest.rdf" = some text ∧ parseDoc text = some root ∧ statements root =
    [(c!"styles.xml", c!"rdf:type", c!"http://docs.oasis-open.org/ns/office/1.2/meta/odf#StylesFile"), ([], c!"ns0:hasPart", c!"styles.xml"),
     (c!"content.xml", c!"rdf:type", c!"http://docs.oasis-open.org/ns/office/1.2/meta/odf#ContentFile"), ([], c!"ns0:hasPart", c!"content.xml"),
     ([], c!"rdf:type", c!"http://docs.oasis-open.org/ns/office/1.2/meta/pkg#Document")] := by
  obtain ⟨c, hc, n, t, bytes, hsrc, h1, h2, _, _, _, _, h7, _⟩ := document_files w hz cfg hcfg path suffix fs faults hdir o ho p hp hy
  have f := rdf_facts
  rw [Option.any_eq_true] at f
  obtain ⟨root, f4, f5⟩ := f
  rcases targets_ext c hc with hx | hx
  · exact ⟨bytes, _, root, h2, (h7 hx).2.2, f4, of_decide_eq_true f5⟩
  · have h1 : c.ext <:+ p := List.IsSuffix.trans ⟨_, rfl⟩ h1
    rw [hx] at h1
    exact (not_both h1 hodt (by decide) rfl).elim

/-- **C76, well-formed**: a written document shows what was read from the project file. If its metadata and language can be inserted as they are, and the
content of the document is well-formed (C31), then every XML file in the document is well-formed. -/
theorem C76_wellformed_partial : ∃ bytes c s x n t, (run w.program cfg path suffix fs faults).2.1 p = some bytes ∧ fs (slashes path) = some s ∧
    loadFile w.lib s = some (x, n) ∧ c.ending <:+ p ∧ w.content c n = .ok t ∧ (MetadataFit w.now (w.sysLng, w.sysCtr) n → WellFormed t →
      ∀ f, f ∈ [c!"content.xml", c!"styles.xml", c!"meta.xml", c!"settings.xml", c!"META-INF/manifest.xml"] ∨ (c!".odt" <:+ p ∧ f = c!"manifest.rdf") →
        ∃ text, w.unzip bytes f = some text ∧ WellFormed text) := by
  obtain ⟨c, hc, n, t, bytes, ⟨s, x, hs1, hs2⟩, h1, h2, h3, h4, h5, h6, h7, h8, _⟩ := document_files w hz cfg hcfg path suffix fs faults hdir o ho p hp hy
  refine ⟨bytes, c, s, x, n, t, h2, hs1, hs2, h1, h4, fun hm hw => ?_⟩
  obtain ⟨⟨f1, f2⟩, _⟩ := settings_facts
  have odt_or : ∀ {e}, c.ext = e → e <:+ p := fun h => h ▸ List.IsSuffix.trans ⟨_, rfl⟩ h1
  have f3 := rdf_facts
  rw [Option.any_eq_true] at f1 f2 f3
  obtain ⟨mt, mr, m1, m2, _⟩ := h3.manifest.2
  rintro f (hf | ⟨hf1, rfl⟩)
  · simp only [List.mem_cons, List.not_mem_nil, or_false] at hf
    rcases hf with rfl | rfl | rfl | rfl | rfl
    · exact ⟨t, h5, hw⟩
    · rcases targets_ext c hc with hx | hx
      · exact ⟨_, (h7 hx).1, Or.inl ⟨_, w.styles_parses hm⟩⟩
      · refine ⟨_, (h8 hx).1, Or.inl ?_⟩
        obtain ⟨r, hr, _⟩ := C64_ods_styles_partial n w.sysLng w.sysCtr hm.language hm.country
        exact ⟨r, hr⟩
    · exact ⟨_, h6, Or.inr ⟨_, w.info_parses hm⟩⟩
    · rcases targets_ext c hc with hx | hx
      · exact ⟨_, (h7 hx).2.1, Or.inl (f1.imp fun _ h => h.1)⟩
      · exact ⟨_, (h8 hx).2, Or.inl (f2.imp fun _ h => h.1)⟩
    · exact ⟨mt, m1, Or.inl ⟨mr, m2⟩⟩
  · rcases targets_ext c hc with hx | hx
    · exact ⟨_, (h7 hx).2.2, Or.inl (f3.imp fun _ h => h.1)⟩
    · exact (not_both (odt_or hx) hf1 (by decide) rfl).elim

/-- **C76, what is missing**: the media type is never the first file of a written document (which part 3, 3.3 of OpenDocument 1.2 demands, so that the
type can be recognized from the first bytes). -/
theorem C76_mimetype_not_first : ∃ first x r, first ≠ c!"mimetype" ∧ (run w.program cfg path suffix fs faults).2.1 p = some (w.zip.entry first x ++ r) := by
  obtain ⟨c, hc, n, t, bytes, hsrc, h1, h2, _, _, _, _, _, _, x, r, h9⟩ := document_files w hz cfg hcfg path suffix fs faults hdir o ho p hp hy
  refine ⟨if c.ext = c!".odt" then c!"manifest.rdf" else c!"content.xml", x, r, ?_, by rw [h2, h9]⟩
  split <;> decide

/-! ### An example -/

omit hz hcfg hdir ho hp hy in
/-- A manuscript and a spreadsheet are written by the machine of C67; both are packages in order, and the spreadsheet has unfilled place holders. -/
theorem tiny_packages : ∃ s a b, (run tinyMachine.program yw7Converter c!"/home/a/novel.yw7" (some c!"_manuscript") (tinyDisk s) []).2.1 c!"/home/a/novel_manuscript.odt" = some a ∧
    Package c!"application/vnd.oasis.opendocument.text" odtComponents (tinyUnzip a) ∧
    (run tinyMachine.program yw7Converter c!"/home/a/novel.yw7" (some c!"_loclist") (tinyDisk s) []).2.1 c!"/home/a/novel_loclist.ods" = some b ∧
    Package c!"application/vnd.oasis.opendocument.spreadsheet" odsComponents (tinyUnzip b) := by
  obtain ⟨s, h1, h2⟩ := tiny_travels
  obtain ⟨fs1, _, _, _, r1, _⟩ := h1
  obtain ⟨fs2, _, _, _, r2, _⟩ := h2
  have d : ¬ InDir tinyMachine.dir (slashes c!"/home/a/novel.yw7") := by unfold InDir; decide
  have r1 : run tinyMachine.program yw7Converter c!"/home/a/novel.yw7" (some c!"_manuscript") (tinyDisk s) [] = _ := r1
  have r2 : run tinyMachine.program yw7Converter c!"/home/a/novel.yw7" (some c!"_loclist") (tinyDisk s) [] = _ := r2
  obtain ⟨c1, k1, n1, t1, a, _, a1, a2, a3, _⟩ := document_files tinyMachine tinyZip_works yw7Converter (Or.inl rfl) _ _ _ _ d _ (by rw [r1]) c!"/home/a/novel_manuscript.odt" rfl (by decide)
  obtain ⟨c2, k2, n2, t2, b, _, b1, b2, b3, _⟩ := document_files tinyMachine tinyZip_works yw7Converter (Or.inl rfl) _ _ _ _ d _ (by rw [r2]) c!"/home/a/novel_loclist.ods" rfl (by decide)
  have x1 : c1.ext = c!".odt" := (targets_ext c1 k1).resolve_right fun h => by
    have : c1.ext <:+ c!"/home/a/novel_manuscript.odt" := List.IsSuffix.trans ⟨_, rfl⟩ a1
    rw [h] at this; exact absurd this (by decide)
  have x2 : c2.ext = c!".ods" := (targets_ext c2 k2).resolve_left fun h => by
    have : c2.ext <:+ c!"/home/a/novel_loclist.ods" := List.IsSuffix.trans ⟨_, rfl⟩ b1
    rw [h] at this; exact absurd this (by decide)
  refine ⟨s, a, b, a2, ?_, b2, ?_⟩
  · have e1 : tinyMachine.program.comps c1 = odtComponents := if_pos x1
    rw [x1, e1] at a3; exact a3
  · have e1 : tinyMachine.program.comps c2 = odsComponents := if_neg (by rw [x2]; decide)
    rw [x2, e1] at b3; exact b3

end Verif
