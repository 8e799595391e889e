/-
C67: the hypotheses can be met: archives that work, a project file in good order, a way to a manuscript and back, and to a location list and back.
-/
import Verif.Props.C67_Travel
import Verif.Props.C52_Disk
import Verif.Props.C53_Identical

namespace Verif
open Spec

/-! ### A simple archive format -/

/-- A text preceded by its length. -/
def tinyPack (s : Str) : Str := List.replicate s.length '1' ++ '0' :: s

/-- The first packed text, and what follows. -/
def tinyUnpack (a : Str) : Str × Str := ((a.drop ((a.takeWhile (· = '1')).length + 1)).take (a.takeWhile (· = '1')).length, (a.drop ((a.takeWhile (· = '1')).length + 1)).drop (a.takeWhile (· = '1')).length)

theorem tinyUnpack_pack (s r : Str) : tinyUnpack (tinyPack s ++ r) = (s, r) := by
  have h1 : (tinyPack s ++ r).takeWhile (· = '1') = List.replicate s.length '1' := by
    unfold tinyPack
    rw [List.append_assoc, List.takeWhile_append_of_pos (by intro a ha; rw [List.eq_of_mem_replicate ha]; rfl)]
    simp
  have h2 : (tinyPack s ++ r).drop (s.length + 1) = s ++ r := by
    unfold tinyPack
    rw [List.append_assoc, List.drop_append]
    simp
  unfold tinyUnpack
  rw [h1, List.length_replicate, h2]
  simp

/-- Search for an entry. -/
def tinyFind (name : Str) : Nat → Str → Option Str
  | 0, _ => none
  | k + 1, a => if (tinyUnpack a).1 = name then some (tinyUnpack (tinyUnpack a).2).1 else tinyFind name k (tinyUnpack (tinyUnpack a).2).2

/-- An archive is the list of its entries. -/
def tinyZip : ZipFormat := ⟨fun n c => tinyPack n ++ tinyPack c, fun _ => []⟩

def tinyUnzip (a name : Str) : Option Str := tinyFind name a.length a

theorem tinyFind_mem : ∀ (l : List (Str × Str)) (k : Nat), l.length ≤ k → (l.map (·.1)).Nodup → ∀ p ∈ l,
    tinyFind p.1 k (l.map fun e => tinyZip.entry e.1 e.2).flatten = some p.2
  | [], _, _, _, p, hp => by cases hp
  | _ :: _, 0, hk, _, _, _ => absurd hk (by simp)
  | e :: l, k + 1, hk, hn, p, hp => by
    rw [List.map_cons, List.nodup_cons] at hn
    have e1 : tinyUnpack ((e :: l).map fun e => tinyZip.entry e.1 e.2).flatten = (e.1, tinyPack e.2 ++ (l.map fun e => tinyZip.entry e.1 e.2).flatten) := by
      rw [List.map_cons, List.flatten_cons]
      show tinyUnpack ((tinyPack e.1 ++ tinyPack e.2) ++ _) = _
      rw [List.append_assoc, tinyUnpack_pack]
    unfold tinyFind
    rw [e1]
    dsimp only
    rw [tinyUnpack_pack]
    dsimp only
    rcases List.mem_cons.1 hp with rfl | hp
    · rw [if_pos rfl]
    · rw [if_neg (fun h => hn.1 (List.mem_map.2 ⟨p, hp, h.symm⟩))]
      exact tinyFind_mem l k (by simpa using hk) hn.2 p hp

theorem tinyZip_length (l : List (Str × Str)) : l.length ≤ (l.map fun e => tinyZip.entry e.1 e.2).flatten.length := by
  induction l with
  | nil => exact Nat.zero_le _
  | cons e l ih =>
    rw [List.map_cons, List.flatten_cons, List.length_append]
    have : 1 ≤ (tinyZip.entry e.1 e.2).length := by
      show 1 ≤ (tinyPack e.1 ++ tinyPack e.2).length
      unfold tinyPack
      simp only [List.length_append, List.length_cons]
      omega
    rw [List.length_cons]
    omega

theorem tinyZip_works : ArchivesWork tinyZip tinyUnzip := by
  intro l hn p hp
  show tinyFind p.1 _ _ = _
  rw [show tinyZip.directory (l.map (·.1)) = [] from rfl, List.append_nil]
  exact tinyFind_mem l _ (tinyZip_length l) hn p hp

/-! ### A machine and a project -/

/-- A machine. -/
def tinyMachine : Machine where
  lib := exLib
  sysLng := c!"en"
  sysCtr := c!"GB"
  now := c!"2020-01-01T12:00:00"
  name := c!"novel"
  path := c!"/home/a"
  zip := tinyZip
  unzip := tinyUnzip
  confirm := fun _ => true
  describe := fun _ => c!"x"
  dir := c!"/tmp/odf"

theorem tiny_good {s : Str} {z : Elem} (h1 : loadFile exLib s = some (z, stPrj)) (h2 : RegularTree z.kids) (h3 : KeepableTree z) : GoodFile tinyMachine s z stPrj :=
  ⟨h1, h2, h3, st_settled, st_storable, simple_of (by decide), simple_of (by decide)⟩

/-- A disk with the project file. -/
def tinyDisk (s : Str) : FS := fun p => if p = c!"/home/a/novel.yw7" then some s else none

theorem tiny_departure (c : DocClass) (hc : c ∈ importSources) (hf : ∀ x, c.suffix = some x → ¬ x <:+: c!"/home/a/novel") (s : Str) :
    Departure tinyMachine c c!"/home/a/novel" s (tinyDisk s) where
  type := hc
  named := ⟨c!"/home/a", c!"novel", .inr rfl, by decide, 'n', by decide, by decide⟩
  slashes := by decide
  free := hf
  outside := by
    intro e h
    obtain ⟨t, ht⟩ := h
    have ht : c!"/tmp/odf" ++ ['/'] ++ t = c!"/home/a/novel" ++ e := ht
    have := congrArg (List.take 2) ht
    simp at this
  here := rfl
  unlocked := rfl
  consent := fun _ => rfl
  archives := tinyZip_works

theorem tiny_metadata : MetadataFit tinyMachine.now (tinyMachine.sysLng, tinyMachine.sysCtr) stPrj where
  time := by unfold Insertable; decide
  title := by unfold Insertable; decide
  author := by unfold Insertable; decide
  desc := by unfold SectionText; exact ⟨by decide, by decide⟩
  language := by unfold CodeText; decide
  country := by unfold CodeText; decide

theorem tiny_status : KnownStatus stPrj := by
  intro id hid s hs
  have : narrative stPrj = [c!"3", c!"1", c!"2"] := by decide
  rw [this] at hid
  simp only [List.mem_cons, List.not_mem_nil, or_false] at hid
  rcases hid with rfl | rfl | rfl <;> cases hs
  · exact ⟨1, by decide, rfl⟩
  · exact ⟨2, by decide, rfl⟩
  · exact ⟨1, by decide, rfl⟩

theorem tiny_fits : ManuscriptFits stPrj stPrj where
  languages l hl := by
    have : l = c!"de-DE" := by simpa [stPrj] using hl
    subst this
    exact ⟨c!"de", c!"DE", by decide⟩
  distinct := by decide
  author := by unfold AuthorOk; decide
  title t ht := by cases ht; unfold Carriable; decide
  chapters id hid ch hch hs := by
    simp only [stPrj, List.mem_cons, List.not_mem_nil, or_false] at hid
    rcases hid with rfl | rfl
    · cases hch; exact absurd hs (by decide)
    · cases hch
      exact ⟨⟨⟨by decide, by unfold Digit; decide⟩, by intro t ht; cases ht; unfold Carriable; decide⟩, ⟨_, rfl, rfl⟩⟩
  scenes p hp := by
    have : exported stPrj stPrj.srtChapters = [(c!"1", stScene1)] := by decide
    rw [this] at hp
    simp only [List.mem_cons, List.not_mem_nil, or_false] at hp
    subst hp
    refine ⟨⟨⟨by decide, by unfold Digit; decide⟩, by intro t ht; cases ht; unfold Carriable; decide, ⟨c!"a <b> & c".map Piece.ch, rfl, ?_⟩⟩, ⟨_, rfl⟩⟩
    refine flowing_of ?_ (by simp only [List.map, Neighbours]; decide) (by decide) (by decide +kernel)
    intro p hp
    simp only [List.map, List.mem_cons, List.not_mem_nil, or_false] at hp
    rcases hp with rfl | rfl | rfl | rfl | rfl | rfl | rfl | rfl | rfl <;> (unfold Piece.Ok; decide)

theorem tiny_back {s : Str} {z : Elem} (g : GoodFile tinyMachine s z stPrj) : ComesBack tinyMachine (odt c!"_manuscript") c!"/home/a/novel" s stPrj (tinyDisk s) ∧
    ComesBack tinyMachine (ods c!"_loclist") c!"/home/a/novel" s stPrj (tinyDisk s) := by
  refine ⟨C67_manuscript_partial (tiny_departure _ (by decide) (by intro x hx; cases hx; decide) s) g tiny_metadata (by decide) tiny_status tiny_fits ?_ ?_,
    C67_loclist_partial (tiny_departure _ (by decide) (by intro x hx; cases hx; decide) s) g tiny_status ?_ ?_⟩
  · intro p hp
    have : exported stPrj stPrj.srtChapters = [(c!"1", stScene1)] := by decide
    rw [this] at hp
    simp only [List.mem_cons, List.not_mem_nil, or_false] at hp
    subst hp
    rfl
  · intro s hs
    have : narrative stPrj = [c!"3", c!"1", c!"2"] := by decide
    rw [this] at hs
    simp only [List.mem_cons, List.not_mem_nil, or_false] at hs
    rcases hs with rfl | rfl | rfl <;> decide
  · intro id hid
    have : id = c!"7" := by simpa [stPrj] using hid
    subst this
    exact ⟨by decide, by unfold Digit; decide⟩
  · intro id hid w hw
    have : id = c!"7" := by simpa [stPrj] using hid
    subst this
    cases hw
    refine ⟨?_, ?_⟩
    · refine ⟨?_, trivial, trivial, by intro t ht; cases ht⟩
      unfold CarriableO Carriable
      decide
    · exact ⟨(by intro t ht; cases ht; decide), (by intro t ht; cases ht), (by intro t ht; cases ht), (by intro t ht; cases ht)⟩

/-- The project file is exported to a manuscript and to a location list, and comes back from both. -/
theorem tiny_travels : ∃ s, ComesBack tinyMachine (odt c!"_manuscript") c!"/home/a/novel" s stPrj (tinyDisk s) ∧
    ComesBack tinyMachine (ods c!"_loclist") c!"/home/a/novel" s stPrj (tinyDisk s) := by
  obtain ⟨s, z, _, h2, h3, h4⟩ := st_file
  exact ⟨s, tiny_back (tiny_good h2 h3 h4)⟩

/-- And if it has been saved twice before, it comes back as it was. -/
theorem tiny_same : ∃ s, loadFile exLib s ≠ none ∧ (run tinyMachine.program yw7Converter c!"/home/a/novel_manuscript.odt" none
    (run tinyMachine.program yw7Converter c!"/home/a/novel.yw7" (some c!"_manuscript") (tinyDisk s) []).2.1 []).2.1 c!"/home/a/novel.yw7" = some s := by
  obtain ⟨s, z, h1, h2, h3, h4⟩ := st_file
  obtain ⟨s0, s', k1, k2, k3⟩ := st_identical
  rw [h1] at k1
  injection k1 with k1
  subst k1
  obtain ⟨s1, z1, a1, a2, a3, a4⟩ := C52_resaved_partial exLib c!"de" c!"DE" s z stPrj h2 h3 h4 st_settled st_storable (simple_of (by decide)) (simple_of (by decide))
  rw [a1] at k2
  injection k2 with k2
  subst k2
  have h5 : resaved exLib c!"en" c!"GB" s1 = some s1 := by
    have := k3 [(c!"en", c!"GB")]
    simp only [resavedAll] at this
    cases h : resaved exLib c!"en" c!"GB" s1 with
    | none => rw [h] at this; cases this
    | some u => rw [h] at this; exact this
  exact ⟨s1, by rw [a2]; simp, C67_same_file (c := odt c!"_manuscript") (tiny_back (tiny_good a2 a3 a4)).1 h5⟩

end Verif
