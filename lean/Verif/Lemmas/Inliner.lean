/-
The inliner: the loop over lines is a walk over items; the walk visits every file once.
-/
import Verif.Spec.Inliner
import Verif.Lemmas.Text3

namespace Verif
open Spec

abbrev Trace := List (Str × Item)

/-- The walk over the items of a file. -/
def walkItems (rec : Str → List Str → Except InlineErr (Trace × List Str)) (f : Str) :
    List Str → List Item → Except InlineErr (Trace × List Str)
  | done, [] => .ok ([], done)
  | done, .needs m :: r =>
    if m ∈ done then do
      let (t, d) ← walkItems rec f done r
      .ok ((f, .needs m) :: t, d)
    else do
      let (t1, d1) ← rec (moduleFile m) (done ++ [m])
      let (t2, d2) ← walkItems rec f d1 r
      .ok (t1 ++ (f, .needs m) :: t2, d2)
  | done, .std l n :: r => do
    let (t, d) ← walkItems rec f (if n ∈ done then done else done ++ [n]) r
    .ok ((f, .std l n) :: t, d)
  | done, .code l :: r => do
    let (t, d) ← walkItems rec f done r
    .ok ((f, .code l) :: t, d)

/-- The walk over the files. -/
def walk (s : Sources) : Nat → Str → List Str → Except InlineErr (Trace × List Str)
  | 0, _, _ => .error .deep
  | n + 1, f, done =>
    match s.files f with
    | none => .error (.missing f)
    | some _ => walkItems (walk s n) f done (s.items f)

theorem bindOk {ε α β : Type} {a : Except ε α} {f : α → Except ε β} {b : β} (h : (a >>= f) = .ok b) :
    ∃ v, a = .ok v ∧ f v = .ok b := by
  cases a with
  | error e => cases h
  | ok v => exact ⟨v, rfl, h⟩

/-- The loop of the program, over items. -/
def itemLoop (rec : Str → Str → List Str → Except InlineErr (Str × List Str)) :
    Str → List Str → List Item → Except InlineErr (Str × List Str)
  | text, done, [] => .ok (text, done)
  | text, done, .needs m :: r =>
    if m ∈ done then itemLoop rec text done r
    else do
      let (text', done') ← rec (moduleFile m) text (done ++ [m])
      itemLoop rec text' done' r
  | text, done, .std l n :: r =>
    if n ∈ done then itemLoop rec text done r else itemLoop rec (text ++ l) (done ++ [n]) r
  | text, done, .code l :: r => itemLoop rec (text ++ l) done r

/-- The used lines, from within a docstring or not. -/
def usedFrom (inPackage inside : Bool) (lines : List Str) : List Str :=
  let body := (lines.takeWhile fun l => !(c!"# do_not_inline").isPrefixOf l).filter fun l => !isComment l && tripled l ≠ 2
  if inPackage then (withoutDocs inside body).takeWhile fun l => !Str.contains l c!"main()" && !Str.contains l c!"__main__" else body


theorem fromGroup_infix : ∀ (r name x : Str), fromGroup name r = some x → c!" import" <:+: r := by
  intro r
  induction r with
  | nil => intro name x h; cases h
  | cons c r ih =>
    intro name x h
    unfold fromGroup at h
    split at h
    · rename_i hc
      obtain ⟨t, ht⟩ := List.isPrefixOf_iff_prefix.1 hc.2.1
      exact ⟨[], t, ht⟩
    · split at h
      · cases h
      · obtain ⟨a, b, e⟩ := ih _ _ h
        exact ⟨c :: a, b, by rw [← e]; rfl⟩

theorem lstrip_suffix (s : Str) : Str.lstrip s <:+ s := by
  unfold Str.lstrip Str.lstripBy
  exact List.dropWhile_suffix _

theorem needs_import {package packagePath line m : Str} (h : moduleNamed package packagePath line = some m) : Str.contains line c!"import" = true := by
  unfold moduleNamed at h
  split at h
  · cases h
  · rename_i name hn
    unfold fromImport at hn
    split at hn
    · obtain ⟨a, b, e⟩ := fromGroup_infix _ _ _ hn
      refine (contains_iff _ _).2 ⟨line.take 5 ++ a ++ c!" ", b, ?_⟩
      refine Eq.trans ?_ (List.take_append_drop 5 line)
      rw [← e]
      simp
    · cases hn

theorem std_import {line : Str} (h : (c!"import").isPrefixOf (Str.lstrip line) = true) : Str.contains line c!"import" = true :=
  (contains_iff _ _).2 ((List.isPrefixOf_iff_prefix.1 h).isInfix.trans (lstrip_suffix line).isInfix)

theorem inlineLoop_items (package packagePath : Str) (inPackage : Bool) (rec : Str → Str → List Str → Except InlineErr (Str × List Str)) :
    ∀ (lines : List Str) (inDoc : Bool) (text : Str) (done : List Str), (inPackage = false → inDoc = false) →
    inlineLoop package packagePath inPackage rec inDoc text done lines =
      itemLoop rec text done ((usedFrom inPackage inDoc lines).map (itemOf package packagePath)) := by
  intro lines
  induction lines with
  | nil =>
    intro inDoc text done h
    cases inPackage <;> rfl
  | cons l r ih =>
    intro inDoc text done h
    rw [inlineLoop]
    by_cases h1 : Str.startsWith l c!"# do_not_inline" = true
    · rw [if_pos h1]
      have e : usedFrom inPackage inDoc (l :: r) = [] := by
        unfold usedFrom
        rw [List.takeWhile_cons_of_neg (by simpa [Str.startsWith] using h1)]
        cases inPackage <;> rfl
      rw [e]; rfl
    rw [if_neg h1]
    have tw : ((l :: r).takeWhile fun l => !(c!"# do_not_inline").isPrefixOf l) = l :: r.takeWhile fun l => !(c!"# do_not_inline").isPrefixOf l :=
      List.takeWhile_cons_of_pos (by
        show (!Str.startsWith l c!"# do_not_inline") = true
        rw [Bool.not_eq_true'] 
        simpa using h1)
    by_cases h2 : Str.count l c!"\"\"\"" = 2
    · rw [if_pos h2, ih _ _ _ h]
      have e : usedFrom inPackage inDoc (l :: r) = usedFrom inPackage inDoc r := by
        unfold usedFrom
        rw [tw, List.filter_cons_of_neg (by simp [tripled, h2])]
      rw [e]
    rw [if_neg h2]
    by_cases h3 : (Str.startsWith (Str.lstrip l) c!"#" && !Str.startsWith (Str.lstrip l) c!"#!") = true
    · rw [if_pos h3, ih _ _ _ h]
      have e : usedFrom inPackage inDoc (l :: r) = usedFrom inPackage inDoc r := by
        unfold usedFrom
        rw [tw, List.filter_cons_of_neg (by
          have : isComment l = true := h3
          simp [this])]
      rw [e]
    rw [if_neg h3]
    have fl : ∀ x : List Str, (l :: x).filter (fun l => !isComment l && tripled l ≠ 2) = l :: x.filter (fun l => !isComment l && tripled l ≠ 2) := by
      intro x
      refine List.filter_cons_of_pos ?_
      have : isComment l = false := by simpa [Str.startsWith, isComment] using h3
      simp [this, tripled, h2]
    by_cases h4 : Str.count l c!"\"\"\"" = 1
    · rw [if_pos h4]
      have ht : tripled l = 1 := h4
      cases inPackage with
      | true =>
        rw [if_pos rfl, ih _ _ _ (by intro c; cases c)]
        have e : usedFrom true inDoc (l :: r) = usedFrom true (!inDoc) r := by
          unfold usedFrom
          rw [tw, fl, if_pos rfl, if_pos rfl, withoutDocs, if_pos ht]
        rw [e]
      | false =>
        rw [if_neg (by decide), ih _ _ _ h]
        have e : usedFrom false inDoc (l :: r) = l :: usedFrom false inDoc r := by
          unfold usedFrom
          rw [tw, fl]; rfl
        have e2 : itemOf package packagePath l = .code l := by unfold itemOf; rw [if_pos ht]
        rw [e, List.map_cons, e2]; rfl
    rw [if_neg h4]
    have ht : ¬ tripled l = 1 := h4
    by_cases h5 : inDoc = true
    · have hp : inPackage = true := by
        cases inPackage with
        | true => rfl
        | false => rw [h rfl] at h5; cases h5
      subst hp
      rw [if_pos h5, ih _ _ _ h]
      have e : usedFrom true inDoc (l :: r) = usedFrom true inDoc r := by
        unfold usedFrom
        rw [tw, fl, if_pos rfl, if_pos rfl, withoutDocs, if_neg ht, if_pos h5]
      rw [e]
    have h5' : inDoc = false := by simpa using h5
    subst h5'
    rw [if_neg h5]
    by_cases h6 : (inPackage && (Str.contains l c!"main()" || Str.contains l c!"__main__")) = true
    · rw [if_pos h6]
      have hp : inPackage = true := by cases inPackage; cases h6; rfl
      subst hp
      have e : usedFrom true false (l :: r) = [] := by
        unfold usedFrom
        rw [tw, fl, if_pos rfl, withoutDocs, if_neg ht, if_neg (by decide), List.takeWhile_cons_of_neg]
        have := h6
        simp only [Bool.true_and] at this
        cases h : Str.contains l c!"main()" with
        | true => simp
        | false => rw [h, Bool.false_or] at this; rw [this]; simp
      rw [e]; rfl
    rw [if_neg h6]
    have e : usedFrom inPackage false (l :: r) = l :: usedFrom inPackage false r := by
      unfold usedFrom
      rw [tw, fl]
      cases inPackage with
      | false => rfl
      | true =>
        rw [if_pos rfl, if_pos rfl, withoutDocs, if_neg ht, if_neg (by decide), List.takeWhile_cons_of_pos]
        simpa using h6
    rw [e, List.map_cons]
    by_cases h7 : Str.contains l c!"import" = true
    · rw [if_pos h7]
      cases hm : moduleNamed package packagePath l with
      | some m =>
        have e2 : itemOf package packagePath l = .needs m := by unfold itemOf; rw [if_neg ht, hm]
        rw [e2, itemLoop]
        show (if m ∈ done then _ else _) = _
        by_cases h8 : m ∈ done
        · rw [if_pos h8, if_pos h8, ih _ _ _ h]
        · rw [if_neg h8, if_neg h8]
          refine congrArg (fun k => Except.bind (rec (m ++ c!".py") text (done ++ [m])) k) ?_
          funext x
          obtain ⟨t, d⟩ := x
          exact ih _ _ _ h
      | none =>
        show (if Str.startsWith (Str.lstrip l) c!"import" = true then _ else _) = _
        by_cases h9 : Str.startsWith (Str.lstrip l) c!"import" = true
        · have e2 : itemOf package packagePath l = .std l (Str.rstrip (Str.replace l c!"import " [])) := by
            unfold itemOf; rw [if_neg ht, hm]; exact if_pos h9
          rw [e2, itemLoop, if_pos h9]
          show (if _ ∈ done then _ else _) = _
          by_cases h8 : Str.rstrip (Str.replace l c!"import " []) ∈ done
          · rw [if_pos h8, if_pos h8, ih _ _ _ h]
          · rw [if_neg h8, if_neg h8, ih _ _ _ h]
        · have e2 : itemOf package packagePath l = .code l := by
            unfold itemOf; rw [if_neg ht, hm]; exact if_neg h9
          rw [e2, itemLoop, if_neg h9, ih _ _ _ h]
    · rw [if_neg h7]
      have e2 : itemOf package packagePath l = .code l := by
        unfold itemOf
        rw [if_neg ht]
        cases hm : moduleNamed package packagePath l with
        | some m => exact absurd (needs_import hm) h7
        | none => exact if_neg fun h9 => h7 (std_import h9)
      rw [e2, itemLoop, ih _ _ _ h]

theorem inlineModule_items (s : Sources) (n : Nat) (f text : Str) (done : List Str) {source : Str} (h : s.files f = some source) :
    inlineModule s.files s.package s.packagePath (n + 1) f text done =
      itemLoop (inlineModule s.files s.package s.packagePath n) text done (s.items f) := by
  rw [inlineModule, h]
  show inlineLoop _ _ _ _ false text done _ = _
  rw [inlineLoop_items _ _ _ _ _ _ _ _ (fun _ => rfl)]
  unfold Sources.items
  rw [h]
  rfl

/-- The names of imports that a sequence of items adds. -/
def seenAfter : List Str → List Item → List Str
  | seen, [] => seen
  | seen, .std _ n :: r => seenAfter (if n ∈ seen then seen else n :: seen) r
  | seen, .needs _ :: r => seenAfter seen r
  | seen, .code _ :: r => seenAfter seen r

theorem seenAfter_append : ∀ (a b : List Item) (seen : List Str), seenAfter seen (a ++ b) = seenAfter (seenAfter seen a) b := by
  intro a
  induction a with
  | nil => intro b seen; rfl
  | cons i a ih =>
    intro b seen
    cases i with
    | needs m => exact ih b seen
    | code l => exact ih b seen
    | std l n => exact ih b _

theorem itemsText_append : ∀ (a b : List Item) (seen : List Str),
    itemsText seen (a ++ b) = itemsText seen a ++ itemsText (seenAfter seen a) b := by
  intro a
  induction a with
  | nil => intro b seen; rfl
  | cons i a ih =>
    intro b seen
    cases i with
    | needs m => exact ih b seen
    | code l =>
      rw [List.cons_append, itemsText, itemsText, ih, List.append_assoc]
      rfl
    | std l n =>
      rw [List.cons_append, itemsText, itemsText, seenAfter]
      by_cases h : n ∈ seen
      · rw [if_pos h, if_pos h, if_pos h, ih]
      · rw [if_neg h, if_neg h, if_neg h, ih, List.append_assoc]

variable {s : Sources} {root : Str}

/-- The name of an import of a module outside of the package. -/
def StdName (s : Sources) (root n : Str) : Prop := ∃ g l, s.Reaches root g ∧ Item.std l n ∈ s.items g

/-- The names that were met are among the modules that were processed. -/
def Sync (s : Sources) (root : Str) (done seen : List Str) : Prop := ∀ n, StdName s root n → (n ∈ done ↔ n ∈ seen)

/-- The result of the program belongs to that of the walk. -/
def TextOf (s : Sources) (root text : Str) (seen : List Str) (w : Except InlineErr (Trace × List Str)) (r : Except InlineErr (Str × List Str)) : Prop :=
  match w with
  | .error e => r = .error e
  | .ok (t, d) => r = .ok (text ++ itemsText seen (t.map (·.2)), d) ∧ Sync s root d (seenAfter seen (t.map (·.2)))

theorem itemLoop_text (hs : s.Sound root) {f : Str} (hf : s.Reaches root f)
    {recW : Str → List Str → Except InlineErr (Trace × List Str)} {recT : Str → Str → List Str → Except InlineErr (Str × List Str)}
    (hr : ∀ g, s.Reaches root g → ∀ text done seen, Sync s root done seen → TextOf s root text seen (recW g done) (recT g text done)) :
    ∀ (its : List Item), (∀ i ∈ its, i ∈ s.items f) → ∀ text done seen, Sync s root done seen →
      TextOf s root text seen (walkItems recW f done its) (itemLoop recT text done its) := by
  intro its
  induction its with
  | nil =>
    intro hi text done seen hd
    refine ⟨?_, hd⟩
    show Except.ok (text, done) = .ok (text ++ [], done)
    rw [List.append_nil]
  | cons i its ih =>
    intro hi text done seen hd
    have hi' : ∀ i ∈ its, i ∈ s.items f := fun j hj => hi j (List.mem_cons_of_mem _ hj)
    have hmem := hi i List.mem_cons_self
    cases i with
    | code l =>
      have h := ih hi' (text ++ l) done seen hd
      rw [walkItems, itemLoop]
      cases hw : walkItems recW f done its with
      | error e => rw [hw] at h; exact h
      | ok v =>
        obtain ⟨t, d⟩ := v
        rw [hw] at h
        refine ⟨h.1.trans ?_, h.2⟩
        rw [List.append_assoc]
        rfl
    | std l n =>
      rw [walkItems, itemLoop]
      by_cases hn : n ∈ done
      · have hn' : n ∈ seen := (hd n ⟨f, l, hf, hmem⟩).1 hn
        have h := ih hi' text done seen hd
        rw [if_pos hn, if_pos hn]
        cases hw : walkItems recW f done its with
        | error e => rw [hw] at h; exact h
        | ok v =>
          obtain ⟨t, d⟩ := v
          rw [hw] at h
          refine ⟨h.1.trans ?_, ?_⟩
          · show _ = Except.ok (text ++ itemsText seen (.std l n :: t.map (·.2)), d)
            rw [itemsText, if_pos hn']
          · show Sync s root d (seenAfter seen (.std l n :: t.map (·.2)))
            rw [seenAfter, if_pos hn']
            exact h.2
      · have hn' : n ∉ seen := fun h => hn ((hd n ⟨f, l, hf, hmem⟩).2 h)
        have hd' : Sync s root (done ++ [n]) (n :: seen) := by
          intro x hx
          rw [List.mem_append, hd x hx, List.mem_singleton, List.mem_cons, or_comm]
        have h := ih hi' (text ++ l) (done ++ [n]) (n :: seen) hd'
        rw [if_neg hn, if_neg hn]
        cases hw : walkItems recW f (done ++ [n]) its with
        | error e => rw [hw] at h; exact h
        | ok v =>
          obtain ⟨t, d⟩ := v
          rw [hw] at h
          refine ⟨h.1.trans ?_, ?_⟩
          · show _ = Except.ok (text ++ itemsText seen (.std l n :: t.map (·.2)), d)
            rw [itemsText, if_neg hn', List.append_assoc]
          · show Sync s root d (seenAfter seen (.std l n :: t.map (·.2)))
            rw [seenAfter, if_neg hn']
            exact h.2
    | needs m =>
      rw [walkItems, itemLoop]
      by_cases hm : m ∈ done
      · rw [if_pos hm, if_pos hm]
        have h := ih hi' text done seen hd
        cases hw : walkItems recW f done its with
        | error e => rw [hw] at h; exact h
        | ok v =>
          obtain ⟨t, d⟩ := v
          rw [hw] at h
          exact h
      · rw [if_neg hm, if_neg hm]
        have hd' : Sync s root (done ++ [m]) seen := by
          intro x hx
          rw [List.mem_append, hd x hx, List.mem_singleton]
          refine ⟨fun h => h.resolve_right ?_, Or.inl⟩
          rintro rfl
          obtain ⟨g, l, hg, hl⟩ := hx
          exact hs.names f g x l hf hg hmem hl
        have h1 := hr (moduleFile m) (.step hf hmem) text (done ++ [m]) seen hd'
        cases hw : recW (moduleFile m) (done ++ [m]) with
        | error e =>
          rw [hw] at h1
          have h1 : recT (moduleFile m) text (done ++ [m]) = .error e := h1
          rw [h1]; rfl
        | ok v =>
          obtain ⟨t, d⟩ := v
          rw [hw] at h1
          obtain ⟨h1, hd1⟩ := h1
          rw [h1]
          have h := ih hi' (text ++ itemsText seen (t.map (·.2))) d _ hd1
          show TextOf s root text seen (walkItems recW f d its >>= fun x => .ok (t ++ (f, .needs m) :: x.1, x.2)) (itemLoop recT _ d its)
          cases hw2 : walkItems recW f d its with
          | error e => rw [hw2] at h; exact h
          | ok v2 =>
            obtain ⟨t2, d2⟩ := v2
            rw [hw2] at h
            have e : (t ++ (f, Item.needs m) :: t2).map (·.2) = t.map (·.2) ++ .needs m :: t2.map (·.2) := by simp
            refine ⟨h.1.trans ?_, ?_⟩
            · show _ = Except.ok (text ++ itemsText seen ((t ++ (f, Item.needs m) :: t2).map (·.2)), d2)
              rw [e, itemsText_append, itemsText, List.append_assoc]
            · show Sync s root d2 (seenAfter seen ((t ++ (f, Item.needs m) :: t2).map (·.2)))
              rw [e, seenAfter_append, seenAfter]
              exact h.2

theorem inlineModule_text (hs : s.Sound root) : ∀ (n : Nat) (f : Str), s.Reaches root f → ∀ text done seen, Sync s root done seen →
    TextOf s root text seen (walk s n f done) (inlineModule s.files s.package s.packagePath n f text done) := by
  intro n
  induction n with
  | zero => intro f hf text done seen hd; rfl
  | succ n ih =>
    intro f hf text done seen hd
    cases hfile : s.files f with
    | none =>
      rw [walk, inlineModule, hfile]
      rfl
    | some source =>
      rw [inlineModule_items s n f text done hfile, walk, hfile]
      exact itemLoop_text hs hf ih (s.items f) (fun _ h => h) text done seen hd

/-- A module of the package. -/
def IsModule (s : Sources) (root m : Str) : Prop := ∃ g, s.Reaches root g ∧ Item.needs m ∈ s.items g

/-- The walk has come to a file. -/
def Started (s : Sources) (root : Str) (done : List Str) (g : Str) : Prop := g = root ∨ ∃ m, IsModule s root m ∧ m ∈ done ∧ g = moduleFile m

theorem Started.mono {done d : List Str} (h : ∀ x ∈ done, x ∈ d) {g : Str} (hg : Started s root done g) : Started s root d g := by
  rcases hg with h1 | ⟨m, h1, h2, h3⟩
  · exact .inl h1
  · exact .inr ⟨m, h1, h _ h2, h3⟩

theorem moduleFile_inj {a b : Str} (h : moduleFile a = moduleFile b) : a = b := List.append_cancel_right h

theorem Spec.Sources.Reaches.trans {a b c : Str} (h1 : s.Reaches a b) (h2 : s.Reaches b c) : s.Reaches a c := by
  induction h2 with
  | refl => exact h1
  | step _ hm ih => exact .step ih hm

/-- What the walk over the last items of a file does. -/
structure Walked (s : Sources) (root f : Str) (done : List Str) (its : List Item) (t : Trace) (d : List Str) : Prop where
  more : ∀ x ∈ done, x ∈ d
  own : (t.filter (·.1 = f)).map (·.2) = its
  needs : ∀ m, Item.needs m ∈ its → m ∈ d
  new : ∀ g, Started s root d g → ¬ Started s root done g →
    (t.filter (·.1 = g)).map (·.2) = s.items g ∧ s.files g ≠ none ∧ ∀ m, Item.needs m ∈ s.items g → m ∈ d
  only : ∀ p ∈ t, s.Reaches f p.1 ∧ Started s root d p.1 ∧ (p.1 = f ∨ ¬ Started s root done p.1)
  item : ∀ p ∈ t, p.2 ∈ s.items p.1
  order : ∀ A B g m, t = A ++ (g, .needs m) :: B → ¬ s.Reaches (moduleFile m) g → ∀ p ∈ B, p.1 ≠ moduleFile m
  ends : ∀ p ∈ t, ∀ m, p.2 = .needs m → m ∈ d

theorem filter_none {t : Trace} {g : Str} (h : ∀ p ∈ t, p.1 ≠ g) : (t.filter (·.1 = g)).map (·.2) = [] := by
  rw [List.filter_eq_nil_iff.2 (fun p hp => by simpa using h p hp)]
  rfl

theorem filter_cons_self {t : Trace} {f : Str} {i : Item} : (((f, i) :: t).filter (·.1 = f)).map (·.2) = i :: (t.filter (·.1 = f)).map (·.2) := by
  rw [List.filter_cons_of_pos (by simp)]
  rfl

theorem filter_cons_other {t : Trace} {f g : Str} {i : Item} (h : g ≠ f) :
    (((f, i) :: t).filter (·.1 = g)).map (·.2) = (t.filter (·.1 = g)).map (·.2) := by
  rw [List.filter_cons_of_neg (by simpa using fun e : f = g => h e.symm)]

theorem Walked.cons {f : Str} {done done1 : List Str} {its : List Item} {t : Trace} {d : List Str} {i : Item}
    (w : Walked s root f done1 its t d) (hf : s.Reaches root f) (hd : ∀ x ∈ done, x ∈ done1)
    (hb : ∀ g, Started s root done1 g → Started s root done g) (hs : Started s root done f) (hi : i ∈ s.items f)
    (hn : ∀ m, i = .needs m → m ∈ done1) : Walked s root f done (i :: its) ((f, i) :: t) d where
  more x hx := w.more x (hd x hx)
  own := by rw [filter_cons_self, w.own]
  needs m hm := by
    rcases List.mem_cons.1 hm with h | h
    · exact w.more _ (hn m h.symm)
    · exact w.needs m h
  new g hg hg' := by
    have hne : g ≠ f := fun e => hg' (e ▸ hs)
    rw [filter_cons_other hne]
    exact w.new g hg fun h => hg' (hb g h)
  only p hp := by
    rcases List.mem_cons.1 hp with h | h
    · subst h
      exact ⟨.refl f, hs.mono fun x hx => w.more x (hd x hx), .inl rfl⟩
    · obtain ⟨h1, h2, h3⟩ := w.only p h
      exact ⟨h1, h2, h3.imp id fun h3 h4 => h3 (h4.mono hd)⟩
  item p hp := by
    rcases List.mem_cons.1 hp with h | h
    · subst h; exact hi
    · exact w.item p h
  order A B g m e hr p hp := by
    cases A with
    | nil =>
      obtain ⟨h1, h2⟩ := List.cons.inj e
      obtain ⟨hg, hm⟩ := Prod.mk.inj h1
      subst hg hm h2
      intro hpm
      rcases (w.only p hp).2.2 with h | h
      · exact hr (by rw [← hpm, h]; exact .refl f)
      · exact h (.inr ⟨m, ⟨f, hf, hi⟩, hn m rfl, hpm⟩)
    | cons a A =>
      obtain ⟨h1, h2⟩ := List.cons.inj e
      exact w.order A B g m h2 hr p hp
  ends p hp m hm := by
    rcases List.mem_cons.1 hp with h | h
    · subst h; exact w.more _ (hn m hm)
    · exact w.ends p h m hm

theorem Walked.join {f m : Str} {done d1 d2 : List Str} {its : List Item} {t1 t2 : Trace}
    (w1 : Walked s root (moduleFile m) (done ++ [m]) (s.items (moduleFile m)) t1 d1) (w2 : Walked s root f d1 its t2 d2)
    (hf : s.Reaches root f) (hfile : s.files (moduleFile m) ≠ none) (hi : Item.needs m ∈ s.items f) (hs : Started s root done f)
    (hm : ¬ Started s root done (moduleFile m)) : Walked s root f done its (t1 ++ t2) d2 := by
  have hsub : ∀ x ∈ done, x ∈ done ++ [m] := fun x hx => List.mem_append_left _ hx
  have hmod : IsModule s root m := ⟨f, hf, hi⟩
  have hm1 : Started s root (done ++ [m]) (moduleFile m) := .inr ⟨m, hmod, by simp, rfl⟩
  have hmd1 : Started s root d1 (moduleFile m) := hm1.mono w1.more
  have hfm : f ≠ moduleFile m := fun e => hm (e ▸ hs)
  have hf1 : Started s root (done ++ [m]) f := hs.mono hsub
  have no1 : ∀ p ∈ t1, p.1 ≠ f := by
    intro p hp e
    rcases (w1.only p hp).2.2 with h | h
    · exact hfm (e.symm.trans h)
    · exact h (e ▸ hf1)
  have app : ∀ g, ((t1 ++ t2).filter (·.1 = g)).map (·.2) = (t1.filter (·.1 = g)).map (·.2) ++ (t2.filter (·.1 = g)).map (·.2) := by
    intro g; rw [List.filter_append, List.map_append]
  have hreach : s.Reaches f (moduleFile m) := .step (.refl f) hi
  refine ⟨fun x hx => w2.more x (w1.more x (hsub x hx)), ?_, w2.needs, ?_, ?_, ?_, ?_, ?_⟩
  · rw [app, filter_none no1, List.nil_append, w2.own]
  · intro g hg hg'
    have hgf : g ≠ f := fun e => hg' (e ▸ hs)
    by_cases h1 : Started s root d1 g
    · have no2 : ∀ p ∈ t2, p.1 ≠ g := by
        intro p hp e
        rcases (w2.only p hp).2.2 with h | h
        · exact hgf (e.symm.trans h)
        · exact h (e ▸ h1)
      rw [app, filter_none no2, List.append_nil]
      by_cases hgm : g = moduleFile m
      · subst hgm
        exact ⟨w1.own, hfile, fun x hx => w2.more x (w1.needs x hx)⟩
      · have : ¬ Started s root (done ++ [m]) g := by
          rintro (h | ⟨m', h2, h3, h4⟩)
          · exact hg' (.inl h)
          · rcases List.mem_append.1 h3 with h3 | h3
            · exact hg' (.inr ⟨m', h2, h3, h4⟩)
            · exact hgm (h4.trans (congrArg _ (List.mem_singleton.1 h3)))
        obtain ⟨a, b, c⟩ := w1.new g h1 this
        exact ⟨a, b, fun x hx => w2.more x (c x hx)⟩
    · have no3 : ∀ p ∈ t1, p.1 ≠ g := fun p hp e => h1 (e ▸ (w1.only p hp).2.1)
      rw [app, filter_none no3, List.nil_append]
      exact w2.new g hg h1
  · intro p hp
    rcases List.mem_append.1 hp with hp | hp
    · obtain ⟨a, b, c⟩ := w1.only p hp
      refine ⟨hreach.trans a, b.mono w2.more, .inr ?_⟩
      rcases c with c | c
      · rw [c]; exact hm
      · exact fun h => c (h.mono hsub)
    · obtain ⟨a, b, c⟩ := w2.only p hp
      exact ⟨a, b, c.imp id fun c h => c ((h.mono hsub).mono w1.more)⟩
  · intro p hp
    rcases List.mem_append.1 hp with hp | hp
    · exact w1.item p hp
    · exact w2.item p hp
  · intro A B g m' e hr p hp
    rcases List.append_eq_append_iff.1 e with ⟨A', e1, e2⟩ | ⟨C, e1, e2⟩
    · exact w2.order A' B g m' e2 hr p hp
    · cases C with
      | nil =>
        exact w2.order [] B g m' e2.symm hr p hp
      | cons c C =>
        obtain ⟨h1, h2⟩ := List.cons.inj e2
        subst h1 h2
        have hg : (g, Item.needs m') ∈ t1 := by rw [e1]; simp
        rcases List.mem_append.1 hp with hp | hp
        · exact w1.order A C g m' e1 hr p hp
        · intro hpm
          obtain ⟨a, _, _⟩ := w1.only _ hg
          rcases (w2.only p hp).2.2 with h | h
          · exact hr (by rw [← hpm, h]; exact hreach.trans a)
          · exact h (.inr ⟨m', ⟨g, (hf.trans hreach).trans a, w1.item _ hg⟩, w1.ends _ hg m' rfl, hpm⟩)
  · intro p hp m' e
    rcases List.mem_append.1 hp with hp | hp
    · exact w2.more _ (w1.ends p hp m' e)
    · exact w2.ends p hp m' e

theorem walkItems_walked (hs : s.Sound root) {f : Str} (hf : s.Reaches root f) {rec : Str → List Str → Except InlineErr (Trace × List Str)}
    (hr : ∀ g, s.Reaches root g → ∀ done t d, Started s root done g → rec g done = .ok (t, d) →
      Walked s root g done (s.items g) t d ∧ s.files g ≠ none) :
    ∀ (its : List Item), (∀ i ∈ its, i ∈ s.items f) → ∀ done t d, Started s root done f → walkItems rec f done its = .ok (t, d) →
      Walked s root f done its t d := by
  intro its
  induction its with
  | nil =>
    intro _ done t d hst h
    cases h
    exact ⟨fun _ h => h, rfl, fun _ h => (by cases h), fun g h h' => absurd h h', fun _ h => (by cases h), fun _ h => (by cases h),
      fun A B g m e => (by cases A <;> cases e), fun _ h => (by cases h)⟩
  | cons i its ih =>
    intro hi done t d hst h
    have hi' : ∀ i ∈ its, i ∈ s.items f := fun j hj => hi j (List.mem_cons_of_mem _ hj)
    have hmem := hi i List.mem_cons_self
    cases i with
    | code l =>
      obtain ⟨⟨t', d'⟩, h1, h2⟩ := bindOk h
      cases h2
      exact (ih hi' done t' d hst h1).cons hf (fun _ h => h) (fun _ h => h) hst hmem (fun _ h => (by cases h))
    | std l n =>
      obtain ⟨⟨t', d'⟩, h1, h2⟩ := bindOk h
      cases h2
      have hsub : ∀ x ∈ done, x ∈ (if n ∈ done then done else done ++ [n]) := by
        intro x hx
        split
        · exact hx
        · exact List.mem_append_left _ hx
      refine (ih hi' _ t' d (hst.mono hsub) h1).cons hf hsub ?_ hst hmem (fun _ h => (by cases h))
      rintro g (hg | ⟨m, ⟨g', h3, h4⟩, h5, h6⟩)
      · exact .inl hg
      · refine .inr ⟨m, ⟨g', h3, h4⟩, ?_, h6⟩
        split at h5
        · exact h5
        · rcases List.mem_append.1 h5 with h5 | h5
          · exact h5
          · rw [List.mem_singleton.1 h5] at h4
            exact absurd hmem (hs.names g' f n l h3 hf h4)
    | needs m =>
      rw [walkItems] at h
      by_cases hm : m ∈ done
      · rw [if_pos hm] at h
        obtain ⟨⟨t', d'⟩, h1, h2⟩ := bindOk h
        cases h2
        exact (ih hi' done t' d hst h1).cons hf (fun _ h => h) (fun _ h => h) hst hmem (fun m' e => by cases e; exact hm)
      · rw [if_neg hm] at h
        obtain ⟨⟨t1, d1⟩, h1, h2⟩ := bindOk h
        obtain ⟨⟨t2, d2⟩, h3, h4⟩ := bindOk h2
        cases h4
        have hreach : s.Reaches root (moduleFile m) := .step hf hmem
        obtain ⟨w1, hfile⟩ := hr (moduleFile m) hreach (done ++ [m]) t1 d1 (.inr ⟨m, ⟨f, hf, hmem⟩, by simp, rfl⟩) h1
        have hsub : ∀ x ∈ done, x ∈ d1 := fun x hx => w1.more x (List.mem_append_left _ hx)
        have w2 := (ih hi' d1 t2 d (hst.mono hsub) h3).cons hf (fun _ h => h) (fun _ h => h) (hst.mono hsub) hmem
          (fun m' e => by cases e; exact w1.more _ (by simp))
        refine w1.join w2 hf hfile hmem hst ?_
        rintro (h | ⟨m', _, h5, h6⟩)
        · exact hs.main f m hf hmem h
        · exact hm (moduleFile_inj h6 ▸ h5)

theorem walk_walked (hs : s.Sound root) : ∀ (n : Nat) (f : Str), s.Reaches root f → ∀ done t d, Started s root done f → walk s n f done = .ok (t, d) →
    Walked s root f done (s.items f) t d ∧ s.files f ≠ none := by
  intro n
  induction n with
  | zero => intro f _ done t d _ h; cases h
  | succ n ih =>
    intro f hf done t d hst h
    rw [walk] at h
    cases hfile : s.files f with
    | none => rw [hfile] at h; cases h
    | some source =>
      rw [hfile] at h
      exact ⟨walkItems_walked hs hf ih (s.items f) (fun _ h => h) done t d hst h, by simp⟩

/-- The walk ends. -/
def Pending (done : List Str) (fs : List Str) : Nat := (fs.filter fun g => !(done.any fun m => moduleFile m = g)).length

theorem walkItems_ends (hs : s.Sound root) {fs : List Str} (hfs : ∀ g, s.Reaches root g → g ∈ fs ∧ s.files g ≠ none) {f : Str} (hf : s.Reaches root f)
    {k : Nat} {rec : Str → List Str → Except InlineErr (Trace × List Str)}
    (hr : ∀ g, s.Reaches root g → ∀ done, Pending done fs < k → ∃ t d, rec g done = .ok (t, d) ∧ ∀ x ∈ done, x ∈ d) :
    ∀ (its : List Item), (∀ i ∈ its, i ∈ s.items f) → ∀ done, Pending done fs < k + 1 →
      ∃ t d, walkItems rec f done its = .ok (t, d) ∧ ∀ x ∈ done, x ∈ d := by
  have mono : ∀ {done d : List Str}, (∀ x ∈ done, x ∈ d) → Pending d fs ≤ Pending done fs := by
    intro done d h
    unfold Pending
    rw [← List.countP_eq_length_filter, ← List.countP_eq_length_filter]
    refine List.countP_mono_left ?_
    intro g _ hg
    simp only [Bool.not_eq_true', List.any_eq_false] at hg ⊢
    exact fun x hx => hg x (h x hx)
  intro its
  induction its with
  | nil => intro _ done _; exact ⟨[], done, rfl, fun _ h => h⟩
  | cons i its ih =>
    intro hi done hk
    have hi' : ∀ i ∈ its, i ∈ s.items f := fun j hj => hi j (List.mem_cons_of_mem _ hj)
    have hmem := hi i List.mem_cons_self
    cases i with
    | code l =>
      obtain ⟨t, d, h1, h2⟩ := ih hi' done hk
      refine ⟨(f, .code l) :: t, d, ?_, h2⟩
      rw [walkItems, h1]; rfl
    | std l n =>
      have hsub : ∀ x ∈ done, x ∈ (if n ∈ done then done else done ++ [n]) := by
        intro x hx
        split
        · exact hx
        · exact List.mem_append_left _ hx
      obtain ⟨t, d, h1, h2⟩ := ih hi' _ (Nat.lt_of_le_of_lt (mono hsub) hk)
      refine ⟨(f, .std l n) :: t, d, ?_, fun x hx => h2 x (hsub x hx)⟩
      rw [walkItems, h1]; rfl
    | needs m =>
      by_cases hm : m ∈ done
      · obtain ⟨t, d, h1, h2⟩ := ih hi' done hk
        refine ⟨(f, .needs m) :: t, d, ?_, h2⟩
        rw [walkItems, if_pos hm, h1]; rfl
      · have hreach : s.Reaches root (moduleFile m) := .step hf hmem
        have hlt : Pending (done ++ [m]) fs < k := by
          have hsub : ∀ x ∈ done, x ∈ done ++ [m] := fun x hx => List.mem_append_left _ hx
          have : Pending (done ++ [m]) fs < Pending done fs := by
            unfold Pending
            have e : (fs.filter fun g => !((done ++ [m]).any fun m => moduleFile m = g)) =
                (fs.filter fun g => !(done.any fun m => moduleFile m = g)).filter fun g => g ≠ moduleFile m := by
              rw [List.filter_filter]
              refine List.filter_congr fun g _ => ?_
              simp [List.any_append, Bool.and_comm, eq_comm]
            rw [e]
            refine Nat.lt_of_le_of_ne (List.length_filter_le _ _) fun h => ?_
            have := List.length_filter_eq_length_iff.1 h (moduleFile m) (by
              rw [List.mem_filter]
              refine ⟨(hfs _ hreach).1, ?_⟩
              simp only [Bool.not_eq_true', List.any_eq_false]
              intro x hx hxm
              exact hm (moduleFile_inj (by simpa using hxm) ▸ hx))
            simp at this
          omega
        obtain ⟨t1, d1, h1, h2⟩ := hr _ hreach (done ++ [m]) hlt
        have hsub : ∀ x ∈ done, x ∈ d1 := fun x hx => h2 x (List.mem_append_left _ hx)
        obtain ⟨t2, d2, h3, h4⟩ := ih hi' d1 (Nat.lt_of_le_of_lt (mono hsub) hk)
        refine ⟨t1 ++ (f, .needs m) :: t2, d2, ?_, fun x hx => h4 x (hsub x hx)⟩
        rw [walkItems, if_neg hm, h1]
        show (walkItems rec f d1 its >>= _) = _
        rw [h3]; rfl

theorem walk_ends (hs : s.Sound root) {fs : List Str} (hfs : ∀ g, s.Reaches root g → g ∈ fs ∧ s.files g ≠ none) :
    ∀ (n : Nat) (f : Str), s.Reaches root f → ∀ done, Pending done fs < n → ∃ t d, walk s n f done = .ok (t, d) ∧ ∀ x ∈ done, x ∈ d := by
  intro n
  induction n with
  | zero => intro f _ done h; omega
  | succ n ih =>
    intro f hf done h
    obtain ⟨t, d, h1, h2⟩ := walkItems_ends hs hfs hf ih (s.items f) (fun _ h => h) done h
    refine ⟨t, d, ?_, h2⟩
    rw [walk]
    cases hfile : s.files f with
    | none => exact absurd hfile (hfs f hf).2
    | some _ => exact h1

end Verif
