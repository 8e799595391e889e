/-
What a parser makes of the saved file.
-/
import Verif.Lemmas.Text3

namespace Verif
open Elem Spec

theorem lexRun_append (st : Lx) (a b : Str) :
    lexRun st (a ++ b) = ((lexRun (lexRun st a).1 b).1, (lexRun st a).2 ++ (lexRun (lexRun st a).1 b).2) := by
  induction a generalizing st with
  | nil => rfl
  | cons c a ih =>
    simp only [List.cons_append, lexRun]
    rw [ih]
    simp

theorem lexRun_append_of {st st' : Lx} {a : Str} {ts : List Tok} (h : lexRun st a = (st', ts)) (b : Str) :
    lexRun st (a ++ b) = ((lexRun st' b).1, ts ++ (lexRun st' b).2) := by
  rw [lexRun_append, h]

theorem lexRun_cons_of {st st' : Lx} {c : Char} {ts : List Tok} (h : lexStep st c = (st', ts)) (b : Str) :
    lexRun st (c :: b) = ((lexRun st' b).1, ts ++ (lexRun st' b).2) := by
  simp only [lexRun, h]

theorem lex_charData {raw t : Str} (h : CharData raw t) (hr : '\r' ∉ raw) (acc : Str) :
    lexRun (.text acc) raw = (.text (t.reverse ++ acc), []) := by
  induction h generalizing acc with
  | nil => rfl
  | @char c r t hl h1 h2 h3 h4 _ ih =>
    have hs : lexStep (.text acc) c = (.text (c :: acc), []) := by
      simp [lexStep, h1, h2, h3, hl]
    rw [lexRun_cons_of hs, ih (fun h => hr (by simp [h]))]
    simp
  | @entity name c r t hm _ ih =>
    have ih := ih (fun h => hr (by simp [h]))
    have hs : ∀ acc, lexRun (.text acc) name = (.text (c :: acc), []) := by
      intro acc
      rcases entity_cases hm with ⟨rfl, rfl⟩ | ⟨rfl, rfl⟩ | ⟨rfl, rfl⟩ | ⟨rfl, rfl⟩ | ⟨rfl, rfl⟩ <;> rfl
    rw [lexRun_append_of (hs acc), ih]
    simp
  | crlf => exact absurd (by simp) hr
  | cr => exact absurd (by simp) hr

theorem nameChar_ne {c : Char} (h : nameChar c = true) : c ≠ '>' ∧ c ≠ '/' ∧ c ≠ ' ' ∧ c ≠ '!' ∧ c ≠ '?' := by
  refine ⟨?_, ?_, ?_, ?_, ?_⟩ <;> (intro e; subst e; exact absurd h (by decide))

theorem lex_tagName {s : Str} (h : ∀ c ∈ s, nameChar c = true) (n : Str) :
    lexRun (.tag n) s = (.tag (s.reverse ++ n), []) := by
  induction s generalizing n with
  | nil => rfl
  | cons c s ih =>
    have hc := h c (by simp)
    obtain ⟨h1, h2, h3, _⟩ := nameChar_ne hc
    have hs : lexStep (.tag n) c = (.tag (c :: n), []) := by simp [lexStep, h1, h2, h3, hc]
    rw [lexRun_cons_of hs, ih (fun c hc => h c (by simp [hc]))]
    simp

theorem lex_closeName {s : Str} (h : ∀ c ∈ s, nameChar c = true) (n : Str) :
    lexRun (.close n) s = (.close (s.reverse ++ n), []) := by
  induction s generalizing n with
  | nil => rfl
  | cons c s ih =>
    have hc := h c (by simp)
    have hs : lexStep (.close n) c = (.close (c :: n), []) := by simp [lexStep, (nameChar_ne hc).1, hc]
    rw [lexRun_cons_of hs, ih (fun c hc => h c (by simp [hc]))]
    simp

theorem lex_lt (acc : Str) (rest : Str) :
    lexRun (.text acc) ('<' :: rest) = ((lexRun .lt rest).1, pend acc ++ (lexRun .lt rest).2) :=
  lexRun_cons_of rfl rest

theorem lex_open {t : Str} (ht : IsName t) (acc : Str) :
    lexRun (.text acc) ('<' :: t ++ c!">") = (.text [], pend acc ++ [.start t]) := by
  cases t with
  | nil => exact absurd rfl ht.1
  | cons c t =>
    obtain ⟨h1, h2, h3, h4, h5⟩ := nameChar_ne (ht.2 c (by simp))
    have hs : lexStep .lt c = (.tag [c], []) := by simp [lexStep, h2, h4, h5, ht.2 c (by simp)]
    rw [List.cons_append, lex_lt, List.cons_append, lexRun_cons_of hs,
      lexRun_append_of (lex_tagName (fun d hd => ht.2 d (by simp [hd])) [c])]
    simp [lexRun, lexStep]

theorem lex_empty {t : Str} (ht : IsName t) (acc : Str) :
    lexRun (.text acc) ('<' :: (t ++ c!" /") ++ c!">") = (.text [], pend acc ++ [.start t, .stop t]) := by
  cases t with
  | nil => exact absurd rfl ht.1
  | cons c t =>
    obtain ⟨h1, h2, h3, h4, h5⟩ := nameChar_ne (ht.2 c (by simp))
    have hs : lexStep .lt c = (.tag [c], []) := by simp [lexStep, h2, h4, h5, ht.2 c (by simp)]
    rw [List.cons_append, lex_lt, List.append_assoc, List.cons_append, lexRun_cons_of hs,
      lexRun_append_of (lex_tagName (fun d hd => ht.2 d (by simp [hd])) [c])]
    simp [lexRun, lexStep]

theorem lex_closeRest {t : Str} (ht : IsName t) :
    lexRun .lt (('/' :: t) ++ c!">") = (.text [], [.stop t]) := by
  rw [List.cons_append, lexRun_cons_of (st' := .close []) (ts := []) rfl,
    lexRun_append_of (lex_closeName ht.2 [])]
  simp [lexRun, lexStep]

theorem lex_cdataText {s : Str} (hl : ∀ c ∈ s, xmlLegal c = true) (acc : Str) (h : ¬ c!"]]>" <:+: acc.reverse ++ s) :
    lexRun (.cdata acc) s = (.cdata (s.reverse ++ acc), []) := by
  induction s generalizing acc with
  | nil => rfl
  | cons c s ih =>
    have hs : lexStep (.cdata acc) c = (.cdata (c :: acc), []) := by
      have hn : ¬ (c = '>' ∧ c!"]]" <+: acc) := by
        rintro ⟨rfl, ⟨r, rfl⟩⟩
        exact h ⟨r.reverse, s, by simp⟩
      simp only [lexStep, if_neg hn, hl c (by simp), if_true]
    rw [lexRun_cons_of hs, ih (fun c hc => hl c (by simp [hc]))]
    · simp
    · simpa using h

theorem lex_cdata {s : Str} (hl : ∀ c ∈ s, xmlLegal c = true) (h : ¬ c!"]]>" <:+: s) (acc : Str) :
    lexRun (.text acc) (c!"<![CDATA[" ++ s ++ c!"]]>") = (.text [], pend acc ++ pend s.reverse) := by
  have h1 : lexRun (.text acc) c!"<![CDATA[" = (.cdata [], pend acc) := by
    rw [lex_lt]
    simp [lexRun, lexStep]
  rw [List.append_assoc, lexRun_append_of h1, lexRun_append_of (lex_cdataText hl [] (by simpa using h))]
  have h2 : ∀ a : Str, lexRun (.cdata a) c!"]]>" = (.text [], pend a) := by
    intro a
    have hc : xmlLegal ']' = true := by decide
    simp [lexRun, lexStep, hc]
  rw [h2]
  simp

/-! ### Building the tree -/

theorem run_append (b : Bld) (a c : List Tok) : b.run (a ++ c) = (b.run a).bind (fun b' => b'.run c) := by
  induction a generalizing b with
  | nil => rfl
  | cons t a ih =>
    simp only [List.cons_append, Bld.run]
    cases b.step t with
    | none => rfl
    | some b' => simp [ih]

/-- Change the tail. -/
def setTail (v : Option Str) : Elem → Elem | node t x _ k => node t x v k

theorem reloaded_setTail {e e' : Elem} (h : Reloaded e e') (v : Option Str) : Reloaded e (setTail v e') := by
  cases h with
  | leaf t x x' y y' hc => exact .leaf _ _ _ _ _ hc
  | inner t x y x' y' k ks ks' hl => exact .inner _ _ _ _ _ _ _ _ hl

theorem parsed_setTail {e e' : Elem} (h : Parsed e e') (v : Option Str) : Parsed e (setTail v e') := by
  cases h with
  | node t x x' y y' ks ks' h1 h2 => exact .node _ _ _ _ _ _ _ h1 h2

theorem charData_ne {x x' : Str} (h : CharData x x') : x = [] ↔ x' = [] := by
  cases h with
  | nil => simp
  | char => simp
  | entity name c hm =>
    rcases entity_cases hm with ⟨rfl, _⟩ | ⟨rfl, _⟩ | ⟨rfl, _⟩ | ⟨rfl, _⟩ | ⟨rfl, _⟩ <;> simp
  | crlf => simp
  | cr => simp

theorem pend_reverse (s : Str) : pend s.reverse = if s = [] then [] else [.chars s] := by
  simp [pend]

/-- The text of the first piece of a frame. -/
theorem run_text (t s : Str) (fs : List Frame) (r : Option Elem) :
    Bld.run ⟨{ tag := t } :: fs, r⟩ (pend s.reverse) =
      some ⟨{ tag := t, text := if s = [] then none else some s } :: fs, r⟩ := by
  rw [pend_reverse]
  split
  · rfl
  · simp [Bld.run, Bld.step, Frame.addChars, glue]

theorem run_tail {e : Elem} (he : e.tail = none) (s : Str) (f : Frame) (fs : List Frame) (r : Option Elem) :
    Bld.run ⟨{ f with kids := e :: f.kids } :: fs, r⟩ (pend s.reverse) =
      some ⟨{ f with kids := setTail (if s = [] then none else some s) e :: f.kids } :: fs, r⟩ := by
  cases e with
  | node t x y ks =>
    cases he
    rw [pend_reverse]
    split
    · rfl
    · simp [Bld.run, Bld.step, Frame.addChars, glue, setTail]

/-- The tokens of an element, and what the tree builder makes of them. -/
structure Loads (e : Elem) (chs : List Chunk) (e' : Elem) (inner : List Tok) (g : Frame) : Prop where
  reloaded : Reloaded e e'
  parsed : Parsed e e'
  elem : g.elem = e'
  tag : g.tag = e.tag
  lex : ∀ acc, lexRun (.text acc) (renderL id chs) = (.text [], pend acc ++ (.start e.tag :: inner ++ [.stop e.tag]))
  run : ∀ fs r, Bld.run ⟨{ tag := e.tag } :: fs, r⟩ inner = some ⟨g :: fs, r⟩

theorem Loads.child {e e' : Elem} {chs : List Chunk} {inner : List Tok} {g : Frame} (h : Loads e chs e' inner g)
    (f : Frame) (fs : List Frame) (r : Option Elem) :
    Bld.run ⟨f :: fs, r⟩ (.start e.tag :: inner ++ [.stop e.tag]) = some ⟨{ f with kids := e' :: f.kids } :: fs, r⟩ := by
  rw [List.cons_append]
  show Bld.run ⟨{ tag := e.tag } :: f :: fs, r⟩ (inner ++ [.stop e.tag]) = _
  rw [run_append, h.run]
  simp only [Option.bind_some, Bld.run, Bld.step, h.tag, if_true, h.elem]

theorem Loads.root {e e' : Elem} {chs : List Chunk} {inner : List Tok} {g : Frame} (h : Loads e chs e' inner g) :
    Bld.run {} (.start e.tag :: inner ++ [.stop e.tag]) = some ⟨[], some e'⟩ := by
  rw [List.cons_append]
  show Bld.run ⟨[{ tag := e.tag }], none⟩ (inner ++ [.stop e.tag]) = _
  rw [run_append, h.run]
  simp only [Option.bind_some, Bld.run, Bld.step, h.tag, if_true, h.elem]

theorem Loads.tail {e e' : Elem} {chs : List Chunk} {inner : List Tok} {g : Frame} (h : Loads e chs e' inner g) :
    e'.tail = none := by
  rw [← h.elem]; rfl

mutual
theorem load_body (b : Bool) : (e : Elem) → SafeTree e → ∃ e' inner g, Loads e (body b e) e' inner g
  | node t x y ks, h => by
    rw [SafeTree] at h
    obtain ⟨hn, hx, _, hk⟩ := h
    rw [body]
    split
    · rename_i h0
      have hks : ks = [] := by cases ks with | nil => rfl | cons _ _ => simp at h0
      subst hks
      refine ⟨node t none none [], [], { tag := t }, ⟨?_, ?_, rfl, rfl, ?_, fun _ _ => rfl⟩⟩
      · refine .leaf _ _ _ _ _ ?_
        cases x with
        | none => exact .none
        | some s =>
          have : s = [] := by simpa using h0.1
          subst this; exact .empty
      · refine .node _ _ _ _ _ _ _ ⟨by simp, ?_⟩ .nil
        rw [h0.1]
        split
        · rfl
        · exact .nil
      · intro acc
        rw [render_emptyTag]
        split
        · rw [lexRun_append_of (lex_open hn acc), List.cons_append, lex_lt, lex_closeRest hn]
          simp [pend]
        · exact lex_empty hn acc
    · rename_i h0
      split
      · rename_i ht
        rw [if_pos ht] at hx
        obtain ⟨hx, hks⟩ := hx
        subst hks
        obtain ⟨s, rfl, hs⟩ : ∃ s, x = some s ∧ s ≠ [] := by
          cases x with
          | none => simp at h0
          | some s => exact ⟨s, rfl, by simpa using h0⟩
        refine ⟨node t (some s) none [], pend s.reverse, { tag := t, text := some s }, ⟨.leaf _ _ _ _ _ (.cdata s ht hs),
          .node _ _ _ _ _ _ _ ⟨by simp [hs], by rw [if_pos ht]⟩ .nil, rfl, rfl, ?_, ?_⟩⟩
        · intro acc
          have hx : SafeCdata s := hx
          have e1 : renderL id [Chunk.tag t, .cdo, .txt ((some s : Option Str).getD []), .cdc, .tag ('/' :: t)] =
              ('<' :: t ++ c!">") ++ ((c!"<![CDATA[" ++ s ++ c!"]]>") ++ ('<' :: (('/' :: t) ++ c!">"))) := by
            simp [renderL, Chunk.render]
          rw [e1, lexRun_append_of (lex_open hn acc),
            lexRun_append_of (lex_cdata (fun c hc => (hx.chars c hc).1) hx.noEnd []), lex_lt, lex_closeRest hn]
          simp [pend]
        · intro fs r
          rw [show (node t (some s) y []).tag = t from rfl, run_text, if_neg hs]
      · rename_i ht
        rw [if_neg ht] at hx
        obtain ⟨x', hcd⟩ := hx.charData
        have hr : '\r' ∉ x.getD [] := fun h => (hx.chars _ h).2.1 rfl
        obtain ⟨ks', ts, l1, l2, l3, lp⟩ := load_bodyL b ks hk
        refine ⟨node t (if x' = [] then none else some x') none ks', pend x'.reverse ++ ts,
          { tag := t, text := if x' = [] then none else some x', kids := ks'.reverse }, ⟨?_, ?_, ?_, rfl, ?_, ?_⟩⟩
        · cases l1 with
          | nil =>
            have hne : x.getD [] ≠ [] := by simpa using h0
            have hne' : x' ≠ [] := fun h => hne ((charData_ne hcd).2 h)
            rw [if_neg hne']
            cases x with
            | none => exact absurd rfl hne
            | some s => exact .leaf _ _ _ _ _ (.plain s x' ht hne hcd)
          | cons e e' r r' h1 h2 => exact .inner _ _ _ _ _ _ _ _ (.cons _ _ _ _ h1 h2)
        · refine .node _ _ _ _ _ _ _ ⟨?_, ?_⟩ lp
          · split
            · simp
            · rename_i hx0; simp [hx0]
          · rw [if_neg ht]
            split
            · rename_i hx0; rw [hx0] at hcd; exact hcd
            · exact hcd
        · simp [Frame.elem]
        · intro acc
          have e1 : renderL id (Chunk.tag t :: .txt (x.getD []) :: bodyL b ks ++ [.tag ('/' :: t)]) =
              ('<' :: t ++ c!">") ++ (x.getD [] ++ (renderL id (bodyL b ks) ++ ('<' :: (('/' :: t) ++ c!">")))) := by
            rw [renderL_append, renderL_cons, renderL_cons]
            simp [renderL, Chunk.render]
          rw [e1, lexRun_append_of (lex_open hn acc), lexRun_append_of (lex_charData hcd hr []), l2, lex_closeRest hn]
          simp
        · intro fs r
          rw [show (node t x y ks).tag = t from rfl, run_append, run_text, Option.bind_some, l3]
          simp
theorem load_bodyL (b : Bool) : (ks : List Elem) → SafeTreeL ks → ∃ ks' ts, ReloadedL ks ks' ∧
    (∀ acc rest, lexRun (.text acc) (renderL id (bodyL b ks) ++ '<' :: rest) =
      ((lexRun .lt rest).1, pend acc ++ ts ++ (lexRun .lt rest).2)) ∧
    (∀ f fs r, Bld.run ⟨f :: fs, r⟩ ts = some ⟨{ f with kids := ks'.reverse ++ f.kids } :: fs, r⟩) ∧ ParsedL ks ks'
  | [], _ => by
    refine ⟨[], [], .nil, ?_, fun _ _ _ => rfl, .nil⟩
    intro acc rest
    simp only [bodyL, renderL, List.flatMap_nil, List.nil_append, List.append_nil]
    exact lex_lt acc rest
  | e :: r, h => by
    rw [SafeTreeL] at h
    obtain ⟨e', inner, g, hl⟩ := load_body b e h.1
    obtain ⟨r', ts, l1, l2, l3, lp⟩ := load_bodyL b r h.2
    have hy := h.1.tailRaw
    obtain ⟨y', hcd⟩ := hy.charData
    have hr : '\r' ∉ e.tail.getD [] := fun h => (hy.chars _ h).2.1 rfl
    refine ⟨setTail (if y' = [] then none else some y') e' :: r',
      (.start e.tag :: inner ++ [.stop e.tag]) ++ pend y'.reverse ++ ts,
      .cons _ _ _ _ (reloaded_setTail hl.reloaded _) l1, ?_, ?_, ?_⟩
    · intro acc rest
      rw [bodyL, renderL_append, renderL_cons]
      rw [show renderL id (body b e) ++ ((Chunk.txt (e.tail.getD [])).render id ++ renderL id (bodyL b r)) ++ '<' :: rest =
        renderL id (body b e) ++ (e.tail.getD [] ++ (renderL id (bodyL b r) ++ '<' :: rest)) by simp [Chunk.render]]
      rw [lexRun_append_of (hl.lex acc), lexRun_append_of (lex_charData hcd hr []), l2]
      simp
    · intro f fs rt
      rw [run_append, run_append, hl.child, Option.bind_some, run_tail hl.tail, Option.bind_some, l3]
      simp
    · have ht : (setTail (if y' = [] then none else some y') e').tail = if y' = [] then none else some y' := by cases e'; rfl
      refine .cons _ _ _ _ (parsed_setTail hl.parsed _) ?_ ?_ lp
      · rw [ht]
        split
        · rename_i hy0; rw [hy0] at hcd; exact hcd
        · exact hcd
      · rw [ht]
        split
        · simp
        · rename_i hy0; simp [hy0]
end

theorem lex_header : lexRun (.text []) ('<' :: header ++ c!">") = (.text [], []) := by decide

/-- The parser reads the file of a tree that it can carry. -/
theorem parse_filePieces (b : Bool) {e : Elem} (h : SafeTree e) (ht : BlankTail e) :
    ∃ e', parseXml (renderL id (filePieces b e)) = some e' ∧ Reloaded e e' ∧ e'.tail = none ∧ Parsed e e' := by
  obtain ⟨e', inner, g, hl⟩ := load_body b e h
  have hy := h.tailRaw
  obtain ⟨y', hcd⟩ := hy.charData
  have hr : '\r' ∉ e.tail.getD [] := fun h => (hy.chars _ h).2.1 rfl
  have hyy : y' = e.tail.getD [] := by
    refine charData_unique hcd ?_
    revert ht
    unfold BlankTail
    generalize e.tail.getD [] = z
    intro ht
    induction z with
    | nil => exact .nil
    | cons c z ih =>
      have hz := ih (fun c hc => ht c (by simp [hc]))
      rcases ht c (by simp) with rfl | rfl | rfl <;>
        exact .char _ (by decide) (by decide) (by decide) (by decide) (by decide) hz
  refine ⟨e', ?_, hl.reloaded, hl.tail, hl.parsed⟩
  have e1 : renderL id (filePieces b e) =
      ('<' :: header ++ c!">") ++ (c!"\n" ++ (renderL id (body b e) ++ e.tail.getD [])) := by
    unfold filePieces
    rw [renderL_append, renderL_cons, renderL_cons]
    simp [renderL, Chunk.render]
  have hlex : lex (renderL id (filePieces b e)) =
      some (.chars c!"\n" :: (.start e.tag :: inner ++ [.stop e.tag]) ++ pend y'.reverse) := by
    unfold lex
    have hnl : lexRun (.text []) c!"\n" = (.text c!"\n", []) := by decide
    rw [e1, lexRun_append_of lex_header, lexRun_append_of hnl, lexRun_append_of (hl.lex c!"\n"), lex_charData hcd hr]
    simp [pend]
  unfold parseXml
  rw [hlex]
  have h1 : Bld.run {} (.chars c!"\n" :: (.start e.tag :: inner ++ [.stop e.tag]) ++ pend y'.reverse) = some ⟨[], some e'⟩ := by
    have h0 : Bld.step {} (.chars c!"\n") = some {} := rfl
    rw [List.cons_append]
    show (Bld.step {} (.chars c!"\n")).bind _ = _
    rw [h0, Option.bind_some, run_append, hl.root, Option.bind_some, pend_reverse]
    split
    · rfl
    · have ha : y'.all (fun c => c = ' ' || c = '\t' || c = '\n') = true := by
        rw [List.all_eq_true]
        intro c hc
        have := ht c (hyy ▸ hc)
        simpa [or_assoc] using this
      simp only [Bld.run, Bld.step, ha, if_true, Option.bind_some]
  simp only [Option.bind_some, h1]

/-- The whole way through the file: written, postprocessed, sanitised and parsed. -/
theorem parse_file (hasChapters : Bool) {e : Elem} (h : SafeTree e) (ht : BlankTail e) :
    ∃ e', parseXml (parserInput (fileText hasChapters e)) = some e' ∧ Reloaded e e' ∧ e'.tail = none ∧ Parsed e e' := by
  rw [fileText_eq hasChapters h, parserInput_safe (safe_render (safe_filePieces _ h))]
  exact parse_filePieces _ h ht

theorem parse_fileText (hasChapters : Bool) {e : Elem} (h : SafeTree e) (ht : BlankTail e) :
    ∃ e', parseXml (parserInput (fileText hasChapters e)) = some e' ∧ Reloaded e e' ∧ e'.tail = none := by
  obtain ⟨e', h1, h2, h3, _⟩ := parse_file hasChapters h ht
  exact ⟨e', h1, h2, h3⟩

end Verif
