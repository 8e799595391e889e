/-
The written file, piece by piece, and what a parser makes of it.
-/
import Verif.Lemmas.Text
import Verif.Spec.File

namespace Verif
open Elem Spec

mutual
/-- The pieces `ElementTree.write` writes. -/
def chunks : Elem → List Chunk
  | node t x y ks =>
    (if x.getD [] = [] ∧ ks.isEmpty then [Chunk.tag (t ++ c!" /")]
     else Chunk.tag t :: .txt (x.getD []) :: chunksL ks ++ [.tag ('/' :: t)]) ++ [.txt (y.getD [])]
def chunksL : List Elem → List Chunk
  | [] => []
  | e :: r => chunks e ++ chunksL r
end

mutual
theorem etWrite_chunks : (e : Elem) → etWrite e = renderL etEscape (chunks e)
  | node t x y ks => by
    rw [etWrite, chunks, renderL_append]
    split
    · simp [renderL, Chunk.render]
    · rw [renderL_append, renderL_cons, renderL_cons, ← etWriteL_chunks ks]
      simp [renderL, Chunk.render]
theorem etWriteL_chunks : (ks : List Elem) → etWriteL ks = renderL etEscape (chunksL ks)
  | [] => rfl
  | e :: r => by rw [etWriteL, chunksL, renderL_append, etWrite_chunks e, etWriteL_chunks r]
end

/-! ### Insertion of the CDATA sections -/

/-- The effect of the two substitutions for a tag. -/
def insTag (t : Str) (c : Chunk) : List Chunk :=
  if c = .tag t then [.tag t, .cdo] else if c = .tag ('/' :: t) then [.cdc, .tag ('/' :: t)] else [c]

/-- The effect of the substitutions for the tags in `D`. -/
def insBy (D : List Str) : Chunk → List Chunk
  | .tag ('/' :: r) => if r ∈ D then [.cdc, .tag ('/' :: r)] else [.tag ('/' :: r)]
  | .tag s => if s ∈ D then [.tag s, .cdo] else [.tag s]
  | c => [c]

theorem name_not {t : Str} (h : IsName t) : ∀ c ∈ c!"<>&/! ?\n\r|", c ∉ t := by
  intro c hc hm
  have := h.2 c hm
  simp only [List.mem_cons, List.not_mem_nil, or_false] at hc
  rcases hc with rfl | rfl | rfl | rfl | rfl | rfl | rfl | rfl | rfl | rfl <;> exact absurd this (by decide)

theorem cdataTag_chunks {t : Str} (ht : IsName t) (cs : List Chunk) (hok : ∀ c ∈ cs, c.ok) :
    cdataTag t (renderL etEscape cs) = renderL etEscape (cs.flatMap (insTag t)) := by
  have n := name_not ht
  have hh : ∀ u ∈ [t, '/' :: t], u.head? ≠ some '!' := by
    intro u hu
    simp only [List.mem_cons, List.not_mem_nil, or_false] at hu
    rcases hu with rfl | rfl
    · intro h
      cases u with
      | nil => cases h
      | cons c u => simp only [List.head?_cons, Option.some.injEq] at h; subst h; exact n '!' (by decide) (by simp)
    · simp
  unfold cdataTag
  rw [replace_chunks (s := t) (fun s => mem_etEscape.1) [.tag t, .cdo] ⟨n _ (by decide), n _ (by decide)⟩
    (hh _ (by simp)) (by simp [renderL, Chunk.render]) cs hok]
  rw [show '<' :: '/' :: t ++ c!">" = '<' :: ('/' :: t) ++ c!">" from rfl]
  rw [replace_chunks (s := '/' :: t) (fun s => mem_etEscape.1) [.cdc, .tag ('/' :: t)]
    ⟨by simp [n '<' (by decide)], by simp [n '>' (by decide)]⟩ (hh _ (by simp)) (by simp [renderL, Chunk.render])]
  · rw [List.flatMap_assoc]
    congr 2
    funext c
    unfold insTag
    by_cases h1 : c = .tag t
    · subst h1
      have hne : Chunk.tag t ≠ .tag ('/' :: t) := by
        intro h
        have := congrArg (fun c => match c with | Chunk.tag s => s.length | _ => 0) h
        simp at this
      have hne2 : Chunk.cdo ≠ .tag ('/' :: t) := by intro h; cases h
      simp [hne, hne2]
    · by_cases h2 : c = .tag ('/' :: t)
      · simp [h1, h2]
      · simp [h1, h2]
  · intro c hc
    simp only [List.mem_flatMap] at hc
    obtain ⟨d, hd, hc⟩ := hc
    split at hc
    · simp only [List.mem_cons, List.not_mem_nil, or_false] at hc
      rcases hc with rfl | rfl
      · exact ⟨n _ (by decide), n _ (by decide), n _ (by decide)⟩
      · trivial
    · simp only [List.mem_singleton] at hc
      subst hc; exact hok c hd

theorem insBy_step {D : List Str} {t : Str} (ht : IsName t) (hD : t ∉ D) (c : Chunk) :
    (insBy D c).flatMap (insTag t) = insBy (t :: D) c := by
  have nsl : ∀ r, t ≠ '/' :: r := by
    intro r h; exact name_not ht '/' (by decide) (by simp [h])
  match c with
  | .txt s => simp [insBy, insTag]
  | .cdo => simp [insBy, insTag]
  | .cdc => simp [insBy, insTag]
  | .tag [] => 
    have : t ≠ [] := ht.1
    by_cases h : [] ∈ D <;> simp [insBy, insTag, this.symm, h]
  | .tag (d :: r) =>
    by_cases hd : d = '/'
    · subst hd
      have hne : ∀ r, Chunk.tag ('/' :: r) ≠ .tag t := by intro r h; cases h; exact nsl r rfl
      by_cases hr : r = t
      · subst hr
        simp [insBy, insTag, hne, hD]
      · have hr' : Chunk.tag ('/' :: r) ≠ .tag ('/' :: t) := by intro h; cases h; exact hr rfl
        by_cases hm : r ∈ D <;> simp [insBy, insTag, hr, hm, Ne.symm (nsl _)]
    · have e1 : ∀ D, insBy D (.tag (d :: r)) = if d :: r ∈ D then [.tag (d :: r), .cdo] else [.tag (d :: r)] := by
        intro D
        unfold insBy
        split
        · rename_i h; cases h; exact absurd rfl hd
        · rename_i h; cases h; rfl
        · rename_i _ h; exact absurd rfl (h _)
      rw [e1, e1]
      have hne : Chunk.tag (d :: r) ≠ .tag ('/' :: t) := by intro h; cases h; exact hd rfl
      by_cases hr : d :: r = t
      · subst hr
        simp [insTag, hD]
      · have hr' : Chunk.tag (d :: r) ≠ .tag t := by intro h; cases h; exact hr rfl
        have hne' : d = '/' → ¬ r = t := fun h => absurd h hd
        by_cases hm : d :: r ∈ D <;> simp [insTag, hr, hm, hd]

theorem ok_insBy {D : List Str} {c : Chunk} (h : c.ok) : ∀ d ∈ insBy D c, d.ok := by
  intro d hd
  unfold insBy at hd
  split at hd
  · split at hd <;> simp only [List.mem_cons, List.not_mem_nil, or_false] at hd
    · rcases hd with rfl | rfl
      · trivial
      · exact h
    · subst hd; exact h
  · split at hd <;> simp only [List.mem_cons, List.not_mem_nil, or_false] at hd
    · rcases hd with rfl | rfl
      · exact h
      · trivial
    · subst hd; exact h
  · simp only [List.mem_singleton] at hd; subst hd; exact h

theorem foldl_cdata (ts D : List Str) (hn : ∀ t ∈ ts, IsName t) (hd : (ts ++ D).Nodup) (cs : List Chunk)
    (hok : ∀ c ∈ cs, c.ok) :
    ts.foldl (fun l t => cdataTag t l) (renderL etEscape (cs.flatMap (insBy D))) =
      renderL etEscape (cs.flatMap (insBy (ts.reverse ++ D))) := by
  induction ts generalizing D with
  | nil => rfl
  | cons t ts ih =>
    rw [List.cons_append, List.nodup_cons, List.mem_append] at hd
    rw [List.foldl_cons, cdataTag_chunks (hn t (by simp)), List.flatMap_assoc]
    · have : (fun c => (insBy D c).flatMap (insTag t)) = insBy (t :: D) := by
        funext c; exact insBy_step (hn t (by simp)) (fun h => hd.1 (Or.inr h)) c
      rw [this, ih (t :: D) (fun t ht => hn t (by simp [ht]))]
      · simp
      · rw [List.nodup_append] at hd ⊢
        refine ⟨hd.2.1, List.nodup_cons.2 ⟨fun h => hd.1 (Or.inr h), hd.2.2.1⟩, ?_⟩
        intro a ha b hb
        rcases List.mem_cons.1 hb with rfl | hb
        · intro e; subst e; exact hd.1 (Or.inl ha)
        · exact hd.2.2.2 a ha b hb
    · intro c hc
      obtain ⟨d, h1, h2⟩ := List.mem_flatMap.1 hc
      exact ok_insBy (hok d h1) c h2

theorem cdataTags_names : ∀ t ∈ cdataTags, IsName t := by
  have : cdataTags.all (fun t => !t.isEmpty && t.all nameChar) = true := by decide
  intro t ht
  have := List.all_eq_true.1 this t ht
  simp only [Bool.and_eq_true, Bool.not_eq_true', List.isEmpty_eq_false_iff, List.all_eq_true] at this
  exact this

theorem cdataLine_chunks (cs : List Chunk) (hok : ∀ c ∈ cs, c.ok) :
    cdataLine (renderL etEscape cs) = renderL etEscape (cs.flatMap (insBy cdataTags)) := by
  have h := foldl_cdata cdataTags [] cdataTags_names (by decide) cs hok
  have e1 : insBy [] = fun c => [c] := by
    funext c; unfold insBy; split <;> simp
  have e2 : insBy (cdataTags.reverse ++ []) = insBy cdataTags := by
    funext c; unfold insBy; split <;> simp only [List.append_nil, List.mem_reverse]
  rw [e1, e2] at h
  rw [← h]
  unfold cdataLine
  simp

/-- The lines are processed one by one, to the same effect as the whole text. -/
theorem cdata_lines (text : Str) : Str.join c!"\n" ((Str.split text c!"\n").map cdataLine) = cdataLine text := by
  have key : ∀ (ts : List Str), (∀ t ∈ ts, IsName t) → ∀ ls : List Str,
      ts.foldl (fun l t => cdataTag t l) (Str.join c!"\n" ls) =
        Str.join c!"\n" (ls.map (fun l => ts.foldl (fun l t => cdataTag t l) l)) := by
    intro ts
    induction ts with
    | nil => intro _ ls; simp
    | cons t ts ih =>
      intro hn ls
      have n := name_not (hn t (by simp)) '\n' (by decide)
      rw [List.foldl_cons]
      have : cdataTag t (Str.join c!"\n" ls) = Str.join c!"\n" (ls.map (cdataTag t)) := by
        unfold cdataTag
        rw [Str.replace_join _ (by simp [n]) (by simp), Str.replace_join _ (by simp [n]) (by simp), List.map_map]
        rfl
      rw [this, ih (fun t ht => hn t (by simp [ht])), List.map_map]
      rfl
  have := key cdataTags cdataTags_names (Str.split text c!"\n")
  rw [Str.join_split _ (by decide)] at this
  exact this.symm

/-! ### The final pieces -/

/-- An element without contents; if `b`, the one for the chapters is written with two tags. -/
def emptyTag (b : Bool) (t : Str) : List Chunk :=
  if b ∧ t = c!"CHAPTERS" then [.tag t, .tag ('/' :: t)] else [.tag (t ++ c!" /")]

mutual
/-- The pieces of an element without its tail, in the postprocessed file. -/
def body (b : Bool) : Elem → List Chunk
  | node t x _ ks =>
    if x.getD [] = [] ∧ ks.isEmpty then emptyTag b t
    else if t ∈ cdataTags then [Chunk.tag t, .cdo, .txt (x.getD []), .cdc, .tag ('/' :: t)]
    else Chunk.tag t :: .txt (x.getD []) :: bodyL b ks ++ [.tag ('/' :: t)]
/-- Elements with their tails. -/
def bodyL (b : Bool) : List Elem → List Chunk
  | [] => []
  | e :: r => body b e ++ .txt (e.tail.getD []) :: bodyL b r
end

theorem insBy_name {t : Str} (ht : IsName t) (D : List Str) :
    insBy D (.tag t) = if t ∈ D then [.tag t, .cdo] else [.tag t] := by
  unfold insBy
  split
  · rename_i r h; cases h; exact absurd (List.mem_cons_self) (name_not ht '/' (by decide))
  · rename_i h; cases h; rfl
  · rename_i _ h; exact absurd rfl (h _)

theorem insBy_empty {t : Str} (ht : IsName t) : insBy cdataTags (.tag (t ++ c!" /")) = [.tag (t ++ c!" /")] := by
  have h1 : t ++ c!" /" ∉ cdataTags := by
    intro h
    exact name_not (cdataTags_names _ h) ' ' (by decide) (by simp)
  unfold insBy
  split
  · rename_i r h
    cases t with
    | nil => exact absurd rfl ht.1
    | cons c t =>
      have : c = '/' := by simpa using congrArg (fun c => match c with | Chunk.tag (c :: _) => c | _ => 'x') h
      subst this
      exact absurd (List.mem_cons_self) (name_not ht '/' (by decide))
  · rename_i h; cases h; rw [if_neg h1]
  · rfl

mutual
theorem ins_chunks : (e : Elem) → SafeTree e →
    (chunks e).flatMap (insBy cdataTags) = body false e ++ [.txt (e.tail.getD [])]
  | node t x y ks, h => by
    rw [SafeTree] at h
    obtain ⟨hn, hx, hy, hk⟩ := h
    rw [chunks, body, List.flatMap_append]
    congr 1
    split
    · simp [emptyTag, insBy_empty hn]
    · by_cases ht : t ∈ cdataTags
      · rw [if_pos ht] at hx ⊢
        rw [hx.2]
        have hc : insBy cdataTags (.tag ('/' :: t)) = [.cdc, .tag ('/' :: t)] := by simp [insBy, ht]
        have hx' : ∀ s, insBy cdataTags (.txt s) = [.txt s] := fun s => rfl
        simp [chunksL, insBy_name hn, ht, hc, hx']
      · rw [if_neg ht]
        simp only [List.flatMap_append, List.flatMap_cons, List.flatMap_nil, List.append_nil, insBy_name hn, ht,
          if_false, ins_chunksL ks hk, List.cons_append]
        simp [insBy, ht]
theorem ins_chunksL : (ks : List Elem) → SafeTreeL ks → (chunksL ks).flatMap (insBy cdataTags) = bodyL false ks
  | [], _ => rfl
  | e :: r, h => by
    rw [SafeTreeL] at h
    rw [chunksL, bodyL, List.flatMap_append, ins_chunks e h.1, ins_chunksL r h.2]
    simp
end

theorem ok_name {t : Str} (ht : IsName t) : (Chunk.tag t).ok ∧ (Chunk.tag ('/' :: t)).ok ∧ (Chunk.tag (t ++ c!" /")).ok := by
  have n := name_not ht
  refine ⟨⟨n _ (by decide), n _ (by decide), n _ (by decide)⟩, ⟨?_, ?_, ?_⟩, ⟨?_, ?_, ?_⟩⟩ <;>
    simp [n '<' (by decide), n '>' (by decide), n '&' (by decide)]

theorem ok_emptyTag {t : Str} (ht : IsName t) (b : Bool) : ∀ c ∈ emptyTag b t, c.ok := by
  intro c hc
  unfold emptyTag at hc
  split at hc
  · simp only [List.mem_cons, List.not_mem_nil, or_false] at hc
    rcases hc with rfl | rfl
    · exact (ok_name ht).1
    · exact (ok_name ht).2.1
  · simp only [List.mem_singleton] at hc; subst hc; exact (ok_name ht).2.2

mutual
theorem ok_chunks : (e : Elem) → SafeTree e → ∀ c ∈ chunks e, c.ok
  | node t x y ks, h => by
    rw [SafeTree] at h
    obtain ⟨hn, _, _, hk⟩ := h
    obtain ⟨o1, o2, o3⟩ := ok_name hn
    have := ok_chunksL ks hk
    intro c hc
    rw [chunks] at hc
    rcases List.mem_append.1 hc with hc | hc
    · split at hc
      · simp only [List.mem_singleton] at hc; subst hc; exact o3
      · simp only [List.cons_append, List.mem_cons, List.mem_append, List.not_mem_nil, or_false] at hc
        rcases hc with rfl | rfl | hc | rfl
        · exact o1
        · trivial
        · exact this c hc
        · exact o2
    · simp only [List.mem_singleton] at hc; subst hc; trivial
theorem ok_chunksL : (ks : List Elem) → SafeTreeL ks → ∀ c ∈ chunksL ks, c.ok
  | [], _ => by intro c hc; cases hc
  | e :: r, h => by
    rw [SafeTreeL] at h
    intro c hc
    rw [chunksL] at hc
    rcases List.mem_append.1 hc with hc | hc
    · exact ok_chunks e h.1 c hc
    · exact ok_chunksL r h.2 c hc
end

mutual
theorem ok_body (b : Bool) : (e : Elem) → SafeTree e → ∀ c ∈ body b e, c.ok
  | node t x y ks, h => by
    rw [SafeTree] at h
    obtain ⟨hn, _, _, hk⟩ := h
    obtain ⟨o1, o2, o3⟩ := ok_name hn
    have := ok_bodyL b ks hk
    intro c hc
    rw [body] at hc
    split at hc
    · exact ok_emptyTag hn b c hc
    · split at hc
      · simp only [List.mem_cons, List.not_mem_nil, or_false] at hc
        rcases hc with rfl | rfl | rfl | rfl | rfl
        · exact o1
        · trivial
        · trivial
        · trivial
        · exact o2
      · simp only [List.cons_append, List.mem_cons, List.mem_append, List.not_mem_nil, or_false] at hc
        rcases hc with rfl | rfl | hc | rfl
        · exact o1
        · trivial
        · exact this c hc
        · exact o2
theorem ok_bodyL (b : Bool) : (ks : List Elem) → SafeTreeL ks → ∀ c ∈ bodyL b ks, c.ok
  | [], _ => by intro c hc; cases hc
  | e :: r, h => by
    rw [SafeTreeL] at h
    intro c hc
    rw [bodyL] at hc
    rcases List.mem_append.1 hc with hc | hc
    · exact ok_body b e h.1 c hc
    · rcases List.mem_cons.1 hc with rfl | hc
      · trivial
      · exact ok_bodyL b r h.2 c hc
end

/-- The effect of the replacement of `<CHAPTERS />`. -/
def chaptersIns (c : Chunk) : List Chunk :=
  if c = .tag c!"CHAPTERS /" then [.tag c!"CHAPTERS", .tag c!"/CHAPTERS"] else [c]

theorem chaptersIns_name {t : Str} (ht : IsName t) :
    chaptersIns (.tag t) = [.tag t] ∧ chaptersIns (.tag ('/' :: t)) = [.tag ('/' :: t)] := by
  refine ⟨?_, ?_⟩
  · refine if_neg ?_
    intro h; cases h; exact name_not ht '/' (by decide) (by simp)
  · refine if_neg ?_
    intro h
    injection h with h
    injection h with h
    exact absurd h (by decide)

theorem chaptersIns_empty {t : Str} : (emptyTag false t).flatMap chaptersIns = emptyTag true t := by
  unfold emptyTag
  by_cases h : t = c!"CHAPTERS"
  · subst h; rfl
  · have : Chunk.tag (t ++ c!" /") ≠ .tag c!"CHAPTERS /" := by
      intro h2
      injection h2 with h2
      rw [show c!"CHAPTERS /" = c!"CHAPTERS" ++ c!" /" from rfl] at h2
      exact h (List.append_cancel_right h2)
    simp [h, chaptersIns, this]

mutual
theorem chapters_body : (e : Elem) → SafeTree e → (body false e).flatMap chaptersIns = body true e
  | node t x y ks, h => by
    rw [SafeTree] at h
    obtain ⟨hn, _, _, hk⟩ := h
    have := chapters_bodyL ks hk
    rw [body, body]
    split
    · exact chaptersIns_empty
    · obtain ⟨c1, c2⟩ := chaptersIns_name hn
      have c3 : ∀ s, chaptersIns (.txt s) = [.txt s] := fun s => rfl
      split
      · simp only [List.flatMap_cons, c1, c2, c3]; rfl
      · simp only [List.cons_append, List.flatMap_append, List.flatMap_cons, List.flatMap_nil, c1, c2, c3, this, List.nil_append]
theorem chapters_bodyL : (ks : List Elem) → SafeTreeL ks → (bodyL false ks).flatMap chaptersIns = bodyL true ks
  | [], _ => rfl
  | e :: r, h => by
    rw [SafeTreeL] at h
    rw [bodyL, bodyL, List.flatMap_append, chapters_body e h.1, List.flatMap_cons, chapters_bodyL r h.2]
    rfl
end

end Verif
