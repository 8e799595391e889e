/-
C32, what is false of the code: tables with more columns than expected are accepted and cut, and some tables with the right number of
columns are refused.
-/
import Verif.Props.C32_Write

namespace Verif
open XNode Spec

/-- A cell with one paragraph. -/
def demoCell (t : Str) : XNode := .elem c!"table:table-cell" [] [.elem c!"text:p" [] [.text t]]

/-- A cell that is repeated. -/
def demoRepeated (n t : Str) : XNode := .elem c!"table:table-cell" [(c!"table:number-columns-repeated", n)] [.elem c!"text:p" [] [.text t]]

/-- A row. -/
def demoRow (cells : List XNode) : XNode := .elem c!"table:table-row" [] cells

/-- A document with the given rows. -/
def demoSheet (rows : List XNode) : XNode :=
  .elem c!"office:document-content" [] [.elem c!"office:body" [] [.elem c!"office:spreadsheet" [] [.elem c!"table:table" [] rows]]]

/-- A table with six columns. -/
def wideRow : XNode := demoRow ([c!"LcID:1", c!"a", c!"b", c!"c", c!"d", c!"e"].map demoCell)

/-- The statement that a table with a different number of columns is refused. -/
def C32_refuses : Prop := ∀ k root table, 0 < k → TableOf root table →
  (∃ row ∈ tableRows table, hasId row = true ∧ (columns (tableCells row)).length ≠ k) → ∀ rows, readTable k root ≠ .ok rows

/-- C32 is false in this respect: the location list reader, which expects five columns, accepts a table with six columns and drops the
sixth. -/
theorem C32_false : ¬ C32_refuses := by
  intro h
  refine h 5 (demoSheet [wideRow]) (.elem c!"table:table" [] [wideRow]) (by decide) ⟨_, _, rfl, rfl, rfl⟩ ⟨wideRow, by
    rw [show tableRows (.elem c!"table:table" [] [wideRow]) = [wideRow] from rfl]; simp, by decide, by decide⟩
    [[c!"LcID:1", c!"a", c!"b", c!"c", c!"d"]] rfl

/-- A row whose first five columns are filled, the last two of them by one repeated cell, with a sixth column. -/
def repeatedRow : XNode := demoRow ([c!"LcID:1", c!"a", c!"b"].map demoCell ++ [demoRepeated c!"2" c!"c", demoCell c!"d"])

/-- Also false: not every table whose rows have at least the expected number of columns is accepted. If a repeated cell ends exactly at
the last column that is expected and another cell follows, the table is refused, although the same table without the repetition is
accepted. -/
theorem C32_refuses_repeated :
    columns (tableCells repeatedRow) = [c!"LcID:1", c!"a", c!"b", c!"c", c!"c", c!"d"] ∧
    readTable 5 (demoSheet [repeatedRow]) = .error (.error c!"Wrong table structure.") ∧
    readTable 5 (demoSheet [demoRow ((columns (tableCells repeatedRow)).map demoCell)]) = .ok [[c!"LcID:1", c!"a", c!"b", c!"c", c!"c"]] :=
  ⟨rfl, rfl, rfl⟩

/-! ### A document that meets the hypotheses of `C32_characters` -/

/-- A novel with two characters; texts with line breaks and special characters. -/
def demoCast : Novel :=
  { characters := [(c!"1", { title := some c!"Ann & Bob", desc := some c!"first <line>\n\nthird", tags := some [c!"x", c!"y z"], isMajor := some true }),
      (c!"2", { title := some c!"Z", notes := some c!"n " })],
    srtCharacters := [c!"2", c!"1"] }

/-- The environment of the demonstration. -/
def demoDocEnv : DocEnv := { projectName := c!"p", projectPath := c!"/d", contentHeader := fun _ => [] }

/-- The cast can be written, so `C32_characters` applies to it. -/
theorem demoCast_written : ∃ text, getText (odsCharList demoDocEnv) demoCast = .ok text ∧
    (∃ root, parseDoc text = some root ∧ readTable 10 root = .ok [charTitles,
      [c!"CrID:2", c!"Z", [], [], [], [], [], c!"Minor", [], c!"n"],
      [c!"CrID:1", c!"Ann & Bob", [], [], c!"first <line>\n\nthird", [], [], c!"Major", c!"x, y z", []]]) := by
  have hm : ∃ text, getText (odsCharList demoDocEnv) demoCast = .ok text := ⟨_, rfl⟩
  obtain ⟨text, ht⟩ := hm
  refine ⟨text, ht, ?_⟩
  obtain ⟨_, root, h1, h2⟩ := C32_characters ht (by
    intro id hid
    simp only [demoCast, List.mem_cons, List.not_mem_nil, or_false] at hid
    rcases hid with rfl | rfl <;> (intro c hc; revert c; decide)) (by
    intro id hid c hc
    simp only [demoCast, List.mem_cons, List.not_mem_nil, or_false] at hid
    rcases hid with rfl | rfl
    · injection hc with hc; subst hc
      refine ⟨?_, trivial, trivial, trivial, trivial, trivial, ?_, ?_⟩
      · intro d hd; revert d; decide
      · intro d hd; revert d; decide
      · intro t ht; cases ht
    · injection hc with hc; subst hc
      refine ⟨?_, trivial, trivial, ?_, trivial, trivial, trivial, ?_⟩
      · intro d hd; revert d; decide
      · intro d hd; revert d; decide
      · intro t ht
        simp only [Option.getD_some, List.mem_cons, List.not_mem_nil, or_false] at ht
        rcases ht with rfl | rfl <;> (intro d hd; revert d; decide))
  exact ⟨root, h1, h2⟩

end Verif
