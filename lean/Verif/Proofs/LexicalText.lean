import Verif.Props.Headers
import Verif.Spec.Lexical
import Verif.Proofs.Lexical
/-
The outer form of the files of the runtime.
-/
set_option autoImplicit false
namespace PG.Gen

/-- What is printed for some lines of a file of the runtime. -/
def printedLines (ls : List Bytes) : Bytes := tabless (withVersion (joined (ls.filter fun l => !removable l)))

theorem printedLines_append (a b : List Bytes) : printedLines (a ++ b) = printedLines a ++ printedLines b := by
  unfold printedLines tabless
  rw [List.filter_append, withVersion_joined, withVersion_joined, withVersion_joined, List.map_append, joined,
    List.flatMap_append, List.flatMap_append]
  rfl

theorem text_protogen1 : Scan.begin.run (printedLines protogenLines1) = some ⟨.start, false, [.curly, .cond]⟩ := by
  decide +kernel
theorem text_protogen2 : Scan.run ⟨.start, false, [.curly, .cond]⟩ (printedLines protogenLines2) =
    some ⟨.start, false, [.curly, .curly, .cond]⟩ := by decide +kernel
theorem text_protogen3 : Scan.run ⟨.start, false, [.curly, .curly, .cond]⟩ (printedLines protogenLines3) =
    some ⟨.start, false, [.curly, .curly, .curly, .cond]⟩ := by decide +kernel
theorem text_protogen4 : Scan.run ⟨.start, false, [.curly, .curly, .curly, .cond]⟩ (printedLines protogenLines4) =
    some ⟨.start, false, [.curly, .curly, .curly, .curly, .cond]⟩ := by decide +kernel
theorem text_protogen5 : Scan.run ⟨.start, false, [.curly, .curly, .curly, .curly, .cond]⟩ (printedLines protogenLines5) =
    some ⟨.start, false, [.curly, .curly, .curly, .curly, .curly, .cond]⟩ := by decide +kernel
theorem text_protogen6 : Scan.run ⟨.start, false, [.curly, .curly, .curly, .curly, .curly, .cond]⟩ (printedLines protogenLines6) =
    some ⟨.start, false, [.curly, .curly, .curly, .curly, .curly, .cond]⟩ := by decide +kernel
theorem text_protogen7 : Scan.run ⟨.start, false, [.curly, .curly, .curly, .curly, .curly, .cond]⟩ (printedLines protogenLines7) =
    some ⟨.start, false, [.curly, .curly, .cond]⟩ := by decide +kernel
theorem text_protogen8 : Scan.run ⟨.start, false, [.curly, .curly, .cond]⟩ (printedLines protogenLines8) = some Scan.begin := by
  decide +kernel
theorem text_json1 : Scan.begin.run (printedLines jsonLines1) = some ⟨.code, true, [.curly, .directive, .curly, .cond]⟩ := by
  decide +kernel
theorem text_json2 : Scan.run ⟨.code, true, [.curly, .directive, .curly, .cond]⟩ (printedLines jsonLines2) = some Scan.begin := by
  decide +kernel
theorem text_array1 : Scan.begin.run (printedLines arrayLines1) = some ⟨.start, false, [.curly, .cond]⟩ := by decide +kernel
theorem text_array2 : Scan.run ⟨.start, false, [.curly, .cond]⟩ (printedLines arrayLines2) = some Scan.begin := by decide +kernel
theorem text_base641 : Scan.begin.run (printedLines base64Lines1) = some ⟨.start, false, [.curly, .curly, .curly, .cond]⟩ := by
  decide +kernel
theorem text_base642 : Scan.run ⟨.start, false, [.curly, .curly, .curly, .cond]⟩ (printedLines base64Lines2) =
    some Scan.begin := by decide +kernel
theorem text_number1 : Scan.begin.run (printedLines numberLines1) = some ⟨.start, false, [.curly, .cond]⟩ := by decide +kernel
theorem text_number2 : Scan.run ⟨.start, false, [.curly, .cond]⟩ (printedLines numberLines2) = some Scan.begin := by
  decide +kernel
theorem text_string1 : Scan.begin.run (printedLines stringLines1) =
    some ⟨.start, false, [.curly, .curly, .curly, .curly, .curly, .curly, .cond]⟩ := by decide +kernel
theorem text_string2 : Scan.run ⟨.start, false, [.curly, .curly, .curly, .curly, .curly, .curly, .cond]⟩
    (printedLines stringLines2) = some Scan.begin := by decide +kernel

theorem run_lines {s u v : Scan} {a b : List Bytes} (h : s.run (printedLines a) = some u) (k : u.run (printedLines b) = some v) :
    s.run (printedLines (a ++ b)) = some v := by
  rw [printedLines_append]
  exact Scan.run_some h k

theorem text_part (p : Part) : Scan.begin.run (printedLines p.lines) = some Scan.begin := by
  cases p with
  | protogen =>
    exact run_lines (run_lines (run_lines (run_lines (run_lines (run_lines (run_lines text_protogen1 text_protogen2) text_protogen3)
      text_protogen4) text_protogen5) text_protogen6) text_protogen7) text_protogen8
  | json => exact run_lines text_json1 text_json2
  | array => exact run_lines text_array1 text_array2
  | base64 => exact run_lines text_base641 text_base642
  | number => exact run_lines text_number1 text_number2
  | string => exact run_lines text_string1 text_string2

theorem shipped_wellFormed (p : Part) : WellFormed (Call.text shipped ⟨.runtime p, []⟩) := by
  unfold WellFormed
  rw [C82_printed]
  have e : tabless (shipped p) = printedLines p.lines ++ [10] := by
    unfold shipped printedLines tabless
    rw [List.flatMap_append]
    rfl
  rw [e]
  exact Scan.run_some (text_part p) rfl

end PG.Gen
