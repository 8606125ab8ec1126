import Verif.Props.MakerLinked
import Verif.Proofs.CxxMainLink
/-
`main` with the texts of the parser, of the generator and of the printer (Spec/CxxProgramLink.lean) does what it does with their meaning.
-/
set_option autoImplicit false
namespace PG.Cxx.Throw
open PG.Proto PG.Gen PG.Cxx.Tools PG.Cxx.Maker
variable {s : Bool} {N : Nat} {w : Gen.World}

theorem counted_countable {msgs : List Message} (h : counted msgs = true) : Countable msgs := by
  unfold counted at h
  rw [Bool.and_eq_true, List.all_eq_true] at h
  refine ⟨?_, of_decide_eq_true h.1, fun m hm => ?_⟩
  · rintro i j ⟨m, f, hm, hf, hj⟩
    have := h.2 m (List.mem_of_getElem? hm)
    rw [Bool.and_eq_true, List.all_eq_true] at this
    have := this.2 f hf
    rw [hj] at this
    exact of_decide_eq_true this
  · have := h.2 m hm
    rw [Bool.and_eq_true] at this
    exact of_decide_eq_true this.1

theorem generateLinked_model (file : Bool) (st : Driven) : Le (generated shipped file st) (generateLinked s file st) := by
  unfold generated
  dsimp only
  cases hc : counted st.tree.messages with
  | false => exact Le.none _
  | true =>
    have hw := counted_countable hc
    refine .inr ?_
    rw [Bool.not_true]
    simp only [Bool.false_eq_true, if_false]
    unfold generateLinked
    dsimp only
    have h := generate_linked (s := s)
      (w := ⟨shipped, st.tree.messages, st.tree.options, st.fileName, st.tree.messages.length + 1, true⟩) hw rfl (st.tree.messages.length + 8)
      (Nat.lt_succ_self _) (Nat.lt_succ_self _) [] st.tree.package
    rw [h]
    unfold does
    dsimp only
    cases hr : (generate (st.tree.messages.length + 1) st.fileName st.tree).res with
    | ok a =>
      cases a
      show (writtenBy s ([] ++ (generate (st.tree.messages.length + 1) st.fileName st.tree).calls.map _) []).bind _ = _
      rw [List.nil_append, written_model s]
      rfl
    | exc x =>
      show (writtenBy s ([] ++ (generate (st.tree.messages.length + 1) st.fileName st.tree).calls.map _) []).bind _ = _
      rw [List.nil_append, written_model s]
      rfl
    | running => rfl

theorem linkedProgram_serves :
    Serves (fun _ => true) (linkedDriver s shipped N w) (linkedProgram s N w).function (linkedProgram s N w).method where
  function := fun _ _ _ _ => Le.refl _
  method := by
    intro m st args
    unfold linkedProgram with'
    dsimp only
    split
    · by_cases h : m = n!"generate"
      · rw [if_pos h]
        have e : (linkedDriver s shipped N w).method m st [.dom .gen, .dom .proto, .dom .cout] = generated shipped false st := by
          show (if m = n!"generate" then _ else _) = _
          rw [if_pos h]
        rw [e]
        exact generateLinked_model false st
      · rw [if_neg h]
        refine .inl ?_
        show (if m = n!"generate" then _ else _) = _
        rw [if_neg h]
    · by_cases h : m = n!"generate" ∧ st.output ≠ none
      · rw [if_pos h]
        have e : (linkedDriver s shipped N w).method m st [.dom .gen, .dom .proto, .dom .out] = generated shipped true st := by
          show (if m = n!"generate" ∧ st.output ≠ none then _ else _) = _
          rw [if_pos h]
        rw [e]
        exact generateLinked_model true st
      · rw [if_neg h]
        refine .inl ?_
        show (if m = n!"generate" ∧ st.output ≠ none then _ else _) = _
        rw [if_neg h]
    · exact Le.refl _

/-- What is defined is the same with the texts. -/
theorem program_linked (h26 : 26 ≤ N) (hN : N < 18446744073709551616) (n : Nat) (f : Fun) (args : List (Val DriverVal)) (st : Driven)
    (h : run (driverLib s shipped N w) n f args st ≠ .undef) :
    run (linkedProgram s N w) n f args st = run (driverLib s shipped N w) n f args st := by
  have e := driver_linked h26 hN n f args st h
  rw [← e] at h ⊢
  rcases run_le (linkedProgram_serves (s := s) (N := N) (w := w)) n f (Stmts.uses_all _) args st with e | e
  · exact absurd e h
  · exact e

end PG.Cxx.Throw
