import Verif.Spec.CxxMainLink
import Verif.Proofs.CxxProtoLink
import Verif.Proofs.DriverRun
import Verif.Proofs.ShowRun
/-
`main` with the texts of the functions it calls (Spec/CxxMainLink.lean) does what it does with their meaning.
-/
set_option autoImplicit false
namespace PG.Cxx.Throw
open PG.Proto PG.Gen PG.Cxx.Tools
variable {s : Bool} {rt : Runtime} {N : Nat} {w : Gen.World}

theorem of_some {α β : Type} (a : α) (k : α → Ran β) : (Ran.of (some a)).bind k = k a := (rfl)

theorem usageCalled (err : Bytes) : endCalled s 30 35 [] err = .thrown (.exit 1 (err ++ usage)) := by
  unfold endCalled
  rw [Tools.usageFun_text]
  rw [of_some]
  rw [usage_runs]
  rfl

theorem errorCalled (x err : Bytes) : endCalled s 38 42 [.str x] err = .thrown (.exit 1 (err ++ b!"ERROR: " ++ x ++ b!"\n")) := by
  unfold endCalled
  rw [Tools.errorFun_text]
  rw [of_some]
  rw [error_runs]
  simp only [Ran.bind, List.append_assoc]

theorem causeCalled_model (t : Bytes) (l c : Nat) : causeCalled s t l c = .ok (cause t l c) := by
  unfold causeCalled
  rw [Tools.causeFun_text]
  rw [of_some]
  rw [cause_runs]
  rfl

theorem parseCalled_model (h26 : 26 ≤ N) (hN : N < 18446744073709551616) (text name full : Bytes) :
    parseCalled s N text Tree.empty name full = (Schema.ranOf (Proto.parse N text)).bind fun t => .ok (t, full) := by
  unfold parseCalled
  rw [Schema.parseFun_text]
  rw [of_some]
  rw [linked_parse (N + 1) h26 full _ rfl (Nat.lt_succ_self _) hN]
  cases Proto.parse N text <;> rfl

theorem linkedDriver_serves (h26 : 26 ≤ N) (hN : N < 18446744073709551616) :
    Serves (fun _ => true) (driverLib s rt N w) (linkedDriver s rt N w).function (linkedDriver s rt N w).method where
  function := by
    intro p _ st args
    unfold linkedDriver with'
    dsimp only
    split
    · unfold driverLib
      dsimp only
      split
      · rw [usageCalled]; exact Le.refl _
      · exact Le.refl _
    · next x =>
      by_cases h : p = [n!"main_error"]
      · rw [if_pos h, errorCalled]
        subst h
        exact Le.refl _
      · rw [if_neg h]
        exact Le.refl _
    · exact Le.refl _
  method := by
    intro m st args
    unfold linkedDriver with'
    dsimp only
    split
    · next full =>
      unfold driverLib
      dsimp only
      split
      · next f e =>
        rw [e]
        dsimp only
        by_cases h : m = n!"parse"
        · by_cases ht : st.tree = Tree.empty
          · rw [if_pos ⟨h, ht⟩, if_pos h, ht, parseCalled_model h26 hN]
            refine .inr ?_
            cases Proto.parse N ((st.content f).getD []) <;> rfl
          · rw [if_neg (fun x => ht x.2)]
            exact Le.none _
        · rw [if_neg (fun x => h x.1)]
          exact Le.none _
      · exact Le.none _
    · next t l c =>
      unfold driverLib
      dsimp only
      rw [causeCalled_model]
      exact Le.refl _
    · exact Le.refl _

/-- What is defined is the same with the texts. -/
theorem driver_linked (h26 : 26 ≤ N) (hN : N < 18446744073709551616) (n : Nat) (f : Fun) (args : List (Val DriverVal)) (st : Driven)
    (h : run (driverLib s rt N w) n f args st ≠ .undef) :
    run (linkedDriver s rt N w) n f args st = run (driverLib s rt N w) n f args st := by
  rcases run_le (linkedDriver_serves (s := s) (rt := rt) (w := w) h26 hN) n f (Stmts.uses_all _) args st with e | e
  · exact absurd e h
  · exact e

end PG.Cxx.Throw
