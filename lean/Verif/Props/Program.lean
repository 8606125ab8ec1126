import Verif.Proofs.DriverRun
/-
C97: `main` of main.cc, with the function without a name that it sorts with, and `exception::what`, parsed and executed as C++
(Spec/CxxThrow.lean, Spec/CxxDriver.lean), do what those of the model do.
-/
set_option autoImplicit false
namespace PG.Cxx.Throw
open PG.Proto PG.Gen PG.Cxx.Tools

/-- C97: what `main` leaves behind is what the model's `main` does, for all arguments and all file systems: the status, what is
printed, what is complained about, the contents of all files.  If the model does not end within `N` steps, neither does the code.
Fields are sorted by the function that compares their names. -/
theorem C97_main (s : Bool) : ∃ f less, withLambda 60 (mainText 45 92) = some (f, less) ∧
    (∀ n (a b : Proto.Field), run (lessLib s) n less [.dom (.field a), .dom (.field b)] () =
      .ok (.bool (nameLt a.name b.name), [.dom (.field a), .dom (.field b)], ())) ∧
    ∀ n (rt : Runtime) N (w : Gen.World) (p : Bytes) (argv : List Bytes), N < n → N < 18446744073709551616 →
      (∀ k, (Gen.main rt N w argv).status = some k →
        Tools.ended w (run (driverLib s rt N w) n f [.int .i32 (argv.length + 1), .arr (.str p :: argv.map .str)] (Driven.begin w)) =
          some (Gen.main rt N w argv)) ∧
      ((Gen.main rt N w argv).status = none →
        run (driverLib s rt N w) n f [.int .i32 (argv.length + 1), .arr (.str p :: argv.map .str)] (Driven.begin w) = .fuel) := by
  refine ⟨_, _, Tools.driverFun_text, less_runs, ?_⟩
  intro n rt N w p argv hn hN
  have usage : ∀ (argv : List Bytes), argv.length ≠ 1 → argv.length ≠ 2 →
      Gen.main rt N w argv = { status := some 1, stdout := [], stderr := usage, content := w.content } →
      (∀ k, (Gen.main rt N w argv).status = some k →
        Tools.ended w (run (driverLib s rt N w) n Tools.driverFun [.int .i32 (argv.length + 1), .arr (.str p :: argv.map .str)] (Driven.begin w)) =
          some (Gen.main rt N w argv)) ∧
      ((Gen.main rt N w argv).status = none →
        run (driverLib s rt N w) n Tools.driverFun [.int .i32 (argv.length + 1), .arr (.str p :: argv.map .str)] (Driven.begin w) = .fuel) := by
    intro argv h1 h2 h
    rw [main_usage_runs n _ _ (by omega) (by omega), h]
    exact ⟨fun k _ => rfl, fun h => by cases h⟩
  match argv with
  | [] => exact usage [] (by decide) (by decide) rfl
  | [i] => exact main_one n p i hn hN
  | [i, o] => exact main_two n p i o hn hN
  | a :: b :: c :: r => exact usage (a :: b :: c :: r) (by simp) (by simp) rfl

/-- C97: with no argument at all, not even the name of the program, `main` ends in the same way as with too many. -/
theorem C97_no_name (s : Bool) : ∃ f less, withLambda 60 (mainText 45 92) = some (f, less) ∧
    ∀ n (rt : Runtime) N (w : Gen.World), Tools.ended w (run (driverLib s rt N w) n f [.int .i32 0, .arr []] (Driven.begin w)) =
      some { status := some 1, stdout := [], stderr := usage, content := w.content } :=
  ⟨_, _, Tools.driverFun_text, fun n rt N w => by
    rw [main_usage_runs n 0 _ (by decide) (by decide)]; rfl⟩

/-- A file system with a schema in it, in which everything can be opened. -/
def programWorld : Gen.World where
  file := some
  content := fun f => if f = b!"a.proto" then some b!"message B { A y = 1; }" else none
  canRead := fun _ => true
  canWrite := fun _ => true
  realpath := fun p => some (b!"/" ++ p)
  room := fun _ => none
  outRoom := none

/-- The model ends in it: with an exception for a type that is not there, which is reported. -/
example : (Gen.main (fun _ => []) 90 programWorld [b!"a.proto"]).status = some 1 ∧
    (Gen.main (fun _ => []) 90 programWorld [b!"a.proto"]).stderr =
      b!"/a.proto:0:0: error: Unable to find message 'A' (0:0)\n" ∧
    (Gen.main (fun _ => []) 90 programWorld [b!"b.proto", b!"c"]).stderr = b!"ERROR: Unable to open 'b.proto'\n" := by decide +kernel

/-- C97: `exception::what` gives the text without the place. -/
theorem C97_what (s : Bool) : ∃ f, withoutThrow 60 (exceptionText 36 39) = some f ∧
    ∀ n (e : Problem) (u : Bytes), run (problemLib s) n f [] (e, u) = .ok (.ptr e.message, [], (e, u)) :=
  ⟨_, Tools.whatFun_text, what_runs⟩

end PG.Cxx.Throw
