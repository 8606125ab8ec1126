import Verif.Spec.CxxProtoLink
import Verif.Spec.CxxDriver
import Verif.Spec.CxxShow
import Verif.Spec.CxxStart
/-
`main` of main.cc with the texts of the functions it calls in place of their meaning: `main_usage`, `main_error`, `exception::cause` and
`Proto3::parse`, which calls the texts of the parser and of its tokenizer (Spec/CxxProtoLink.lean).  Streams, `realpath`, `std::sort` and
`CppGenerator::generate` keep the meaning they have in Spec/CxxDriver.lean.
-/
set_option autoImplicit false
namespace PG.Cxx.Throw
open PG.Proto PG.Gen PG.Cxx.Tools

/-- A function that ends the program: what it writes to `std::cerr` comes after what has been written (main.cc:30-42). -/
def endCalled (s : Bool) (a b : Nat) (args : List (Val EndVal)) (err : Bytes) : Ran (Val DriverVal × List (Option (Val DriverVal)) × Driven) :=
  (Ran.of (Fun.of [] 60 (mainText a b))).bind fun f => (run (endLib s) 0 f args ([], none)).bind fun r =>
    match r.2.2.2 with
    | some k => .thrown (.exit k (err ++ r.2.2.1))
    | none => .undef

/-- exception.cc:41-46 `exception::cause`. -/
def causeCalled (s : Bool) (text : Bytes) (line col : Nat) : Ran Bytes :=
  (Ran.of (Fun.of [] 60 (exceptionText 41 46))).bind fun f => (run (problemLib s) 0 f [] (⟨text, line, col⟩, [])).bind fun r =>
    match r.1 with
    | .str x => .ok x
    | _ => .undef

/-- proto3.cc:773-809 `Proto3::parse`, called with a stream as `std::ifstream` makes it. -/
def parseCalled (s : Bool) (N : Nat) (text : Bytes) (tree : Tree) (name full : Bytes) : Ran (Tree × Bytes) :=
  (Ran.of (Fun.of [] 60 (protoText 773 809))).bind fun f =>
    (run (linkedParse s N) (N + 1) f [.dom .stream, .str full] ⟨text, true, tree, name⟩).bind fun r => .ok (r.2.2.tree, r.2.2.fileName)

/-- The library for `main` with these texts. -/
def linkedDriver (s : Bool) (rt : Runtime) (N : Nat) (w : Gen.World) : ThrowLib DriverVal Driven :=
  with' (driverLib s rt N w)
    (fun p st args =>
      match args with
      | [] =>
        if p = [n!"main_usage"] then (if st.output = none ∧ st.toOut = [] then endCalled s 30 35 [] st.err else .undef)
        else .undef
      | [.str x] =>
        if p = [n!"main_error"] then (if st.output = none ∧ st.toOut = [] then endCalled s 38 42 [.str x] st.err else .undef)
        else (driverLib s rt N w).function p st [.str x]
      | args => (driverLib s rt N w).function p st args)
    (fun m st args =>
      match args with
      | [.dom .proto, .dom .input, .str full] =>
        match st.input with
        | some f =>
          if m = n!"parse" then
            (parseCalled s N ((st.content f).getD []) st.tree st.fileName full).bind fun r =>
              .ok (.void, [], { st with tree := r.1, fileName := r.2 })
          else .undef
        | none => .undef
      | [.dom (.problem t (.ofNat l) (.ofNat c))] =>
        if m = n!"cause" then (causeCalled s t l c).bind fun x => .ok (.str x, [], st) else .undef
      | args => (driverLib s rt N w).method m st args)

end PG.Cxx.Throw
