import Verif.Spec.CxxMainLink
import Verif.Spec.CxxMakerLink
import Verif.Props.Headers
/-
`main` of main.cc with the texts of the parser (Spec/CxxMainLink.lean) and also those of the generator (Spec/CxxMakerLink.lean) and of the
printer in place of their meaning.  When the generator throws, the exception of its texts carries the calls of the printer made by then, and
the text of the printer is executed for them.
-/
set_option autoImplicit false
namespace PG.Cxx.Throw
open PG.Proto PG.Gen PG.Cxx.Tools PG.Cxx.Maker

/-- What the text of `Printer::print` (printer.cc:39-66) writes for calls of the printer one after the other. -/
def writtenBy (s : Bool) : Printed → Bytes → Ran Bytes
  | [], a => .ok a
  | c :: rest, a => (Ran.of (Fun.of [] 60 (printText 39 66))).bind fun f =>
    (run (printLib s) (c.1.length + 1) f [.dom .out, .ptr c.1, .arr (c.2.map .str)] a).bind fun r => writtenBy s rest r.2.2

/-- `gen.generate(proto, stream)` (main.cc:81-82), with the texts of cppgen.cc:77-603 and printer.cc:39-66. -/
def generateLinked (s file : Bool) (st : Driven) : Ran (Val DriverVal × List (Option (Val DriverVal)) × Driven) :=
  let w : Given :=
    { rt := shipped, msgs := st.tree.messages, options := st.tree.options, fileName := st.fileName, depth := st.tree.messages.length + 1 }
  match generateCalled s w (st.tree.messages.length + 8) [] with
  | .ok (_, p) => (writtenBy s p []).bind fun x =>
    .ok (.void, [], if file then { st with toFile := st.toFile ++ x } else { st with toOut := st.toOut ++ x })
  | .thrown (.during p t l c) => (writtenBy s p []).bind fun x => .thrown (.later file x t l c)
  | .thrown e => .thrown e
  | .fuel => .fuel
  | .undef => .undef

/-- The library for `main` in which all functions of the compiler are texts. -/
def linkedProgram (s : Bool) (N : Nat) (w : Gen.World) : ThrowLib DriverVal Driven :=
  with' (linkedDriver s shipped N w) (linkedDriver s shipped N w).function
    (fun m st args =>
      match args with
      | [.dom .gen, .dom .proto, .dom .cout] => if m = n!"generate" then generateLinked s false st else .undef
      | [.dom .gen, .dom .proto, .dom .out] => if m = n!"generate" ∧ st.output ≠ none then generateLinked s true st else .undef
      | args => (linkedDriver s shipped N w).method m st args)

end PG.Cxx.Throw
