import Verif.Spec.CxxGen
import Verif.Spec.GenText
import Verif.Proofs.CxxThrowMono
/-
The functions of the generator (cppgen.cc:77-603) calling each other: where `genLib` (Spec/CxxGen.lean) gives a function its meaning, its
text is parsed and executed instead, and the same is done for what it calls.  What is not defined by a text here: the calls of the printer (its
text is executed for them in Spec/CxxProgramLink.lean), constructors, methods of containers, `throw`.
-/
set_option autoImplicit false
namespace PG.Cxx.Throw
open PG.Proto PG.Gen PG.Cxx.Maker

/-- Where the texts are, in cppgen.cc; which of the functions of the same name is called depends on the types of the arguments. -/
def makerLines (f : Name) (args : List (Val GVal)) : Option (Nat × Nat) :=
  match args with
  | [.str _] =>
    if f = n!"nativePackage" then some (77, 93)
    else if f = n!"makeGuard" then some (482, 496)
    else none
  | [.dom (.field _)] =>
    if f = n!"nativeType" then some (98, 117)
    else if f = n!"is_transient" then some (248, 251)
    else if f = n!"get_json_name" then some (253, 260)
    else none
  | [.dom (.field _), .bool _] => if f = n!"fieldNativeType" then some (122, 167) else none
  | [.dom (.options _), .str _, .str _] => if f = n!"get_option" then some (226, 235) else none
  | [.dom (.options _), .str _, .bool _] => if f = n!"get_option" then some (237, 246) else none
  | [.dom (.ctx _ _), .dom (.msg _), .bool _] =>
    if f = n!"generateNamespace" then some (169, 188)
    else if f = n!"generate_function__index" then some (396, 424)
    else none
  | [.dom (.ctx _ _), .dom (.msg _)] =>
    if f = n!"generateModel" then some (190, 205)
    else if f = n!"generateModelWrapper" then some (426, 449)
    else if f = n!"generateEntity" then some (451, 457)
    else if f = n!"generateEntityWrapper" then some (459, 463)
    else if f = n!"generateMessage" then some (465, 480)
    else none
  | [.dom (.ctx _ _), .dom (.msg _), .str _, .bool _] =>
    if f = n!"generate_function__read_field" then some (262, 283)
    else if f = n!"generate_function__write" then some (285, 314)
    else none
  | [.dom (.ctx _ _), .dom (.msg _), .str _] =>
    if f = n!"generate_function__empty" then some (316, 334)
    else if f = n!"generate_function__clear" then some (336, 354)
    else if f = n!"generate_function__equal" then some (356, 374)
    else if f = n!"generate_function__swap" then some (376, 394)
    else none
  | [.arr _, .dom (.ref _)] => if f = n!"contains" then some (501, 507) else none
  | [.arr _, .dom (.set _), .dom (.ref _)] => if f = n!"sort" then some (509, 525) else none
  | [.dom (.ctx _ _)] =>
    if f = n!"sort" then some (527, 535)
    else if f = n!"generateInclusions" then some (537, 576)
    else if f = n!"generateModel" then some (578, 590)
    else none
  | _ => none

/-- The names of these functions. -/
def makerNames : List Name :=
  [n!"nativePackage", n!"makeGuard", n!"nativeType", n!"is_transient", n!"get_json_name", n!"fieldNativeType", n!"get_option",
    n!"generateNamespace", n!"generate_function__index", n!"generateModel", n!"generateModelWrapper", n!"generateEntity",
    n!"generateEntityWrapper", n!"generateMessage", n!"generate_function__read_field", n!"generate_function__write",
    n!"generate_function__empty", n!"generate_function__clear", n!"generate_function__equal", n!"generate_function__swap",
    n!"contains", n!"sort", n!"generateInclusions"]

/-- The text of a function: it has the name and takes as many arguments. -/
def makerCode (f : Name) (args : List (Val GVal)) : Option Fun :=
  (makerLines f args).bind fun l => (Fun.of [] 60 (genText l.1 l.2)).bind fun c =>
    if c.name = f ∧ c.params.length = args.length then some c else none

/-- How often the loops of a function may be executed: they are over a text, the fields, the messages. -/
def makerLoops (w : Given) (args : List (Val GVal)) : Nat :=
  match args with
  | [.str x] => x.length + 1
  | [.dom (.field f)] => (match getString f.options b!"name" f.name with | .ok v => v.length | _ => 0) + 1
  | .dom (.ctx _ _) :: .dom (.msg m) :: _ => m.package.length + m.fields.length + 2
  | [.arr l, .dom (.ref _)] => l.length + 1
  | [.arr _, .dom (.set _), .dom (.ref (some i))] => (fieldsAt w.msgs i).length + 1
  | [.dom (.ctx _ _)] => w.msgs.length + (w.msgs.flatMap (·.fields)).length + 1
  | _ => 0

/-- The new values of the arguments that are passed by reference: `sort` changes what it is given (cppgen.cc:509, 527), and with it
`generateModel` for the file; the others leave the context as it is. -/
def makerChanged (f : Name) (args : List (Val GVal)) (last : List (Val GVal)) : List (Option (Val GVal)) :=
  match args, last with
  | [.arr _, .dom (.set _), .dom (.ref _)], [a, b, _] => if f = n!"sort" then [some a, some b] else []
  | [.dom (.ctx _ _)], [a] => if f = n!"sort" ∨ f = n!"generateModel" then [some a] else []
  | _, _ => []

section
variable (s : Bool) (w : Given)

/-- cppgen.cc:214-224, the text of `obfuscate`, executed with a stream of its own; a `std::string` has less than 2^64 characters, and
nothing is executed for what is longer. -/
def obfuscateCalled : Thrower GVal Printed := fun st args =>
  match args with
  | [.str x] =>
    if x.length < 18446744073709551616 then
      (Ran.of (Fun.of [] 60 (genText 214 224))).bind fun f => (run (hexLib s) (x.length + 1) f [.str x] ([], false)).bind fun r =>
        match r.1 with
        | .str y => .ok (.str y, [], st)
        | _ => .undef
    else (genLib s w).function [n!"obfuscate"] st args
  | _ => .undef

/-- printer.hh:47-53, `Printer::format`: the text of `Printer::print` (printer.cc:39-66), executed with a stream of its own. -/
def formatCalled : Thrower GVal Printed := fun st args =>
  match args with
  | [.str f, .str x] => (Ran.of (Fun.of [] 60 (printText 39 66))).bind fun c =>
    (run (printLib s) (f.length + 1) c [.dom .out, .ptr f, .arr [.str x]] []).bind fun r => .ok (.str r.2.2, [], st)
  | _ => .undef

/-- The functions of the library with others in place of those that have a text. -/
def makerFunction (T : Name → Thrower GVal Printed) : List Name → Thrower GVal Printed := fun p st args =>
  match p with
  | [f] =>
    if f ∈ makerNames then T f st args
    else if f = n!"obfuscate" then obfuscateCalled s w st args
    else (genLib s w).function [f] st args
  | p => if p = [n!"Printer", n!"format"] then formatCalled s st args else (genLib s w).function p st args

/-- What the text of a function does if calls nest at most as deep as given. -/
def deepMake : Nat → Name → Thrower GVal Printed
  | 0, _ => fun _ _ => .undef
  | k + 1, f => fun st args => (Ran.of (makerCode f args)).bind fun c =>
    (run (with' (genLib s w) (makerFunction s w (deepMake k)) (genLib s w).method) (makerLoops w args) c args st).bind fun r =>
      .ok (r.1, makerChanged f args r.2.1, r.2.2)

/-- The library in which the functions of the generator are their texts, wherever they are called from. -/
def linkedMaker (k : Nat) : ThrowLib GVal Printed := with' (genLib s w) (makerFunction s w (deepMake s w k)) (genLib s w).method

/-- cppgen.cc:592-603, the text of `CppGenerator::generate`, which calls the texts of the others: the result and what has been printed. -/
def generateCalled (k : Nat) (st : Printed) : Ran (Val GVal × Printed) :=
  (Ran.of (Fun.of [] 60 (genText 592 603))).bind fun f =>
    (run (linkedMaker s w k) 1 f [.dom (.root (List.range w.msgs.length)), .dom .out] st).bind fun r => .ok (r.1, r.2.2)
end

end PG.Cxx.Throw
