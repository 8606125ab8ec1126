import Verif.Spec.CxxThrow
import Verif.Spec.CxxProto
import Verif.Spec.CxxGen
import Verif.Spec.ToolText
import Verif.Model.Main
/-
The library used by `main` of main.cc, and two forms that occur only there and in exception.cc: a function without a name, and an
exception specification.
-/
set_option autoImplicit false
namespace PG.Cxx.Tools
open PG.Gen PG.Proto

/-! ### Syntax -/

/-- The tokens up to the brace that closes the first one. -/
def closed : Nat → List Cpp.Tok → Option (List Cpp.Tok × List Cpp.Tok)
  | _, [] => none
  | d, t :: ts =>
    if t = .op b!"{" then (closed (d + 1) ts).map fun r => (t :: r.1, r.2)
    else if t = .op b!"}" then
      match d with
      | 0 => none
      | 1 => some ([t], ts)
      | d + 2 => (closed (d + 1) ts).map fun r => (t :: r.1, r.2)
    else (closed d ts).map fun r => (t :: r.1, r.2)

/-- A function without a name, `[](…) { … }`, is replaced by the word `lambda`; its parameters and its body. -/
def lambda : List Cpp.Tok → Option (List Cpp.Tok × List Cpp.Tok)
  | [] => none
  | t :: ts =>
    if t = .op b!"[" ∧ ts.head? = some (.op b!"]") then (closed 0 (ts.drop 1)).map fun r => (.word b!"lambda" :: r.2, r.1)
    else (lambda ts).map fun r => (t :: r.1, r.2)

/-- A function that has a function without a name in it, which gets the name `lambda`. -/
def withLambda (n : Nat) (lines : List Bytes) : Option (Fun × Fun) :=
  (preprocess [] [] [] lines).bind fun ts => (lambda ts).bind fun l => (function n l.1).bind fun f =>
    (function n (.word b!"auto" :: .word b!"lambda" :: l.2)).bind fun g => if f.2 = [] ∧ g.2 = [] then some (f.1, g.1) else none

/-- `throw ( )` is left out. -/
def unthrow : List Cpp.Tok → List Cpp.Tok
  | .word w :: .op o :: .op c :: ts =>
    if w = b!"throw" ∧ o = b!"(" ∧ c = b!")" then ts else .word w :: unthrow (.op o :: .op c :: ts)
  | t :: ts => t :: unthrow ts
  | [] => []

/-- A function with an exception specification. -/
def withoutThrow (n : Nat) (lines : List Bytes) : Option Fun :=
  (preprocess [] [] [] lines).bind fun ts => (function n (unthrow ts)).bind fun f => if f.2 = [] then some f.1 else none

/-! ### Library -/

/-- The objects of `main`: streams, what manipulates them, pointers to streams, a pointer that is null, one that is not, the schema, a
message, its fields, the beginning and the end of these, the function that compares fields, the generator, an exception. -/
inductive DriverVal
  | input
  | out
  | cout
  | cerr
  | endl
  | ate
  | to (file : Bool)
  | null
  | there
  | proto
  | message (i : Nat)
  | fields (i : Nat)
  | first (i : Nat)
  | last (i : Nat)
  | less
  | gen
  | problem (text : Bytes) (line column : Int)

/-- What has happened: the file that is read and the one that is written, if they are open; the contents of the files, the open one
being empty; what has been written to `std::cout`, to the file and to `std::cerr`; the schema and the name of its file. -/
structure Driven where
  input : Option Bytes := none
  output : Option Bytes := none
  content : Bytes → Option Bytes
  toOut : Bytes := []
  toFile : Bytes := []
  err : Bytes := []
  tree : Tree := Tree.empty
  fileName : Bytes := []

/-- What `std::cerr << v` writes. -/
def complained : Val DriverVal → Option Bytes
  | .str x => some x
  | .int .char c => some [IT.toByte c]
  | .int .i32 v => some (decInt v)
  | .dom .endl => some b!"\n"
  | _ => none

/-- The fields of a message in another order. -/
def sortAt (t : Tree) (i : Nat) : Tree :=
  { t with messages := t.messages.modify i fun m => { m with fields := sortByName m.fields } }

/-- References are to messages of the schema, and there are not more messages or fields than `size_t` can count. -/
def counted (msgs : List Message) : Bool :=
  decide (msgs.length < 18446744073709551616) && msgs.all fun m =>
    decide (m.fields.length < 18446744073709551616) && m.fields.all fun f =>
      match f.type.ref with
      | none => true
      | some j => decide (j < msgs.length)

/-- `gen.generate(proto, stream)` (C95) after something has been done, for a schema that can be counted. -/
def generated (rt : Runtime) (file : Bool) (st : Driven) : Ran (Val DriverVal × List (Option (Val DriverVal)) × Driven) :=
  let e := generate (st.tree.messages.length + 1) st.fileName st.tree
  if !counted st.tree.messages then .undef else match e.res with
  | .ok () =>
    .ok (.void, [], if file then { st with toFile := st.toFile ++ textOf rt e.calls } else { st with toOut := st.toOut ++ textOf rt e.calls })
  | .exc x => .thrown (.later file (textOf rt e.calls) x.text x.line x.col)
  | .running => .fuel

/-- The library for `main`; `w` is the file system, and the loops of the parser make at most `N` iterations.  `PATH_MAX` is that of
Linux; what `realpath` gives fits.  `exit` must not be called when a file has been opened for writing, or something has been
printed: what happens to that then is not modelled. -/
def driverLib (s : Bool) (rt : Runtime) (N : Nat) (w : World) : ThrowLib DriverVal Driven where
  base := { Schema.plain s with
    constant := fun p =>
      if p = [n!"std", n!"cout"] then some (.dom .cout)
      else if p = [n!"std", n!"cerr"] then some (.dom .cerr)
      else if p = [n!"std", n!"endl"] then some (.dom .endl)
      else if p = [n!"std", n!"ios_base", n!"ate"] then some (.dom .ate)
      else if p = [n!"nullptr"] then some (.dom .null)
      else if p = [n!"PATH_MAX"] then some (.int .i32 4096)
      else if p = [n!"lambda"] then some (.dom .less)
      else none
    member := fun v n st =>
      match v with
      | .dom .proto => if n = n!"messages" then some (.arr ((List.range st.tree.messages.length).map fun i => .dom (.message i))) else none
      | .dom (.message i) => if n = n!"fields" then some (.dom (.fields i)) else none
      | .dom (.problem _ l c) =>
        if n = n!"line" then some (.int .i32 l) else if n = n!"column" then some (.int .i32 c) else none
      | _ => none
    unary := fun o a _ =>
      match a with
      | .dom .cout => if o = n!"&" then some (.dom (.to false)) else none
      | .dom .out => if o = n!"&" then some (.dom (.to true)) else none
      | .dom (.to false) => if o = n!"*" then some (.dom .cout) else none
      | .dom (.to true) => if o = n!"*" then some (.dom .out) else none
      | _ => none
    binary := fun o a b st =>
      match a, b with
      | .dom .cerr, v => if o = n!"<<" then (complained v).map fun x => (.dom .cerr, { st with err := st.err ++ x }) else none
      | .dom .null, .dom .null => if o = n!"==" then some (.bool true, st) else none
      | .dom .there, .dom .null => if o = n!"==" then some (.bool false, st) else none
      | _, _ => none
    assign := fun a b =>
      match a, b with
      | .dom (.to _), .dom (.to f) => some (.dom (.to f))
      | _, _ => none
    init := fun n v _ =>
      match v with
      | some (.dom (.to f)) => if n = n!"std :: ostream *" then some (.dom (.to f)) else none
      | none =>
        if n = n!"std :: ofstream" then some (.dom .out)
        else if n = n!"protogen :: Proto3" then some (.dom .proto)
        else if n = n!"protogen :: CppGenerator" then some (.dom .gen)
        else none
      | _ => none }
  function := fun p st args =>
    match args with
    | [] =>
      if p = [n!"main_usage"] then (if st.output = none ∧ st.toOut = [] then .thrown (.exit 1 (st.err ++ usage)) else .undef) else .undef
    | [.str x] =>
      if p = [n!"std :: ifstream"] then .ok (.dom .input, [], { st with input := w.openIn x })
      else if p = [n!"main_error"] then
        (if st.output = none ∧ st.toOut = [] then .thrown (.exit 1 (st.err ++ b!"ERROR: " ++ x ++ b!"\n")) else .undef)
      else if p = [n!"std", n!"string"] then .ok (.str x, [], st)
      else .undef
    | [.str x, .str _] =>
      if p = [n!"realpath"] then
        match w.realpath x with
        | some full => .ok (.dom .there, [none, some (.str full)], st)
        | none => .ok (.dom .null, [], st)
      else .undef
    | [.dom (.first i), .dom (.last j), .dom .less] =>
      if p = [n!"std", n!"sort"] ∧ i = j then .ok (.void, [], { st with tree := sortAt st.tree i }) else .undef
    | _ => .undef
  method := fun m st args =>
    match args with
    | [.dom .input] =>
      if m = n!"good" then .ok (.bool st.input.isSome, [], st)
      else if m = n!"close" then .ok (.void, [], { st with input := none })
      else .undef
    | [.dom .out] =>
      if m = n!"good" then .ok (.bool st.output.isSome, [], st)
      else if m = n!"close" then .ok (.void, [], st)
      else .undef
    | [.dom .out, .str x, .dom .ate] =>
      if m = n!"open" ∧ st.output = none then
        match w.openOut x with
        | some f => .ok (.void, [], { st with output := some f, content := put st.content f [] })
        | none => .ok (.void, [], st)
      else .undef
    | [.dom .proto, .dom .input, .str full] =>
      match st.input with
      | some f =>
        if m = n!"parse" ∧ st.tree = Tree.empty then
          (Schema.ranOf (Proto.parse N ((st.content f).getD []))).bind fun t => .ok (.void, [], { st with tree := t, fileName := full })
        else .undef
      | none => .undef
    | [.dom (.fields i)] =>
      if m = n!"begin" then .ok (.dom (.first i), [], st) else if m = n!"end" then .ok (.dom (.last i), [], st) else .undef
    | [.dom .gen, .dom .proto, .dom .cout] => if m = n!"generate" then generated rt false st else .undef
    | [.dom .gen, .dom .proto, .dom .out] =>
      if m = n!"generate" ∧ st.output ≠ none then generated rt true st else .undef
    | [.dom (.problem t (.ofNat l) (.ofNat c))] =>
      if m = n!"cause" then .ok (.str (cause t l c), [], st) else .undef
    | _ => .undef
  caught := fun n e st =>
    if n = n!"protogen :: exception &" then
      match e with
      | .exception t l c => some (.dom (.problem t l c), st)
      | .later file x t l c =>
        some (.dom (.problem t l c), if file then { st with toFile := st.toFile ++ x } else { st with toOut := st.toOut ++ x })
      | _ => none
    else none
  array := fun t k v =>
    match k, v with
    | .int .i32 4096, .arr [.int .i32 0] => if t = n!"char" then some (.str []) else none
    | _, _ => none

/-- What is left behind when `main` has returned: what was written to the file gets there as far as there is room. -/
def Driven.run (w : World) (status : Nat) (st : Driven) : Run where
  status := some status
  stdout := fit w.outRoom st.toOut
  stderr := st.err
  content := match st.output with
    | none => st.content
    | some f => put st.content f (fit (w.room f) st.toFile)

/-- What is left behind when the program has ended: `main` has returned, or `exit` has been called. -/
def ended (w : World) : Ran (Val DriverVal × List (Val DriverVal) × Driven) → Option Run
  | .ok (.int .i32 k, _, st) => if 0 ≤ k then some (st.run w k.toNat) else none
  | .thrown (.exit k err) => if 0 ≤ k then some ⟨some k.toNat, [], err, w.content⟩ else none
  | _ => none

/-! ### The function that compares fields -/

/-- Fields and names. -/
inductive LessVal
  | field (f : Proto.Field)
  | name (x : Bytes)

/-- The library for the function without a name. -/
def lessLib (s : Bool) : ThrowLib LessVal Unit where
  base := { Schema.plain s with
    member := fun v n _ =>
      match v with
      | .dom (.field f) => if n = n!"name" then some (.dom (.name f.name)) else none
      | _ => none
    binary := fun o a b st =>
      match a, b with
      | .dom (.name x), .dom (.name y) => if o = n!"<" then some (.bool (nameLt x y), st) else none
      | _, _ => none }
  function := fun _ _ _ => .undef
  method := fun _ _ _ => .undef
  caught := fun _ _ _ => none

end PG.Cxx.Tools
