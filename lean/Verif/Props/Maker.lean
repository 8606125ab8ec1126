import Verif.Proofs.GenWholeRun
import Verif.Proofs.GenPrinterRun
import Verif.Props.Generator
import Verif.Props.Headers
/-
C95: the functions of cppgen.cc and `Printer::print` of printer.cc, parsed and executed as C++ with exceptions
(Spec/CxxThrow.lean), do what those of the model do: the same calls of the printer in the same order, the same exceptions.
-/
set_option autoImplicit false
namespace PG.Cxx.Throw
open PG.Proto PG.Gen PG.Cxx.Maker

/-- The lines of cppgen.cc are a function with a property. -/
def GenWritten (a b : Nat) (P : Fun → Prop) : Prop := ∃ f, Fun.of [] 60 (genText a b) = some f ∧ P f

/-! ### Options, names and types -/

/-- C95: `get_string_option`, `get_bool_option`, `is_transient`, `get_json_name` (with a name of less than `n` characters). -/
theorem C95_options (s : Bool) (w : Given) :
    GenWritten 226 235 (fun f => ∀ n (p : OptMap) (x y : Bytes) (st : Printed),
      run (genLib s w) n f [.dom (.options p), .str x, .str y] st =
        (resOf st (getString p x y)).bind fun v => .ok (.str v, [.dom (.options p), .str x, .str y], st)) ∧
    GenWritten 237 246 (fun f => ∀ n (p : OptMap) (x : Bytes) (y : Bool) (st : Printed),
      run (genLib s w) n f [.dom (.options p), .str x, .bool y] st =
        (resOf st (getBool p x y)).bind fun v => .ok (.bool v, [.dom (.options p), .str x, .bool y], st)) ∧
    GenWritten 248 251 (fun f => ∀ n (d : Field) (st : Printed), run (genLib s w) n f [.dom (.field d)] st =
      (resOf st (isTransient d)).bind fun v => .ok (.bool v, [.dom (.field d)], st)) ∧
    GenWritten 253 260 (fun f => ∀ n (d : Field) (st : Printed), (∀ v, getString d.options b!"name" d.name = .ok v → v.length < n) →
      run (genLib s w) n f [.dom (.field d)] st = (resOf st (jsonName d)).bind fun v => .ok (.str v, [.dom (.field d)], st)) :=
  ⟨⟨_, Maker.stringFun_text, getString_runs⟩, ⟨_, Maker.boolFun_text, getBool_runs⟩, ⟨_, Maker.transientFun_text, transient_runs⟩,
   ⟨_, Maker.jsonNameFun_text, jsonName_runs⟩⟩

/-- An option of another type: an exception; one that is there, and one that is not. -/
example : (match resOf [] (getBool [(b!"a", ⟨b!"a", .string, b!"true", 3⟩)] b!"a" false) with
    | .thrown (.during _ t l c) => some (t, l, c)
    | _ => none) = some (b!"The value for 'a' must be a boolean", 3, 1) ∧
    (match resOf [] (getBool [(b!"a", ⟨b!"a", .boolean, b!"true", 3⟩)] b!"a" false) with | .ok v => some v | _ => none) = some true ∧
    (match resOf [] (getBool [(b!"a", ⟨b!"a", .boolean, b!"true", 3⟩)] b!"b" false) with | .ok v => some v | _ => none) = some false := by
  decide +kernel

/-- C95: `nativePackage`, `nativeType` of a field that refers to a message, `fieldNativeType`, `makeGuard`. -/
theorem C95_types (s : Bool) (w : Given) :
    GenWritten 77 93 (fun f => ∀ n (p : Bytes) (st : Printed), p.length < n →
      run (genLib s w) n f [.str p] st = .ok (.str (nativePackage p), [.str p], st)) ∧
    GenWritten 98 117 (fun f => ∀ n (d : Field) (st : Printed), d.type.id = .message → Valid w.msgs d →
      run (genLib s w) n f [.dom (.field d)] st =
        (resOf st (nativeType w.msgs d)).bind fun x => .ok (.str x, [.dom (.field d)], st)) ∧
    GenWritten 122 167 (fun f => ∀ n (d : Field) (b : Bool) (st : Printed), Valid w.msgs d → run (genLib s w) n f [.dom (.field d), .bool b] st =
      (resOf st (fieldNativeType w.msgs d b)).bind fun x => .ok (.str x, [.dom (.field d), .bool b], st)) ∧
    GenWritten 482 496 (fun f => ∀ n (p : Bytes) (st : Printed), p.length < n →
      run (genLib s w) n f [.str p] st = .ok (.str (makeGuard p), [.str p], st)) :=
  ⟨⟨_, Maker.packageFun_text, nativePackage_runs⟩, ⟨_, Maker.typeFun_text, nativeType_runs⟩, ⟨_, Maker.fieldTypeFun_text, fieldType_runs⟩,
   ⟨_, Maker.guardFun_text, guard_runs⟩⟩

example : nativePackage b!"shop.api" = b!" ::shop::api" ∧ makeGuard b!"/tmp/a-b.proto" = b!"GUARD__tmp_a_b_proto" := by decide +kernel

/-! ### What is printed for a message -/

/-- C95: the functions that print a structure, its functions and its entity: `generateNamespace`, `generateModel`, the functions of
one kind (`empty`, `clear`, `equal`, `swap`), `read`, `write`, `index`, `generateModelWrapper`, `generateEntity`,
`generateEntityWrapper`, and `generateMessage`, which calls them. -/
theorem C95_message (s : Bool) (w : Given) :
    GenWritten 169 188 (fun f => ∀ n (c : Gen.Ctx) (o : List Nat) (m : Message) (b : Bool) (st : Printed), m.package.length + 1 < n →
      run (genLib s w) n f [.dom (.ctx c o), .dom (.msg m), .bool b] st =
        (does w.rt st (generateNamespace m b)).bind fun r => .ok (.void, [.dom (.ctx c o), .dom (.msg m), .bool b], r.2)) ∧
    GenWritten 190 205 (fun f => ∀ n (c : Gen.Ctx) (o : List Nat) (m : Message) (st : Printed), m.fields.length < n →
      (∀ f ∈ m.fields, Valid w.msgs f) →
      run (genLib s w) n f [.dom (.ctx c o), .dom (.msg m)] st =
        (does w.rt st (generateModel w.msgs c m)).bind fun r => .ok (.void, [.dom (.ctx c o), .dom (.msg m)], r.2)) ∧
    GenWritten 262 283 (fun f => ∀ n (c : Gen.Ctx) (o : List Nat) (m : Message) (x : Bytes) (b : Bool) (st : Printed),
      m.fields.length < n → m.fields.length < 2147483648 →
      run (genLib s w) n f [.dom (.ctx c o), .dom (.msg m), .str x, .bool b] st =
        (does w.rt st (genRead m x b)).bind fun r => .ok (.void, [.dom (.ctx c o), .dom (.msg m), .str x, .bool b], r.2)) ∧
    GenWritten 285 314 (fun f => ∀ n (c : Gen.Ctx) (o : List Nat) (m : Message) (x : Bytes) (b : Bool) (st : Printed),
      m.fields.length < n → m.fields.length < 2147483648 →
      run (genLib s w) n f [.dom (.ctx c o), .dom (.msg m), .str x, .bool b] st =
        (does w.rt st (genWrite c m x b)).bind fun r => .ok (.void, [.dom (.ctx c o), .dom (.msg m), .str x, .bool b], r.2)) ∧
    GenWritten 316 334 (fun f => ∀ n (c : Gen.Ctx) (o : List Nat) (m : Message) (x : Bytes) (st : Printed),
      m.fields.length < n → m.fields.length < 2147483648 →
      run (genLib s w) n f [.dom (.ctx c o), .dom (.msg m), .str x] st =
        (does w.rt st (genSimple .emptyEmpty .emptyHeader .emptyItem .emptyFooter m x)).bind fun r =>
          .ok (.void, [.dom (.ctx c o), .dom (.msg m), .str x], r.2)) ∧
    GenWritten 336 354 (fun f => ∀ n (c : Gen.Ctx) (o : List Nat) (m : Message) (x : Bytes) (st : Printed),
      m.fields.length < n → m.fields.length < 2147483648 →
      run (genLib s w) n f [.dom (.ctx c o), .dom (.msg m), .str x] st =
        (does w.rt st (genSimple .clearEmpty .clearHeader .clearItem .clearFooter m x)).bind fun r =>
          .ok (.void, [.dom (.ctx c o), .dom (.msg m), .str x], r.2)) ∧
    GenWritten 356 374 (fun f => ∀ n (c : Gen.Ctx) (o : List Nat) (m : Message) (x : Bytes) (st : Printed),
      m.fields.length < n → m.fields.length < 2147483648 →
      run (genLib s w) n f [.dom (.ctx c o), .dom (.msg m), .str x] st =
        (does w.rt st (genSimple .equalEmpty .equalHeader .equalItem .equalFooter m x)).bind fun r =>
          .ok (.void, [.dom (.ctx c o), .dom (.msg m), .str x], r.2)) ∧
    GenWritten 376 394 (fun f => ∀ n (c : Gen.Ctx) (o : List Nat) (m : Message) (x : Bytes) (st : Printed),
      m.fields.length < n → m.fields.length < 2147483648 →
      run (genLib s w) n f [.dom (.ctx c o), .dom (.msg m), .str x] st =
        (does w.rt st (genSimple .swapEmpty .swapHeader .swapItem .swapFooter m x)).bind fun r =>
          .ok (.void, [.dom (.ctx c o), .dom (.msg m), .str x], r.2)) ∧
    GenWritten 396 424 (fun f => ∀ n (c : Gen.Ctx) (o : List Nat) (m : Message) (b : Bool) (st : Printed),
      m.fields.length < n → m.fields.length < 2147483648 →
      run (genLib s w) n f [.dom (.ctx c o), .dom (.msg m), .bool b] st =
        (does w.rt st (genIndex c m b)).bind fun r => .ok (.void, [.dom (.ctx c o), .dom (.msg m), .bool b], r.2)) ∧
    GenWritten 426 449 (fun f => ∀ n (c : Gen.Ctx) (o : List Nat) (m : Message) (st : Printed), m.fields.length < n →
      m.fields.length < 2147483648 →
      run (genLib s w) n f [.dom (.ctx c o), .dom (.msg m)] st =
        (does w.rt st (generateModelWrapper c m)).bind fun r => .ok (.void, [.dom (.ctx c o), .dom (.msg m)], r.2)) ∧
    GenWritten 451 457 (fun f => ∀ n (c : Gen.Ctx) (o : List Nat) (m : Message) (st : Printed),
      run (genLib s w) n f [.dom (.ctx c o), .dom (.msg m)] st =
        (does w.rt st (generateEntity m)).bind fun r => .ok (.void, [.dom (.ctx c o), .dom (.msg m)], r.2)) ∧
    GenWritten 459 463 (fun f => ∀ n (c : Gen.Ctx) (o : List Nat) (m : Message) (st : Printed),
      run (genLib s w) n f [.dom (.ctx c o), .dom (.msg m)] st =
        (does w.rt st (generateEntityWrapper m)).bind fun r => .ok (.void, [.dom (.ctx c o), .dom (.msg m)], r.2)) ∧
    GenWritten 465 480 (fun f => ∀ n (c : Gen.Ctx) (o : List Nat) (m : Message) (st : Printed), m.fields.length < 18446744073709551616 →
      (∀ f ∈ m.fields, Valid w.msgs f) →
      run (genLib s w) n f [.dom (.ctx c o), .dom (.msg m)] st =
        (does w.rt st (generateMessage w.msgs c m)).bind fun r => .ok (.void, [.dom (.ctx c o), .dom (.msg m)], r.2)) :=
  ⟨⟨_, Maker.namespaceFun_text, namespace_runs⟩, ⟨_, Maker.modelFun_text, model_runs⟩, ⟨_, Maker.readFun_text, read_runs⟩,
   ⟨_, Maker.writeFun_text, write_runs⟩, ⟨_, Maker.emptyFun_text, emptyFields_runs⟩, ⟨_, Maker.clearFun_text, clearFields_runs⟩,
   ⟨_, Maker.equalFun_text, equalFields_runs⟩, ⟨_, Maker.swapFun_text, swapFields_runs⟩, ⟨_, Maker.indexFun_text, index_runs⟩,
   ⟨_, Maker.wrapperFun_text, wrapper_runs⟩, ⟨_, Maker.entityFun_text, entity_runs⟩, ⟨_, Maker.entityWrapperFun_text, entityWrapper_runs⟩,
   ⟨_, Maker.messageFun_text, generateMessage_runs⟩⟩

/-- The messages of a schema have few fields; a message with 65 fields is refused with the text of the code. -/
example : (∀ m ∈ demoTree.messages, m.package.length + 1 < 100 ∧ m.fields.length < 100) ∧
    (match does (fun _ => []) [] (output b!"a.proto" bigTree) with
    | .thrown (.during _ t l c) => some (t, l, c)
    | _ => none) = some (b!"more than 64 fields in message 'M'", 0, 0) := by
  decide +kernel

/-! ### Sorting -/

/-- C95: `contains`, `sort` of one message (the recursive calls being those of the model, with one level less), `sort` of all. -/
theorem C95_sort (s : Bool) (w : Given) :
    GenWritten 501 507 (fun f => ∀ n (l : List Nat) (i : Nat) (st : Printed), l.length < n → l.length < 18446744073709551616 →
      run (genLib s w) n f [pointers l, .dom (.ref (some i))] st =
        .ok (.bool (decide (i ∈ l)), [pointers l, .dom (.ref (some i))], st)) ∧
    GenWritten 509 525 (fun f => ∀ n (i : Nat) (m : Message) (a : SortSt) (st : Printed), w.msgs[i]? = some m →
      m.fields.length < n → m.fields.length < 18446744073709551616 → Linked w.msgs → w.msgs.length < 18446744073709551616 →
      Sound w.msgs a.output → Sound w.msgs a.pending → w.msgs.length < w.depth + 1 + a.pending.length →
      run (genLib s w) n f [pointers a.output, .dom (.set a.pending), .dom (.ref (some i))] st =
        (resOf st (sortMessage w.msgs (w.depth + 1) i a)).bind fun r =>
          .ok (.void, [pointers r.output, .dom (.set r.pending), .dom (.ref (some i))], st)) ∧
    GenWritten 527 535 (fun f => ∀ n (c : Gen.Ctx) (o : List Nat) (st : Printed), o.length < n → o.length < 18446744073709551616 →
      Linked w.msgs → (∀ i ∈ o, i < w.msgs.length) → w.msgs.length < w.depth →
      run (genLib s w) n f [.dom (.ctx c o)] st =
        (resOf st (sortLoop w.msgs w.depth o ⟨[], []⟩)).bind fun r => .ok (.void, [.dom (.ctx c r.output)], st)) :=
  ⟨⟨_, Maker.containsFun_text, contains_runs⟩, ⟨_, Maker.sortFun_text, sort_runs⟩, ⟨_, Maker.sortAllFun_text, sortAll_runs⟩⟩

/-- Three messages in a circle: the exception of the code. -/
example : (match resOf [] (sortLoop circularTree.messages 9 [0, 1, 2] ⟨[], []⟩) with
    | .thrown (.during _ t l c) => some (t, l, c)
    | _ => none) = some (b!"circular reference with 'A'", 0, 0) := by decide +kernel

/-! ### The file -/

/-- C95: `generateInclusions`, `generateFile`, and `CppGenerator::generate` (its result and what has been printed). -/
theorem C95_file (s : Bool) (w : Given) (hw : w.whole = true) (hn : w.msgs.length < 18446744073709551616) :
    GenWritten 537 576 (fun f => ∀ n (c : Gen.Ctx) (st : Printed), w.msgs.length < n →
      (∀ m ∈ w.msgs, m.fields.length < n ∧ m.fields.length < 18446744073709551616) →
      run (genLib s w) n f [.dom (.ctx c (List.range w.msgs.length))] st =
        (does w.rt st (generateInclusions w.msgs)).bind fun r => .ok (.void, [.dom (.ctx c (List.range w.msgs.length))], r.2)) ∧
    GenWritten 578 590 (fun f => ∀ n (c : Gen.Ctx) (st : Printed), Linked w.msgs → w.msgs.length < n →
      (∀ m ∈ w.msgs, m.fields.length < 18446744073709551616) →
      run (genLib s w) n f [.dom (.ctx c (List.range w.msgs.length))] st =
        (does w.rt st (generateFile w.depth w.fileName w.msgs c)).bind fun r => (resOf r.2 (sortAll w.msgs w.depth)).bind fun o =>
          .ok (.void, [.dom (.ctx c o)], r.2)) ∧
    GenWritten 592 603 (fun f => ∀ n (st : Printed) (p : Bytes),
      ((run (genLib s w) n f [.dom (.root (List.range w.msgs.length)), .dom .out] st).bind fun r => .ok (r.1, r.2.2)) =
        (does w.rt st (generate w.depth w.fileName ⟨w.msgs, w.options, p⟩)).bind fun r => .ok (.void, r.2)) :=
  ⟨⟨_, Maker.inclusionsFun_text, fun n c st h1 h2 => inclusions_runs n c st h1 hn h2⟩,
   ⟨_, Maker.fileFun_text, fun n c st h1 h2 h3 => file_runs hw n c st h1 h2 hn h3⟩, ⟨_, Maker.generateFun_text, generate_runs hw⟩⟩

/-- A schema as the parser gives it meets the conditions; what is printed for it first. -/
example : demoTree.messages.length < 3 ∧ (∀ m ∈ demoTree.messages, m.fields.length < 3) ∧
    ((match does (fun _ => []) [] (output b!"demo.proto" demoTree) with
      | .ok r => (r.2.take 3).map (·.2)
      | _ => []) = ((output b!"demo.proto" demoTree).calls.take 3).map (·.args)) := by decide +kernel

/-! ### Texts -/

/-- C95: `rol` (for the shifts it is called with) and `obfuscate`: the text that is printed for an obfuscated string. -/
theorem C95_obfuscate (s : Bool) :
    GenWritten 208 212 (fun f => ∀ (V F : Type) (ops : Ops V F) n (v c : Nat) (w : World), v < 256 → c < 8 →
      f.run (runtimeLib s ops) n [.int .u8 v, .int .i32 c] w = some (.int .u8 (rol8 v c), [.int .u8 v, .int .i32 c], w)) ∧
    GenWritten 214 224 (fun f => ∀ n (x : Bytes), x.length < n → x.length < 18446744073709551616 →
      ((run (hexLib s) n f [.str x] ([], false)).bind fun r => .ok r.1) = .ok (.str (obfuscateText x))) :=
  ⟨⟨_, Maker.rolFun_text, fun _ _ _ n v c w hv hc => genRol_runs n v c hv hc w⟩, ⟨_, Maker.obfuscateFun_text, obfuscate_runs⟩⟩

/-- C95: `Printer::print` prints what the model's `print` gives, for formats in which no number converts to the smallest `int`. -/
theorem C95_print (s : Bool) : ∃ f, Fun.of [] 60 (printText 39 66) = some f ∧
    ∀ n (x a : Bytes) (vars : List Bytes), x.length < n → vars.length < 2147483648 → Indexed x → (0 : Byte) ∉ x →
      run (printLib s) n f [.dom .out, .ptr x, .arr (vars.map .str)] a =
        .ok (.void, [.dom .out, .ptr x, .arr (vars.map .str)], a ++ print vars x) :=
  ⟨_, Maker.printFun_text, print_runs⟩

/-- The texts of the runtime are formats that `print` can be given. -/
theorem shipped_printable (p : Part) : Printable (shipped p) := by
  refine ⟨indexed_none _ fun h => (shipped_chars p _ h).1 rfl, ?_⟩
  have key : ∀ p : Part, (shipped p).all (· ≠ 0) = true := by
    intro p; cases p <;> decide +kernel
  intro h
  exact absurd (List.all_eq_true.mp (key p) 0 h) (by decide)

/-- C95: all calls of the printer that the generator makes are defined and print the text of the model's call. -/
theorem C95_printed (s : Bool) : ∃ f, Fun.of [] 60 (printText 39 66) = some f ∧
    ∀ n (c : Call) (a : Bytes), (c.tpl.text shipped).length < n → c.args.length < 2147483648 →
      run (printLib s) n f [.dom .out, .ptr (c.tpl.text shipped), .arr (c.args.map .str)] a =
        .ok (.void, [.dom .out, .ptr (c.tpl.text shipped), .arr (c.args.map .str)], a ++ c.text shipped) :=
  ⟨_, printFun_text, fun n c a h1 h2 =>
    have h := tpl_printable shipped shipped_printable c.tpl
    print_runs n _ a c.args h1 h2 h.1 h.2⟩

/-- `Printer::print` is undefined for formats in which a number converts to the smallest `int`: one is subtracted from it.  The
generator has no such format (`C95_printed`). -/
theorem C95_print_undefined (s : Bool) : ∃ f, Fun.of [] 60 (printText 39 66) = some f ∧
    run (printLib s) 9 f [.dom .out, .ptr b!"$-2147483648$", .arr []] [] = .undef :=
  ⟨_, Maker.printFun_text, print_undef⟩

example : print [b!"a", b!"b"] b!"x$2$ y$9$ $1$" = b!"xb y a" ∧ (0 : Byte) ∉ b!"x$2$ y$9$ $1$" := by decide +kernel

end PG.Cxx.Throw
