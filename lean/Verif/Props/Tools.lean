import Verif.Proofs.StartRun
import Verif.Proofs.ShowRun
/-
C96: the functions of template.cc, `main_usage` and `main_error` of main.cc, those of exception.cc that make and describe an
exception, and the output operators of proto3.cc, parsed and executed as C++ (Spec/CxxThrow.lean), do what those of the model do.
-/
set_option autoImplicit false
namespace PG.Cxx.Throw
open PG.Proto PG.Gen PG.Cxx.Tools

/-- Lines of a file are a function with a property. -/
def ToolWritten (lines : List Bytes) (P : Fun → Prop) : Prop := ∃ f, Fun.of [] 60 lines = some f ∧ P f

/-! ### template.cc -/

/-- C96: `ends_with`, `copy` and `process`, for texts that fit into memory. -/
theorem C96_template (s : Bool) :
    ToolWritten (templateText 87 91) (fun f => ∀ n (x y : Bytes) (u : Streams), x.length < 18446744073709551615 →
      run (toolLib s) n f [.str x, .str y] u = .ok (.bool (endsWith x y), [.str x, .str y], u)) ∧
    ToolWritten (templateText 6 39) (fun f => ∀ n (name text : Bytes), text.length + 1 < n → text.length < 18446744073709551615 →
      written (run (toolLib s) n f [.dom .input, .dom .output, .str name] (Streams.open text)) =
        .ok (.void, [.dom .input, .dom .output, .str name], copyText name text)) ∧
    ToolWritten (templateText 41 85) (fun f => ∀ n (guard text : Bytes), text.length + 1 < n →
      written (run (toolLib s) n f [.dom .input, .dom .output, .str guard] (Streams.open text)) =
        .ok (.void, [.dom .input, .dom .output, .str guard], processText guard text)) :=
  ⟨⟨_, Tools.endsFun_text, ends_runs⟩, ⟨_, Tools.copyFun_text, copy_runs⟩, ⟨_, Tools.processFun_text, process_runs⟩⟩

example : endsWith b!"a.hh" b!".hh" = true ∧ endsWith b!"a.hh.in" b!".hh" = false ∧
    copyText b!"G" b!"a\n" = b!"#define G \\\n" ++ quoteLine b!"a" ++ b!"    \"\\n\"\n" ∧
    processText b!"G" b!"x\n" = b!"#ifndef G\n#define G\n" ++ b!"#endif // G\n" := by decide +kernel

/-- C96: `main` of template.cc, which makes the headers that the generator prints from: with another number of arguments, or without
one of the files, it gives 1 and writes nothing; otherwise it gives 0 and writes the text of the model, unless the name of the input
file has a character that `isalpha` must not be called with. -/
theorem C96_start (s : Bool) :
    ToolWritten (templateText 93 125) (fun f =>
      (∀ n (argc : Int) (v : Val StartVal) (u : Started), argc ≠ 3 →
        run (startLib s) n f [.int .i32 argc, v] u = .ok (.int .i32 1, [.int .i32 argc, v], u)) ∧
      (∀ n (p i o : Bytes) (w : Bool),
        run (startLib s) n f [.int .i32 3, .arr [.str p, .str i, .str o]] { text := none, writable := w } =
          .ok (.int .i32 1, [.int .i32 3, .arr [.str p, .str i, .str o]], { text := none, writable := w, told := announced i o })) ∧
      (∀ n (p i o t : Bytes),
        run (startLib s) n f [.int .i32 3, .arr [.str p, .str i, .str o]] { text := some t, writable := false } =
          .ok (.int .i32 1, [.int .i32 3, .arr [.str p, .str i, .str o]],
            { text := some t, writable := false, told := announced i o })) ∧
      (∀ n (p i o t : Bytes), i.length < 18446744073709551615 → i.length + 11 < n →
        run (startLib s) n f [.int .i32 3, .arr [.str p, .str i, .str o]] { text := some t, writable := true } =
          if (baseName i).all (asked s) then
            .ok (.int .i32 0, [.int .i32 3, .arr [.str p, .str i, .str o]],
              { text := some t, writable := true, told := announced i o, shared := guardName i, out := some (templateMain i t) })
          else .undef)) :=
  ⟨_, Tools.templateFun_text, start_return1, start_return2, start_return3, start_runs⟩

/-- The headers of the runtime are made with names that `isalpha` can be asked about; a name in another language is not such a name
where `char` is signed. -/
example : (baseName b!"include/protogen/protogen.hh").all (asked true) = true ∧ (baseName (b!"d/" ++ [195, 169])).all (asked true) = false ∧
    (baseName (b!"d/" ++ [195, 169])).all (asked false) = true ∧ guardName b!"d/json.hh" = b!"GENERATED__json_hh" := by decide +kernel

/-! ### exception.cc -/

/-- C96: the constructors of `exception` that are given a text, and a text with a place, and `exception::cause`. -/
theorem C96_exception (s : Bool) :
    ToolWritten (exceptionText 23 25) (fun f => ∀ n (text u : Bytes),
      run (problemLib s) n f [.str text] ({}, u) = .ok (.void, [.str text], (⟨text, 0, 0⟩, u))) ∧
    ToolWritten (exceptionText 27 30) (fun f => ∀ n (text u : Bytes) (line col : Int),
      run (problemLib s) n f [.str text, .int .i32 line, .int .i32 col] ({}, u) =
        .ok (.void, [.str text, .int .i32 line, .int .i32 col], (⟨text, line, col⟩, u))) ∧
    ToolWritten (exceptionText 41 46) (fun f => ∀ n (text : Bytes) (line col : Nat),
      run (problemLib s) n f [] (⟨text, line, col⟩, []) =
        .ok (.str (cause text line col), [], (⟨text, line, col⟩, cause text line col))) :=
  ⟨⟨_, Tools.newFun1_text, new1_runs⟩, ⟨_, Tools.newFun3_text, new3_runs⟩, ⟨_, Tools.causeFun_text, cause_runs⟩⟩

example : cause b!"Missing name" 12 3 = b!"Missing name (12:3)" := by decide +kernel

/-! ### main.cc -/

/-- C96: `main_usage` and `main_error` write to the standard error output and end the program with the status 1. -/
theorem C96_ends (s : Bool) :
    ToolWritten (mainText 30 35) (fun f => ∀ n, run (endLib s) n f [] ([], none) = .ok (.void, [], (usage, some 1))) ∧
    ToolWritten (mainText 38 42) (fun f => ∀ n (m : Bytes),
      run (endLib s) n f [.str m] ([], none) = .ok (.void, [.str m], (b!"ERROR: " ++ m ++ b!"\n", some 1))) :=
  ⟨⟨_, Tools.usageFun_text, usage_runs⟩, ⟨_, Tools.errorFun_text, error_runs⟩⟩

/-! ### proto3.cc -/

/-- C96: the output operators for tokens, fields, messages and trees, which are used for debugging: they write what those of the
model give, and are undefined where those of the model give nothing. -/
theorem C96_show (s : Bool) (addr : Nat → Nat) :
    ToolWritten (protoText 815 821) (fun f => ∀ sh n (t : Tok) (u : Bytes),
      run (showLib s sh addr) n f [.dom .out, .dom (.token t)] u =
        .of (t.show.map fun x => (.dom .out, [.dom .out, .dom (.token t)], u ++ x))) ∧
    ToolWritten (protoText 823 833) (fun f => ∀ sh n (d : Proto.Field) (u : Bytes),
      run (showLib s sh addr) n f [.dom .out, .dom (.field d)] u =
        .of (d.show.map fun x => (.dom .out, [.dom .out, .dom (.field d)], u ++ x))) ∧
    ToolWritten (protoText 835 845) (fun f => ∀ n (m : Message) (u : Bytes), m.fields.length < n →
      run (showLib s Field.show addr) n f [.dom .out, .dom (.message m)] u =
        .of (m.show.map fun x => (.dom .out, [.dom .out, .dom (.message m)], u ++ x))) ∧
    ToolWritten (protoText 847 854) (fun f => ∀ sh n (t : Tree) (u : Bytes), t.messages.length < n →
      run (showLib s sh addr) n f [.dom .out, .dom (.tree t)] u =
        .ok (.dom .out, [.dom .out, .dom (.tree t)], u ++ t.show addr)) :=
  ⟨⟨_, Tools.tokenShowFun_text, fun _ => tokenShow_runs⟩, ⟨_, Tools.fieldShowFun_text, fun _ => fieldShow_runs⟩,
   ⟨_, Tools.messageShowFun_text, messageShow_runs⟩, ⟨_, Tools.treeShowFun_text, fun _ => treeShow_runs⟩⟩

/-- A field of a scalar type. -/
example : Proto.Field.show ⟨⟨.scalar .uint32, b!"", none, true, false⟩, b!"a", 3, []⟩ = some b!"repeated uint32 a = 3;" := by decide +kernel

end PG.Cxx.Throw
