import Verif.Spec.CxxShow
import Verif.Proofs.ToolAst
import Verif.Proofs.GenFileRun
/-
What the output operators of proto3.cc, exception.cc, `main_usage` and `main_error` do.
-/
set_option autoImplicit false
namespace PG.Cxx.Throw
open PG.Proto PG.Gen PG.Cxx.Tools

section
variable {s : Bool} {sh : Proto.Field → Option Bytes} {ad : Nat → Nat}
local notation "X" => showLib s sh ad
theorem show_signed : (X).base.signed = s := (rfl)
theorem show_get (n : Name) (u : Bytes) : (X).base.get n u = none := (rfl)
theorem show_TOKENS : (X).base.constant [n!"TOKENS"] = some (.arr (TOKENS.map .str)) := (rfl)
theorem show_TYPES : (X).base.constant [n!"TYPES"] = some (.arr (TYPES.map .str)) := (rfl)
theorem show_endl : (X).base.constant [n!"std", n!"endl"] = some (.dom .endl) := (rfl)
theorem show_member (v : Val ShowVal) (n : Name) (u : Bytes) : (X).base.member v n u = shownMember v n := (rfl)
theorem show_write (v : Val ShowVal) (u : Bytes) : (X).base.binary n!"<<" (.dom .out) v u = (shownAs sh v).map fun x => (.dom .out, u ++ x) := (rfl)
theorem show_begin (l : List Proto.Field) (u : Bytes) : (X).method n!"begin" u [.dom (.fields l)] = .ok (.iter (l.map fun f => .dom (.field f)), [], u) := (rfl)
theorem show_end (l : List Proto.Field) (u : Bytes) : (X).method n!"end" u [.dom (.fields l)] = .ok (.iter [], [], u) := (rfl)
theorem show_begins (k : Nat) (u : Bytes) : (X).method n!"begin" u [.dom (.messages k)] = .ok (.iter ((List.range k).map fun i => .dom (.pointer (ad i))), [], u) := (rfl)
theorem show_ends (k : Nat) (u : Bytes) : (X).method n!"end" u [.dom (.messages k)] = .ok (.iter [], [], u) := (rfl)
theorem show_result (u : Val ShowVal) (b : Bytes) : (X).base.init n!"std :: ostream &" (some u) b = some u := (rfl)
attribute [cxt] show_signed show_get show_TOKENS show_TYPES show_endl show_member show_write show_begin show_end show_begins show_ends show_result

theorem shown_code (t : Tok) : shownMember (.dom (.token t)) n!"code" = some (.int .i32 t.code.num) := (rfl)
theorem shown_value (t : Tok) : shownMember (.dom (.token t)) n!"value" = some (.str t.value) := (rfl)
theorem shown_line (t : Tok) : shownMember (.dom (.token t)) n!"line" = some (.int .i32 t.line) := (rfl)
theorem shown_column (t : Tok) : shownMember (.dom (.token t)) n!"column" = some (.int .i32 t.col) := (rfl)
theorem shown_type (f : Proto.Field) : shownMember (.dom (.field f)) n!"type" = some (.dom (.type f.type)) := (rfl)
theorem shown_name (f : Proto.Field) : shownMember (.dom (.field f)) n!"name" = some (.str f.name) := (rfl)
theorem shown_index (f : Proto.Field) : shownMember (.dom (.field f)) n!"index" = some (.int .i32 f.index) := (rfl)
theorem shown_repeated (t : TypeInfo) : shownMember (.dom (.type t)) n!"repeated" = some (.bool t.repeated) := (rfl)
theorem shown_id (t : TypeInfo) : shownMember (.dom (.type t)) n!"id" = some (.int .i32 (match t.id with | .scalar t => (t.num : Int) | .message => 21)) := (rfl)
theorem shown_qname (t : TypeInfo) : shownMember (.dom (.type t)) n!"qname" = some (.str t.qname) := (rfl)
theorem shown_mname (m : Message) : shownMember (.dom (.message m)) n!"name" = some (.str m.name) := (rfl)
theorem shown_fields (m : Message) : shownMember (.dom (.message m)) n!"fields" = some (.dom (.fields m.fields)) := (rfl)
theorem shown_messages (t : Tree) : shownMember (.dom (.tree t)) n!"messages" = some (.dom (.messages t.messages.length)) := (rfl)
attribute [cxt] shown_code shown_value shown_line shown_column shown_type shown_name shown_index shown_repeated shown_id shown_qname shown_mname shown_fields shown_messages

theorem shownAs_str (x : Bytes) : shownAs sh (.str x) = some x := (rfl)
theorem shownAs_chr (c : Int) : shownAs sh (.int .char c) = some [IT.toByte c] := (rfl)
theorem shownAs_int (v : Int) : shownAs sh (.int .i32 v) = some (decInt v) := (rfl)
theorem shownAs_endl : shownAs sh (.dom .endl) = some b!"\n" := (rfl)
theorem shownAs_pointer (a : Nat) : shownAs sh (.dom (.pointer a)) = some (ptrText a) := (rfl)
theorem shownAs_field (f : Proto.Field) : shownAs sh (.dom (.field f)) = sh f := (rfl)
attribute [cxt] shownAs_str shownAs_chr shownAs_int shownAs_endl shownAs_pointer shownAs_field

theorem show_returns (v : Val ShowVal) : result (X).base n!"std :: ostream &" v = some v := by
  have h1 : intType n!"std :: ostream &" = none := by decide +kernel
  have h2 : ¬(n!"std :: ostream &" = n!"bool" ∨ n!"std :: ostream &" = n!"static bool") := by decide +kernel
  have h3 : ¬n!"std :: ostream &" = n!"std :: string" := by decide +kernel
  unfold result
  simp only [h1, h2, h3, if_false]
attribute [cxt] show_returns
theorem byte_91 : IT.toByte 91 = 91 := by decide
theorem byte_58 : IT.toByte 58 = 58 := by decide
theorem byte_32 : IT.toByte 32 = 32 := by decide
theorem byte_125 : IT.toByte 125 = 125 := by decide
theorem byte_10 : IT.toByte 10 = 10 := by decide
theorem byte_41 : IT.toByte 41 = 41 := by decide
attribute [cxt] byte_91 byte_58 byte_32 byte_125 byte_10 byte_41

theorem tokenShow_runs (n : Nat) (t : Tok) (u : Bytes) :
    run X n tokenShowFun [.dom .out, .dom (.token t)] u =
      .of (t.show.map fun x => (.dom .out, [.dom .out, .dom (.token t)], u ++ x)) := by
  unfold Tok.show
  cases h : TOKENS[t.code.num]? with
  | none => cxg [tokenShowFun, List.getElem?_map, h]
  | some name =>
    by_cases hv : t.value = []
    · cxg [tokenShowFun, List.getElem?_map, h, hv, decInt_nat, List.append_assoc, List.isEmpty_nil, List.nil_append]
    · have hl : t.value.isEmpty = false := by cases hx : t.value <;> simp_all
      cxg [tokenShowFun, List.getElem?_map, h, hv, decInt_nat, List.append_assoc, hl]

theorem types_0 : TYPES[0]? = some b!"double" := rfl
theorem types_1 : TYPES[1]? = some b!"float" := rfl
theorem types_2 : TYPES[2]? = some b!"int32" := rfl
theorem types_3 : TYPES[3]? = some b!"int64" := rfl
theorem types_4 : TYPES[4]? = some b!"uint32" := rfl
theorem types_5 : TYPES[5]? = some b!"uint64" := rfl
theorem types_6 : TYPES[6]? = some b!"sint32" := rfl
theorem types_7 : TYPES[7]? = some b!"sint64" := rfl
theorem types_8 : TYPES[8]? = some b!"fixed32" := rfl
theorem types_9 : TYPES[9]? = some b!"fixed64" := rfl
theorem types_10 : TYPES[10]? = some b!"sfixed32" := rfl
theorem types_11 : TYPES[11]? = some b!"sfixed64" := rfl
theorem types_12 : TYPES[12]? = some b!"bool" := rfl
theorem types_13 : TYPES[13]? = some b!"string" := rfl
theorem types_14 : TYPES[14]? = some b!"bytes" := rfl

theorem fieldShow_runs (n : Nat) (f : Proto.Field) (u : Bytes) :
    run X n fieldShowFun [.dom .out, .dom (.field f)] u =
      .of (f.show.map fun x => (.dom .out, [.dom .out, .dom (.field f)], u ++ x)) := by
  unfold Field.show
  cases hr : f.type.repeated <;> cases hi : f.type.id with
  | message => cxg [fieldShowFun, hr, hi, List.append_assoc, Int.reduceLE, decide_true, decide_false, List.nil_append]
  | scalar t => cases t <;> cxg [fieldShowFun, hr, hi, List.append_assoc, Scalar.num, Int.reduceLE, decide_true, decide_false, Nat.reduceSub, Int.reduceSub, Int.cast_ofNat_Int, Int.reduceLT, Int.reduceToNat, List.getElem?_map,
      List.nil_append, types_0, types_1, types_2, types_3, types_4, types_5, types_6, types_7, types_8, types_9, types_10, types_11, types_12, types_13, types_14]

/-- The variables in the loop over the fields. -/
def messageShowVars (m : Message) (r : List Proto.Field) (u : Bytes) : St ShowVal Bytes :=
  ⟨[[(n!"it", .iter (r.map fun f => .dom (.field f)))], [], [(n!"out", .dom .out), (n!"message", .dom (.message m))]], u⟩

theorem messageShow_runs (n : Nat) (m : Message) (u : Bytes) (hn : m.fields.length < n) :
    run (showLib s Field.show ad) n messageShowFun [.dom .out, .dom (.message m)] u =
      .of (m.show.map fun x => (.dom .out, [.dom .out, .dom (.message m)], u ++ x)) := by
  unfold Message.show
  cxg [messageShowFun]
  rw [show (⟨_, _⟩ : St ShowVal Bytes) = messageShowVars m m.fields (u ++ b!"message " ++ m.name ++ b!" {" ++ b!"\n") from rfl]
  refine (iterate_list (β := Val ShowVal × List (Val ShowVal) × Bytes) (messageShowVars m)
    (fun v f => .of (f.show.map fun x => (.next, v ++ x ++ b!"\n"))) (fun _ _ => True)
    (fun r v => .of ((showFields r).map fun x => (.dom .out, [.dom .out, .dom (.message m)], v ++ x ++ b!"}\n"))) _ ?_ ?_ ?_ ?_ ?_ ?_
    n m.fields _ trivial hn).trans ?_
  · intro xs a
    cxg [messageShowVars, List.length_map]
  · intro f xs a _
    cases h : f.show with
    | none => cxg [messageShowVars, messageShowFunBody1, List.map_cons, h]
    | some x => cxg [messageShowVars, messageShowFunBody1, List.map_cons, h]
  · intro f xs a
    cxg [messageShowVars]
  · intros; trivial
  · intro a _
    cxg [messageShowVars, messageShowFun, showFields, List.append_assoc, List.nil_append, List.cons_append]
  · intro f xs a _
    cases h : f.show with
    | none => cxg [showFields, h]
    | some x =>
      cases h2 : showFields xs with
      | none => cxg [after, showFields, h, h2]
      | some y => cxg [after, showFields, h, h2, List.append_assoc]
  · cases h : showFields m.fields with
    | none => rfl
    | some y => cxg [List.append_assoc, List.cons_append, List.nil_append]

/-- The variables in the loop over the messages. -/
def treeShowVars (ad : Nat → Nat) (t : Tree) (r : List Nat) (u : Bytes) : St ShowVal Bytes :=
  ⟨[[(n!"it", .iter (r.map fun i => .dom (.pointer (ad i))))], [], [(n!"out", .dom .out), (n!"proto", .dom (.tree t))]], u⟩

theorem treeShow_runs (n : Nat) (t : Tree) (u : Bytes) (hn : t.messages.length < n) :
    run (showLib s sh ad) n treeShowFun [.dom .out, .dom (.tree t)] u =
      .ok (.dom .out, [.dom .out, .dom (.tree t)], u ++ t.show ad) := by
  cxg [treeShowFun]
  rw [show (⟨_, _⟩ : St ShowVal Bytes) = treeShowVars ad t (List.range t.messages.length) u from rfl]
  refine iterate_list (β := Val ShowVal × List (Val ShowVal) × Bytes) (treeShowVars ad t)
    (fun v i => .ok (.next, v ++ ptrText (ad i) ++ b!"\n")) (fun _ _ => True)
    (fun r v => .ok (.dom .out, [.dom .out, .dom (.tree t)], v ++ r.flatMap fun i => ptrText (ad i) ++ b!"\n")) _ ?_ ?_ ?_ ?_ ?_ ?_
    n (List.range t.messages.length) _ trivial (by rw [List.length_range]; exact hn)
  · intro xs a
    cxg [treeShowVars, List.length_map]
  · intro f xs a _
    cxg [treeShowVars, treeShowFunBody1, List.map_cons]
  · intro f xs a
    cxg [treeShowVars]
  · intros; trivial
  · intro a _
    cxg [treeShowVars, treeShowFun, List.flatMap_nil, List.append_nil]
  · intro f xs a _
    cxg [after, List.flatMap_cons, List.append_assoc]

end

/-! ### exception.cc -/

section
variable {s : Bool}
local notation "X" => problemLib s
theorem problem_signed : (X).base.signed = s := (rfl)
theorem problem_this (u : Problem × Bytes) : (X).base.get n!"this" u = some (.dom (.this u.1)) := (rfl)
theorem problem_message (u : Problem × Bytes) : (X).base.get n!"message" u = some (.str u.1.message) := (rfl)
theorem problem_line (u : Problem × Bytes) : (X).base.get n!"line" u = some (.int .i32 u.1.line) := (rfl)
theorem problem_column (u : Problem × Bytes) : (X).base.get n!"column" u = some (.int .i32 u.1.column) := (rfl)
theorem problem_ss (u : Problem × Bytes) : (X).base.get n!"ss" u = none := (rfl)
theorem problem_set (e : Problem) (u : Problem × Bytes) : (X).base.set n!"this" (.dom (.this e)) u = some (e, u.2) := (rfl)
theorem problem_mmessage (e : Problem) (u : Problem × Bytes) : (X).base.member (.dom (.this e)) n!"message" u = some (.str e.message) := (rfl)
theorem problem_mline (e : Problem) (u : Problem × Bytes) : (X).base.member (.dom (.this e)) n!"line" u = some (.int .i32 e.line) := (rfl)
theorem problem_mcolumn (e : Problem) (u : Problem × Bytes) : (X).base.member (.dom (.this e)) n!"column" u = some (.int .i32 e.column) := (rfl)
theorem problem_umessage (e : Problem) (x : Bytes) : (X).base.update (.dom (.this e)) n!"message" (.str x) = some (.dom (.this { e with message := x })) := (rfl)
theorem problem_uline (e : Problem) (x : Int) : (X).base.update (.dom (.this e)) n!"line" (.int .i32 x) = some (.dom (.this { e with line := x })) := (rfl)
theorem problem_ucolumn (e : Problem) (x : Int) : (X).base.update (.dom (.this e)) n!"column" (.int .i32 x) = some (.dom (.this { e with column := x })) := (rfl)
theorem problem_str (x : Bytes) (u : Problem × Bytes) : (X).base.binary n!"<<" (.dom .stream) (.str x) u = some (.dom .stream, (u.1, u.2 ++ x)) := (rfl)
theorem problem_chr (c : Int) (u : Problem × Bytes) : (X).base.binary n!"<<" (.dom .stream) (.int .char c) u = some (.dom .stream, (u.1, u.2 ++ [IT.toByte c])) := (rfl)
theorem problem_int (c : Int) (u : Problem × Bytes) : (X).base.binary n!"<<" (.dom .stream) (.int .i32 c) u = some (.dom .stream, (u.1, u.2 ++ decInt c)) := (rfl)
theorem problem_init (u : Problem × Bytes) : initial (X).base n!"std :: stringstream" none u = some (.dom .stream) := by
  have h1 : intType n!"std :: stringstream" = none := by decide +kernel
  unfold initial
  rw [h1]
  rfl
theorem problem_method (u : Problem × Bytes) : (X).method n!"str" u [.dom .stream] = .ok (.str u.2, [], u) := (rfl)
theorem problem_cstr (x : Bytes) (u : Problem × Bytes) : (X).method n!"c_str" u [.str x] = .ok (.ptr x, [], u) := (rfl)
attribute [cxt] problem_signed problem_this problem_message problem_line problem_column problem_ss problem_set problem_mmessage problem_mline
  problem_mcolumn problem_umessage problem_uline problem_ucolumn problem_str problem_chr problem_int problem_init problem_method problem_cstr

theorem problem_returns (v : Val ProblemVal) : result (X).base n!"const std :: string exception ::" v = some v := by
  have h1 : intType n!"const std :: string exception ::" = none := by decide +kernel
  have h2 : ¬(n!"const std :: string exception ::" = n!"bool" ∨ n!"const std :: string exception ::" = n!"static bool") := by decide +kernel
  have h3 : ¬n!"const std :: string exception ::" = n!"std :: string" := by decide +kernel
  unfold result
  simp only [h1, h2, h3, if_false]
attribute [cxt] problem_returns

theorem cause_runs (n : Nat) (text : Bytes) (line col : Nat) :
    run X n causeFun [] (⟨text, line, col⟩, []) = .ok (.str (cause text line col), [], (⟨text, line, col⟩, cause text line col)) := by
  unfold cause
  cxg [causeFun, List.nil_append, decInt_nat]

theorem new1_runs (n : Nat) (text u : Bytes) :
    run X n newFun1 [.str text] ({}, u) = .ok (.void, [.str text], (⟨text, 0, 0⟩, u)) := by
  cxg [newFun1]

theorem new3_runs (n : Nat) (text u : Bytes) (line col : Int) :
    run X n newFun3 [.str text, .int .i32 line, .int .i32 col] ({}, u) =
      .ok (.void, [.str text, .int .i32 line, .int .i32 col], (⟨text, line, col⟩, u)) := by
  cxg [newFun3]
end

/-! ### `main_usage` and `main_error` -/

section
variable {s : Bool}
local notation "X" => endLib s
theorem end_signed : (X).base.signed = s := (rfl)
theorem end_get (n : Name) (u : Bytes × Option Int) : (X).base.get n u = none := (rfl)
theorem end_err : (X).base.constant [n!"std", n!"cerr"] = some (.dom .err) := (rfl)
theorem end_endl : (X).base.constant [n!"std", n!"endl"] = some (.dom .endl) := (rfl)
theorem end_version : (X).base.constant [n!"PROTOGEN_VERSION"] = some (.str version) := (rfl)
theorem end_failure : (X).base.constant [n!"EXIT_FAILURE"] = some (.int .i32 1) := (rfl)
theorem end_str (x u : Bytes) : (X).base.binary n!"<<" (.dom .err) (.str x) (u, none) = some (.dom .err, (u ++ x, none)) := by
  simp [endLib]
theorem end_line (u : Bytes) : (X).base.binary n!"<<" (.dom .err) (.dom .endl) (u, none) = some (.dom .err, (u ++ b!"\n", none)) := by
  simp [endLib]
theorem end_exit (u : Bytes) (k : Int) : (X).function [n!"exit"] (u, none) [.int .i32 k] = .ok (.void, [], (u, some k)) := by
  simp [endLib]
attribute [cxt] end_signed end_get end_err end_endl end_version end_failure end_str end_line end_exit

theorem usage_runs (n : Nat) : run X n usageFun [] ([], none) = .ok (.void, [], (usage, some 1)) := by
  cxg [usageFun]
  rfl

theorem error_runs (n : Nat) (m : Bytes) :
    run X n Tools.errorFun [.str m] ([], none) = .ok (.void, [.str m], (b!"ERROR: " ++ m ++ b!"\n", some 1)) := by
  cxg [Tools.errorFun, List.nil_append]
end

end PG.Cxx.Throw
