import Verif.Spec.CxxGen
import Verif.Proofs.GenAst
import Verif.Proofs.ProtoParseRun
/-
The library of the generator, for execution.
-/
set_option autoImplicit false
namespace PG.Cxx.Throw
open PG.Proto PG.Gen Maker

section
variable {s : Bool} {w : Given} (st : Printed) (c : Gen.Ctx) (o : List Nat) (m : Message) (f : Field) (ti : TypeInfo) (e : OptEntry)
  (x y : Bytes) (b : Bool)
local notation "B" => genBase s w
local notation "L" => genLib s w
theorem gen_base : (L).base = B := (rfl)
theorem gen_signed : (B).signed = s := (rfl)
theorem gen_get (n : Name) : (B).get n st = none := (rfl)
theorem gen_GENERATED__protogen_hh : (B).constant [n!"GENERATED__protogen_hh"] = some (.str (Tpl.text w.rt (.runtime .protogen))) := (rfl)
theorem gen_GENERATED__json_hh : (B).constant [n!"GENERATED__json_hh"] = some (.str (Tpl.text w.rt (.runtime .json))) := (rfl)
theorem gen_GENERATED__json_array_hh : (B).constant [n!"GENERATED__json_array_hh"] = some (.str (Tpl.text w.rt (.runtime .array))) := (rfl)
theorem gen_GENERATED__json_base___hh : (B).constant [n!"GENERATED__json_base___hh"] = some (.str (Tpl.text w.rt (.runtime .base64))) := (rfl)
theorem gen_GENERATED__json_number_hh : (B).constant [n!"GENERATED__json_number_hh"] = some (.str (Tpl.text w.rt (.runtime .number))) := (rfl)
theorem gen_GENERATED__json_string_hh : (B).constant [n!"GENERATED__json_string_hh"] = some (.str (Tpl.text w.rt (.runtime .string))) := (rfl)
theorem gen_CODE_HEADER : (B).constant [n!"CODE_HEADER"] = some (.str (Tpl.text w.rt (.header))) := (rfl)
theorem gen_CODE_JSON_MODEL__HEADER : (B).constant [n!"CODE_JSON_MODEL__HEADER"] = some (.str (Tpl.text w.rt (.jsonModelHeader))) := (rfl)
theorem gen_CODE_JSON_MODEL__FOOTER : (B).constant [n!"CODE_JSON_MODEL__FOOTER"] = some (.str (Tpl.text w.rt (.jsonModelFooter))) := (rfl)
theorem gen_CODE_JSON__READ_FIELD__EMPTY : (B).constant [n!"CODE_JSON__READ_FIELD__EMPTY"] = some (.str (Tpl.text w.rt (.readFieldEmpty))) := (rfl)
theorem gen_CODE_JSON__READ_FIELD__HEADER : (B).constant [n!"CODE_JSON__READ_FIELD__HEADER"] = some (.str (Tpl.text w.rt (.readFieldHeader))) := (rfl)
theorem gen_CODE_JSON__READ_FIELD__ITEM : (B).constant [n!"CODE_JSON__READ_FIELD__ITEM"] = some (.str (Tpl.text w.rt (.readFieldItem))) := (rfl)
theorem gen_CODE_JSON__READ_FIELD__FOOTER : (B).constant [n!"CODE_JSON__READ_FIELD__FOOTER"] = some (.str (Tpl.text w.rt (.readFieldFooter))) := (rfl)
theorem gen_CODE_JSON__WRITE__EMPTY : (B).constant [n!"CODE_JSON__WRITE__EMPTY"] = some (.str (Tpl.text w.rt (.writeEmpty))) := (rfl)
theorem gen_CODE_JSON__WRITE__HEADER : (B).constant [n!"CODE_JSON__WRITE__HEADER"] = some (.str (Tpl.text w.rt (.writeHeader))) := (rfl)
theorem gen_CODE_JSON__WRITE__ITEM : (B).constant [n!"CODE_JSON__WRITE__ITEM"] = some (.str (Tpl.text w.rt (.writeItem))) := (rfl)
theorem gen_CODE_JSON__WRITE__FOOTER : (B).constant [n!"CODE_JSON__WRITE__FOOTER"] = some (.str (Tpl.text w.rt (.writeFooter))) := (rfl)
theorem gen_CODE_JSON__EMPTY__EMPTY : (B).constant [n!"CODE_JSON__EMPTY__EMPTY"] = some (.str (Tpl.text w.rt (.emptyEmpty))) := (rfl)
theorem gen_CODE_JSON__EMPTY__HEADER : (B).constant [n!"CODE_JSON__EMPTY__HEADER"] = some (.str (Tpl.text w.rt (.emptyHeader))) := (rfl)
theorem gen_CODE_JSON__EMPTY__ITEM : (B).constant [n!"CODE_JSON__EMPTY__ITEM"] = some (.str (Tpl.text w.rt (.emptyItem))) := (rfl)
theorem gen_CODE_JSON__EMPTY__FOOTER : (B).constant [n!"CODE_JSON__EMPTY__FOOTER"] = some (.str (Tpl.text w.rt (.emptyFooter))) := (rfl)
theorem gen_CODE_JSON__CLEAR__EMPTY : (B).constant [n!"CODE_JSON__CLEAR__EMPTY"] = some (.str (Tpl.text w.rt (.clearEmpty))) := (rfl)
theorem gen_CODE_JSON__CLEAR__HEADER : (B).constant [n!"CODE_JSON__CLEAR__HEADER"] = some (.str (Tpl.text w.rt (.clearHeader))) := (rfl)
theorem gen_CODE_JSON__CLEAR__ITEM : (B).constant [n!"CODE_JSON__CLEAR__ITEM"] = some (.str (Tpl.text w.rt (.clearItem))) := (rfl)
theorem gen_CODE_JSON__CLEAR__FOOTER : (B).constant [n!"CODE_JSON__CLEAR__FOOTER"] = some (.str (Tpl.text w.rt (.clearFooter))) := (rfl)
theorem gen_CODE_JSON__EQUAL__EMPTY : (B).constant [n!"CODE_JSON__EQUAL__EMPTY"] = some (.str (Tpl.text w.rt (.equalEmpty))) := (rfl)
theorem gen_CODE_JSON__EQUAL__HEADER : (B).constant [n!"CODE_JSON__EQUAL__HEADER"] = some (.str (Tpl.text w.rt (.equalHeader))) := (rfl)
theorem gen_CODE_JSON__EQUAL__ITEM : (B).constant [n!"CODE_JSON__EQUAL__ITEM"] = some (.str (Tpl.text w.rt (.equalItem))) := (rfl)
theorem gen_CODE_JSON__EQUAL__FOOTER : (B).constant [n!"CODE_JSON__EQUAL__FOOTER"] = some (.str (Tpl.text w.rt (.equalFooter))) := (rfl)
theorem gen_CODE_JSON__SWAP__EMPTY : (B).constant [n!"CODE_JSON__SWAP__EMPTY"] = some (.str (Tpl.text w.rt (.swapEmpty))) := (rfl)
theorem gen_CODE_JSON__SWAP__HEADER : (B).constant [n!"CODE_JSON__SWAP__HEADER"] = some (.str (Tpl.text w.rt (.swapHeader))) := (rfl)
theorem gen_CODE_JSON__SWAP__ITEM : (B).constant [n!"CODE_JSON__SWAP__ITEM"] = some (.str (Tpl.text w.rt (.swapItem))) := (rfl)
theorem gen_CODE_JSON__SWAP__FOOTER : (B).constant [n!"CODE_JSON__SWAP__FOOTER"] = some (.str (Tpl.text w.rt (.swapFooter))) := (rfl)
theorem gen_CODE_JSON__INDEX__EMPTY : (B).constant [n!"CODE_JSON__INDEX__EMPTY"] = some (.str (Tpl.text w.rt (.indexEmpty))) := (rfl)
theorem gen_CODE_JSON__INDEX__HEADER : (B).constant [n!"CODE_JSON__INDEX__HEADER"] = some (.str (Tpl.text w.rt (.indexHeader))) := (rfl)
theorem gen_CODE_JSON__INDEX__HEADER_OBF : (B).constant [n!"CODE_JSON__INDEX__HEADER_OBF"] = some (.str (Tpl.text w.rt (.indexHeaderObf))) := (rfl)
theorem gen_CODE_JSON__INDEX__ITEM : (B).constant [n!"CODE_JSON__INDEX__ITEM"] = some (.str (Tpl.text w.rt (.indexItem))) := (rfl)
theorem gen_CODE_JSON__INDEX__FOOTER : (B).constant [n!"CODE_JSON__INDEX__FOOTER"] = some (.str (Tpl.text w.rt (.indexFooter))) := (rfl)
theorem gen_CODE_ENTITY : (B).constant [n!"CODE_ENTITY"] = some (.str (Tpl.text w.rt (.entity))) := (rfl)
theorem gen_CODE_ENTITY_JSON : (B).constant [n!"CODE_ENTITY_JSON"] = some (.str (Tpl.text w.rt (.entityJson))) := (rfl)
theorem gen_PROTOGEN_VERSION : (B).constant [n!"PROTOGEN_VERSION"] = some (.str version) := (rfl)
theorem gen_PROTOGEN_VERSION_NAMING : (B).constant [n!"PROTOGEN_VERSION_NAMING"] = some (.str versionNaming) := (rfl)
theorem gen_PROTOGEN_O_OBFUSCATE_STRINGS : (B).constant [n!"PROTOGEN_O_OBFUSCATE_STRINGS"] = some (.str b!"obfuscate_strings") := (rfl)
theorem gen_PROTOGEN_O_NUMBER_NAMES : (B).constant [n!"PROTOGEN_O_NUMBER_NAMES"] = some (.str b!"number_names") := (rfl)
theorem gen_PROTOGEN_O_TRANSIENT : (B).constant [n!"PROTOGEN_O_TRANSIENT"] = some (.str b!"transient") := (rfl)
theorem gen_PROTOGEN_O_CPP_USE_LISTS : (B).constant [n!"PROTOGEN_O_CPP_USE_LISTS"] = some (.str b!"cpp_use_lists") := (rfl)
theorem gen_PROTOGEN_O_NAME : (B).constant [n!"PROTOGEN_O_NAME"] = some (.str b!"name") := (rfl)
theorem gen_MAX_FIELDS : (B).constant [n!"protogen", n!"CppGenerator", n!"MAX_FIELDS"] = some (.int .i32 64) := (rfl)
theorem gen_TYPE_DOUBLE : (B).constant [n!"protogen", n!"TYPE_DOUBLE"] = some (.int .i32 6) := (rfl)
theorem gen_TYPE_BOOL : (B).constant [n!"protogen", n!"TYPE_BOOL"] = some (.int .i32 18) := (rfl)
theorem gen_TYPE_STRING : (B).constant [n!"protogen", n!"TYPE_STRING"] = some (.int .i32 19) := (rfl)
theorem gen_TYPE_BYTES : (B).constant [n!"protogen", n!"TYPE_BYTES"] = some (.int .i32 20) := (rfl)
theorem gen_TYPE_MESSAGE : (B).constant [n!"protogen", n!"TYPE_MESSAGE"] = some (.int .i32 21) := (rfl)
theorem gen_STRING : (B).constant [n!"OptionType", n!"STRING"] = some (.dom (.optType .string)) := (rfl)
theorem gen_BOOLEAN : (B).constant [n!"OptionType", n!"BOOLEAN"] = some (.dom (.optType .boolean)) := (rfl)
theorem gen_TYPE_MAPPING : (B).constant [n!"TYPE_MAPPING"] = some (.arr (rows.map fun r => .dom (.row r))) := (rfl)
theorem gen_nullptr : (B).constant [n!"nullptr"] = some (.dom .null) := (rfl)
theorem gen_true : (B).constant [n!"true"] = some (.bool true) := (rfl)
theorem gen_false : (B).constant [n!"false"] = some (.bool false) := (rfl)
theorem gen_ctx_root : (B).member (.dom (.ctx c o)) n!"root" st = some (.dom (.root o)) := (rfl)
theorem gen_ctx_number_names : (B).member (.dom (.ctx c o)) n!"number_names" st = some (.bool c.numberNames) := (rfl)
theorem gen_ctx_obfuscate_strings : (B).member (.dom (.ctx c o)) n!"obfuscate_strings" st = some (.bool c.obfuscate) := (rfl)
theorem gen_ctx_cpp_use_lists : (B).member (.dom (.ctx c o)) n!"cpp_use_lists" st = some (.bool c.useLists) := (rfl)
theorem gen_root_messages : (B).member (.dom (.root o)) n!"messages" st = some (pointers o) := (rfl)
theorem gen_root_options : (B).member (.dom (.root o)) n!"options" st = some (.dom (.options w.options)) := (rfl)
theorem gen_root_fileName : (B).member (.dom (.root o)) n!"fileName" st = some (.str w.fileName) := (rfl)
theorem gen_msg_fields : (B).member (.dom (.msg m)) n!"fields" st = some (.arr (m.fields.map fun f => .dom (.field f))) := (rfl)
theorem gen_msg_name : (B).member (.dom (.msg m)) n!"name" st = some (.str m.name) := (rfl)
theorem gen_msg_package : (B).member (.dom (.msg m)) n!"package" st = some (.str m.package) := (rfl)
theorem gen_field_type : (B).member (.dom (.field f)) n!"type" st = some (.dom (.type f.type)) := (rfl)
theorem gen_field_name : (B).member (.dom (.field f)) n!"name" st = some (.str f.name) := (rfl)
theorem gen_field_index : (B).member (.dom (.field f)) n!"index" st = some (.int .i32 f.index) := (rfl)
theorem gen_field_options : (B).member (.dom (.field f)) n!"options" st = some (.dom (.options f.options)) := (rfl)
theorem gen_type_id : (B).member (.dom (.type ti)) n!"id" st = some (.int .i32 (typeNum ti.id)) := (rfl)
theorem gen_type_ref : (B).member (.dom (.type ti)) n!"ref" st = some (.dom (.ref ti.ref)) := (rfl)
theorem gen_type_repeated : (B).member (.dom (.type ti)) n!"repeated" st = some (.bool ti.repeated) := (rfl)
theorem gen_entry_type : (B).member (.dom (.entry e)) n!"type" st = some (.dom (.optType e.type)) := (rfl)
theorem gen_entry_value : (B).member (.dom (.entry e)) n!"value" st = some (.str e.value) := (rfl)
theorem gen_entry_line : (B).member (.dom (.entry e)) n!"line" st = some (.int .i32 e.line) := (rfl)
theorem gen_row : (B).member (.dom (.row (some x))) n!"nativeType" st = some (.str x) := (rfl)
theorem gen_u_number_names : (B).update (.dom (.ctx c o)) n!"number_names" (.bool b) = some (.dom (.ctx { c with numberNames := b } o)) := (rfl)
theorem gen_u_obfuscate_strings : (B).update (.dom (.ctx c o)) n!"obfuscate_strings" (.bool b) = some (.dom (.ctx { c with obfuscate := b } o)) := (rfl)
theorem gen_u_cpp_use_lists : (B).update (.dom (.ctx c o)) n!"cpp_use_lists" (.bool b) = some (.dom (.ctx { c with useLists := b } o)) := (rfl)
theorem gen_u_root (o2 : List Nat) : (B).update (.dom (.ctx c o)) n!"root" (.dom (.root o2)) = some (.dom (.ctx c o2)) := (rfl)
theorem gen_eqNull (r : Option Nat) : (B).binary n!"==" (.dom (.ref r)) (.dom .null) st = some (.bool (decide (r = none)), st) := (rfl)
theorem gen_neNull (r : Option Nat) : (B).binary n!"!=" (.dom (.ref r)) (.dom .null) st = some (.bool (decide (r ≠ none)), st) := (rfl)
theorem gen_eqRef (r q : Option Nat) : (B).binary n!"==" (.dom (.ref r)) (.dom (.ref q)) st = some (.bool (decide (r = q)), st) := (rfl)
theorem gen_neType (r q : OptType) : (B).binary n!"!=" (.dom (.optType r)) (.dom (.optType q)) st = some (.bool (decide (r ≠ q)), st) := (rfl)
theorem gen_i_list : initial (B) n!"std :: vector < std :: shared_ptr < protogen :: Message > >" none st = some (.arr []) := (rfl)
theorem gen_i_set : initial (B) n!"std :: unordered_set < std :: shared_ptr < protogen :: Message > >" none st = some (.dom (.set [])) := (rfl)
theorem gen_i_entry : initial (B) n!"OptionEntry" (some (.dom (.entry e))) st = some (.dom (.entry e)) := (rfl)
theorem gen_i_field : (B).init n!"auto" (some (.dom (.field f))) st = some (.dom (.field f)) := (rfl)
theorem gen_exception (args : List (Val GVal)) : (L).function [n!"exception"] st args = Ran.of ((Schema.exceptionOf args).map fun e => (.dom (.exc e), [], st)) := (rfl)
theorem gen_exception2 (args : List (Val GVal)) : (L).function [n!"protogen", n!"exception"] st args = Ran.of ((Schema.exceptionOf args).map fun e => (.dom (.exc e), [], st)) := (rfl)
theorem gen_throw (e : Thrown) : (L).function [n!"throw"] st [.dom (.exc e)] = .thrown (e.after st) := (rfl)
theorem gen_nativePackage : (L).function [n!"nativePackage"] st [.str x] = .ok (.str (nativePackage x), [], st) := (rfl)
theorem gen_obfuscate : (L).function [n!"obfuscate"] st [.str x] = .ok (.str (obfuscateText x), [], st) := (rfl)
theorem gen_makeGuard : (L).function [n!"makeGuard"] st [.str x] = .ok (.str (makeGuard x), [], st) := (rfl)
theorem gen_string : (L).function [n!"std", n!"string"] st [.str x] = .ok (.str x, [], st) := (rfl)
theorem gen_to_string (t : IT) (k : Int) : (L).function [n!"std", n!"to_string"] st [.int t k] = .ok (.str (decInt k), [], st) := (rfl)
theorem gen_format1 : (L).function [n!"Printer", n!"format"] st [.str b!"reveal(\"$1$\")", .str x] =
    .ok (.str (print [x] b!"reveal(\"$1$\")"), [], st) := (rfl)
theorem gen_format2 : (L).function [n!"Printer", n!"format"] st [.str b!"\"$1$\"", .str x] =
    .ok (.str (print [x] b!"\"$1$\""), [], st) := (rfl)
theorem gen_nativeType (h : f.type.id = .message) (k : Valid w.msgs f) : (L).function [n!"nativeType"] st [.dom (.field f)] = (resOf st (nativeType w.msgs f)).bind fun x => .ok (.str x, [], st) := if_pos ⟨h, k⟩
theorem gen_transient : (L).function [n!"is_transient"] st [.dom (.field f)] = (resOf st (isTransient f)).bind fun x => .ok (.bool x, [], st) := (rfl)
theorem gen_json_name : (L).function [n!"get_json_name"] st [.dom (.field f)] = (resOf st (jsonName f)).bind fun x => .ok (.str x, [], st) := (rfl)
theorem gen_fieldNativeType (h : Valid w.msgs f) : (L).function [n!"fieldNativeType"] st [.dom (.field f), .bool b] = (resOf st (fieldNativeType w.msgs f b)).bind fun x => .ok (.str x, [], st) := if_pos h
theorem gen_getString (p : OptMap) : (L).function [n!"get_option"] st [.dom (.options p), .str x, .str y] = (resOf st (getString p x y)).bind fun x => .ok (.str x, [], st) := (rfl)
theorem gen_getBool (p : OptMap) : (L).function [n!"get_option"] st [.dom (.options p), .str x, .bool b] = (resOf st (getBool p x b)).bind fun x => .ok (.bool x, [], st) := (rfl)
theorem gen_namespace : (L).function [n!"generateNamespace"] st [.dom (.ctx c o), .dom (.msg m), .bool b] = printing w st (generateNamespace m b) := (rfl)
theorem gen_f_index (h : m.fields.length < 2147483648) : (L).function [n!"generate_function__index"] st [.dom (.ctx c o), .dom (.msg m), .bool b] = printing w st (genIndex c m b) := if_pos h
theorem gen_generateModel (h : ∀ f ∈ m.fields, Valid w.msgs f) : (L).function [n!"generateModel"] st [.dom (.ctx c o), .dom (.msg m)] = printing w st (generateModel w.msgs c m) := if_pos h
theorem gen_generateModelWrapper (h : m.fields.length < 2147483648) : (L).function [n!"generateModelWrapper"] st [.dom (.ctx c o), .dom (.msg m)] = printing w st (generateModelWrapper c m) := if_pos h
theorem gen_generateEntity : (L).function [n!"generateEntity"] st [.dom (.ctx c o), .dom (.msg m)] = printing w st (generateEntity m) := (rfl)
theorem gen_generateEntityWrapper : (L).function [n!"generateEntityWrapper"] st [.dom (.ctx c o), .dom (.msg m)] = printing w st (generateEntityWrapper m) := (rfl)
theorem gen_generateMessage (h : m.fields.length < 18446744073709551616 ∧ ∀ f ∈ m.fields, Valid w.msgs f) : (L).function [n!"generateMessage"] st [.dom (.ctx c o), .dom (.msg m)] = printing w st (generateMessage w.msgs c m) := if_pos h
theorem gen_f_read_field (h : m.fields.length < 2147483648) : (L).function [n!"generate_function__read_field"] st [.dom (.ctx c o), .dom (.msg m), .str x, .bool b] = printing w st (genRead m x b) := if_pos h
theorem gen_f_write (h : m.fields.length < 2147483648) : (L).function [n!"generate_function__write"] st [.dom (.ctx c o), .dom (.msg m), .str x, .bool b] = printing w st (genWrite c m x b) := if_pos h
theorem gen_f_empty (h : m.fields.length < 2147483648) : (L).function [n!"generate_function__empty"] st [.dom (.ctx c o), .dom (.msg m), .str x] = printing w st (genSimple .emptyEmpty .emptyHeader .emptyItem .emptyFooter m x) := if_pos h
theorem gen_f_clear (h : m.fields.length < 2147483648) : (L).function [n!"generate_function__clear"] st [.dom (.ctx c o), .dom (.msg m), .str x] = printing w st (genSimple .clearEmpty .clearHeader .clearItem .clearFooter m x) := if_pos h
theorem gen_f_equal (h : m.fields.length < 2147483648) : (L).function [n!"generate_function__equal"] st [.dom (.ctx c o), .dom (.msg m), .str x] = printing w st (genSimple .equalEmpty .equalHeader .equalItem .equalFooter m x) := if_pos h
theorem gen_f_swap (h : m.fields.length < 2147483648) : (L).function [n!"generate_function__swap"] st [.dom (.ctx c o), .dom (.msg m), .str x] = printing w st (genSimple .swapEmpty .swapHeader .swapItem .swapFooter m x) := if_pos h
theorem gen_newPrinter : (L).function [n!"Printer"] st [.dom .out] = .ok (.dom .printer, [], st) := (rfl)
theorem gen_newContext : (L).function [n!"GeneratorContext"] st [.dom .printer, .dom (.root o)] = .ok (.dom (.ctx ⟨false, false, false⟩ o), [], st) := (rfl)
theorem gen_sortAll (h : w.whole = true) : (L).function [n!"sort"] st [.dom (.ctx c (List.range w.msgs.length))] = (resOf st (sortLoop w.msgs w.depth (List.range w.msgs.length) ⟨[], []⟩)).bind fun r => .ok (.void, [some (.dom (.ctx c r.output))], st) := if_pos ⟨h, rfl⟩
theorem gen_inclusions (h : w.whole = true) : (L).function [n!"generateInclusions"] st [.dom (.ctx c (List.range w.msgs.length))] = printing w st (generateInclusions w.msgs) := if_pos ⟨h, rfl⟩
theorem gen_file (h : w.whole = true) : (L).function [n!"generateModel"] st [.dom (.ctx c (List.range w.msgs.length))] = (does w.rt st (generateFile w.depth w.fileName w.msgs c)).bind fun r => (resOf r.2 (sortAll w.msgs w.depth)).bind fun o => .ok (.void, [some (.dom (.ctx c o))], r.2) := if_pos ⟨h, rfl⟩
theorem gen_printer (args : List (Val GVal)) : (L).method n!"printer" st (.dom (.ctx c o) :: .str x :: args) = Ran.of ((texts args).map fun a => (.void, [], st ++ [(x, a)])) := (rfl)
theorem gen_begin : (L).method n!"begin" st [.str x] = .ok (.iter (x.map fun c => .int .char (IT.ofByte s c)), [], st) := (rfl)
theorem gen_end : (L).method n!"end" st [.str x] = .ok (.iter [], [], st) := (rfl)
theorem gen_count (p : OptMap) : (L).method n!"count" st [.dom (.options p), .str x] = .ok (.int .u64 (if (p.find x).isSome then 1 else 0), [], st) := (rfl)
theorem gen_at (p : OptMap) : (L).method n!"at" st [.dom (.options p), .str x] = Ran.of ((p.find x).map fun e => (.dom (.entry e), [], st)) := (rfl)
theorem gen_s_count (l : List Nat) (i : Nat) : (L).method n!"count" st [.dom (.set l), .dom (.ref (some i))] = .ok (.int .u64 (if i ∈ l then 1 else 0), [], st) := (rfl)
theorem gen_s_insert (l : List Nat) (i : Nat) : (L).method n!"insert" st [.dom (.set l), .dom (.ref (some i))] = .ok (.void, [some (.dom (.set (if i ∈ l then l else i :: l)))], st) := (rfl)
theorem gen_s_erase (l : List Nat) (i : Nat) : (L).method n!"erase" st [.dom (.set l), .dom (.ref (some i))] = .ok (.void, [some (.dom (.set (l.erase i)))], st) := (rfl)
theorem gen_s_swap (p q : List (Val GVal)) : (L).method n!"swap" st [.arr p, .arr q] = .ok (.void, [some (.arr q), some (.arr p)], st) := (rfl)
theorem gen_b_begin : builtin (D := GVal) n!"begin" (.str x) [] = none := (rfl)
theorem gen_b_end : builtin (D := GVal) n!"end" (.str x) [] = none := (rfl)
theorem gen_b_swap (p : List (Val GVal)) (q : List (Val GVal)) : builtin n!"swap" (.arr p) [.arr q] = none := (rfl)
theorem gen_r_staticvoid (v : Val GVal) : result (B) n!"static void" v = some v := (rfl)
theorem gen_r_staticstdstring (v : Val GVal) : result (B) n!"static std :: string" v = some v := (rfl)
theorem gen_r_staticinlinestdstring (v : Val GVal) : result (B) n!"static inline std :: string" v = some v := (rfl)
theorem gen_r_voidCppGenerator (v : Val GVal) : result (B) n!"void CppGenerator ::" v = some v := (rfl)
end
attribute [cxt] gen_base gen_signed gen_get gen_GENERATED__protogen_hh gen_GENERATED__json_hh gen_GENERATED__json_array_hh 
  gen_GENERATED__json_base___hh gen_GENERATED__json_number_hh gen_GENERATED__json_string_hh gen_CODE_HEADER 
  gen_CODE_JSON_MODEL__HEADER gen_CODE_JSON_MODEL__FOOTER gen_CODE_JSON__READ_FIELD__EMPTY 
  gen_CODE_JSON__READ_FIELD__HEADER gen_CODE_JSON__READ_FIELD__ITEM gen_CODE_JSON__READ_FIELD__FOOTER 
  gen_CODE_JSON__WRITE__EMPTY gen_CODE_JSON__WRITE__HEADER gen_CODE_JSON__WRITE__ITEM gen_CODE_JSON__WRITE__FOOTER 
  gen_CODE_JSON__EMPTY__EMPTY gen_CODE_JSON__EMPTY__HEADER gen_CODE_JSON__EMPTY__ITEM gen_CODE_JSON__EMPTY__FOOTER 
  gen_CODE_JSON__CLEAR__EMPTY gen_CODE_JSON__CLEAR__HEADER gen_CODE_JSON__CLEAR__ITEM gen_CODE_JSON__CLEAR__FOOTER 
  gen_CODE_JSON__EQUAL__EMPTY gen_CODE_JSON__EQUAL__HEADER gen_CODE_JSON__EQUAL__ITEM gen_CODE_JSON__EQUAL__FOOTER 
  gen_CODE_JSON__SWAP__EMPTY gen_CODE_JSON__SWAP__HEADER gen_CODE_JSON__SWAP__ITEM gen_CODE_JSON__SWAP__FOOTER 
  gen_CODE_JSON__INDEX__EMPTY gen_CODE_JSON__INDEX__HEADER gen_CODE_JSON__INDEX__HEADER_OBF gen_CODE_JSON__INDEX__ITEM 
  gen_CODE_JSON__INDEX__FOOTER gen_CODE_ENTITY gen_CODE_ENTITY_JSON gen_PROTOGEN_VERSION gen_PROTOGEN_VERSION_NAMING 
  gen_PROTOGEN_O_OBFUSCATE_STRINGS gen_PROTOGEN_O_NUMBER_NAMES gen_PROTOGEN_O_TRANSIENT gen_PROTOGEN_O_CPP_USE_LISTS 
  gen_PROTOGEN_O_NAME gen_MAX_FIELDS gen_TYPE_DOUBLE gen_TYPE_BOOL gen_TYPE_STRING gen_TYPE_BYTES gen_TYPE_MESSAGE 
  gen_STRING gen_BOOLEAN gen_TYPE_MAPPING gen_nullptr gen_true gen_false gen_ctx_root gen_ctx_number_names 
  gen_ctx_obfuscate_strings gen_ctx_cpp_use_lists gen_root_messages gen_root_options gen_root_fileName gen_msg_fields 
  gen_msg_name gen_msg_package gen_field_type gen_field_name gen_field_index gen_field_options gen_type_id gen_type_ref 
  gen_type_repeated gen_entry_type gen_entry_value gen_entry_line gen_row gen_u_number_names gen_u_obfuscate_strings 
  gen_u_cpp_use_lists gen_u_root gen_eqNull gen_neNull gen_eqRef gen_neType gen_i_list gen_i_set gen_i_entry gen_i_field 
  gen_exception gen_exception2 gen_throw gen_nativePackage gen_obfuscate gen_makeGuard gen_string gen_to_string gen_format1 gen_format2 
  gen_transient gen_json_name gen_fieldNativeType gen_getString gen_getBool gen_namespace gen_f_index gen_generateModel 
  gen_generateModelWrapper gen_generateEntity gen_generateEntityWrapper gen_generateMessage gen_f_read_field gen_f_write 
  gen_f_empty gen_f_clear gen_f_equal gen_f_swap gen_newPrinter gen_newContext gen_sortAll gen_inclusions gen_file 
  gen_printer gen_begin gen_end gen_count gen_at gen_s_count gen_s_insert gen_s_erase gen_s_swap gen_b_begin gen_b_end 
  gen_b_swap gen_r_staticvoid gen_r_staticstdstring gen_r_staticinlinestdstring gen_r_voidCppGenerator

end PG.Cxx.Throw
