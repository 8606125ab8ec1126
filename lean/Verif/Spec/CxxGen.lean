import Verif.Spec.CxxProto
import Verif.Model.Main
/-
The libraries for the functions of the generator (cppgen.cc) and of the printer (printer.cc).
-/
set_option autoImplicit false
namespace PG.Cxx.Maker
open PG.Proto PG.Gen

/-! ### The generator -/

/-- What is printed: the calls of the printer, formats and arguments. -/
abbrev Printed := List (Bytes × List Bytes)

/-- An exception that is thrown when something has been printed. -/
def _root_.PG.Cxx.Thrown.after (s : Printed) : Thrown → Thrown
  | .exception t l c => .during s t l c
  | e => e

/-- How a function of the model ends when something has been printed. -/
def resOf {α : Type} (s : Printed) : Gen.Res α → Ran α
  | .ok a => .ok a
  | .exc e => .thrown (.during s e.text e.line e.col)
  | .running => .fuel

/-- A function of the model that prints, after something has been printed. -/
def does {α : Type} (rt : Runtime) (s : Printed) (e : Emit α) : Ran (α × Printed) :=
  (resOf (s ++ e.calls.map fun c => (c.tpl.text rt, c.args)) e.res).bind fun a =>
    .ok (a, s ++ e.calls.map fun c => (c.tpl.text rt, c.args))

/-- What the generator is given: the texts of the runtime, the messages that pointers point to (by number), the options and the
name of the file; the bound for the depth of the recursion of `sort`; whether functions for the whole file (those that are given only the
context) have a meaning, which is not needed by those for one message. -/
structure Given where
  rt : Runtime
  msgs : List Message
  options : OptMap
  fileName : Bytes
  depth : Nat
  whole : Bool := true

/-- Values: the output, the printer, a `Proto3` with its vector of messages, a `GeneratorContext` with the same; messages, fields,
types, options; shared pointers, `nullptr`; a row of `TYPE_MAPPING`; sets of pointers; exceptions. -/
inductive GVal
  | out
  | printer
  | root (order : List Nat)
  | ctx (c : Gen.Ctx) (order : List Nat)
  | msg (m : Message)
  | field (f : Field)
  | type (t : TypeInfo)
  | options (o : OptMap)
  | entry (e : OptEntry)
  | optType (t : OptType)
  | ref (r : Option Nat)
  | null
  | row (native : Option Bytes)
  | set (l : List Nat)
  | exc (e : Thrown)

/-- proto3.hh:29-47 `FieldType`. -/
def typeNum : FType → Nat
  | .scalar t => t.num
  | .message => 21

/-- cppgen.cc:57-75 `TYPE_MAPPING`, the column `nativeType`. -/
def rows : List (Option Bytes) :=
  [some b!"double", some b!"float", some b!"int32_t", some b!"int64_t", some b!"uint32_t", some b!"uint64_t", some b!"int32_t",
   some b!"int64_t", some b!"uint32_t", some b!"uint64_t", some b!"int32_t", some b!"int64_t", some b!"bool", none, some b!"uint8_t",
   none]

/-- A vector of pointers. -/
def pointers (l : List Nat) : Val GVal := .arr (l.map fun i => .dom (.ref (some i)))

/-- The numbers of pointers. -/
def numbers : List (Val GVal) → Option (List Nat)
  | [] => some []
  | .dom (.ref (some i)) :: r => (numbers r).map (i :: ·)
  | _ => none

/-- The templates by their names: code.txt, and the texts of the runtime (cppgen.cc:566-575). -/
def templates : List (Name × Tpl) :=
  [(n!"GENERATED__protogen_hh", .runtime .protogen), (n!"GENERATED__json_hh", .runtime .json),
   (n!"GENERATED__json_array_hh", .runtime .array), (n!"GENERATED__json_base___hh", .runtime .base64),
   (n!"GENERATED__json_number_hh", .runtime .number), (n!"GENERATED__json_string_hh", .runtime .string),
   (n!"CODE_HEADER", .header), (n!"CODE_JSON_MODEL__HEADER", .jsonModelHeader), (n!"CODE_JSON_MODEL__FOOTER", .jsonModelFooter),
   (n!"CODE_JSON__READ_FIELD__EMPTY", .readFieldEmpty), (n!"CODE_JSON__READ_FIELD__HEADER", .readFieldHeader),
   (n!"CODE_JSON__READ_FIELD__ITEM", .readFieldItem), (n!"CODE_JSON__READ_FIELD__FOOTER", .readFieldFooter),
   (n!"CODE_JSON__WRITE__EMPTY", .writeEmpty), (n!"CODE_JSON__WRITE__HEADER", .writeHeader),
   (n!"CODE_JSON__WRITE__ITEM", .writeItem), (n!"CODE_JSON__WRITE__FOOTER", .writeFooter),
   (n!"CODE_JSON__EMPTY__EMPTY", .emptyEmpty), (n!"CODE_JSON__EMPTY__HEADER", .emptyHeader),
   (n!"CODE_JSON__EMPTY__ITEM", .emptyItem), (n!"CODE_JSON__EMPTY__FOOTER", .emptyFooter),
   (n!"CODE_JSON__CLEAR__EMPTY", .clearEmpty), (n!"CODE_JSON__CLEAR__HEADER", .clearHeader),
   (n!"CODE_JSON__CLEAR__ITEM", .clearItem), (n!"CODE_JSON__CLEAR__FOOTER", .clearFooter),
   (n!"CODE_JSON__EQUAL__EMPTY", .equalEmpty), (n!"CODE_JSON__EQUAL__HEADER", .equalHeader),
   (n!"CODE_JSON__EQUAL__ITEM", .equalItem), (n!"CODE_JSON__EQUAL__FOOTER", .equalFooter),
   (n!"CODE_JSON__SWAP__EMPTY", .swapEmpty), (n!"CODE_JSON__SWAP__HEADER", .swapHeader),
   (n!"CODE_JSON__SWAP__ITEM", .swapItem), (n!"CODE_JSON__SWAP__FOOTER", .swapFooter),
   (n!"CODE_JSON__INDEX__EMPTY", .indexEmpty), (n!"CODE_JSON__INDEX__HEADER", .indexHeader),
   (n!"CODE_JSON__INDEX__HEADER_OBF", .indexHeaderObf), (n!"CODE_JSON__INDEX__ITEM", .indexItem),
   (n!"CODE_JSON__INDEX__FOOTER", .indexFooter), (n!"CODE_ENTITY", .entity), (n!"CODE_ENTITY_JSON", .entityJson)]

/-- The other constants: cmake.hh.in:7-8, protogen.hh:29-44 and 60, proto3.hh:29-47 and 60-66. -/
def constants : List (List Name × Val GVal) :=
  [([n!"PROTOGEN_VERSION"], .str version), ([n!"PROTOGEN_VERSION_NAMING"], .str versionNaming),
   ([n!"PROTOGEN_O_OBFUSCATE_STRINGS"], .str b!"obfuscate_strings"), ([n!"PROTOGEN_O_NUMBER_NAMES"], .str b!"number_names"),
   ([n!"PROTOGEN_O_TRANSIENT"], .str b!"transient"), ([n!"PROTOGEN_O_CPP_USE_LISTS"], .str b!"cpp_use_lists"),
   ([n!"PROTOGEN_O_NAME"], .str b!"name"), ([n!"protogen", n!"CppGenerator", n!"MAX_FIELDS"], .int .i32 64),
   ([n!"protogen", n!"TYPE_DOUBLE"], .int .i32 6), ([n!"protogen", n!"TYPE_BOOL"], .int .i32 18),
   ([n!"protogen", n!"TYPE_STRING"], .int .i32 19), ([n!"protogen", n!"TYPE_BYTES"], .int .i32 20),
   ([n!"protogen", n!"TYPE_MESSAGE"], .int .i32 21),
   ([n!"OptionType", n!"STRING"], .dom (.optType .string)), ([n!"OptionType", n!"BOOLEAN"], .dom (.optType .boolean)),
   ([n!"TYPE_MAPPING"], .arr (rows.map fun r => .dom (.row r))), ([n!"nullptr"], .dom .null), ([n!"true"], .bool true),
   ([n!"false"], .bool false)]

/-- Members (proto3.hh:51-110, cppgen.cc:41-50). -/
def GVal.field? (w : Given) (v : GVal) (n : Name) : Option (Val GVal) :=
  match v with
  | .ctx c o =>
    if n = n!"root" then some (.dom (.root o))
    else if n = n!"number_names" then some (.bool c.numberNames)
    else if n = n!"obfuscate_strings" then some (.bool c.obfuscate)
    else if n = n!"cpp_use_lists" then some (.bool c.useLists)
    else none
  | .root o =>
    if n = n!"messages" then some (pointers o)
    else if n = n!"options" then some (.dom (.options w.options))
    else if n = n!"fileName" then some (.str w.fileName)
    else none
  | .msg m =>
    if n = n!"fields" then some (.arr (m.fields.map fun f => .dom (.field f)))
    else if n = n!"name" then some (.str m.name)
    else if n = n!"package" then some (.str m.package)
    else none
  | .ref (some i) =>
    w.msgs[i]?.bind fun m =>
      if n = n!"fields" then some (.arr (m.fields.map fun f => .dom (.field f)))
      else if n = n!"name" then some (.str m.name)
      else if n = n!"package" then some (.str m.package)
      else none
  | .field f =>
    if n = n!"type" then some (.dom (.type f.type))
    else if n = n!"name" then some (.str f.name)
    else if n = n!"index" then some (.int .i32 f.index)
    else if n = n!"options" then some (.dom (.options f.options))
    else none
  | .type t =>
    if n = n!"id" then some (.int .i32 (typeNum t.id))
    else if n = n!"ref" then some (.dom (.ref t.ref))
    else if n = n!"repeated" then some (.bool t.repeated)
    else none
  | .entry e =>
    if n = n!"type" then some (.dom (.optType e.type))
    else if n = n!"value" then some (.str e.value)
    else if n = n!"line" then some (.int .i32 e.line)
    else none
  | .row r => if n = n!"nativeType" then (match r with | some t => some (.str t) | none => some (.dom .null)) else none
  | _ => none

/-- After an assignment to a member. -/
def GVal.setField (v : GVal) (n : Name) (x : Val GVal) : Option GVal :=
  match v, x with
  | .ctx c o, .bool b =>
    if n = n!"number_names" then some (.ctx { c with numberNames := b } o)
    else if n = n!"obfuscate_strings" then some (.ctx { c with obfuscate := b } o)
    else if n = n!"cpp_use_lists" then some (.ctx { c with useLists := b } o)
    else none
  | .ctx c _, .dom (.root o) => if n = n!"root" then some (.ctx c o) else none
  | .root _, .arr l => if n = n!"messages" then (numbers l).map .root else none
  | _, _ => none

/-- Values and members. -/
def genBase (s : Bool) (w : Given) : Lib GVal Printed :=
  { Schema.plain s with
    constant := fun p =>
      match constants.lookup p with
      | some v => some v
      | none =>
        match p with
        | [n] => (templates.lookup n).map fun t => .str (t.text w.rt)
        | _ => none
    member := fun v n _ =>
      match v with
      | .dom d => d.field? w n
      | _ => none
    update := fun v n x =>
      match v with
      | .dom d => (d.setField n x).map .dom
      | _ => none
    unary := fun o v _ =>
      match v with
      | .dom (.ref (some i)) => if o = n!"*" then w.msgs[i]?.map fun m => .dom (.msg m) else none
      | _ => none
    binary := fun o a b s =>
      match a, b with
      | .dom (.ref r), .dom .null =>
        if o = n!"==" then some (.bool (decide (r = none)), s)
        else if o = n!"!=" then some (.bool (decide (r ≠ none)), s)
        else none
      | .dom (.ref r), .dom (.ref q) => if o = n!"==" then some (.bool (decide (r = q)), s) else none
      | .dom (.optType t), .dom (.optType u) => if o = n!"!=" then some (.bool (decide (t ≠ u)), s) else none
      | _, _ => none
    init := fun t v _ =>
      match v with
      | none =>
        if t = n!"std :: vector < std :: shared_ptr < protogen :: Message > >" then some (.arr [])
        else if t = n!"std :: unordered_set < std :: shared_ptr < protogen :: Message > >" then some (.dom (.set []))
        else none
      | some (.dom (.entry e)) => if t = n!"OptionEntry" then some (.dom (.entry e)) else none
      | some (.dom (.field f)) => if t = n!"auto" then some (.dom (.field f)) else none
      | _ => none }

/-- The arguments of the printer as texts (printer.hh:67-72): `std::to_string` for numbers. -/
def texts : List (Val GVal) → Option (List Bytes)
  | [] => some []
  | .str x :: r => (texts r).map (x :: ·)
  | .int _ k :: r => (texts r).map (decInt k :: ·)
  | _ => none

/-- A function that prints and has no result. -/
def printing (w : Given) (s : Printed) (e : Emit Unit) : Ran (Val GVal × List (Option (Val GVal)) × Printed) :=
  (does w.rt s e).bind fun r => .ok (.void, [], r.2)

/-- The same for a message whose fields an `int` can count. -/
def few (w : Given) (s : Printed) (m : Message) (e : Emit Unit) : Ran (Val GVal × List (Option (Val GVal)) × Printed) :=
  if m.fields.length < 2147483648 then printing w s e else .undef

/-- What a field refers to is there. -/
def Valid (msgs : List Message) (f : Field) : Prop := ∀ i, f.type.ref = some i → i < msgs.length

instance (msgs : List Message) (f : Field) : Decidable (Valid msgs f) :=
  match h : f.type.ref with
  | none => isTrue fun i e => by rw [h] at e; cases e
  | some i => if k : i < msgs.length then isTrue fun j e => by rw [h] at e; cases e; exact k else isFalse fun g => k (g i h)

/-- Some messages of the schema, each of them once. -/
def Sound (msgs : List Message) (l : List Nat) : Prop := l.Nodup ∧ ∀ j ∈ l, j < msgs.length

instance (msgs : List Message) (l : List Nat) : Decidable (Sound msgs l) := inferInstanceAs (Decidable (_ ∧ _))

/-- cppgen.cc:305 and 307, the formats of labels. -/
def labelFormats : List Bytes := [b!"reveal(\"$1$\")", b!"\"$1$\""]

/-- The functions called by those of the generator.  Calls for which the code is not defined have no meaning here: the message that is
referred to is there, counters do not overflow; neither have those of `sort` for which the bound for the depth of the recursion is not
enough. -/
def genLib (s : Bool) (w : Given) : ThrowLib GVal Printed where
  base := genBase s w
  function := fun p st args =>
    if p = [n!"exception"] ∨ p = [n!"protogen", n!"exception"] then
      Ran.of ((Schema.exceptionOf args).map fun e => (.dom (.exc e), [], st))
    else
      match args with
      | [.dom (.exc e)] => if p = [n!"throw"] then .thrown (e.after st) else .undef
      | [.str x] =>
        if p = [n!"nativePackage"] then .ok (.str (nativePackage x), [], st)
        else if p = [n!"obfuscate"] then .ok (.str (obfuscateText x), [], st)
        else if p = [n!"std", n!"string"] then .ok (.str x, [], st)
        else if p = [n!"makeGuard"] then .ok (.str (makeGuard x), [], st)
        else .undef
      | [.int _ k] => if p = [n!"std", n!"to_string"] then .ok (.str (decInt k), [], st) else .undef
      | [.str f, .str x] =>
        if p = [n!"Printer", n!"format"] ∧ f ∈ labelFormats then .ok (.str (print [x] f), [], st) else .undef
      | [.dom (.field f)] =>
        if p = [n!"nativeType"] then
          if f.type.id = .message ∧ Valid w.msgs f then (resOf st (nativeType w.msgs f)).bind fun x => .ok (.str x, [], st) else .undef
        else if p = [n!"is_transient"] then (resOf st (isTransient f)).bind fun x => .ok (.bool x, [], st)
        else if p = [n!"get_json_name"] then (resOf st (jsonName f)).bind fun x => .ok (.str x, [], st)
        else .undef
      | [.dom (.field f), .bool b] =>
        if p = [n!"fieldNativeType"] then
          if Valid w.msgs f then (resOf st (fieldNativeType w.msgs f b)).bind fun x => .ok (.str x, [], st) else .undef
        else .undef
      | [.dom (.options o), .str x, .str d] =>
        if p = [n!"get_option"] then (resOf st (getString o x d)).bind fun x => .ok (.str x, [], st) else .undef
      | [.dom (.options o), .str x, .bool d] =>
        if p = [n!"get_option"] then (resOf st (getBool o x d)).bind fun x => .ok (.bool x, [], st) else .undef
      | [.dom (.ctx c _), .dom (.msg m), .bool b] =>
        if p = [n!"generateNamespace"] then printing w st (generateNamespace m b)
        else if p = [n!"generate_function__index"] then few w st m (genIndex c m b)
        else .undef
      | [.dom (.ctx c _), .dom (.msg m)] =>
        if p = [n!"generateModel"] then
          if ∀ f ∈ m.fields, Valid w.msgs f then printing w st (generateModel w.msgs c m) else .undef
        else if p = [n!"generateModelWrapper"] then few w st m (generateModelWrapper c m)
        else if p = [n!"generateEntity"] then printing w st (generateEntity m)
        else if p = [n!"generateEntityWrapper"] then printing w st (generateEntityWrapper m)
        else if p = [n!"generateMessage"] then
          if m.fields.length < 18446744073709551616 ∧ ∀ f ∈ m.fields, Valid w.msgs f then printing w st (generateMessage w.msgs c m)
          else .undef
        else .undef
      | [.dom (.ctx c _), .dom (.msg m), .str t, .bool b] =>
        if p = [n!"generate_function__read_field"] then few w st m (genRead m t b)
        else if p = [n!"generate_function__write"] then few w st m (genWrite c m t b)
        else .undef
      | [.dom (.ctx _ _), .dom (.msg m), .str t] =>
        if p = [n!"generate_function__empty"] then few w st m (genSimple .emptyEmpty .emptyHeader .emptyItem .emptyFooter m t)
        else if p = [n!"generate_function__clear"] then few w st m (genSimple .clearEmpty .clearHeader .clearItem .clearFooter m t)
        else if p = [n!"generate_function__equal"] then few w st m (genSimple .equalEmpty .equalHeader .equalItem .equalFooter m t)
        else if p = [n!"generate_function__swap"] then few w st m (genSimple .swapEmpty .swapHeader .swapItem .swapFooter m t)
        else .undef
      | [.arr l, .dom (.ref (some i))] =>
        if p = [n!"contains"] then
          (Ran.of (numbers l)).bind fun l => if l.length < 18446744073709551616 then .ok (.bool (decide (i ∈ l)), [], st) else .undef
        else .undef
      | [.arr l, .dom (.set q), .dom (.ref (some i))] =>
        if p = [n!"sort"] then
          (Ran.of (numbers l)).bind fun l =>
            if i < w.msgs.length ∧ Sound w.msgs l ∧ Sound w.msgs q ∧ w.msgs.length < w.depth + q.length then
              (resOf st (sortMessage w.msgs w.depth i ⟨l, q⟩)).bind fun r =>
                .ok (.void, [some (pointers r.output), some (.dom (.set r.pending))], st)
            else .undef
        else .undef
      | [.dom .out] => if p = [n!"Printer"] then .ok (.dom .printer, [], st) else .undef
      | [.dom .printer, .dom (.root o)] =>
        if p = [n!"GeneratorContext"] then .ok (.dom (.ctx ⟨false, false, false⟩ o), [], st) else .undef
      | [.dom (.ctx c o)] =>
        if p = [n!"sort"] then
          if w.whole = true ∧ o = List.range w.msgs.length then
            (resOf st (sortLoop w.msgs w.depth o ⟨[], []⟩)).bind fun r => .ok (.void, [some (.dom (.ctx c r.output))], st)
          else .undef
        else if p = [n!"generateInclusions"] then
          if w.whole = true ∧ o = List.range w.msgs.length then printing w st (generateInclusions w.msgs) else .undef
        else if p = [n!"generateModel"] then
          if w.whole = true ∧ o = List.range w.msgs.length then
            (does w.rt st (generateFile w.depth w.fileName w.msgs c)).bind fun r =>
              (resOf r.2 (sortAll w.msgs w.depth)).bind fun o => .ok (.void, [some (.dom (.ctx c o))], r.2)
          else .undef
        else .undef
      | _ => .undef
  method := fun m st args =>
    match args with
    | .dom (.ctx _ _) :: .str f :: args =>
      if m = n!"printer" then Ran.of ((texts args).map fun a => (.void, [], st ++ [(f, a)])) else .undef
    | [.str x] =>
      if m = n!"begin" then .ok (.iter (x.map fun c => .int .char (IT.ofByte s c)), [], st)
      else if m = n!"end" then .ok (.iter [], [], st)
      else .undef
    | [.dom (.options o), .str k] =>
      if m = n!"count" then .ok (.int .u64 (if (o.find k).isSome then 1 else 0), [], st)
      else if m = n!"at" then Ran.of ((o.find k).map fun e => (.dom (.entry e), [], st))
      else .undef
    | [.dom (.set l), .dom (.ref (some i))] =>
      if m = n!"count" then .ok (.int .u64 (if i ∈ l then 1 else 0), [], st)
      else if m = n!"insert" then .ok (.void, [some (.dom (.set (if i ∈ l then l else i :: l)))], st)
      else if m = n!"erase" then .ok (.void, [some (.dom (.set (l.erase i)))], st)
      else .undef
    | [.arr a, .arr b] => if m = n!"swap" then .ok (.void, [some (.arr b), some (.arr a)], st) else .undef
    | _ => .undef
  caught := fun _ _ _ => none

/-! ### `obfuscate` -/

/-- A `std::stringstream` and `std::hex`. -/
inductive HexVal
  | stream
  | hex

/-- The library for `obfuscate` (cppgen.cc:214-224); the state is what is in the only stream, and whether it writes numbers to the
base 16. -/
def hexLib (s : Bool) : ThrowLib HexVal (Bytes × Bool) where
  base := { Schema.plain s with
    constant := fun p => if p = [n!"std", n!"hex"] then some (.dom .hex) else none
    init := fun t v _ => if t = n!"std :: stringstream" ∧ v.isNone then some (.dom .stream) else none
    binary := fun o a b st =>
      if o = n!"<<" then
        match a, b with
        | .dom .stream, .str x => some (.dom .stream, (st.1 ++ x, st.2))
        | .dom .stream, .dom .hex => some (.dom .stream, (st.1, true))
        | .dom .stream, .int .i32 v =>
          if st.2 = true ∧ 0 ≤ v ∧ v < 256 then some (.dom .stream, (st.1 ++ hexText v.toNat, st.2)) else none
        | _, _ => none
      else none }
  function := fun p st args =>
    match args with
    | [.int .u32 v, .int .u64 c] => if p = [n!"rol", n!"uint8_t"] then .ok (.int .u8 (rol8 v.toNat c.toNat), [], st) else .undef
    | _ => .undef
  method := fun m st args =>
    match args with
    | [.dom .stream] => if m = n!"str" then .ok (.str st.1, [], st) else .undef
    | _ => .undef
  caught := fun _ _ _ => none

/-! ### `Printer::print` -/

/-- The stream, `nullptr`, the address of a variable. -/
inductive PrintVal
  | out
  | null
  | address

/-- The library for `Printer::print` (printer.cc:39-66); the state is what the stream has been given.  Pointers that are compared
point into the same text. -/
def printLib (s : Bool) : ThrowLib PrintVal Bytes where
  base := { Schema.plain s with
    constant := fun p => if p = [n!"nullptr"] then some (.dom .null) else none
    init := fun t v _ =>
      match v with
      | some (.dom .null) => if t = n!"const char *" ∨ t = n!"char *" then some (.dom .null) else none
      | _ => none
    unary := fun o _ _ => if o = n!"&" then some (.dom .address) else none
    binary := fun o a b st =>
      match a, b with
      | .ptr x, .int .i32 k => if o = n!"+" ∧ 0 ≤ k ∧ k ≤ x.length then some (.ptr (x.drop k.toNat), st) else none
      | .ptr _, .dom .null => if o = n!"==" then some (.bool false, st) else none
      | .dom .null, .dom .null => if o = n!"==" then some (.bool true, st) else none
      | .ptr x, .ptr y => if o = n!"!=" then some (.bool (decide (x.length ≠ y.length)), st) else none
      | .dom .out, .str x => if o = n!"<<" then some (.dom .out, st ++ x) else none
      | .dom .out, .int .char c => if o = n!"<<" then some (.dom .out, st ++ [IT.toByte c]) else none
      | _, _ => none }
  function := fun p st args =>
    match args with
    | [.ptr x, .int .char c] =>
      if p = [n!"strchr"] then
        match x.dropWhile (· ≠ IT.toByte c) with
        | [] => .ok (.dom .null, [], st)
        | y => .ok (.ptr y, [], st)
      else .undef
    | [.ptr x, .dom .address, .int .i32 10] =>
      if p = [n!"strtol"] then .ok (.int .i64 (strtol x), [none, some (.ptr (strtolEnd x))], st) else .undef
    | _ => .undef
  method := fun _ _ _ => .undef
  caught := fun _ _ _ => none

end PG.Cxx.Maker
