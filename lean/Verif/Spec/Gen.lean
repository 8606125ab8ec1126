import Verif.Model.Gen
/-
What the generated code is required to be, independently of how the generator works.
-/
set_option autoImplicit false
namespace PG.Gen
open PG.Proto

/-! ### References between messages -/

/-- The message at position `i` has a field whose type is the message at position `j`. -/
def Refers (msgs : List Message) (i j : Nat) : Prop := ∃ m f, msgs[i]? = some m ∧ f ∈ m.fields ∧ f.type.ref = some j

/-- … directly or through other messages. -/
inductive Reaches (msgs : List Message) : Nat → Nat → Prop
  | one {i j : Nat} (h : Refers msgs i j) : Reaches msgs i j
  | more {i j k : Nat} (h : Refers msgs i j) (t : Reaches msgs j k) : Reaches msgs i k

/-- Some message contains itself. -/
def Circular (msgs : List Message) : Prop := ∃ i, Reaches msgs i i

/-- Every reference is to a message of the schema. -/
def Linked (msgs : List Message) : Prop := ∀ i j, Refers msgs i j → j < msgs.length

/-- Every element comes after those it refers to. -/
def Ordered (msgs : List Message) (order : List Nat) : Prop :=
  ∀ pre i post, order = pre ++ i :: post → ∀ j, Refers msgs i j → j ∈ pre

/-! ### Options of a field -/

/-- Whether the field takes part in the JSON text. -/
def Persistent (f : Field) : Bool :=
  match f.options.find b!"transient" with
  | some o => o.value != b!"true"
  | none => true

/-- The name of the field in JSON text, without `number_names`. -/
def givenName (f : Field) : Bytes :=
  match f.options.find b!"name" with
  | some o => o.value
  | none => f.name

/-- The name of the field in JSON text. -/
def jsonNameIn (ctx : Ctx) (f : Field) : Bytes := if ctx.numberNames then decInt f.index else givenName f

/-- The values of the options have the right types, and the name has no quotes. -/
def FieldOptionsOk (f : Field) : Prop :=
  (∀ o, f.options.find b!"transient" = some o → o.type = .boolean) ∧
  (Persistent f = true → (∀ o, f.options.find b!"name" = some o → o.type = .string) ∧
    ∀ c ∈ givenName f, c ≠ c!"'" ∧ c ≠ c!"\"")

/-- A field of message type refers to a message of the schema. -/
def FieldLinked (msgs : List Message) (f : Field) : Prop :=
  f.type.id = .message → ∃ i m, f.type.ref = some i ∧ msgs[i]? = some m

/-- A message for which code can be generated. -/
def MessageOk (msgs : List Message) (m : Message) : Prop :=
  m.fields.length ≤ 64 ∧ ∀ f ∈ m.fields, FieldOptionsOk f ∧ FieldLinked msgs f

/-- The options of the file that the generator uses are boolean. -/
def FileOptionsOk (options : OptMap) : Prop :=
  ∀ n ∈ [b!"obfuscate_strings", b!"cpp_use_lists", b!"number_names"], ∀ o, options.find n = some o → o.type = .boolean

/-- The options of the file. -/
def ctxOf (options : OptMap) : Ctx :=
  let get (n : Bytes) : Bool := match options.find n with | some o => o.value == b!"true" | none => false
  { numberNames := get b!"number_names", obfuscate := get b!"obfuscate_strings", useLists := get b!"cpp_use_lists" }

/-! ### C++ types (README.md:107-131) -/

/-- The parts of a name separated by dots. -/
def dotted : Bytes → List Bytes
  | [] => [[]]
  | c :: rest =>
    if c = c!"." then [] :: dotted rest
    else
      match dotted rest with
      | [] => [[c]]
      | p :: ps => (c :: p) :: ps

/-- The namespaces of a package. -/
def namespaces (package : Bytes) : List Bytes := if package = [] then [] else dotted package

/-- The global name of the class of a message. -/
def className (m : Message) : Bytes := b!" " ++ (namespaces m.package).flatMap (b!"::" ++ ·) ++ b!"::" ++ m.name

/-- README.md:115-131, the C++ type of a scalar. -/
def readmeType : Scalar → Bytes
  | .double => b!"protogen_3_0_0::field<double>"
  | .float => b!"protogen_3_0_0::field<float>"
  | .int32 => b!"protogen_3_0_0::field<int32_t>"
  | .sint32 => b!"protogen_3_0_0::field<int32_t>"
  | .uint32 => b!"protogen_3_0_0::field<uint32_t>"
  | .int64 => b!"protogen_3_0_0::field<int64_t>"
  | .sint64 => b!"protogen_3_0_0::field<int64_t>"
  | .uint64 => b!"protogen_3_0_0::field<uint64_t>"
  | .fixed32 => b!"protogen_3_0_0::field<uint32_t>"
  | .fixed64 => b!"protogen_3_0_0::field<uint64_t>"
  | .sfixed32 => b!"protogen_3_0_0::field<int32_t>"
  | .sfixed64 => b!"protogen_3_0_0::field<int64_t>"
  | .bool => b!"protogen_3_0_0::field<bool>"
  | .string => b!"protogen_3_0_0::string_field"
  | .bytes => b!"std::vector<uint8_t>"

/-- The C++ type of a number inside a container. -/
def elementType : Scalar → Bytes
  | .double => b!"double"
  | .float => b!"float"
  | .int32 | .sint32 | .sfixed32 => b!"int32_t"
  | .uint32 | .fixed32 => b!"uint32_t"
  | .int64 | .sint64 | .sfixed64 => b!"int64_t"
  | .uint64 | .fixed64 => b!"uint64_t"
  | .bool => b!"bool"
  | .string => b!"protogen_3_0_0::string_field"
  | .bytes => b!"uint8_t"

/-- The C++ type of a field; `target` is the message it refers to. -/
def cppType (useLists : Bool) (f : Field) (target : Option Message) : Bytes :=
  let container (e : Bytes) : Bytes := (if useLists then b!"std::list<" else b!"std::vector<") ++ e ++ b!">"
  match f.type.id with
  | .scalar .bytes => readmeType .bytes
  | .scalar s => if f.type.repeated then container (elementType s) else readmeType s
  | .message =>
    let c := (target.map className).getD []
    if f.type.repeated then container c else c

/-- The message a field refers to. -/
def targetOf (msgs : List Message) (f : Field) : Option Message := f.type.ref.bind fun i => msgs[i]?

/-! ### The code of a message -/

/-- A function over the fields of a message. -/
def functionCalls (empty head item foot : Tpl) (m : Message) : List Call :=
  if m.fields = [] then [⟨empty, [className m ++ b!"_type"]⟩]
  else ⟨head, [className m ++ b!"_type"]⟩ :: m.fields.map (fun f => ⟨item, [f.name]⟩) ++ [⟨foot, []⟩]

/-- The text of a JSON name in the table of names. -/
def keyText (ctx : Ctx) (name : Bytes) : Bytes := if ctx.obfuscate then obfuscateText name else name
/-- The expression for a JSON name in the writer. -/
def labelText (ctx : Ctx) (name : Bytes) : Bytes :=
  if ctx.obfuscate then b!"reveal(\"" ++ obfuscateText name ++ b!"\")" else b!"\"" ++ name ++ b!"\""

/-- What is printed for a message: its structure, the functions of `json<…>`, and its class. -/
def messageCalls (msgs : List Message) (ctx : Ctx) (m : Message) : List Call :=
  let opening := (namespaces m.package).map fun n => (⟨.namespaceOpen, [n]⟩ : Call)
  let closing := (namespaces m.package).map fun n => (⟨.namespaceClose, [n]⟩ : Call)
  let type := className m ++ b!"_type"
  let fs := m.fields.filter Persistent
  [⟨.title, [m.name]⟩] ++
  (opening ++ [⟨.structOpen, [m.name]⟩] ++
    m.fields.map (fun f => ⟨.structField, [cppType ctx.useLists f (targetOf msgs f), f.name]⟩) ++
    [⟨.structClose, []⟩] ++ closing) ++
  ([⟨.jsonModelHeader, [versionNaming, type]⟩] ++
    (if fs = [] then [⟨.readFieldEmpty, [type]⟩]
     else [⟨.readFieldHeader, [type]⟩] ++ fs.zipIdx.map (fun x => ⟨.readFieldItem, [decNat x.2, x.1.name]⟩) ++
       [⟨.readFieldFooter, []⟩]) ++
    (if fs = [] then [⟨.writeEmpty, [type]⟩]
     else [⟨.writeHeader, [type, versionNaming]⟩] ++
       fs.map (fun f => ⟨.writeItem, [f.name, labelText ctx (jsonNameIn ctx f)]⟩) ++ [⟨.writeFooter, []⟩]) ++
    functionCalls .emptyEmpty .emptyHeader .emptyItem .emptyFooter m ++
    functionCalls .clearEmpty .clearHeader .clearItem .clearFooter m ++
    functionCalls .equalEmpty .equalHeader .equalItem .equalFooter m ++
    functionCalls .swapEmpty .swapHeader .swapItem .swapFooter m ++
    (if fs = [] then [⟨.indexEmpty, []⟩]
     else [⟨if ctx.obfuscate then .indexHeaderObf else .indexHeader, []⟩] ++
       fs.zipIdx.map (fun x => ⟨.indexItem, [keyText ctx (jsonNameIn ctx x.1), decNat x.2]⟩) ++ [⟨.indexFooter, []⟩]) ++
    [⟨.jsonModelFooter, [versionNaming]⟩]) ++
  (opening ++ [⟨.entity, [m.name, type, versionNaming]⟩] ++ closing) ++
  [⟨.entityJson, [className m, type, versionNaming]⟩]

/-! ### The definitions of a generated file -/

/-- What a generated file declares, with the namespaces it is in: the structure of a message, a member of the structure
with its type, and the class of a message. -/
inductive Event
  | struct (path : List Bytes) (name : Bytes)
  | member (type name : Bytes)
  | entity (path : List Bytes) (name : Bytes)
deriving DecidableEq, Repr

/-- The declarations of a file, given the namespaces that are open; `none` if a namespace is closed that was not
opened, or not closed at the end. -/
def declarations : List Bytes → List Call → Option (List Event)
  | path, [] => if path = [] then some [] else none
  | path, c :: rest =>
    match c.tpl, c.args with
    | .namespaceOpen, n :: _ => declarations (path ++ [n]) rest
    | .namespaceClose, _ => if path = [] then none else declarations path.dropLast rest
    | .structOpen, n :: _ => (declarations path rest).map (.struct path n :: ·)
    | .structField, t :: n :: _ => (declarations path rest).map (.member t n :: ·)
    | .entity, n :: _ => (declarations path rest).map (.entity path n :: ·)
    | _, _ => declarations path rest

/-- The declarations for a message. -/
def messageEvents (msgs : List Message) (ctx : Ctx) (m : Message) : List Event :=
  [.struct (namespaces m.package) m.name] ++
  m.fields.map (fun f => .member (cppType ctx.useLists f (targetOf msgs f)) f.name) ++
  [.entity (namespaces m.package) m.name]

/-- An identifier of C and C++. -/
def CIdent (s : Bytes) : Prop :=
  ∃ b r, s = b :: r ∧ ((65 ≤ b ∧ b ≤ 90) ∨ (97 ≤ b ∧ b ≤ 122) ∨ b = 95) ∧
    ∀ c ∈ r, (65 ≤ c ∧ c ≤ 90) ∨ (97 ≤ c ∧ c ≤ 122) ∨ (48 ≤ c ∧ c ≤ 57) ∨ c = 95

end PG.Gen
