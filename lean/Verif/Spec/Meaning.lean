import Verif.Spec.CLit
import Verif.Spec.Gen
import Verif.Model.Schema
/-
What a generated file means as a C++ program, as far as its templates go: which classes it defines, and of which type
(`Ty`) of the run-time model each of them is.  The file is read from top to bottom; a type that has not been defined yet is
an error, as in C++.
-/
set_option autoImplicit false
namespace PG.Gen
open PG.Proto

/-! ### What the generated expressions mean -/

/-- The text between a prefix and a suffix. -/
def between (pre suf s : Bytes) : Option Bytes :=
  if pre.isPrefixOf s && suf.isSuffixOf s && decide (pre.length + suf.length ≤ s.length) then
    some ((s.drop pre.length).take (s.length - pre.length - suf.length))
  else none

/-- The value of the expression that the writer prints as a label: `"…"` or `reveal("…")` (code.txt:105). -/
def labelValue (e : Bytes) : Option Bytes :=
  match between b!"reveal(\"" b!"\")" e with
  | some s => (cString s).map reveal
  | none => (between b!"\"" b!"\"" e).bind cString

/-! ### Types -/

/-- A class that has been defined, and its type. -/
abbrev Classes := List (Bytes × Ty)

/-- The type of a class. -/
def Classes.find (cs : Classes) (name : Bytes) : Option Ty := (cs.find? fun c => c.1 == name).map (·.2)

/-- The arithmetic types of C++ that occur. -/
def arithmetic (s : Bytes) : Option Prim :=
  if s = b!"double" then some (.flt .f64)
  else if s = b!"float" then some (.flt .f32)
  else if s = b!"int32_t" then some (.int .i32)
  else if s = b!"int64_t" then some (.int .i64)
  else if s = b!"uint32_t" then some (.int .u32)
  else if s = b!"uint64_t" then some (.int .u64)
  else if s = b!"uint8_t" then some (.int .u8)
  else if s = b!"bool" then some .bool
  else none

/-- The parts of the runtime that a file contains. -/
structure Included where
  array : Bool
  base64 : Bool
  string : Bool
  number : Bool
deriving DecidableEq, Repr

/-- The parts of the runtime that a file contains. -/
def includedIn (calls : List Call) : Included :=
  let has (p : Part) : Bool := calls.any fun c => c.tpl = .runtime p
  ⟨has .array, has .base64, has .string, has .number⟩

/-- Types other than containers: `field<…>` and arithmetic types (json-number.hh), `string_field` (json-string.hh) and
classes. -/
def simpleType (inc : Included) (cs : Classes) (s : Bytes) : Option Ty :=
  match between b!"protogen_3_0_0::field<" b!">" s with
  | some e => if inc.number then (arithmetic e).map Ty.num else none
  | none =>
    if s = b!"protogen_3_0_0::string_field" then if inc.string then some .str else none
    else
      match arithmetic s with
      | some p => if inc.number then some (.raw p) else none
      | none => cs.find s

/-- The element type of a container. -/
def elementOf (s : Bytes) : Option Bytes :=
  match between b!"std::vector<" b!">" s with
  | some e => some e
  | none => between b!"std::list<" b!">" s

/-- The type a text stands for.  json-base64.hh is about `std::vector<uint8_t>` only; json-array.hh deals with the other
containers, and also with this one if json-base64.hh is missing. -/
def typeOf (inc : Included) (cs : Classes) (s : Bytes) : Option Ty :=
  if s = b!"std::vector<uint8_t>" ∧ inc.base64 = true then some .bytes
  else
    match elementOf s with
    | some e => if inc.array then (simpleType inc cs e).map Ty.rep else none
    | none => simpleType inc cs s

/-! ### The functions of a message -/

/-- What a file says about one message. -/
structure Prog where
  /-- The name of the structure, with its namespaces. -/
  struct : Bytes := []
  /-- The name of the class. -/
  cls : Bytes := []
  /-- Types and names of the members. -/
  members : List (Bytes × Bytes) := []
  /-- `case n: … value.name` of `read_field`. -/
  cases : List (Bytes × Bytes) := []
  /-- Members and label expressions of `write`. -/
  writes : List (Bytes × Bytes) := []
  /-- Members of `empty`, `clear`, `equal` and `swap`. -/
  empties : List Bytes := []
  clears : List Bytes := []
  equals : List Bytes := []
  swaps : List Bytes := []
  /-- `index` reveals the name. -/
  obf : Bool := false
  /-- The texts of the keys in `FIELDS`, and their numbers. -/
  table : List (Bytes × Bytes) := []
deriving DecidableEq, Repr

/-- The fields of a message, from its members, the numbered cases, the labels and the table. A member that has no case, no
label and no entry in the table is transient; the others must come in the same order everywhere, numbered from `i`. -/
def fieldsOf (types : Bytes → Option Ty) : Nat → List (Bytes × Bytes) → List (Bytes × Bytes) → List (Bytes × Bytes) →
    List (Bytes × Bytes) → Option Fields
  | _, [], [], [], [] => some .nil
  | i, (type, name) :: ms, cases, writes, table =>
    match types type with
    | none => none
    | some ty =>
      match cases, writes, table with
      | (n, name1) :: cs, (name2, e) :: ws, (k, n') :: ts =>
        if name1 = name ∧ name2 = name then
          if n = decNat i ∧ n' = decNat i then
            match labelValue e, cString k with
            | some label, some key => (fieldsOf types (i + 1) ms cs ws ts).map (.cons ⟨name, label, key, false⟩ ty)
            | _, _ => none
          else none
        else if name1 ≠ name ∧ name2 ≠ name then
          (fieldsOf types i ms cases writes table).map (.cons ⟨name, [], [], true⟩ ty)
        else none
      | [], [], [] => (fieldsOf types i ms [] [] []).map (.cons ⟨name, [], [], true⟩ ty)
      | _, _, _ => none
  | _, _, _, _, _ => none

/-- The type of a message; `empty`, `clear`, `equal` and `swap` have to be about all members. -/
def Prog.type (inc : Included) (cs : Classes) (p : Prog) : Option Ty :=
  let names := p.members.map (·.2)
  if p.empties = names ∧ p.clears = names ∧ p.equals = names ∧ p.swaps = names ∧ names.Nodup then
    (fieldsOf (typeOf inc cs) 0 p.members p.cases p.writes p.table).map (Ty.msg p.obf)
  else none

/-! ### The whole file -/

/-- The state of the reader: open namespaces, the message being read, the classes so far. -/
structure Reading where
  path : List Bytes := []
  prog : Prog := {}
  classes : Classes := []

/-- A name in the open namespaces, written globally. -/
def globalName (path : List Bytes) (name : Bytes) : Bytes := b!" " ++ path.flatMap (b!"::" ++ ·) ++ b!"::" ++ name

/-- Reading a part of the file. -/
def Reading.step (inc : Included) (r : Reading) (c : Call) : Option Reading :=
  match c.tpl, c.args with
  | .namespaceOpen, [n] => some { r with path := r.path ++ [n] }
  | .namespaceClose, [_] => if r.path ≠ [] then some { r with path := r.path.dropLast } else none
  | .structOpen, [n] => some { r with prog := { struct := globalName r.path n ++ b!"_type" } }
  | .structField, [t, n] => some { r with prog := { r.prog with members := r.prog.members ++ [(t, n)] } }
  | .jsonModelHeader, [_, s] => if s = r.prog.struct ∧ r.path = [] then some r else none
  | .readFieldItem, [i, n] => some { r with prog := { r.prog with cases := r.prog.cases ++ [(i, n)] } }
  | .writeItem, [n, e] => some { r with prog := { r.prog with writes := r.prog.writes ++ [(n, e)] } }
  | .emptyItem, [n] => some { r with prog := { r.prog with empties := r.prog.empties ++ [n] } }
  | .clearItem, [n] => some { r with prog := { r.prog with clears := r.prog.clears ++ [n] } }
  | .equalItem, [n] => some { r with prog := { r.prog with equals := r.prog.equals ++ [n] } }
  | .swapItem, [n] => some { r with prog := { r.prog with swaps := r.prog.swaps ++ [n] } }
  | .indexHeaderObf, _ => some { r with prog := { r.prog with obf := true } }
  | .indexItem, [k, i] => some { r with prog := { r.prog with table := r.prog.table ++ [(k, i)] } }
  | .entity, [n, s, _] => if s = r.prog.struct then some { r with prog := { r.prog with cls := globalName r.path n } } else none
  | .entityJson, [n, s, _] =>
    if n = r.prog.cls ∧ s = r.prog.struct ∧ (r.classes.find n).isNone then
      (r.prog.type inc r.classes).map fun t => { r with classes := r.classes ++ [(n, t)] }
    else none
  | _, _ => some r

/-- Reading from a state. -/
def Reading.run (inc : Included) : Reading → List Call → Option Reading
  | r, [] => some r
  | r, c :: cs => (r.step inc c).bind fun r => r.run inc cs

/-- The classes a file defines, with their types; `none` if it is not a program. -/
def classesOf (calls : List Call) : Option Classes :=
  (Reading.run (includedIn calls) {} calls).bind fun r =>
    if r.path = [] then some r.classes else none

/-! ### What the types should be -/

/-- The type of a scalar. -/
def numberOf : Scalar → Option Prim
  | .double => some (.flt .f64)
  | .float => some (.flt .f32)
  | .int32 | .sint32 | .sfixed32 => some (.int .i32)
  | .int64 | .sint64 | .sfixed64 => some (.int .i64)
  | .uint32 | .fixed32 => some (.int .u32)
  | .uint64 | .fixed64 => some (.int .u64)
  | .bool => some .bool
  | .string => none
  | .bytes => none

/-- How a field appears in the functions of its message. -/
def fieldInfo (ctx : Ctx) (f : Field) : FInfo :=
  if Persistent f then
    ⟨f.name, jsonNameIn ctx f, if ctx.obfuscate then reveal (jsonNameIn ctx f) else jsonNameIn ctx f, false⟩
  else ⟨f.name, [], [], true⟩

mutual
/-- The type of a field. -/
inductive FieldTy (msgs : List Message) (ctx : Ctx) (b64 : Bool) : Field → Ty → Prop
  | number {f : Field} {s : Scalar} {p : Prim} (h : f.type.id = .scalar s) (hp : numberOf s = some p)
      (hr : f.type.repeated = false) : FieldTy msgs ctx b64 f (.num p)
  | numbers {f : Field} {s : Scalar} {p : Prim} (h : f.type.id = .scalar s) (hp : numberOf s = some p)
      (hr : f.type.repeated = true) : FieldTy msgs ctx b64 f (.rep (.raw p))
  | string {f : Field} (h : f.type.id = .scalar .string) (hr : f.type.repeated = false) : FieldTy msgs ctx b64 f .str
  | strings {f : Field} (h : f.type.id = .scalar .string) (hr : f.type.repeated = true) : FieldTy msgs ctx b64 f (.rep .str)
  | bytes {f : Field} (h : f.type.id = .scalar .bytes) (hb : b64 = true) : FieldTy msgs ctx b64 f .bytes
  | octets {f : Field} (h : f.type.id = .scalar .bytes) (hb : b64 = false) :
      FieldTy msgs ctx b64 f (.rep (.raw (.int .u8)))
  | message {f : Field} {i : Nat} {m : Message} {t : Ty} (h : f.type.id = .message) (hi : f.type.ref = some i)
      (hm : msgs[i]? = some m) (ht : MessageTy msgs ctx b64 m t) (hr : f.type.repeated = false) :
      FieldTy msgs ctx b64 f t
  | messages {f : Field} {i : Nat} {m : Message} {t : Ty} (h : f.type.id = .message) (hi : f.type.ref = some i)
      (hm : msgs[i]? = some m) (ht : MessageTy msgs ctx b64 m t) (hr : f.type.repeated = true) :
      FieldTy msgs ctx b64 f (.rep t)
/-- The type of a message. -/
inductive MessageTy (msgs : List Message) (ctx : Ctx) (b64 : Bool) : Message → Ty → Prop
  | mk {m : Message} {fs : Fields} (h : FieldsTy msgs ctx b64 m.fields fs) :
      MessageTy msgs ctx b64 m (.msg (ctx.obfuscate && m.fields.any Persistent) fs)
/-- The types of fields. -/
inductive FieldsTy (msgs : List Message) (ctx : Ctx) (b64 : Bool) : List Field → Fields → Prop
  | nil : FieldsTy msgs ctx b64 [] .nil
  | cons {f : Field} {t : Ty} {rest : List Field} {fs : Fields} (h : FieldTy msgs ctx b64 f t)
      (hr : FieldsTy msgs ctx b64 rest fs) : FieldsTy msgs ctx b64 (f :: rest) (.cons (fieldInfo ctx f) t fs)
end

end PG.Gen
