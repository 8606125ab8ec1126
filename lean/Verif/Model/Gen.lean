import Verif.Model.Printer
import Verif.Model.Proto
import Verif.Model.Schema
/-
The code generator: source/cpp/cppgen.cc and the sorting of source/main.cc.  What is printed is kept as the list of calls
of the printer (template and arguments); `Call.text` is what a call writes.
-/
set_option autoImplicit false
namespace PG.Gen
open PG.Proto

/-! ### Templates -/

/-- source/cmake.hh.in:7 `PROTOGEN_VERSION` with CMakeLists.txt:6-8. -/
def version : Bytes := b!"3.0.0"
/-- source/cmake.hh.in:8 `PROTOGEN_VERSION_NAMING`. -/
def versionNaming : Bytes := b!"_3_0_0"

/-- The parts of the runtime (cppgen.cc:566-575). -/
inductive Part
  | protogen | json | array | base64 | number | string
deriving DecidableEq, Repr

/-- The texts of the runtime as the template processor embeds them (`GENERATED__protogen_hh`, …). -/
abbrev Runtime := Part → Bytes

/-- The templates.  `CODE_JSON__IS_MISSING__…` (code.txt:191-212) is not used by the generator. -/
inductive Tpl
  /-- cppgen.cc:566-575, a part of the runtime. -/
  | runtime (p : Part)
  /-- code.txt:1-46 `CODE_HEADER`. -/
  | header
  /-- code.txt:48-53 `CODE_JSON_MODEL__HEADER`. -/
  | jsonModelHeader
  /-- code.txt:55-58 `CODE_JSON_MODEL__FOOTER`. -/
  | jsonModelFooter
  /-- code.txt:61-67 `CODE_JSON__READ_FIELD__EMPTY`. -/
  | readFieldEmpty
  /-- code.txt:69-75 `CODE_JSON__READ_FIELD__HEADER`. -/
  | readFieldHeader
  /-- code.txt:77-79 `CODE_JSON__READ_FIELD__ITEM`. -/
  | readFieldItem
  /-- code.txt:81-85 `CODE_JSON__READ_FIELD__FOOTER`. -/
  | readFieldFooter
  /-- code.txt:88-95 `CODE_JSON__WRITE__EMPTY`. -/
  | writeEmpty
  /-- code.txt:97-102 `CODE_JSON__WRITE__HEADER`. -/
  | writeHeader
  /-- code.txt:104-106 `CODE_JSON__WRITE__ITEM`. -/
  | writeItem
  /-- code.txt:108-112 `CODE_JSON__WRITE__FOOTER`. -/
  | writeFooter
  /-- code.txt:115-117 `CODE_JSON__EMPTY__EMPTY`. -/
  | emptyEmpty
  /-- code.txt:119-123 `CODE_JSON__EMPTY__HEADER`. -/
  | emptyHeader
  /-- code.txt:125-127 `CODE_JSON__EMPTY__ITEM`. -/
  | emptyItem
  /-- code.txt:129-132 `CODE_JSON__EMPTY__FOOTER`. -/
  | emptyFooter
  /-- code.txt:135-137 `CODE_JSON__CLEAR__EMPTY`. -/
  | clearEmpty
  /-- code.txt:139-142 `CODE_JSON__CLEAR__HEADER`. -/
  | clearHeader
  /-- code.txt:144-146 `CODE_JSON__CLEAR__ITEM`. -/
  | clearItem
  /-- code.txt:148-150 `CODE_JSON__CLEAR__FOOTER`. -/
  | clearFooter
  /-- code.txt:153-155 `CODE_JSON__EQUAL__EMPTY`. -/
  | equalEmpty
  /-- code.txt:157-161 `CODE_JSON__EQUAL__HEADER`. -/
  | equalHeader
  /-- code.txt:163-165 `CODE_JSON__EQUAL__ITEM`. -/
  | equalItem
  /-- code.txt:167-170 `CODE_JSON__EQUAL__FOOTER`. -/
  | equalFooter
  /-- code.txt:173-175 `CODE_JSON__SWAP__EMPTY`. -/
  | swapEmpty
  /-- code.txt:177-180 `CODE_JSON__SWAP__HEADER`. -/
  | swapHeader
  /-- code.txt:182-184 `CODE_JSON__SWAP__ITEM`. -/
  | swapItem
  /-- code.txt:186-188 `CODE_JSON__SWAP__FOOTER`. -/
  | swapFooter
  /-- code.txt:214-216 `CODE_JSON__INDEX__EMPTY`. -/
  | indexEmpty
  /-- code.txt:218-223 `CODE_JSON__INDEX__HEADER`. -/
  | indexHeader
  /-- code.txt:225-230 `CODE_JSON__INDEX__HEADER_OBF`. -/
  | indexHeaderObf
  /-- code.txt:232-234 `CODE_JSON__INDEX__ITEM`. -/
  | indexItem
  /-- code.txt:236-241 `CODE_JSON__INDEX__FOOTER`. -/
  | indexFooter
  /-- code.txt:243-245 `CODE_ENTITY`. -/
  | entity
  /-- code.txt:247-249 `CODE_ENTITY_JSON`. -/
  | entityJson
  /-- cppgen.cc:180. -/
  | namespaceOpen
  /-- cppgen.cc:182. -/
  | namespaceClose
  /-- cppgen.cc:195. -/
  | structOpen
  /-- cppgen.cc:199. -/
  | structField
  /-- cppgen.cc:201. -/
  | structClose
  /-- cppgen.cc:471. -/
  | title
  /-- cppgen.cc:589. -/
  | endGuard
deriving DecidableEq, Repr

/-- The text of a template. -/
def Tpl.text : Runtime → Tpl → Bytes
  | rt, .runtime p => rt p
  | _, .header => b!"/*
 * This is free and unencumbered software released into the public domain.
 *
 * Anyone is free to copy, modify, publish, use, compile, sell, or
 * distribute this software, either in source code form or as a compiled
 * binary, for any purpose, commercial or non-commercial, and by any
 * means.
 *
 * In jurisdictions that recognize copyright laws, the author or authors
 * of this software dedicate any and all copyright interest in the
 * software to the public domain. We make this dedication for the benefit
 * of the public at large and to the detriment of our heirs and
 * successors. We intend this dedication to be an overt act of
 * relinquishment in perpetuity of all present and future rights to this
 * software under copyright law.
 *
 * THE SOFTWARE IS PROVIDED \"AS IS\", WITHOUT WARRANTY OF ANY KIND,
 * EXPRESS OR IMPLIED, INCLUDING BUT NOT LIMITED TO THE WARRANTIES OF
 * MERCHANTABILITY, FITNESS FOR A PARTICULAR PURPOSE AND NONINFRINGEMENT.
 * IN NO EVENT SHALL THE AUTHORS BE LIABLE FOR ANY CLAIM, DAMAGES OR
 * OTHER LIABILITY, WHETHER IN AN ACTION OF CONTRACT, TORT OR OTHERWISE,
 * ARISING FROM, OUT OF OR IN CONNECTION WITH THE SOFTWARE OR THE USE OR
 * OTHER DEALINGS IN THE SOFTWARE.
 *
 * For more information, please refer to <http://unlicense.org>
 */

// AUTO-GENERATED FILE. DO NOT EDIT!
// Generated by the protogen $1$ <https://github.com/brunexgeek/protogen>
// Source: $2$

#ifndef $3$
#define $3$

#include <string>
#include <stdint.h>
#include <iterator>
#include <sstream>
#include <iostream>
#include <vector>
#include <list>
#include <utility>
#include <stdexcept>
#include <forward_list>
"
  | _, .jsonModelHeader =>
    b!"namespace protogen$1$ {\n" ++
    b!"template<> struct json<$2$>\n" ++
    b!"{\n" ++
    b!"    static int read( json_context &ctx, $2$ &value ) { return read_object(ctx, value); }\n"
  | _, .jsonModelFooter => b!"};\n} // protogen$1$\n"
  | _, .readFieldEmpty =>
    b!"    static int read_field( json_context &ctx, const std::string &name, $1$ &value )\n" ++
    b!"    {\n" ++
    b!"        (void) ctx; (void) name; (void) value;\n" ++
    b!"        return PGR_NIL;\n" ++
    b!"    }\n"
  | _, .readFieldHeader =>
    b!"    static int read_field( json_context &ctx, const std::string &name, $1$ &value )\n" ++
    b!"    {\n" ++
    b!"        int idx = index(name);\n" ++
    b!"        if (idx < 0) return PGR_NIL;\n" ++
    b!"        switch (idx) {\n"
  | _, .readFieldItem => b!"            case $1$: return json<decltype(value.$2$)>::read(ctx, value.$2$);\n"
  | _, .readFieldFooter => b!"            default: return PGR_NIL;\n        }\n    }\n"
  | _, .writeEmpty =>
    b!"    static int write( json_context &ctx, const $1$ &value )\n" ++
    b!"    {\n" ++
    b!"        (void) value;\n" ++
    b!"        (*ctx.os) << \"{}\";\n" ++
    b!"        return PGR_OK;\n" ++
    b!"    }\n"
  | _, .writeHeader =>
    b!"    static int write( json_context &ctx, const $1$ &value )\n" ++
    b!"    {\n" ++
    b!"        bool f = true;\n" ++
    b!"        (*ctx.os) << '{';\n"
  | _, .writeItem =>
    b!"        if (ctx.params.serialize_null || !json<decltype(value.$1$)>::empty(value.$1$)) { (*ctx.os) << (f?\"\\\"\":\",\\\"\") << $2$ << \"\\\":\"; json<decltype(value.$1$)>::write(ctx, value.$1$); f=false; }\n"
  | _, .writeFooter => b!"        (*ctx.os) << '}';\n        return PGR_OK;\n    }\n"
  | _, .emptyEmpty => b!"    static bool empty( const $1$ &value ) { (void) value; return true; }\n"
  | _, .emptyHeader => b!"    static bool empty( const $1$ &value )\n    {\n        return\n"
  | _, .emptyItem => b!"            json<decltype(value.$1$)>::empty(value.$1$) &&\n"
  | _, .emptyFooter => b!"            true;\n    }\n"
  | _, .clearEmpty => b!"    static void clear( $1$ &value ) { (void) value; }\n"
  | _, .clearHeader => b!"    static void clear( $1$ &value )\n    {\n"
  | _, .clearItem => b!"        json<decltype(value.$1$)>::clear(value.$1$);\n"
  | _, .clearFooter => b!"    }\n"
  | _, .equalEmpty => b!"    static bool equal( const $1$ &a, const $1$ &b ) { (void) a; (void) b; return true; }\n"
  | _, .equalHeader => b!"    static bool equal( const $1$ &a, const $1$ &b )\n    {\n        return\n"
  | _, .equalItem => b!"            json<decltype(a.$1$)>::equal(a.$1$, b.$1$) &&\n"
  | _, .equalFooter => b!"            true;\n    }\n"
  | _, .swapEmpty => b!"    static void swap( $1$ &a, $1$ &b ) { (void) a; (void) b; }\n"
  | _, .swapHeader => b!"    static void swap( $1$ &a, $1$ &b )\n    {\n"
  | _, .swapItem => b!"        json<decltype(a.$1$)>::swap(a.$1$, b.$1$);\n"
  | _, .swapFooter => b!"    }\n"
  | _, .indexEmpty => b!"    static int index( const std::string &name ) { (void) name; return -1; }\n"
  | _, .indexHeader =>
    b!"    static int index( const std::string &name )\n" ++
    b!"    {\n" ++
    b!"        const std::string &temp = name;\n" ++
    b!"        static const std::unordered_map<std::string, int> FIELDS = {\n"
  | _, .indexHeaderObf =>
    b!"    static int index( const std::string &name )\n" ++
    b!"    {\n" ++
    b!"        std::string temp = reveal(name);\n" ++
    b!"        static const std::unordered_map<std::string, int> FIELDS = {\n"
  | _, .indexItem => b!"            {\"$1$\", $2$},\n"
  | _, .indexFooter =>
    b!"        };\n" ++
    b!"        auto it = FIELDS.find(temp);\n" ++
    b!"        return (it == FIELDS.end()) ? -1 : it->second;\n" ++
    b!"    }\n"
  | _, .entity => b!"PG$3$_ENTITY($1$,$2$,protogen$3$::json<$2$>)\n"
  | _, .entityJson => b!"PG$3$_ENTITY_SERIALIZER($1$,$2$,protogen$3$::json<$2$>)\n"
  | _, .namespaceOpen => b!"namespace $1$ {\n"
  | _, .namespaceClose => b!"} // namespace $1$\n"
  | _, .structOpen => b!"\tstruct $1$_type\n\t{\n"
  | _, .structField => b!"\t\t$1$ $2$;\n"
  | _, .structClose => b!"\t};\n"
  | _, .title => b!"\n//\n// $1$\n//\n"
  | _, .endGuard => b!"#endif // $1$\n"

/-- A call of the printer: `ctx.printer(format, args…)` (printer.hh:38-42). -/
structure Call where
  tpl : Tpl
  args : List Bytes
deriving DecidableEq, Repr

/-- What a call writes. -/
def Call.text (rt : Runtime) (c : Call) : Bytes := print c.args (c.tpl.text rt)

/-- What a list of calls writes. -/
def textOf (rt : Runtime) (cs : List Call) : Bytes := cs.flatMap (Call.text rt)

/-! ### Outcomes -/

/-- Which exception is thrown. -/
inductive GKind
  | notString | notBoolean | quotes | nullRef | circular | tooMany
deriving DecidableEq, Repr

/-- A `protogen::exception` of the generator; `what` is the option, field or message it names. -/
structure GExc where
  kind : GKind
  what : Bytes
  line : Nat
  col : Nat
deriving DecidableEq, Repr

/-- The outcome of a function: a value, an exception, or still running. -/
inductive Res (α : Type)
  | ok (a : α)
  | exc (e : GExc)
  | running
deriving DecidableEq, Repr

/-- Sequencing. -/
def Res.bind {α β : Type} : Res α → (α → Res β) → Res β
  | .ok a, f => f a
  | .exc e, _ => .exc e
  | .running, _ => .running

/-- What a function has printed, and its outcome. -/
structure Emit (α : Type) where
  calls : List Call
  res : Res α
deriving DecidableEq, Repr

namespace Emit
/-- Sequencing. -/
def bind {α β : Type} (m : Emit α) (f : α → Emit β) : Emit β :=
  match m.res with
  | .ok a => ⟨m.calls ++ (f a).calls, (f a).res⟩
  | .exc e => ⟨m.calls, .exc e⟩
  | .running => ⟨m.calls, .running⟩
/-- Return. -/
def pure {α : Type} (a : α) : Emit α := ⟨[], .ok a⟩
/-- A computation that prints nothing. -/
def lift {α : Type} (r : Res α) : Emit α := ⟨[], r⟩
/-- `ctx.printer(format, args…)`. -/
def put (t : Tpl) (args : List Bytes) : Emit Unit := ⟨[⟨t, args⟩], .ok ()⟩
end Emit

instance : Monad Emit where
  pure := Emit.pure
  bind := Emit.bind

/-- `for (auto field : message.fields) …`. -/
def forFields (f : Field → Emit Unit) : List Field → Emit Unit
  | [] => Emit.pure ()
  | x :: rest => (f x).bind fun _ => forFields f rest

/-! ### Options -/

/-- cppgen.cc:226-235 `get_option` for strings. -/
def getString (options : OptMap) (name value : Bytes) : Res Bytes :=
  match options.find name with
  | none => .ok value
  | some opt => if opt.type ≠ .string then .exc ⟨.notString, name, opt.line, 1⟩ else .ok opt.value

/-- cppgen.cc:237-246 `get_option` for booleans. -/
def getBool (options : OptMap) (name : Bytes) (value : Bool) : Res Bool :=
  match options.find name with
  | none => .ok value
  | some opt => if opt.type ≠ .boolean then .exc ⟨.notBoolean, name, opt.line, 1⟩ else .ok (opt.value == b!"true")

/-- cppgen.cc:248-251 `is_transient`. -/
def isTransient (f : Field) : Res Bool := getBool f.options b!"transient" false

/-- cppgen.cc:253-260 `get_json_name`. -/
def jsonName (f : Field) : Res Bytes :=
  (getString f.options b!"name" f.name).bind fun name =>
  if name.any (fun c => c = c!"'" || c = c!"\"") then .exc ⟨.quotes, f.name, 1, 1⟩ else .ok name

/-- cppgen.cc:41-50 `GeneratorContext`, the options. -/
structure Ctx where
  numberNames : Bool
  obfuscate : Bool
  useLists : Bool
deriving DecidableEq, Repr

/-! ### Types -/

/-- cppgen.cc:57-75 `TYPE_MAPPING`, the column `nativeType`.  The entry of `string` is a null pointer, which is not
used (line 127). -/
def mapping : Scalar → Bytes
  | .double => b!"double" | .float => b!"float" | .int32 => b!"int32_t" | .int64 => b!"int64_t"
  | .uint32 => b!"uint32_t" | .uint64 => b!"uint64_t" | .sint32 => b!"int32_t" | .sint64 => b!"int64_t"
  | .fixed32 => b!"uint32_t" | .fixed64 => b!"uint64_t" | .sfixed32 => b!"int32_t" | .sfixed64 => b!"int64_t"
  | .bool => b!"bool" | .string => [] | .bytes => b!"uint8_t"

/-- cppgen.cc:77-93 `nativePackage`. -/
def nativePackage (package : Bytes) : Bytes :=
  if package = [] then b!" " else b!" ::" ++ package.flatMap fun c => if c = c!"." then b!"::" else [c]

/-- cppgen.cc:98-117 `nativeType` for message types, the only ones it is called for (line 139). -/
def nativeType (msgs : List Message) (f : Field) : Res Bytes :=
  match f.type.ref.bind fun i => msgs[i]? with
  | none => .exc ⟨.nullRef, [], 0, 0⟩
  | some m => .ok (nativePackage m.package ++ b!"::" ++ m.name)

/-- cppgen.cc:124-141, the type of the value. -/
def valueType (msgs : List Message) (f : Field) : Res Bytes :=
  match f.type.id with
  | .scalar .string => .ok (b!"protogen" ++ versionNaming ++ b!"::string_field")
  | .scalar t => .ok (mapping t)
  | .message => nativeType msgs f

/-- cppgen.cc:122-167 `fieldNativeType`. -/
def fieldNativeType (msgs : List Message) (f : Field) (useLists : Bool) : Res Bytes :=
  (valueType msgs f).bind fun value =>
  if f.type.repeated ∨ f.type.id = .scalar .bytes then
    .ok (b!"std::" ++ (if f.type.id = .scalar .bytes ∨ !useLists then b!"vector<" else b!"list<") ++ value ++ b!">")
  else if f.type.id = .message ∨ f.type.id = .scalar .string then .ok value
  else .ok (b!"protogen" ++ versionNaming ++ b!"::field<" ++ value ++ b!">")

/-- cppgen.cc:173-187, the loop of `generateNamespace` over the package name with a dot at its end. -/
def namespaceLoop (opening : Bool) : Bytes → Bytes → Emit Unit
  | _, [] => Emit.pure ()
  | name, c :: rest =>
    if c = c!"." then
      (Emit.put (if opening then .namespaceOpen else .namespaceClose) [name]).bind fun _ => namespaceLoop opening [] rest
    else namespaceLoop opening (name ++ [c]) rest

/-- cppgen.cc:169-188 `generateNamespace`. -/
def generateNamespace (m : Message) (opening : Bool) : Emit Unit :=
  if m.package = [] then Emit.pure () else namespaceLoop opening [] (m.package ++ b!".")

/-- cppgen.cc:190-205 `generateModel` for a message. -/
def generateModel (msgs : List Message) (ctx : Ctx) (m : Message) : Emit Unit := do
  generateNamespace m true
  Emit.put .structOpen [m.name]
  forFields (fun f => do
    let type ← Emit.lift (fieldNativeType msgs f ctx.useLists)
    Emit.put .structField [type, f.name]) m.fields
  Emit.put .structClose []
  generateNamespace m false

/-! ### Labels -/

/-- `std::hex` of a value below 256 (C++ library): lower case, no padding. -/
def hexDigit (n : Nat) : Byte := if n < 10 then byte (48 + n) else byte (87 + n)

/-- `result << std::hex << value` for a value below 256. -/
def hexText (n : Nat) : Bytes := if n < 16 then [hexDigit n] else [hexDigit (n / 16), hexDigit (n % 16)]

/-- cppgen.cc:214-224 `obfuscate` (the mask as in `reveal`, `rol` is the same function, cppgen.cc:207-212). -/
def obfuscateText (value : Bytes) : Bytes :=
  value.flatMap fun c => b!"\\x" ++ hexText (c ^^^ obfMask value.length).toNat

/-- cppgen.cc:304 and 416: the JSON name of a field. -/
def labelOf (ctx : Ctx) (f : Field) (name : Bytes) : Bytes := if ctx.numberNames then decInt f.index else name

/-! ### The functions of a message -/

/-- cppgen.cc:272-280, the loop of `generate_function__read_field`. -/
def readItems : Nat → List Field → Emit Unit
  | _, [] => Emit.pure ()
  | i, f :: rest => do
    let t ← Emit.lift (isTransient f)
    if t then readItems i rest
    else do
      Emit.put .readFieldItem [decNat i, f.name]
      readItems (i + 1) rest

/-- cppgen.cc:262-283 `generate_function__read_field`. -/
def genRead (m : Message) (typeName : Bytes) (persistent : Bool) : Emit Unit :=
  if m.fields.length = 0 ∨ !persistent then Emit.put .readFieldEmpty [typeName]
  else do
    Emit.put .readFieldHeader [typeName]
    readItems 0 m.fields
    Emit.put .readFieldFooter []

/-- cppgen.cc:297-311, the loop of `generate_function__write`. -/
def writeItems (ctx : Ctx) : List Field → Emit Unit
  | [] => Emit.pure ()
  | f :: rest => do
    let t ← Emit.lift (isTransient f)
    if t then writeItems ctx rest
    else do
      let name ← Emit.lift (jsonName f)
      let label := labelOf ctx f name
      let label :=
        if ctx.obfuscate then print [obfuscateText label] b!"reveal(\"$1$\")" else print [label] b!"\"$1$\""
      Emit.put .writeItem [f.name, label]
      writeItems ctx rest

/-- cppgen.cc:285-314 `generate_function__write`. -/
def genWrite (ctx : Ctx) (m : Message) (typeName : Bytes) (persistent : Bool) : Emit Unit :=
  if m.fields.length = 0 ∨ !persistent then Emit.put .writeEmpty [typeName]
  else do
    Emit.put .writeHeader [typeName, versionNaming]
    writeItems ctx m.fields
    Emit.put .writeFooter []

/-- cppgen.cc:316-394 `generate_function__empty`, `…__clear`, `…__equal`, `…__swap`: four functions of the same form. -/
def genSimple (empty head item foot : Tpl) (m : Message) (typeName : Bytes) : Emit Unit :=
  if m.fields.length = 0 then Emit.put empty [typeName]
  else do
    Emit.put head [typeName]
    forFields (fun f => Emit.put item [f.name]) m.fields
    Emit.put foot []

/-- cppgen.cc:409-421, the loop of `generate_function__index`. -/
def indexItems (ctx : Ctx) : Nat → List Field → Emit Unit
  | _, [] => Emit.pure ()
  | i, f :: rest => do
    let t ← Emit.lift (isTransient f)
    if t then indexItems ctx i rest
    else do
      let name ← Emit.lift (jsonName f)
      let label := labelOf ctx f name
      let label := if ctx.obfuscate then obfuscateText label else label
      Emit.put .indexItem [label, decNat i]
      indexItems ctx (i + 1) rest

/-- cppgen.cc:396-424 `generate_function__index`. -/
def genIndex (ctx : Ctx) (m : Message) (persistent : Bool) : Emit Unit :=
  if m.fields.length = 0 ∨ !persistent then Emit.put .indexEmpty []
  else do
    Emit.put (if ctx.obfuscate then .indexHeaderObf else .indexHeader) []
    indexItems ctx 0 m.fields
    Emit.put .indexFooter []

/-- cppgen.cc:430-438: whether some field is not transient. -/
def isPersistent : List Field → Res Bool
  | [] => .ok false
  | f :: rest => (isTransient f).bind fun t => if t then isPersistent rest else .ok true

/-- cppgen.cc:428, 453: the name of the structure. -/
def structName (m : Message) : Bytes := nativePackage m.package ++ b!"::" ++ m.name ++ b!"_type"

/-- cppgen.cc:426-449 `generateModelWrapper`. -/
def generateModelWrapper (ctx : Ctx) (m : Message) : Emit Unit := do
  let typeName := structName m
  let persistent ← Emit.lift (isPersistent m.fields)
  Emit.put .jsonModelHeader [versionNaming, typeName]
  genRead m typeName persistent
  genWrite ctx m typeName persistent
  genSimple .emptyEmpty .emptyHeader .emptyItem .emptyFooter m typeName
  genSimple .clearEmpty .clearHeader .clearItem .clearFooter m typeName
  genSimple .equalEmpty .equalHeader .equalItem .equalFooter m typeName
  genSimple .swapEmpty .swapHeader .swapItem .swapFooter m typeName
  genIndex ctx m persistent
  Emit.put .jsonModelFooter [versionNaming]

/-- cppgen.cc:451-457 `generateEntity`. -/
def generateEntity (m : Message) : Emit Unit := do
  generateNamespace m true
  Emit.put .entity [m.name, structName m, versionNaming]
  generateNamespace m false

/-- cppgen.cc:459-463 `generateEntityWrapper`. -/
def generateEntityWrapper (m : Message) : Emit Unit :=
  let typeName := nativePackage m.package ++ b!"::" ++ m.name
  Emit.put .entityJson [typeName, typeName ++ b!"_type", versionNaming]

/-- include/protogen/protogen.hh:60 `MAX_FIELDS`. -/
def maxFields : Nat := 64

/-- cppgen.cc:465-480 `generateMessage`. -/
def generateMessage (msgs : List Message) (ctx : Ctx) (m : Message) : Emit Unit :=
  if m.fields.length > maxFields then Emit.lift (.exc ⟨.tooMany, m.name, 0, 0⟩)
  else do
    Emit.put .title [m.name]
    generateModel msgs ctx m
    generateModelWrapper ctx m
    generateEntity m
    generateEntityWrapper m

/-- cppgen.cc:482-496 `makeGuard`. -/
def makeGuard (fileName : Bytes) : Bytes :=
  b!"GUARD_" ++ fileName.map fun c =>
    if (c!"A" ≤ c ∧ c ≤ c!"Z") ∨ (c!"a" ≤ c ∧ c ≤ c!"z") ∨ (c!"0" ≤ c ∧ c ≤ c!"9") ∨ c = c!"_" then c else c!"_"

/-! ### Order of the messages -/

/-- The state of the sort: the messages sorted so far and those being processed, as positions in the schema (the code
has shared pointers, compared by identity: cppgen.cc:498-507). -/
structure SortSt where
  output : List Nat
  pending : List Nat
deriving DecidableEq, Repr

/-- cppgen.cc:517-521, the loop over the fields; `go` is the recursive call. -/
def sortFields (go : Nat → SortSt → Res SortSt) : List Field → SortSt → Res SortSt
  | [], st => .ok st
  | f :: rest, st =>
    match f.type.ref with
    | none => sortFields go rest st
    | some r => if r ∈ st.output then sortFields go rest st else (go r st).bind fun st => sortFields go rest st

/-- The fields of the message at a position, and its name. -/
def fieldsAt (msgs : List Message) (i : Nat) : List Field := ((msgs[i]?).map (·.fields)).getD []
/-- The name of the message at a position. -/
def nameAt (msgs : List Message) (i : Nat) : Bytes := ((msgs[i]?).map (·.name)).getD []

/-- cppgen.cc:509-525 `sort` for a message, with a bound on the depth of the recursion. -/
def sortMessage (msgs : List Message) : Nat → Nat → SortSt → Res SortSt
  | 0, _, _ => .running
  | n + 1, m, st =>
    if m ∈ st.pending then .exc ⟨.circular, nameAt msgs m, 0, 0⟩
    else if m ∈ st.output then .ok st
    else
      (sortFields (sortMessage msgs n) (fieldsAt msgs m) { st with pending := m :: st.pending }).bind fun st =>
      .ok { output := st.output ++ [m], pending := st.pending.erase m }

/-- cppgen.cc:531-532, the loop over the messages. -/
def sortLoop (msgs : List Message) (n : Nat) : List Nat → SortSt → Res SortSt
  | [], st => .ok st
  | m :: rest, st => (sortMessage msgs n m st).bind fun st => sortLoop msgs n rest st

/-- cppgen.cc:527-535 `sort`: the order in which the messages are generated. -/
def sortAll (msgs : List Message) (n : Nat) : Res (List Nat) :=
  (sortLoop msgs n (List.range msgs.length) { output := [], pending := [] }).bind fun st => .ok st.output

/-! ### The whole file -/

/-- cppgen.cc:539-542, what kinds of fields there are. -/
structure Needs where
  array : Bool
  base64 : Bool
  string : Bool
  number : Bool
deriving DecidableEq, Repr

/-- cppgen.cc:555-557: `TYPE_DOUBLE` to `TYPE_BOOL` (proto3.hh:29-43). -/
def isNumber : FType → Bool
  | .scalar .string => false
  | .scalar .bytes => false
  | .scalar _ => true
  | .message => false

/-- cppgen.cc:548-560, one field. -/
def Needs.add (n : Needs) (f : Field) : Needs :=
  let n := if f.type.repeated then
      { n with base64 := n.base64 || f.type.id == .scalar .bytes, array := true } else n
  if f.type.id = .scalar .string then { n with string := true }
  else if isNumber f.type.id then { n with number := true } else n

/-- cppgen.cc:547-562, the loop over the fields of a message, left when everything is needed. -/
def Needs.addFields : Needs → List Field → Needs
  | n, [] => n
  | n, f :: rest =>
    let n := n.add f
    if n.array && n.base64 && n.string && n.number then n else n.addFields rest

/-- cppgen.cc:545-563, the loop over the messages. -/
def needs (msgs : List Message) : Needs :=
  msgs.foldl (fun n m => n.addFields m.fields) { array := false, base64 := false, string := false, number := false }

/-- cppgen.cc:537-576 `generateInclusions`. -/
def generateInclusions (msgs : List Message) : Emit Unit := do
  let n := needs msgs
  Emit.put (.runtime .protogen) []
  Emit.put (.runtime .json) []
  if n.array then Emit.put (.runtime .array) []
  if n.base64 then Emit.put (.runtime .base64) []
  if n.number then Emit.put (.runtime .number) []
  if n.string then Emit.put (.runtime .string) []

/-- cppgen.cc:584-586, the loop over the sorted messages. -/
def generateAll (msgs : List Message) (ctx : Ctx) : List Nat → Emit Unit
  | [] => Emit.pure ()
  | i :: rest =>
    (match msgs[i]? with
      | none => Emit.pure ()
      | some m => generateMessage msgs ctx m).bind fun _ => generateAll msgs ctx rest

/-- cppgen.cc:578-590 `generateModel` for the file; `n` bounds the depth of the sort. -/
def generateFile (n : Nat) (fileName : Bytes) (msgs : List Message) (ctx : Ctx) : Emit Unit := do
  let guard := makeGuard fileName
  Emit.put .header [version, fileName, guard]
  let order ← Emit.lift (sortAll msgs n)
  generateAll msgs ctx order
  Emit.put .endGuard [guard]

/-- cppgen.cc:597-599, the options of the file. -/
def fileCtx (options : OptMap) : Res Ctx :=
  (getBool options b!"obfuscate_strings" false).bind fun obfuscate =>
  (getBool options b!"cpp_use_lists" false).bind fun useLists =>
  (getBool options b!"number_names" false).bind fun numberNames => .ok { numberNames, obfuscate, useLists }

/-- cppgen.cc:592-603 `CppGenerator::generate`. -/
def generate (n : Nat) (fileName : Bytes) (t : Tree) : Emit Unit := do
  let ctx ← Emit.lift (fileCtx t.options)
  generateInclusions t.messages
  generateFile n fileName t.messages ctx

/-! ### source/main.cc -/

/-- `operator<` of `std::string` (C++ library): the characters are compared as unsigned. -/
def nameLt : Bytes → Bytes → Bool
  | [], [] => false
  | [], _ :: _ => true
  | _ :: _, [] => false
  | a :: as, b :: bs => if a < b then true else if b < a then false else nameLt as bs

/-- Insert before the first field whose name is not less. -/
def insertField (f : Field) : List Field → List Field
  | [] => [f]
  | g :: rest => if nameLt g.name f.name then g :: insertField f rest else f :: g :: rest

/-- main.cc:77-78 `std::sort` by name.  The order of fields with the same name is unspecified in the code; here they keep
their order. -/
def sortByName (fs : List Field) : List Field := fs.foldr insertField []

/-- main.cc:75-79. -/
def sortTree (t : Tree) : Tree :=
  { t with messages := t.messages.map fun m => { m with fields := sortByName m.fields } }

/-- main.cc:73-82, what is printed for the text of a file. -/
inductive Compiled
  /-- The generator ran; it may have thrown. -/
  | generated (e : Emit Unit)
  /-- The parser threw. -/
  | rejected (e : Exc)
  /-- `std::runtime_error` (never, by C44). -/
  | runtime
  /-- The parser is still running. -/
  | running

/-- main.cc:73-82 with `N` steps for the loops of the parser. -/
def compile (N : Nat) (fileName text : Bytes) : Compiled :=
  match parse N text with
  | .ok t => .generated (generate (t.messages.length + 1) fileName (sortTree t))
  | .exc e => .rejected e
  | .runtime => .runtime
  | .fuel => .running

end PG.Gen
