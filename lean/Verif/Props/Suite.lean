import Verif.Props.EndToEnd
/-
The test program of the repository (tests/tests.cc with the schemas tests/test1.proto, test3.proto and test7.proto), run on
the model.  These are checks of the model on single inputs, not claims: a model that disagreed with the tests of the project
would be a model of some other program.  Every check goes through the whole chain: the text of the schema is parsed, code is
generated for it, the types are those that the generated file defines.
-/
set_option autoImplicit false
namespace PG.Suite
open PG.Proto PG.Gen

/-- tests/test1.proto. -/
def schema1 : Bytes :=
  b!"syntax = \"proto3\";
package phonebook;

option cpp_use_lists = true;

message PhoneNumber
{
    string number = 1;
    bool type = 2;
}

message Person
{
    string name = 1;
    int32 id = 2;
    string email = 3 [name = \"e-mail\"];
    repeated PhoneNumber phones = 4;
    int32 last_updated = 5;
}

message AddressBook
{
    Person owner = 1;
    repeated Person people = 2;
}

"

/-- tests/test2.proto. -/
def schema2 : Bytes :=
  b!"syntax = \"proto3\";
package compact;

option number_names = true;

message Person
{
    string name = 1;
    int32 age = 2;
    string gender = 4;
    string email = 3;
    repeated string friends = 5;
}
"

/-- tests/test3.proto. -/
def schema3 : Bytes :=
  b!"syntax = \"proto3\";
package options;

option obfuscate_strings = true;
option number_names = true;

message Cake
{
    string name = 1;
    int32 weight = 2;
    string flavor = 3 [transient = true];
    repeated string ingredients = 4;
    string message = 5; // using keyword as name
    string package = 6; // using keyword as name
}

message message // using keyword as name
{
}

message package // using keyword as name
{
}
"

/-- tests/test7.proto. -/
def schema7 : Bytes :=
  b!"syntax = \"proto3\";
package types;

message Basic
{
    double a = 1;
    float b = 2;
    int32 c = 3;
    int64 d = 4;
    uint32 e = 5;
    uint64 f = 6;
    sint32 g = 7;
    sint64 h = 8;
    fixed32 i = 9;
    fixed64 j = 10;
    sfixed32 k = 11;
    sfixed64 l = 12;
    bool m = 13;
    string n = 14;
}

message Container
{
    repeated double a = 1;
    repeated float b = 2;
    repeated int32 c = 3;
    repeated int64 d = 4;
    repeated uint32 e = 5;
    repeated uint64 f = 6;
    repeated sint32 g = 7;
    repeated sint64 h = 8;
    repeated fixed32 i = 9;
    repeated fixed64 j = 10;
    repeated sfixed32 k = 11;
    repeated sfixed64 l = 12;
    repeated bool m = 13;
    repeated string n = 14;
    bytes o = 15;
}"

/-- The classes that the file generated for a schema defines (CMakeLists.txt:50-66 runs the generator on the schemas). -/
def classes (text : Bytes) : Option Classes :=
  match parse 500 text with
  | .ok t => if (output b!"test.proto" t).res = .ok () then classesOf (output b!"test.proto" t).calls else none
  | _ => none

/-- `phonebook::PhoneNumber` (test1.proto:6-10). -/
def phone : Ty := .msg false (.cons (own b!"number") .str (.cons (own b!"type") (.num .bool) .nil))
/-- `phonebook::Person` (test1.proto:12-19). -/
def person : Ty := .msg false (.cons ⟨b!"email", b!"e-mail", b!"e-mail", false⟩ .str (.cons (own b!"id") (.num (.int .i32))
  (.cons (own b!"last_updated") (.num (.int .i32)) (.cons (own b!"name") .str (.cons (own b!"phones") (.rep phone) .nil)))))
/-- `phonebook::AddressBook` (test1.proto:21-25). -/
def book : Ty := .msg false (.cons (own b!"owner") person (.cons (own b!"people") (.rep person) .nil))

theorem classes1 : classes schema1 =
    some [(b!" ::phonebook::PhoneNumber", phone), (b!" ::phonebook::Person", person), (b!" ::phonebook::AddressBook", book)] := by
  decide +kernel

/-- How a persistent field appears when the names are numbers and obfuscated (test3.proto:4-5). -/
def numbered (name label : Bytes) : FInfo := ⟨name, label, reveal label, false⟩
/-- `options::Cake` (test3.proto:7-15). -/
def cakeTy : Ty := .msg true (.cons ⟨b!"flavor", [], [], true⟩ .str (.cons (numbered b!"ingredients" b!"4") (.rep .str)
  (.cons (numbered b!"message" b!"5") .str (.cons (numbered b!"name" b!"1") .str (.cons (numbered b!"package" b!"6") .str
  (.cons (numbered b!"weight" b!"2") (.num (.int .i32)) .nil))))))

theorem classes3 : classes schema3 =
    some [(b!" ::options::Cake", cakeTy), (b!" ::options::message", .msg false .nil), (b!" ::options::package", .msg false .nil)] := by
  decide +kernel

/-- `types::Basic` (test7.proto:4-20). -/
def basicTy : Ty := .msg false
  (.cons (own b!"a") (.num (.flt .f64)) (.cons (own b!"b") (.num (.flt .f32)) (.cons (own b!"c") (.num (.int .i32))
  (.cons (own b!"d") (.num (.int .i64)) (.cons (own b!"e") (.num (.int .u32)) (.cons (own b!"f") (.num (.int .u64))
  (.cons (own b!"g") (.num (.int .i32)) (.cons (own b!"h") (.num (.int .i64)) (.cons (own b!"i") (.num (.int .u32))
  (.cons (own b!"j") (.num (.int .u64)) (.cons (own b!"k") (.num (.int .i32)) (.cons (own b!"l") (.num (.int .i64))
  (.cons (own b!"m") (.num .bool) (.cons (own b!"n") .str .nil))))))))))))))
/-- `types::Container` (test7.proto:22-39).  The file contains no base64 support (C41), so `o` is a container of bytes. -/
def containerTy : Ty := .msg false
  (.cons (own b!"a") (.rep (.raw (.flt .f64))) (.cons (own b!"b") (.rep (.raw (.flt .f32))) (.cons (own b!"c") (.rep (.raw (.int .i32)))
  (.cons (own b!"d") (.rep (.raw (.int .i64))) (.cons (own b!"e") (.rep (.raw (.int .u32))) (.cons (own b!"f") (.rep (.raw (.int .u64)))
  (.cons (own b!"g") (.rep (.raw (.int .i32))) (.cons (own b!"h") (.rep (.raw (.int .i64))) (.cons (own b!"i") (.rep (.raw (.int .u32)))
  (.cons (own b!"j") (.rep (.raw (.int .u64))) (.cons (own b!"k") (.rep (.raw (.int .i32))) (.cons (own b!"l") (.rep (.raw (.int .i64)))
  (.cons (own b!"m") (.rep (.raw .bool)) (.cons (own b!"n") (.rep .str) (.cons (own b!"o") (.rep (.raw (.int .u8))) .nil)))))))))))))))

theorem classes7 : classes schema7 = some [(b!" ::types::Basic", basicTy), (b!" ::types::Container", containerTy)] := by
  decide +kernel

/-- A text given to a string field. -/
def str (s : Bytes) : StrField := StrField.new.assignC s
/-- A number given to a field. -/
def int (k : IKind) (n : Int) : NumField (.int k) := ⟨CInt.cast k n, false⟩

/-- What `json1` and `json2` are in most of the tests: the text of an object, and the text of what is read from it. -/
def twice (t : Ty) (params : Option Params) (v : t.Den) : Bytes × Option Bytes :=
  let json1 := (serialize t params v).out
  (json1, (deserialize t json1 none t.new).map fun r => (serialize t params r.obj).out)

/-- tests.cc:22-26: the time of the day is arbitrary. -/
def owner : person.Den := (str b!"ljy@example.com", NumField.new, int .i32 1700000000, str b!"이주영", [], ())
/-- tests.cc:28-40. -/
def michelle : person.Den := (str b!"test@example.com", int .i32 1234, NumField.new, str b!"Michelle",
  [(str b!"+55 33 995-3636-1111", ⟨true, false⟩, ()), (str b!"+38 10 105-9482-3057", ⟨false, false⟩, ())], ())

/-- tests.cc:16-58 `RUN_TEST1`. -/
theorem test1 :
    let r := twice book (some { serializeNull := true }) (owner, [michelle], ())
    r.2 = some r.1 ∧ r.1 =
      b!"{\"owner\":{\"e-mail\":\"ljy@example.com\",\"id\":null,\"last_updated\":1700000000,\"name\":\"이주영\",\"phones\":[]},\"people\":[{\"e-mail\":\"test@example.com\",\"id\":1234,\"last_updated\":null,\"name\":\"Michelle\",\"phones\":[{\"number\":\"+55 33 995-3636-1111\",\"type\":true},{\"number\":\"+38 10 105-9482-3057\",\"type\":false}]}]}" := by
  decide +kernel

/-- tests.cc:60-86 `RUN_TEST2`. -/
theorem test2 :
    let r := twice book (some { serializeNull := true, ensureAscii := true }) (owner, [], ())
    r.2 = some r.1 ∧ r.1 =
      b!"{\"owner\":{\"e-mail\":\"ljy@example.com\",\"id\":null,\"last_updated\":1700000000,\"name\":\"\\uc774\\uc8fc\\uc601\",\"phones\":[]},\"people\":[]}" := by
  decide +kernel

/-- tests.cc:93-99. -/
def strawberry : cakeTy.Den :=
  (str b!"strawberry", [str b!"milk", str b!"strawberry", str b!"flour"], StrField.new, str b!"Strawberry Cake", StrField.new,
    int .i32 29, ())

/-- tests.cc:88-112 `RUN_TEST3`: the two texts are equal, the objects are not, and the transient field is empty. -/
theorem test3 :
    let r := twice cakeTy none strawberry
    r.2 = some r.1 ∧
    (deserialize cakeTy r.1 none cakeTy.new).map (fun q => (cakeTy.equal strawberry q.obj, StrField.empty q.obj.1)) = some (false, true) := by
  decide +kernel

/-- tests.cc:129-143, with the rows that the loop of line 150 does not reach. -/
def cases : List (Nat × Nat × Nat × Bytes) :=
  [ (3, 15, 6, b!"{ \n\n   \"bla\" : 55,,"), (1, 2, 6, b!"{\"bla"), (1, 7, 3, b!"{\"bla\""),
    (1, 1, 5, b!""), (1, 6, 4, b!"{\"1\":45}"), (1, 12, 5, b!"{\"blip1\":{}"),
    (1, 11, 1, b!"{\"blip2\":[}"), (1, 10, 1, b!"{\"blip3\":\"}"), (0, 0, 0, b!"{\"name\":null}"),
    (0, 0, 4, b!"{\"name\":\"\\uFFFF\"}"), (0, 0, 4, b!"{\"name\":\"\\u01\"}"), (0, 0, 0, b!"") ]

/-- tests.cc:150-155: the loop, with the object and the parameters that are used again and again. -/
def run4 : List (Nat × Nat × Nat × Bytes) → Params → cakeTy.Den → Bool
  | [], _, _ => true
  | (line, col, code, json) :: rest, params, temp =>
    if line = 0 then true
    else match deserialize cakeTy json (some params) temp with
      | some ⟨false, some q, obj⟩ => (q.err.code.number, q.err.line, q.err.col) = (code, line, col) && run4 rest q obj
      | _ => false

/-- tests.cc:124-170 `RUN_TEST4`: the errors and their positions. -/
theorem test4 : run4 cases {} cakeTy.new = true := by decide +kernel

/-- The row of line 138 would pass as well: `null` is accepted. -/
theorem test4_null : (deserialize cakeTy b!"{\"name\":null}" (some {}) cakeTy.new).map (fun q => (q.ret, q.params)) =
    some (true, some {}) := by decide +kernel

/-- tests.cc:179-184. -/
def brief : person.Den := (str b!"test@example.com", int .i32 1234, NumField.new, str b!"Michelle", [], ())

/-- tests.cc:172-222 `RUN_TEST5`: the same text from all interfaces; a NUL after the text in the vector does no harm. -/
theorem test5 :
    let json1 := (serializeString person none brief []).2.2
    json1 = (serialize person none brief).out ∧
    (deserialize person json1 none person.new).map (fun q => person.equal q.obj brief) = some true ∧
    (deserialize person (json1 ++ [0]) none person.new).map (fun q => person.equal q.obj brief) = some true := by
  decide +kernel

/-- tests.cc:224-260 `RUN_TEST6`: the text is read into the same object again and again (two rounds of the 100000).  The
test only measures the time, and it measures something else than it says: every round appends two more telephone numbers. -/
theorem test6 :
    let json1 := (serialize person none michelle).out
    let round (v : person.Den) : person.Den := ((deserialize person json1 none v).map (·.obj)).getD person.new
    List.map (fun n : phone.Den => n.1.value) (round michelle).2.2.2.2.1 =
      [b!"+55 33 995-3636-1111", b!"+38 10 105-9482-3057", b!"+55 33 995-3636-1111", b!"+38 10 105-9482-3057"] ∧
    List.length (α := phone.Den) (round (round michelle)).2.2.2.2.1 = 6 := by
  decide +kernel

/-- The greatest value of a floating point type. -/
def flt (k : FKind) (s : Bytes) : NumField (.flt k) := ⟨fltOfText k s, false⟩

/-- tests.cc:267-280. -/
def limits : basicTy.Den :=
  (flt .f64 b!"1.7976931348623157e308", flt .f32 b!"3.40282347e38", int .i32 2147483647, int .i64 9223372036854775807,
    int .u32 4294967295, int .u64 18446744073709551615, int .i32 2147483647, int .i64 9223372036854775807,
    int .u32 4294967295, int .u64 18446744073709551615, int .i32 2147483647, int .i64 9223372036854775807, ⟨true, false⟩,
    StrField.new, ())

/-- tests.cc:262-316 `RUN_TEST7A`: the greatest values of all types survive. -/
theorem test7a :
    (deserialize basicTy (serialize basicTy none limits).out none basicTy.new).map (fun q => basicTy.equal limits q.obj) =
      some true := by
  decide +kernel

/-- tests.cc:318-339. -/
def tens : containerTy.Den :=
  ([fltOfText .f64 b!"10"], [fltOfText .f32 b!"10"], [CInt.cast .i32 10], [CInt.cast .i64 10], [CInt.cast .u32 10],
    [CInt.cast .u64 10], [CInt.cast .i32 10], [CInt.cast .i64 10], [CInt.cast .u32 10], [CInt.cast .u64 10],
    [CInt.cast .i32 10], [CInt.cast .i64 10], [false], [str b!"test"], [CInt.cast .u8 10], ())

/-- tests.cc:318-358 `RUN_TEST7B`. -/
theorem test7b :
    let r := twice containerTy none tens
    r.2 = some r.1 ∧
    (deserialize containerTy r.1 none containerTy.new).map (fun q => containerTy.equal tens q.obj) = some true := by
  decide +kernel

/-- tests.cc:360-390 `test8_iteration`, one value: the text is read into the cleared object; the two texts are equal, and
so are the names. -/
def iteration (ascii : Bool) (value : Bytes) (v : book.Den) : Bool :=
  let params : Option Params := some { ensureAscii := ascii }
  let v : book.Den := ((v.1.1, v.1.2.1, v.1.2.2.1, str value, v.1.2.2.2.2), v.2)
  let json1 := (serialize book params v).out
  match deserialize book json1 params (book.clear v) with
  | some q => q.ret && (serialize book params q.obj).out = json1 && StrField.eqC q.obj.1.2.2.2.1 value
  | none => false

/-- tests.cc:392-415 `RUN_TEST8`: characters of one, two, three and four bytes, written as they are and escaped. -/
theorem test8 (ascii : Bool) :
    [b!"a", b!"ß", b!"이", b!"𑙤", b!"이주영𑙤Hello"].all (fun s => iteration ascii s book.new) = true := by
  cases ascii <;> decide +kernel

/-- tests.cc:422-430. -/
def people : (Ty.rep person).Den := [c!"0", c!"1", c!"2", c!"3", c!"4"].map fun i =>
  (str b!"test@example.com", int .i32 (1234 + i.toNat - 48), NumField.new, str (b!"Person " ++ [i]), [], ())

/-- tests.cc:417-451 `RUN_TEST9`: an array of messages. -/
theorem test9 : let r := twice (.rep person) none people; r.2 = some r.1 := by decide +kernel

/-- tests.cc:453-485 `RUN_TEST10`: an empty array. -/
theorem test10 :
    let r := serialize (.rep person) none []
    r.ret = true ∧ r.out = b!"[]" ∧ (deserialize (.rep person) r.out none ([] : List person.Den)).map (·.ret) = some true := by
  decide +kernel

end PG.Suite
