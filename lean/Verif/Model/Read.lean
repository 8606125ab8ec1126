import Verif.Model.Schema
/-
Deserialization: source/cpp/json.hh:33-61, json-number.hh:114-188, json-string.hh:50-58, 154-165,
json-array.hh:38-61, json-base64.hh:60-101 and the `read_field` functions of code.txt:61-85.
-/
namespace PG

/-- Result of a reader: return code, tokenizer state, object. -/
abbrev Res (α : Type) := RC × Tz × α

/-- json-number.hh:145-154 and 169-178: `json<T>::read` for arithmetic types and `bool`. -/
def Prim.read : (p : Prim) → Tz → p.Den → Res p.Den
  | .int k, tz, v =>
    if tz.cur.id = .nil then (.nil, tz, v)
    else if tz.cur.id ≠ .number then let r := tz.error .invalidNumber; (r.1, r.2, v)
    else (.ok, tz.next, intOfText k tz.cur.value)
  | .flt k, tz, v =>
    if tz.cur.id = .nil then (.nil, tz, v)
    else if tz.cur.id ≠ .number then let r := tz.error .invalidNumber; (r.1, r.2, v)
    else (.ok, tz.next, fltOfText k tz.cur.value)
  | .bool, tz, v =>
    if tz.cur.id = .nil then (.nil, tz, v)
    else if tz.cur.id ≠ .btrue ∧ tz.cur.id ≠ .bfalse then let r := tz.error .invalidBool; (r.1, r.2, v)
    else (.ok, tz.next, decide (tz.cur.id = .btrue))

/-- json-number.hh:117-125 `json<field<T>>::read`. -/
def NumField.read {p : Prim} (tz : Tz) (v : NumField p) : Res (NumField p) :=
  let r := p.read tz p.zero
  (r.1, r.2.1, if r.1 ≠ .nil then v.assignT r.2.2 else v)

/-- json-string.hh:50-58 `json<std::string>::read`. -/
def stringRead (tz : Tz) (v : Bytes) : Res Bytes :=
  if tz.cur.id = .nil then (.nil, tz, v)
  else
    match tz.expect .string with
    | (false, tz') => let r := tz'.error .invalidString; (r.1, r.2, v)
    | (true, tz') => (.ok, tz', tz.cur.value)

/-- json-string.hh:157-165 `json<string_field>::read`. -/
def StrField.read (tz : Tz) (v : StrField) : Res StrField :=
  let r := stringRead tz []
  (r.1, r.2.1, (v.setEmpty (r.1 = .nil)).assignT r.2.2)

/-- json-base64.hh:60-101 `json<std::vector<uint8_t>>::read`.  `text.c_str()` is read up to the first NUL; a STRING token
contains no NUL anyway. -/
def bytesRead (tz : Tz) (v : List Byte) : Res (List Byte) :=
  if tz.cur.id = .nil then (.nil, tz, v)
  else if tz.cur.id ≠ .string then let r := tz.error .invalidBytes; (r.1, r.2, v)
  else
    let r := b64Dec tz.cur.value
    let tz' := tz.next
    (.ok, if r.2 then (tz'.error .invalidBase64).2 else tz', v ++ r.1)

/-- json-array.hh:45-60, the loop of the container reader. -/
def readArrLoop {α : Type} (rd : Tz → Res α) : Nat → Tz → List α → Res (List α)
  | 0, tz, v => (.fuel, tz, v)
  | n + 1, tz, v =>
    match rd tz with
    | (.error, tz, _) => (.error, tz, v)
    | (.fuel, tz, _) => (.fuel, tz, v)
    | (r, tz, x) =>
      let v := if r = .ok then v ++ [x] else v
      match tz.expect .comma with
      | (true, tz) => readArrLoop rd n tz v
      | (false, tz) =>
        match tz.expect .arre with
        | (true, tz) => (.ok, tz, v)
        | (false, tz) => let e := tz.error .invalidArray; (e.1, e.2, v)

/-- json-array.hh:38-61 `json<T>::read` for containers. -/
def readArr {α : Type} (rd : Tz → Res α) (n : Nat) (tz : Tz) (v : List α) : Res (List α) :=
  if tz.cur.id = .nil then (.nil, tz, v)
  else
    match tz.expect .arrs with
    | (false, tz) => let r := tz.error .invalidArray; (r.1, r.2, v)
    | (true, tz) =>
      match tz.expect .arre with
      | (true, tz) => (.ok, tz, v)
      | (false, tz) => readArrLoop rd n tz v

/-- json.hh:55-57, the end of one iteration of `read_object`; `none` is `continue`. -/
def objStep (tz : Tz) : Option RC × Tz :=
  match tz.expect .comma with
  | (true, tz) => (none, tz)
  | (false, tz) =>
    match tz.expect .obje with
    | (true, tz) => (some .ok, tz)
    | (false, tz) => let e := tz.error .invalidObject; (some e.1, e.2)

/-- json.hh:41-58, the loop of `read_object`; `rf` is `J::read_field`. -/
def readObjLoop {α : Type} (rf : Bytes → Tz → α → Res α) : Nat → Tz → α → Res α
  | 0, tz, v => (.fuel, tz, v)
  | n + 1, tz, v =>
    let name := tz.cur.value
    match tz.expect .string with
    | (false, tz) => let e := tz.error .invalidName; (e.1, e.2, v)
    | (true, tz) =>
      match tz.expect .colon with
      | (false, tz) => let e := tz.error .invalidSeparator; (e.1, e.2, v)
      | (true, tz) =>
        match rf name tz v with
        | (.error, tz, v) => (.error, tz, v)
        | (.fuel, tz, v) => (.fuel, tz, v)
        | (.ok, tz, v) =>
          match objStep tz with
          | (none, tz) => readObjLoop rf n tz v
          | (some r, tz) => (r, tz, v)
        | (.nil, tz, v) =>
          match ignoreValue n tz with
          | (.error, tz) => (.error, tz, v)
          | (.fuel, tz) => (.fuel, tz, v)
          | (_, tz) =>
            match objStep tz with
            | (none, tz) => readObjLoop rf n tz v
            | (some r, tz) => (r, tz, v)

/-- json.hh:33-61 `read_object`. -/
def readObj {α : Type} (rf : Bytes → Tz → α → Res α) (n : Nat) (tz : Tz) (v : α) : Res α :=
  if tz.cur.id = .nil then (.nil, tz, v)
  else
    match tz.expect .objs with
    | (false, tz) => let r := tz.error .invalidStart; (r.1, r.2, v)
    | (true, tz) =>
      match tz.expect .obje with
      | (true, tz) => (.ok, tz, v)
      | (false, tz) => readObjLoop rf n tz v

mutual

/-- `json<T>::read`.  `n` is the fuel given to every loop. -/
def Ty.read : (t : Ty) → Nat → Tz → t.Den → Res t.Den
  | .num _, _, tz, v => NumField.read tz v
  | .raw p, _, tz, v => p.read tz v
  | .str, _, tz, v => StrField.read tz v
  | .bytes, _, tz, v => bytesRead tz v
  | .rep t, n, tz, v => readArr (fun tz => t.read n tz t.new) n tz v
  | .msg obf fs, n, tz, v =>
    readObj (fun name tz v =>
      match indexOf obf fs name with
      | none => (.nil, tz, v)
      | some i => fs.readAt i n tz v) n tz v

/-- code.txt:69-85 `read_field` after `index`: the `switch`.  Case `i` is the `i`-th persistent field
(cppgen.cc:273-280). -/
def Fields.readAt : (fs : Fields) → Nat → Nat → Tz → fs.Den → Res fs.Den
  | .nil, _, _, tz, v => (.nil, tz, v)
  | .cons f t rest, i, n, tz, v =>
    if f.transient then
      let r := rest.readAt i n tz v.2
      (r.1, r.2.1, (v.1, r.2.2))
    else
      match i with
      | 0 =>
        let r := t.read n tz v.1
        (r.1, r.2.1, (r.2.2, v.2))
      | i + 1 =>
        let r := rest.readAt i n tz v.2
        (r.1, r.2.1, (v.1, r.2.2))

end

end PG
