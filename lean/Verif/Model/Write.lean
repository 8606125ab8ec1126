import Verif.Model.Read
/-
Serialization: json-number.hh:126-135, 155-159, 179-183; json-string.hh:59-147, 166-174; json-base64.hh:24-59;
json-array.hh:62-73; code.txt:88-111.
-/
namespace PG

/-- protogen.hh:88-98 `Parameters`. -/
structure Params where
  ensureAscii : Bool := false
  serializeNull : Bool := false
  err : ErrInfo := {}
deriving DecidableEq, Repr

/-- Result of a writer: return code, bytes sent to the output stream, error record. -/
abbrev WRes := RC × Bytes × ErrInfo

/-- json.hh:21-29 `set_error`. -/
def setError (e : ErrInfo) (c : ECode) : RC × ErrInfo :=
  if e.code ≠ .ok then (.error, e) else (.error, { code := c, line := 0, col := 0 })

/-- json-number.hh:155-159, 179-183: `json<T>::write` for arithmetic types and `bool`. -/
def Prim.text : (p : Prim) → p.Den → Bytes
  | .int _, v => textOfInt v
  | .flt _, v => textOfFlt v
  | .bool, v => bif v then b!"true" else b!"false"

/-- json-string.hh:59-147 `json<std::string>::write`. -/
def stringWrite (ascii : Bool) (v : Bytes) (e : ErrInfo) : WRes :=
  let r := strBody ascii v
  if r.2 then (.ok, c!"\"" :: r.1 ++ [c!"\""], e)
  else
    let s := setError e .invalidUtf8
    (s.1, c!"\"" :: r.1, s.2)

/-- json-array.hh:66-70, the loop of the container writer; the element's return code is ignored. -/
def writeElems {α : Type} (wr : α → ErrInfo → WRes) : List α → ErrInfo → Bytes × ErrInfo
  | [], e => ([], e)
  | [x], e => let r := wr x e; (r.2.1, r.2.2)
  | x :: y :: t, e =>
    let r := wr x e
    let s := writeElems wr (y :: t) r.2.2
    (r.2.1 ++ c!"," :: s.1, s.2)

mutual

/-- `json<T>::write`. -/
def Ty.write (p : Params) : (t : Ty) → t.Den → ErrInfo → WRes
  | .num _, v, e => if v.empty then (.ok, b!"null", e) else (.ok, Prim.text _ v.value, e)
  | .raw q, v, e => (.ok, q.text v, e)
  | .str, v, e => if v.empty then (.ok, b!"null", e) else stringWrite p.ensureAscii v.value e
  | .bytes, v, e => (.ok, c!"\"" :: b64Enc v ++ [c!"\""], e)
  | .rep t, v, e =>
    let r := writeElems (t.write p) v e
    (.ok, c!"[" :: r.1 ++ [c!"]"], r.2)
  | .msg _ fs, v, e =>
    let r := fs.write p v true e
    (.ok, c!"{" :: r.1 ++ [c!"}"], r.2)

/-- code.txt:97-111 `write` between the braces; `f` is the "first" flag.  The return code of the value's writer is
ignored (line 105). A message without persistent fields writes "{}" (code.txt:88-95), the same bytes. -/
def Fields.write (p : Params) : (fs : Fields) → fs.Den → Bool → ErrInfo → Bytes × ErrInfo
  | .nil, _, _, e => ([], e)
  | .cons f t rest, v, first, e =>
    if f.transient then rest.write p v.2 first e
    else if p.serializeNull || !t.empty v.1 then
      let r := t.write p v.1 e
      let s := rest.write p v.2 false r.2.2
      ((if first then b!"\"" else b!",\"") ++ f.wlabel ++ b!"\":" ++ r.2.1 ++ s.1, s.2)
    else rest.write p v.2 first e

end

end PG
