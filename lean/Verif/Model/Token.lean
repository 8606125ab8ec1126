import Verif.Model.Stream
/-
Model of the JSON tokenizer (source/cpp/protogen.hh:255-603).
-/
namespace PG

/-- What an error record says: the error code (protogen.hh:35-45 `error_code`) together with the message, which is a
constant at every place that records an error.  One constructor per message and place:
protogen.hh:544, 553 | 560, 573 | 565 | 567 | 583, 596 | 600; json.hh:47; json-number.hh:150 | 174; json-string.hh:55 | 96, 110,
124, 142; json-base64.hh:64 | 80; json.hh:38 | 57 | 45; json-array.hh:42, 56.  `PGERR_MISSING_FIELD` is never recorded. -/
inductive ECode
  | ok | ignoreArray | ignoreObject | ignoreName | ignoreColon | ignoreEnd | ignoreValue | invalidSeparator | invalidNumber
  | invalidBool | invalidString | invalidUtf8 | invalidBytes | invalidBase64 | invalidStart | invalidObject | invalidName
  | invalidArray
deriving DecidableEq, Repr

/-- protogen.hh:35-45, the value of the error code that goes with it. -/
def ECode.number : ECode → Nat
  | .ok => 0
  | .ignoreArray | .ignoreObject | .ignoreName | .ignoreColon | .ignoreEnd | .ignoreValue => 1
  | .invalidSeparator => 3
  | .invalidNumber | .invalidBool | .invalidString | .invalidUtf8 => 4
  | .invalidBytes | .invalidBase64 | .invalidStart | .invalidObject => 5
  | .invalidName => 6
  | .invalidArray => 7

/-- The message, at the places given above; no message without an error (protogen.hh:60, 83). -/
def ECode.message : ECode → Bytes
  | .ok => []
  | .ignoreArray => b!"invalid array"
  | .ignoreObject => b!"invalid object"
  | .ignoreName => b!"expected field name"
  | .ignoreColon => b!"expected colon"
  | .ignoreEnd => b!"end of stream"
  | .ignoreValue => b!"invalid value"
  | .invalidSeparator => b!"field name and value must be separated by ':'"
  | .invalidNumber => b!"invalid numeric value"
  | .invalidBool => b!"invalid boolean value"
  | .invalidString => b!"invalid string value"
  | .invalidUtf8 => b!"invalid UTF-8 code point"
  | .invalidBytes => b!"invalid string"
  | .invalidBase64 => b!"invalid base64 data"
  | .invalidStart => b!"objects must start with '{'"
  | .invalidObject => b!"invalid JSON object"
  | .invalidName => b!"object key must be string"
  | .invalidArray => b!"invalid array"

/-- protogen.hh:54-86 `ErrorInfo`.  `code` stands for the members `code` and `message`. -/
structure ErrInfo where
  code : ECode := .ok
  line : Nat := 0
  col  : Nat := 0
deriving DecidableEq, Repr

/-- protogen.hh:47-52 `parse_error`, plus `fuel`: the model ran out of loop fuel (not a C++ outcome). -/
inductive RC
  | ok | error | nil | fuel
deriving DecidableEq, Repr

/-- protogen.hh:255-259 `token_id`. -/
inductive TId
  | none | eos | objs | obje | colon | comma | string | arrs | arre | nil | btrue | bfalse | number
deriving DecidableEq, Repr

/-- protogen.hh:261-287 `token`. -/
structure Token where
  id    : TId := .none
  value : Bytes := []
  line  : Nat := 0
  col   : Nat := 0
deriving DecidableEq, Repr

/-- protogen.hh:386-401 `parse_identifier()`: the run of ASCII letters at the cursor. -/
def lexIdent (s : IStream) (acc : Bytes) : Bytes × IStream :=
  if _h : s.eof = false then
    if isAlpha s.peek then lexIdent s.next (acc ++ [s.peek]) else (acc, s)
  else (acc, s)
termination_by s.rest.length
decreasing_by exact s.next_length_lt _h

/-- protogen.hh:530, the characters that continue a number token. -/
def isNumChar (c : Byte) : Bool :=
  c == c!"." || isDigit c || c == c!"e" || c == c!"E" || c == c!"+" || c == c!"-"

/-- protogen.hh:522-539 `parse_number()`: the run of number characters at the cursor. -/
def lexNumber (s : IStream) (acc : Bytes) : Bytes × IStream :=
  if _h : s.eof = false then
    if isNumChar s.peek then lexNumber s.next (acc ++ [s.peek]) else (acc, s)
  else (acc, s)
termination_by s.rest.length
decreasing_by exact s.next_length_lt _h

/-- protogen.hh:458, hexadecimal digit test, together with the digit's value (`strtol(temp, nullptr, 16)`, line 463). -/
def hexVal (c : Byte) : Option Nat :=
  if 48 ≤ c && c ≤ 57 then some (c.toNat - 48)
  else if 65 ≤ c && c ≤ 70 then some (c.toNat - 55)
  else if 97 ≤ c && c ≤ 102 then some (c.toNat - 87)
  else none

/-- protogen.hh:453-463: read `n` more hexadecimal digits, each preceded by `input_.next()`.
`none` is `return false`. -/
def lexHex : Nat → Nat → IStream → Option Nat × IStream
  | 0, v, s => (some v, s)
  | n + 1, v, s =>
    let s := s.next
    match hexVal s.peek with
    | some d => lexHex n (v * 16 + d) s
    | none => (none, s)

/-- `(char) x` for the small non-negative `int`s computed by the UTF-8 encoder. -/
def byte (n : Nat) : Byte := UInt8.ofNat n

/-- protogen.hh:465-509, after the four digits were read: the effect on the accumulated value and on the pending
surrogate `lead`; `none` is `return false`. -/
def putCodeUnit (value : Bytes) (lead : Nat) (codepoint : Nat) : Option (Bytes × Nat) :=
  if 0xD800 ≤ codepoint && codepoint ≤ 0xDBFF then some (value, codepoint)
  else if 0xDC00 ≤ codepoint && codepoint ≤ 0xDFFF then
    if lead = 0 then none
    else
      -- SURROGATE_OFFSET = 0x10000 - (0xD800 << 10) - 0xDC00, an `int32_t`; computed here over `Int`
      let cp : Nat := (((lead <<< 10 : Nat) : Int) + codepoint + (0x10000 - 0x3600000 - 0xDC00)).toNat
      some (value ++ [byte (0xF0 ||| ((cp >>> 18) &&& 0x07)), byte (0x80 ||| ((cp >>> 12) &&& 0x3F)),
                      byte (0x80 ||| ((cp >>> 6) &&& 0x3F)), byte (0x80 ||| (cp &&& 0x3F))], 0)
  else if 0x80 ≤ codepoint && codepoint ≤ 0x7FF then
    some (value ++ [byte (0xC0 ||| ((codepoint >>> 6) &&& 0x1F)), byte (0x80 ||| (codepoint &&& 0x3F))], 0)
  else if 0x800 ≤ codepoint && codepoint ≤ 0xFFFF then
    some (value ++ [byte (0xE0 ||| ((codepoint >>> 12) &&& 0x0F)), byte (0x80 ||| ((codepoint >>> 6) &&& 0x3F)),
                    byte (0x80 ||| (codepoint &&& 0x3F))], 0)
  else none

/-- protogen.hh:423-438, the two-character escapes. -/
def simpleEscape (c : Byte) : Option Byte :=
  if c = c!"\"" then some c!"\""
  else if c = c!"\\" then some c!"\\"
  else if c = c!"/" then some c!"/"
  else if c = c!"b" then some 8
  else if c = c!"f" then some 12
  else if c = c!"r" then some 13
  else if c = c!"n" then some 10
  else if c = c!"t" then some 9
  else none

theorem lexHex_length_le (n v : Nat) (s : IStream) : (lexHex n v s).2.rest.length ≤ s.rest.length := by
  induction n generalizing v s with
  | zero => simp [lexHex]
  | succ n ih =>
    unfold lexHex
    simp only
    split
    · exact Nat.le_trans (ih _ _) s.next_length_le
    · exact s.next_length_le

/-- protogen.hh:410-446, the loop of `parse_string()`.  The cursor is on the character before the next one to look
at.  `none` is `goto ESCAPE` (or leaving the loop at the end of the input). -/
def lexString (s : IStream) (lead : Nat) (value : Bytes) : Option Bytes × IStream :=
  if _h : s.eof = false then
    let s1 := s.next
    let c := s1.peek
    if c = c!"\"" then (some value, s1.next)
    else if c = c!"\\" then
      let s2 := s1.next
      let c := s2.peek
      if c = c!"u" then
        -- parse_escaped_utf8, lines 451-510
        let r := lexHex 4 0 s2
        match r.1 with
        | none => (none, r.2)
        | some cp =>
          match putCodeUnit value lead cp with
          | none => (none, r.2)
          | some (value, lead) => lexString r.2 lead value
      else
        match simpleEscape c with
        | some e => lexString s2 lead (value ++ [e])
        | none => (none, s2)
    else if c = 0 then (none, s1)
    else lexString s1 lead (value ++ [c])
  else (none, s)
termination_by s.rest.length
decreasing_by
  · have h1 := s.next_length_lt _h
    have h2 := s.next.next_length_le
    have h3 := lexHex_length_le 4 0 s.next.next
    omega
  · have h1 := s.next_length_lt _h
    have h2 := s.next.next_length_le
    omega
  · exact s.next_length_lt _h

/-- protogen.hh:403-449 `parse_string()`; the caller guarantees that the cursor is on the opening quote (line 409).
A STRING token carries no position (line 417 uses the default 0, 0). -/
def parseString (s : IStream) : Token × IStream :=
  match lexString s 0 [] with
  | (some v, s') => ({ id := .string, value := v }, s')
  | (none, s') => ({ id := .none, line := s.line, col := s.col }, s')

/-- protogen.hh:345-349, keywords. -/
def identToken (v : Bytes) (line col : Nat) : Token :=
  if v = b!"true" then { id := .btrue, line, col }
  else if v = b!"false" then { id := .bfalse, line, col }
  else if v = b!"null" then { id := .nil, line, col }
  else { id := .none, line, col }

/-- protogen.hh:300-354 `tokenizer::next()` as a function of the input stream: the next token and the stream after
it. -/
def lex (s : IStream) : Token × IStream :=
  if _h : s.eof = false then
    let c := s.peek
    if c = c!" " || c = 9 || c = 13 || c = 10 then lex s.next
    else if c = c!"{" then ({ id := .objs, line := s.line, col := s.col }, s.next)
    else if c = c!"}" then ({ id := .obje, line := s.line, col := s.col }, s.next)
    else if c = c!"[" then ({ id := .arrs, line := s.line, col := s.col }, s.next)
    else if c = c!"]" then ({ id := .arre, line := s.line, col := s.col }, s.next)
    else if c = c!":" then ({ id := .colon, line := s.line, col := s.col }, s.next)
    else if c = c!"," then ({ id := .comma, line := s.line, col := s.col }, s.next)
    else if c = c!"\"" then parseString s
    else if c = c!"-" || isDigit c then
      let r := lexNumber s []
      ({ id := .number, value := r.1, line := s.line, col := s.col }, r.2)
    else
      let r := lexIdent s []
      (identToken r.1 s.line s.col, r.2)
  else ({ id := .eos, line := s.line, col := s.col }, s)
termination_by s.rest.length
decreasing_by exact s.next_length_lt _h

/-- protogen.hh:289-384 `tokenizer`: the current token, the input and the error record (a reference to the context's
`params.error` in the code). -/
structure Tz where
  cur : Token
  inp : IStream
  err : ErrInfo
deriving DecidableEq, Repr

namespace Tz

/-- protogen.hh:300-354 `next()`. -/
def next (tz : Tz) : Tz := { tz with cur := (lex tz.inp).1, inp := (lex tz.inp).2 }

/-- protogen.hh:292-295, the constructor. -/
def open' (s : IStream) (err : ErrInfo) : Tz := next { cur := {}, inp := s, err := err }

/-- protogen.hh:356-364 `expect()`. -/
def expect (tz : Tz) (t : TId) : Bool × Tz :=
  if tz.cur.id = t then (true, tz.next) else (false, tz)

/-- protogen.hh:365-374 `error()`: the first error is kept; always returns PGR_ERROR. -/
def error (tz : Tz) (c : ECode) : RC × Tz :=
  if tz.err.code ≠ .ok then (.error, tz)
  else (.error, { tz with err := { code := c, line := tz.cur.line, col := tz.cur.col } })

end Tz

/-- protogen.hh:552-554, the end of `ignore_array()`. -/
def ignoreArrEnd (tz : Tz) : RC × Tz :=
  match tz.expect .arre with
  | (true, tz) => (.ok, tz)
  | (false, tz) => tz.error .ignoreArray

/-- protogen.hh:572-574, the end of `ignore_object()`. -/
def ignoreObjEnd (tz : Tz) : RC × Tz :=
  match tz.expect .obje with
  | (true, tz) => (.ok, tz)
  | (false, tz) => tz.error .ignoreObject

mutual

/-- protogen.hh:577-602 `ignore_value()`.  The opening `expect` of `ignore_object`/`ignore_array` (lines 543, 559)
cannot fail here because the current token was just examined; it is the `tz.next` of the first two cases. -/
def ignoreValue : Nat → Tz → RC × Tz
  | 0, tz => (.fuel, tz)
  | n + 1, tz =>
    match tz.cur.id with
    | .none => tz.error .ignoreEnd
    | .eos => tz.error .ignoreEnd
    | .objs => ignoreObjLoop n tz.next
    | .arrs => ignoreArrLoop n tz.next
    | .string | .number | .nil | .btrue | .bfalse =>
      let tz := tz.next
      if tz.cur.id = .none || tz.cur.id = .eos then tz.error .ignoreEnd else (.ok, tz)
    | _ => tz.error .ignoreValue

/-- protogen.hh:546-554, the loop of `ignore_array()`. -/
def ignoreArrLoop : Nat → Tz → RC × Tz
  | 0, tz => (.fuel, tz)
  | n + 1, tz =>
    if tz.cur.id = .arre then ignoreArrEnd tz
    else
      match ignoreValue n tz with
      | (.ok, tz) =>
        match tz.expect .comma with
        | (true, tz) => ignoreArrLoop n tz
        | (false, tz) => ignoreArrEnd tz
      | (r, tz) => (r, tz)

/-- protogen.hh:562-574, the loop of `ignore_object()`. -/
def ignoreObjLoop : Nat → Tz → RC × Tz
  | 0, tz => (.fuel, tz)
  | n + 1, tz =>
    if tz.cur.id = .obje then ignoreObjEnd tz
    else
      match tz.expect .string with
      | (false, tz) => tz.error .ignoreName
      | (true, tz) =>
        match tz.expect .colon with
        | (false, tz) => tz.error .ignoreColon
        | (true, tz) =>
          match ignoreValue n tz with
          | (.ok, tz) =>
            match tz.expect .comma with
            | (true, tz) => ignoreObjLoop n tz
            | (false, tz) => ignoreObjEnd tz
          | (r, tz) => (r, tz)

end

end PG
