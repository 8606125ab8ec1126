import Verif.Model.Flt
/-
Writing strings and bytes: source/cpp/json-string.hh:40-147 and source/cpp/json-base64.hh.
-/
namespace PG

/-- One lower-case hexadecimal digit (`%x`). -/
def hexLow (n : Nat) : Byte := if n < 10 then byte (48 + n) else byte (87 + n)

/-- `%x` of an unsigned value. -/
def hexNat (n : Nat) : Bytes :=
  if n < 16 then [hexLow n] else hexNat (n / 16) ++ [hexLow (n % 16)]

/-- `%04x`. -/
def hex04 (n : Nat) : Bytes := List.replicate (4 - (hexNat n).length) 48 ++ hexNat n

/-- json-string.hh:40-45 `write_escaped_utf8`: `snprintf` into a 7-byte buffer stores at most six characters. -/
def escU (cp : Nat) : Bytes := (b!"\\u" ++ hex04 cp).take 6

/-- json-string.hh:69-80, the one-byte characters. -/
def escByte (b : Byte) : Bytes :=
  if b = c!"\"" then b!"\\\""
  else if b = c!"\\" then b!"\\\\"
  else if b = c!"/" then b!"\\/"
  else if b = 8 then b!"\\b"
  else if b = 12 then b!"\\f"
  else if b = 13 then b!"\\r"
  else if b = 10 then b!"\\n"
  else if b = 9 then b!"\\t"
  else [b]

/-- `(b & 0xC0) == 0x80`. -/
def isCont (b : Byte) : Bool := (b.toNat &&& 0xC0) == 0x80

/-- json-string.hh:59-147, the loop of `json<std::string>::write` between the quotes: the bytes emitted and whether
the loop ended normally (`false`: `return set_error(...)`, without the closing quote).  The index test `i + k >= size`
is the shape of the remaining list. -/
def strBody (ascii : Bool) : Bytes → Bytes × Bool
  | [] => ([], true)
  | b1 :: t =>
    if b1 ≤ 0x7F then
      let r := strBody ascii t
      (escByte b1 ++ r.1, r.2)
    else if !ascii then
      let r := strBody ascii t
      (b1 :: r.1, r.2)
    else
      match t with
      | [] => ([], false)
      | b2 :: t2 =>
        if 0xC0 ≤ b1 && b1 ≤ 0xDF && isCont b2 then
          let cp := ((b1.toNat &&& 0x1F) <<< 6) ||| (b2.toNat &&& 0x3F)
          let r := strBody ascii t2
          (escU cp ++ r.1, r.2)
        else
          match t2 with
          | [] => ([], false)
          | b3 :: t3 =>
            if 0xE0 ≤ b1 && b1 ≤ 0xEF && isCont b2 && isCont b3 then
              let cp := ((b1.toNat &&& 0x0F) <<< 12) ||| ((b2.toNat &&& 0x3F) <<< 6) ||| (b3.toNat &&& 0x3F)
              let r := strBody ascii t3
              (escU cp ++ r.1, r.2)
            else
              match t3 with
              | [] => ([], false)
              | b4 :: t4 =>
                if 0xF0 ≤ b1 && b1 ≤ 0xF4 && isCont b2 && isCont b3 && isCont b4 then
                  let cp := ((b1.toNat &&& 0x07) <<< 18) ||| ((b2.toNat &&& 0x3F) <<< 12) |||
                            ((b3.toNat &&& 0x3F) <<< 6) ||| (b4.toNat &&& 0x3F)
                  -- LEAD_OFFSET = 0xD800 - (0x10000 >> 10)
                  let lead := (0xD800 - (0x10000 >>> 10)) + (cp >>> 10)
                  let trail := 0xDC00 + (cp &&& 0x3FF)
                  let r := strBody ascii t4
                  (escU lead ++ escU trail ++ r.1, r.2)
                else ([], false)

/-- json-base64.hh:26 `B64_SYMBOLS`. -/
def b64Symbols : Bytes := b!"ABCDEFGHIJKLMNOPQRSTUVWXYZabcdefghijklmnopqrstuvwxyz0123456789+/"

/-- `B64_SYMBOLS[n]`; all uses have `n < 64` (the literal's terminator is at 64). -/
def b64Sym (n : Nat) : Byte := b64Symbols.getD n 0

/-- json-base64.hh:33-56, the text between the quotes. -/
def b64Enc : Bytes → Bytes
  | [] => []
  | [a] => [b64Sym ((a.toNat &&& 0xFF) >>> 2), b64Sym ((a.toNat &&& 0x03) <<< 4), c!"=", c!"="]
  | [a, b] => [b64Sym ((a.toNat &&& 0xFF) >>> 2),
               b64Sym (((a.toNat &&& 0x03) <<< 4) ||| ((b.toNat &&& 0xF0) >>> 4)),
               b64Sym ((b.toNat &&& 0x0F) <<< 2), c!"="]
  | a :: b :: c :: t =>
    [b64Sym ((a.toNat &&& 0xFF) >>> 2),
     b64Sym (((a.toNat &&& 0x03) <<< 4) ||| ((b.toNat &&& 0xF0) >>> 4)),
     b64Sym (((b.toNat &&& 0x0F) <<< 2) ||| ((c.toNat &&& 0xC0) >>> 6)),
     b64Sym (c.toNat &&& 0x3F)] ++ b64Enc t

/-- json-base64.hh:14-23 `b64_int`. -/
def b64Int (ch : Byte) : Nat :=
  if ch = c!"+" then 62
  else if ch = c!"/" then 63
  else if 48 ≤ ch && ch ≤ 57 then ch.toNat + 4
  else if 65 ≤ ch && ch ≤ 90 then ch.toNat - 65
  else if 97 ≤ ch && ch ≤ 122 then (ch.toNat - 97) + 26
  else if ch = c!"=" then 64
  else 0

/-- json-base64.hh:85-99, the bytes pushed for one group of four characters. -/
def b64Group (s0 s1 s2 s3 : Nat) : Bytes :=
  byte (((s0 &&& 0xFF) <<< 2) ||| ((s1 &&& 0x30) >>> 4)) ::
    (if s2 ≠ 64 then
      byte (((s1 &&& 0x0F) <<< 4) ||| ((s2 &&& 0x3C) >>> 2)) ::
        (if s3 ≠ 64 then [byte (((s2 &&& 0x03) <<< 6) ||| s3)] else [])
    else [])

/-- json-base64.hh:72-100, the decoding loop over the C string: the bytes pushed and whether the text ended inside a
group (`true`: line 80 records an error but still returns PGR_OK). -/
def b64Dec : Bytes → Bytes × Bool
  | a :: b :: c :: d :: t =>
    if a = 0 then ([], false)
    else if b = 0 || c = 0 || d = 0 then ([], true)
    else
      let r := b64Dec t
      (b64Group (b64Int a) (b64Int b) (b64Int c) (b64Int d) ++ r.1, r.2)
  | [] => ([], false)
  | a :: _ => ([], a ≠ 0)

end PG
