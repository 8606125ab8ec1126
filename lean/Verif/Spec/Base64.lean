import Verif.Model.Bytes
/-
Base64 (RFC 4648 section 4), by arithmetic on 24-bit groups.
-/
set_option autoImplicit false
namespace PG

/-- The alphabet of RFC 4648 table 1. -/
def b64Char (n : Nat) : Byte :=
  if n < 26 then UInt8.ofNat (65 + n) else if n < 52 then UInt8.ofNat (97 + (n - 26))
  else if n < 62 then UInt8.ofNat (48 + (n - 52)) else if n = 62 then c!"+" else c!"/"

/-- The encoding: three bytes form a 24-bit number, written as four base-64 digits; the last group is padded. -/
def base64 : Bytes → Bytes
  | [] => []
  | [a] =>
    let n := a.toNat * 65536
    [b64Char (n / 262144), b64Char (n / 4096 % 64), c!"=", c!"="]
  | [a, b] =>
    let n := a.toNat * 65536 + b.toNat * 256
    [b64Char (n / 262144), b64Char (n / 4096 % 64), b64Char (n / 64 % 64), c!"="]
  | a :: b :: c :: t =>
    let n := a.toNat * 65536 + b.toNat * 256 + c.toNat
    [b64Char (n / 262144), b64Char (n / 4096 % 64), b64Char (n / 64 % 64), b64Char (n % 64)] ++ base64 t

/-- The digit a character stands for; any character that is no digit counts as zero. -/
def b64Digit (c : Byte) : Nat := ((List.range 64).find? fun n => b64Char n == c).getD 0

/-- Lenient decoding: four characters give a 24-bit number, of which two bytes are dropped if the third character is the
padding, one if only the fourth is; less than four characters at the end give nothing. -/
def unbase64 : Bytes → Bytes
  | a :: b :: c :: d :: t =>
    let n := b64Digit a * 262144 + b64Digit b * 4096 + b64Digit c * 64 + b64Digit d
    [UInt8.ofNat (n / 65536), UInt8.ofNat (n / 256), UInt8.ofNat n].take
      (if c = c!"=" then 1 else if d = c!"=" then 2 else 3) ++ unbase64 t
  | _ => []

end PG
