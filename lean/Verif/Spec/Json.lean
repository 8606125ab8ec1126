import Verif.Model.Bytes
/-
JSON texts (RFC 8259), written independently of the tokenizer.

`J` is a JSON value; numbers keep their lexeme, strings are the decoded bytes (UTF-8).  The grammar is parameterised by
the lexical part (`Lexis`): which bytes between quotes denote which string, and which byte sequences are numbers.
`rfc` is the lexical part of RFC 8259, `wide` is a superset in some respects (any byte but NUL, line feed, quote and
backslash may appear raw in strings; sloppy numerals) and a subset in another (no `\u` escape below U+0080).
-/
namespace PG

mutual
/-- JSON values. -/
inductive J
  | null
  | bool (b : Bool)
  | num (lexeme : Bytes)
  | str (s : Bytes)
  | arr (xs : JL)
  | obj (ms : JM)
/-- Array elements. -/
inductive JL
  | nil
  | cons (j : J) (t : JL)
/-- Object members, in order. -/
inductive JM
  | nil
  | cons (k : Bytes) (j : J) (t : JM)
end

/-- RFC 8259 white space. -/
def wsByte (b : Byte) : Bool := b == 32 || b == 9 || b == 10 || b == 13

/-- A run of white space. -/
def Ws (w : Bytes) : Prop := ∀ b ∈ w, wsByte b = true

/-- `d` is the value of the hexadecimal digit `b`. -/
def HexDigit (b : Byte) (d : Nat) : Prop :=
  (48 ≤ b ∧ b ≤ 57 ∧ d = b.toNat - 48) ∨ (65 ≤ b ∧ b ≤ 70 ∧ d = b.toNat - 55) ∨ (97 ≤ b ∧ b ≤ 102 ∧ d = b.toNat - 87)

/-- `h` is four hexadecimal digits with value `v`. -/
def Hex4 (h : Bytes) (v : Nat) : Prop :=
  ∃ a b c d va vb vc vd, h = [a, b, c, d] ∧ HexDigit a va ∧ HexDigit b vb ∧ HexDigit c vc ∧ HexDigit d vd ∧
    v = va * 4096 + vb * 256 + vc * 16 + vd

/-- Unicode scalar values. -/
def Scalar (cp : Nat) : Prop := cp < 0xD800 ∨ (0xE000 ≤ cp ∧ cp ≤ 0x10FFFF)

/-- UTF-8 encoding form (RFC 3629), meaningful for scalar values. -/
def utf8 (cp : Nat) : Bytes :=
  if cp < 0x80 then [UInt8.ofNat cp]
  else if cp < 0x800 then [UInt8.ofNat (0xC0 + cp / 64), UInt8.ofNat (0x80 + cp % 64)]
  else if cp < 0x10000 then
    [UInt8.ofNat (0xE0 + cp / 4096), UInt8.ofNat (0x80 + cp / 64 % 64), UInt8.ofNat (0x80 + cp % 64)]
  else [UInt8.ofNat (0xF0 + cp / 262144), UInt8.ofNat (0x80 + cp / 4096 % 64), UInt8.ofNat (0x80 + cp / 64 % 64),
        UInt8.ofNat (0x80 + cp % 64)]

/-- The two-character escapes of RFC 8259: character after the backslash, byte denoted. -/
def shortEscapes : List (Byte × Byte) :=
  [(c!"\"", c!"\""), (c!"\\", c!"\\"), (c!"/", c!"/"), (c!"b", 8), (c!"f", 12), (c!"n", 10), (c!"r", 13), (c!"t", 9)]

/-- The characters between the quotes of a JSON string (first argument) and the bytes they denote.  `raw` are the bytes
allowed to stand for themselves, `uni` the code points allowed in a single `\u` escape. -/
inductive StrChars (raw : Byte → Prop) (uni : Nat → Prop) : Bytes → Bytes → Prop
  | nil : StrChars raw uni [] []
  | raw {b t c} : raw b → StrChars raw uni t c → StrChars raw uni (b :: t) (b :: c)
  | esc {e b t c} : (e, b) ∈ shortEscapes → StrChars raw uni t c → StrChars raw uni (c!"\\" :: e :: t) (b :: c)
  | uni {h cp t c} : Hex4 h cp → (cp < 0xD800 ∨ 0xE000 ≤ cp) → uni cp → StrChars raw uni t c →
      StrChars raw uni (c!"\\" :: c!"u" :: (h ++ t)) (utf8 cp ++ c)
  | pair {h1 h2 hi lo t c} : Hex4 h1 hi → Hex4 h2 lo → 0xD800 ≤ hi → hi ≤ 0xDBFF → 0xDC00 ≤ lo → lo ≤ 0xDFFF →
      StrChars raw uni t c →
      StrChars raw uni (c!"\\" :: c!"u" :: (h1 ++ c!"\\" :: c!"u" :: (h2 ++ t)))
        (utf8 (0x10000 + (hi - 0xD800) * 0x400 + (lo - 0xDC00)) ++ c)

/-- A non-empty run of decimal digits. -/
def Digits (ds : Bytes) : Prop := ds ≠ [] ∧ ∀ b ∈ ds, 48 ≤ b ∧ b ≤ 57

/-- RFC 8259 `int`. -/
def RfcInt (i : Bytes) : Prop := i = [48] ∨ (Digits i ∧ i.head? ≠ some 48)

/-- RFC 8259 `number`. -/
def RfcNum (l : Bytes) : Prop :=
  ∃ sign int frac exp, l = sign ++ int ++ frac ++ exp ∧ (sign = [] ∨ sign = b!"-") ∧ RfcInt int ∧
    (frac = [] ∨ ∃ ds, Digits ds ∧ frac = c!"." :: ds) ∧
    (exp = [] ∨ ∃ e s ds, (e = c!"e" ∨ e = c!"E") ∧ (s = [] ∨ s = b!"+" ∨ s = b!"-") ∧ Digits ds ∧ exp = e :: (s ++ ds))

/-- The characters of numerals. -/
def numByte (b : Byte) : Bool :=
  (48 ≤ b && b ≤ 57) || b == c!"." || b == c!"e" || b == c!"E" || b == c!"+" || b == c!"-"

/-- Anything that starts like a numeral and consists of numeral characters. -/
def SloppyNum (l : Bytes) : Prop :=
  (∃ b t, l = b :: t ∧ (b = c!"-" ∨ (48 ≤ b ∧ b ≤ 57))) ∧ ∀ b ∈ l, numByte b = true

/-- The lexical part of the grammar. -/
structure Lexis where
  str : Bytes → Bytes → Prop
  num : Bytes → Prop

/-- Bytes that RFC 8259 allows unescaped in strings. -/
def rfcRaw (b : Byte) : Prop := 32 ≤ b ∧ b ≠ c!"\"" ∧ b ≠ c!"\\"

/-- Bytes the wide grammar allows unescaped in strings. -/
def wideRaw (b : Byte) : Prop := b ≠ 0 ∧ b ≠ 10 ∧ b ≠ c!"\"" ∧ b ≠ c!"\\"

/-- RFC 8259 (on bytes; it does not demand that raw bytes form valid UTF-8). -/
def rfc : Lexis := ⟨StrChars rfcRaw (fun _ => True), RfcNum⟩

/-- The wide lexical grammar. -/
def wide : Lexis := ⟨StrChars wideRaw (fun cp => 0x80 ≤ cp), SloppyNum⟩

mutual
/-- `bs` is a text of the value, without surrounding white space. -/
def JVal (L : Lexis) : J → Bytes → Prop
  | .null, bs => bs = b!"null"
  | .bool true, bs => bs = b!"true"
  | .bool false, bs => bs = b!"false"
  | .num l, bs => bs = l ∧ L.num l
  | .str s, bs => ∃ body, bs = c!"\"" :: (body ++ [c!"\""]) ∧ L.str body s
  | .arr xs, bs => ∃ inner, bs = c!"[" :: (inner ++ [c!"]"]) ∧ JElems L xs inner
  | .obj ms, bs => ∃ inner, bs = c!"{" :: (inner ++ [c!"}"]) ∧ JMembers L ms inner
/-- `bs` is the text between the brackets of an array. -/
def JElems (L : Lexis) : JL → Bytes → Prop
  | .nil, bs => Ws bs
  | .cons j .nil, bs => ∃ w b w', bs = w ++ (b ++ w') ∧ Ws w ∧ JVal L j b ∧ Ws w'
  | .cons j (.cons j' t), bs => ∃ w b w' r, bs = w ++ (b ++ (w' ++ c!"," :: r)) ∧ Ws w ∧ JVal L j b ∧ Ws w' ∧
      JElems L (.cons j' t) r
/-- `bs` is the text between the braces of an object. -/
def JMembers (L : Lexis) : JM → Bytes → Prop
  | .nil, bs => Ws bs
  | .cons k j .nil, bs => ∃ w kb w1 w2 b w', bs = w ++ (c!"\"" :: (kb ++ c!"\"" :: (w1 ++ c!":" :: (w2 ++ (b ++ w'))))) ∧
      Ws w ∧ L.str kb k ∧ Ws w1 ∧ Ws w2 ∧ JVal L j b ∧ Ws w'
  | .cons k j (.cons k' j' t), bs => ∃ w kb w1 w2 b w' r,
      bs = w ++ (c!"\"" :: (kb ++ c!"\"" :: (w1 ++ c!":" :: (w2 ++ (b ++ (w' ++ c!"," :: r)))))) ∧
      Ws w ∧ L.str kb k ∧ Ws w1 ∧ Ws w2 ∧ JVal L j b ∧ Ws w' ∧ JMembers L (.cons k' j' t) r
end

/-- `bs` is a JSON text (white space, value, white space). -/
def JText (L : Lexis) (j : J) (bs : Bytes) : Prop := ∃ w b w', bs = w ++ (b ++ w') ∧ Ws w ∧ JVal L j b ∧ Ws w'

end PG
