import Verif.Spec.Absorb
/-
The documents `deserialize` accepts: a lenient JSON grammar on lexemes, with the value each document denotes.
Independent of the tokenizer and the readers.
-/
set_option autoImplicit false
namespace PG

/-- The characters between the quotes of an accepted string and the bytes they denote.  The first argument is a high
surrogate that waits for a low one: other characters may stand in between, a second high surrogate replaces it, and
it disappears if no low one follows.  A low surrogate without a high one before it is not accepted, nor is an escape of
a character below U+0080. -/
inductive StrMeans : Option Nat → Bytes → Bytes → Prop
  | nil {p : Option Nat} : StrMeans p [] []
  | raw {p : Option Nat} {b : Byte} {t c : Bytes} : wideRaw b → StrMeans p t c → StrMeans p (b :: t) (b :: c)
  | esc {p : Option Nat} {e b : Byte} {t c : Bytes} : (e, b) ∈ shortEscapes → StrMeans p t c →
      StrMeans p (c!"\\" :: e :: t) (b :: c)
  | uni {p : Option Nat} {h : Bytes} {cp : Nat} {t c : Bytes} : Hex4 h cp → (cp < 0xD800 ∨ 0xE000 ≤ cp) → 0x80 ≤ cp →
      StrMeans none t c → StrMeans p (c!"\\" :: c!"u" :: (h ++ t)) (utf8 cp ++ c)
  | high {p : Option Nat} {h : Bytes} {hi : Nat} {t c : Bytes} : Hex4 h hi → 0xD800 ≤ hi → hi ≤ 0xDBFF →
      StrMeans (some hi) t c → StrMeans p (c!"\\" :: c!"u" :: (h ++ t)) c
  | low {h : Bytes} {hi lo : Nat} {t c : Bytes} : Hex4 h lo → 0xDC00 ≤ lo → lo ≤ 0xDFFF → StrMeans none t c →
      StrMeans (some hi) (c!"\\" :: c!"u" :: (h ++ t)) (utf8 (0x10000 + (hi - 0xD800) * 0x400 + (lo - 0xDC00)) ++ c)

/-- The lexeme of a value that is not an array or an object. -/
def ScalarOf : J → Bytes → Prop
  | .null, l => l = b!"null"
  | .bool true, l => l = b!"true"
  | .bool false, l => l = b!"false"
  | .num n, l => l = n ∧ SloppyNum l
  | .str s, l => ∃ body, l = c!"\"" :: (body ++ [c!"\""]) ∧ StrMeans none body s
  | _, _ => False

mutual
/-- The accepted grammar, on lexemes.  `strict` values are those that are read into the object; values that are skipped
may in addition have a comma before a closing bracket or brace. -/
inductive Lv : Bool → J → List Bytes → Prop
  | tok {s : Bool} {j : J} {l : Bytes} : ScalarOf j l → Lv s j [l]
  | arr0 {s : Bool} : Lv s (.arr .nil) [b!"[", b!"]"]
  | arr {s : Bool} {xs : JL} {inner : List Bytes} : LEl s xs inner → Lv s (.arr xs) (b!"[" :: (inner ++ [b!"]"]))
  | obj0 {s : Bool} : Lv s (.obj .nil) [b!"{", b!"}"]
  | obj {s : Bool} {ms : JM} {inner : List Bytes} : LMe s ms inner → Lv s (.obj ms) (b!"{" :: (inner ++ [b!"}"]))
/-- One or more array elements. -/
inductive LEl : Bool → JL → List Bytes → Prop
  | one {s : Bool} {j : J} {a : List Bytes} : Lv s j a → LEl s (.cons j .nil) a
  | trail {j : J} {a : List Bytes} : Lv false j a → LEl false (.cons j .nil) (a ++ [b!","])
  | cons {s : Bool} {j : J} {xs : JL} {a r : List Bytes} : Lv s j a → LEl s xs r → LEl s (.cons j xs) (a ++ b!"," :: r)
/-- One or more members.  A member of a strict object is read or skipped. -/
inductive LMe : Bool → JM → List Bytes → Prop
  | one {s s' : Bool} {k l : Bytes} {j : J} {a : List Bytes} : ScalarOf (.str k) l → (s' = true → s = true) → Lv s' j a →
      LMe s (.cons k j .nil) (l :: b!":" :: a)
  | trail {k l : Bytes} {j : J} {a : List Bytes} : ScalarOf (.str k) l → Lv false j a →
      LMe false (.cons k j .nil) (l :: b!":" :: (a ++ [b!","]))
  | cons {s s' : Bool} {k l : Bytes} {j : J} {ms : JM} {a r : List Bytes} : ScalarOf (.str k) l → (s' = true → s = true) →
      Lv s' j a → LMe s ms r → LMe s (.cons k j ms) (l :: b!":" :: (a ++ b!"," :: r))
end

/-- One or more elements separated by commas. -/
inductive ElemsOf (P : J → List Bytes → Prop) : JL → List Bytes → Prop
  | one {j : J} {a : List Bytes} : P j a → ElemsOf P (.cons j .nil) a
  | cons {j : J} {xs : JL} {a r : List Bytes} : P j a → ElemsOf P xs r → ElemsOf P (.cons j xs) (a ++ b!"," :: r)

/-- One or more members separated by commas. -/
inductive MembersOf (P : Bytes → J → List Bytes → Prop) : JM → List Bytes → Prop
  | one {k l : Bytes} {j : J} {a : List Bytes} : ScalarOf (.str k) l → P k j a → MembersOf P (.cons k j .nil) (l :: b!":" :: a)
  | cons {k l : Bytes} {j : J} {ms : JM} {a r : List Bytes} : ScalarOf (.str k) l → P k j a → MembersOf P ms r →
      MembersOf P (.cons k j ms) (l :: b!":" :: (a ++ b!"," :: r))

/-- A value of a single lexeme. -/
def Single (j : J) (ls : List Bytes) : Prop := ∃ l, ls = [l] ∧ ScalarOf j l

mutual
/-- The lexemes of a value that a reader of the given type takes apart: no comma before a closing bracket or brace,
except inside the values of members that the type does not have. -/
def Reads : Ty → J → List Bytes → Prop
  | .rep t, j, ls =>
    match j with
    | .arr .nil => ls = [b!"[", b!"]"]
    | .arr (.cons x xs) => ∃ inner, ls = b!"[" :: (inner ++ [b!"]"]) ∧ ElemsOf (fun j a => Reads t j a) (.cons x xs) inner
    | j => Single j ls
  | .msg obf fs, j, ls =>
    match j with
    | .obj .nil => ls = [b!"{", b!"}"]
    | .obj (.cons k x ms) => ∃ inner, ls = b!"{" :: (inner ++ [b!"}"]) ∧
        MembersOf (fun k j a => match indexOf obf fs k with
          | none => Lv false j a
          | some i => ReadsAt fs i j a) (.cons k x ms) inner
    | j => Single j ls
  | _, j, ls => Single j ls
/-- The same for the `i`-th persistent field. -/
def ReadsAt : Fields → Nat → J → List Bytes → Prop
  | .nil, _, j, ls => Lv false j ls
  | .cons f t rest, i, j, ls =>
    if f.transient then ReadsAt rest i j ls
    else
      match i with
      | 0 => Reads t j ls
      | i + 1 => ReadsAt rest i j ls
end

end PG
