import Verif.Spec.Loose
/-
Where and why a document is refused: the lexemes that were taken in, the kind of the token that stands in their way, the
error code, and what has become of the object.  Independent of the tokenizer and the readers.
-/
set_option autoImplicit false
namespace PG

/-- `bs` consists of the lexemes, each after white space, and `rest`. -/
def Upto : List Bytes → Bytes → Bytes → Prop
  | [], rest, bs => bs = rest
  | l :: ls, rest, bs => ∃ w r, bs = w ++ (l ++ r) ∧ Ws w ∧ Upto ls rest r

/-- The characters `bs` that follow the lexemes do not continue the last one: no number character after a number, no
letter after a literal. -/
def Ended (ls : List Bytes) (bs : Bytes) : Prop := ∀ l b t, ls.getLast? = some l → bs = b :: t →
  (SloppyNum l → numByte b = false) ∧ (l = b!"null" ∨ l = b!"true" ∨ l = b!"false" → isAlpha b = false)

/-- A single lexeme: a scalar or a mark. -/
def OneLex (l : Bytes) : Prop := (∃ j, ScalarOf j l) ∨ l ∈ [b!"{", b!"}", b!"[", b!"]", b!":", b!","]

/-- A string literal that cannot be base64: the number of its characters is no multiple of four. -/
def Blot (l : Bytes) : Prop := ∃ s, ScalarOf (.str s) l ∧ s.length % 4 ≠ 0

/-- The text begins with lexemes the last of which is such a string literal. -/
def Blotted (ls : List Bytes) (rest bs : Bytes) : Prop :=
  ∃ l, (∀ x ∈ ls, OneLex x) ∧ Blot l ∧ Upto (ls ++ [l]) rest bs

/-- The text begins with the word, and the word ends there. -/
def Word (w r : Bytes) : Prop := ∃ t, r = w ++ t ∧ ∀ b u, t = b :: u → isAlpha b = false

/-- The text begins with a token of the kind. -/
def Starts : TId → Bytes → Prop
  | .none, _ => False
  | .eos, r => r = []
  | .objs, r => ∃ t, r = c!"{" :: t
  | .obje, r => ∃ t, r = c!"}" :: t
  | .arrs, r => ∃ t, r = c!"[" :: t
  | .arre, r => ∃ t, r = c!"]" :: t
  | .colon, r => ∃ t, r = c!":" :: t
  | .comma, r => ∃ t, r = c!"," :: t
  | .string, r => ∃ body s t, r = c!"\"" :: (body ++ c!"\"" :: t) ∧ StrMeans none body s
  | .number, r => ∃ b t, r = b :: t ∧ (b = c!"-" ∨ 48 ≤ b ∧ b ≤ 57)
  | .nil, r => Word b!"null" r
  | .btrue, r => Word b!"true" r
  | .bfalse, r => Word b!"false" r

/-- What stands at the place of an error, without white space before it: a token, the end of the text, or something that
is neither. -/
def Begins (k : TId) (r : Bytes) : Prop :=
  (∀ b t, r = b :: t → wsByte b = false) ∧ (if k = .none then ∀ k', ¬ Starts k' r else Starts k r)

/-- The tokens a value may begin with. -/
def valueStart : List TId := [.objs, .arrs, .string, .number, .nil, .btrue, .bfalse]

/-- Not an array or an object. -/
def J.isScalar : J → Bool
  | .arr _ => false
  | .obj _ => false
  | _ => true

mutual
/-- Skipping a value stops after the lexemes, before a token of the given kind, with the given code and message.  After a
scalar nothing but a token will do. -/
inductive SkipCut : TId → ECode → List Bytes → Prop
  | stop {o : TId} : o = .none ∨ o = .eos → SkipCut o .ignoreEnd []
  | head {o : TId} : o ∉ valueStart → o ≠ .none → o ≠ .eos → SkipCut o .ignoreValue []
  | after {o : TId} {j : J} {l : Bytes} : ScalarOf j l → o = .none ∨ o = .eos → SkipCut o .ignoreEnd [l]
  | arr {o : TId} {c : ECode} {ls : List Bytes} : SkipElems o c ls → SkipCut o c (b!"[" :: ls)
  | obj {o : TId} {c : ECode} {ls : List Bytes} : SkipMembers o c ls → SkipCut o c (b!"{" :: ls)
/-- The same among the elements of a skipped array. -/
inductive SkipElems : TId → ECode → List Bytes → Prop
  | elem {o : TId} {c : ECode} {ls : List Bytes} : SkipCut o c ls → (ls = [] → o ≠ .arre) → SkipElems o c ls
  | close {o : TId} {j : J} {a : List Bytes} : Lv false j a → (j.isScalar = true → o ≠ .none ∧ o ≠ .eos) → o ≠ .comma →
      o ≠ .arre → SkipElems o .ignoreArray a
  | next {o : TId} {c : ECode} {j : J} {a ls : List Bytes} : Lv false j a → SkipElems o c ls → SkipElems o c (a ++ b!"," :: ls)
/-- The same among the members of a skipped object. -/
inductive SkipMembers : TId → ECode → List Bytes → Prop
  | name {o : TId} : o ≠ .obje → o ≠ .string → SkipMembers o .ignoreName []
  | colon {o : TId} {k l : Bytes} : ScalarOf (.str k) l → o ≠ .colon → SkipMembers o .ignoreColon [l]
  | value {o : TId} {c : ECode} {k l : Bytes} {ls : List Bytes} : ScalarOf (.str k) l → SkipCut o c ls →
      SkipMembers o c (l :: b!":" :: ls)
  | close {o : TId} {k l : Bytes} {j : J} {a : List Bytes} : ScalarOf (.str k) l → Lv false j a →
      (j.isScalar = true → o ≠ .none ∧ o ≠ .eos) → o ≠ .comma → o ≠ .obje → SkipMembers o .ignoreObject (l :: b!":" :: a)
  | next {o : TId} {c : ECode} {k l : Bytes} {j : J} {a ls : List Bytes} : ScalarOf (.str k) l → Lv false j a →
      SkipMembers o c ls → SkipMembers o c (l :: b!":" :: (a ++ b!"," :: ls))
end

/-- Reading array elements into `v` stops: in the middle of an element, which is dropped; at a `null`; or because
neither a comma nor a bracket follows an element, which has been stored. -/
inductive ElemsCut {α : Type} (P : J → List Bytes → Prop) (f : J → RC × α) (cut : TId → ECode → List Bytes → Prop) :
    List α → TId → ECode → List Bytes → List α → Prop
  | elem {v : List α} {o : TId} {c : ECode} {ls : List Bytes} : cut o c ls → ElemsCut P f cut v o c ls v
  | null {v : List α} : ElemsCut P f cut v .nil .invalidArray [] v
  | close {v : List α} {o : TId} {j : J} {a : List Bytes} {x : α} : P j a → f j = (.ok, x) → o ≠ .comma → o ≠ .arre →
      ElemsCut P f cut v o .invalidArray a (v ++ [x])
  | next {v v' : List α} {o : TId} {c : ECode} {j : J} {a ls : List Bytes} {x : α} : P j a → f j = (.ok, x) →
      ElemsCut P f cut (v ++ [x]) o c ls v' → ElemsCut P f cut v o c (a ++ b!"," :: ls) v'

/-- Reading members into `v` stops.  `f` answers `nil` for the members whose values are skipped: those the object does
not have and those that are `null`; a scalar that is skipped must not be the last thing in the input. -/
inductive MembersCut {α : Type} (P : Bytes → J → List Bytes → Prop) (f : Bytes → J → α → RC × α)
    (cut : Bytes → α → TId → ECode → List Bytes → α → Prop) : α → TId → ECode → List Bytes → α → Prop
  | name {v : α} {o : TId} : o ≠ .string → MembersCut P f cut v o .invalidName [] v
  | colon {v : α} {o : TId} {k l : Bytes} : ScalarOf (.str k) l → o ≠ .colon → MembersCut P f cut v o .invalidSeparator [l] v
  | value {v v' : α} {o : TId} {c : ECode} {k l : Bytes} {ls : List Bytes} : ScalarOf (.str k) l → cut k v o c ls v' →
      MembersCut P f cut v o c (l :: b!":" :: ls) v'
  | last {v v' : α} {o : TId} {k l : Bytes} {j : J} {a : List Bytes} : ScalarOf (.str k) l → P k j a → f k j v = (.nil, v') →
      j.isScalar = true → o = .none ∨ o = .eos → MembersCut P f cut v o .ignoreEnd (l :: b!":" :: a) v'
  | close {v v' : α} {o : TId} {rc : RC} {k l : Bytes} {j : J} {a : List Bytes} : ScalarOf (.str k) l → P k j a →
      f k j v = (rc, v') → rc = .ok ∨ rc = .nil → (rc = .nil → j.isScalar = true → o ≠ .none ∧ o ≠ .eos) →
      o ≠ .comma → o ≠ .obje → MembersCut P f cut v o .invalidObject (l :: b!":" :: a) v'
  | next {v v1 v' : α} {o : TId} {c : ECode} {rc : RC} {k l : Bytes} {j : J} {a ls : List Bytes} : ScalarOf (.str k) l → P k j a →
      f k j v = (rc, v1) → rc = .ok ∨ rc = .nil → MembersCut P f cut v1 o c ls v' →
      MembersCut P f cut v o c (l :: b!":" :: (a ++ b!"," :: ls)) v'

/-- The tokens a primitive is read from. -/
def Prim.tokens : Prim → List TId
  | .bool => [.btrue, .bfalse]
  | _ => [.number]

/-- What is said of anything else. -/
def Prim.complaint : Prim → ECode
  | .bool => .invalidBool
  | _ => .invalidNumber

mutual
/-- Reading a value of the type into the object `v` stops after the lexemes, before a token of kind `o`, with the given
code; the object is then `v'`. -/
def Cut : (t : Ty) → t.Den → TId → ECode → List Bytes → t.Den → Prop
  | .num p, _, o, c, ls, v' => ls = [] ∧ o ∉ p.tokens ∧ o ≠ .nil ∧ c = p.complaint ∧ v' = ⟨p.zero, false⟩
  | .raw p, v, o, c, ls, v' => ls = [] ∧ o ∉ p.tokens ∧ o ≠ .nil ∧ c = p.complaint ∧ v' = v
  | .str, _, o, c, ls, v' => ls = [] ∧ o ≠ .string ∧ o ≠ .nil ∧ c = .invalidString ∧ v' = ⟨[], false⟩
  | .bytes, v, o, c, ls, v' => ls = [] ∧ o ≠ .string ∧ o ≠ .nil ∧ c = .invalidBytes ∧ v' = v
  | .rep t, v, o, c, ls, v' =>
    (ls = [] ∧ o ≠ .arrs ∧ o ≠ .nil ∧ c = .invalidArray ∧ v' = v) ∨
    ∃ inner, ls = b!"[" :: inner ∧ (inner = [] → o ≠ .arre) ∧
      ElemsCut (Reads t) (fun j => t.absorb j t.new) (fun o c ls => ∃ x, Cut t t.new o c ls x) v o c inner v'
  | .msg obf fs, v, o, c, ls, v' =>
    (ls = [] ∧ o ≠ .objs ∧ o ≠ .nil ∧ c = .invalidStart ∧ v' = v) ∨
    ∃ inner, ls = b!"{" :: inner ∧ (inner = [] → o ≠ .obje) ∧
      MembersCut (fun k j a => match indexOf obf fs k with
          | none => Lv false j a
          | some i => ReadsAt fs i j a)
        (fun k j v => match indexOf obf fs k with
          | none => (.nil, v)
          | some i => fs.absorbAt i j v)
        (fun k v o c ls v' => match indexOf obf fs k with
          | none => SkipCut o c ls ∧ v' = v
          | some i => CutAt fs i v o c ls v') v o c inner v'
/-- The same for the `i`-th persistent field. -/
def CutAt : (fs : Fields) → Nat → fs.Den → TId → ECode → List Bytes → fs.Den → Prop
  | .nil, _, v, o, c, ls, v' => SkipCut o c ls ∧ v' = v
  | .cons f t rest, i, v, o, c, ls, v' =>
    if f.transient then v'.1 = v.1 ∧ CutAt rest i v.2 o c ls v'.2
    else
      match i with
      | 0 => v'.2 = v.2 ∧ Cut t v.1 o c ls v'.1
      | i + 1 => v'.1 = v.1 ∧ CutAt rest i v.2 o c ls v'.2
end

end PG
