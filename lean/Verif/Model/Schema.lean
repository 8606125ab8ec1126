import Verif.Model.Near
/-
Generated message types and their values.  A message type is described by the tree of its fields; the functions below
are what the templates of source/cpp/code.txt expand to for such a tree (cppgen.cc:262-449).
-/
namespace PG

/-- What the generated code contains for one field: the bytes written before the value (code.txt:105, the `$2$`
expression), the key in the `FIELDS` table (code.txt:233), and whether the field is transient (it then appears in
neither). `name` is the C++ member name. -/
structure FInfo where
  name : Bytes
  wlabel : Bytes
  key : Bytes
  transient : Bool
deriving DecidableEq, Repr

mutual
/-- The C++ types for which `json<T>` exists in generated code: `field<T>`, a bare arithmetic type (only as the element
of a container), `string_field`, `std::vector<uint8_t>` with base64, a container, and a message.  `obf` tells whether
`index` reveals the name first (code.txt:225-230). -/
inductive Ty
  | num (p : Prim)
  | raw (p : Prim)
  | str
  | bytes
  | rep (t : Ty)
  | msg (obf : Bool) (fs : Fields)
/-- The fields of a message in struct order. -/
inductive Fields
  | nil
  | cons (f : FInfo) (t : Ty) (rest : Fields)
end

deriving instance DecidableEq for Ty, Fields

mutual
/-- The values of a generated C++ type.  `std::list` and `std::vector` are both lists here (cppgen.cc:145-155). -/
@[reducible] def Ty.Den : Ty → Type
  | .num p => NumField p
  | .raw p => p.Den
  | .str => StrField
  | .bytes => List Byte
  | .rep t => List t.Den
  | .msg _ fs => fs.Den
/-- The values of a generated struct (cppgen.cc:190-205). -/
@[reducible] def Fields.Den : Fields → Type
  | .nil => Unit
  | .cons _ t rest => t.Den × rest.Den
end

mutual
/-- Equality of objects as data. -/
def Ty.decEq : (t : Ty) → DecidableEq t.Den
  | .num p => inferInstanceAs (DecidableEq (NumField p))
  | .raw p => inferInstanceAs (DecidableEq p.Den)
  | .str => inferInstanceAs (DecidableEq StrField)
  | .bytes => inferInstanceAs (DecidableEq (List Byte))
  | .rep t => have := Ty.decEq t; inferInstanceAs (DecidableEq (List t.Den))
  | .msg _ fs => Fields.decEq fs
/-- Equality of structures as data. -/
def Fields.decEq : (fs : Fields) → DecidableEq fs.Den
  | .nil => inferInstanceAs (DecidableEq Unit)
  | .cons _ t rest =>
    have := Ty.decEq t
    have := Fields.decEq rest
    inferInstanceAs (DecidableEq (t.Den × rest.Den))
end

instance (t : Ty) : DecidableEq t.Den := Ty.decEq t
instance (fs : Fields) : DecidableEq fs.Den := Fields.decEq fs

mutual
/-- Default construction of a generated type (value members of json-number.hh:12-13, json-string.hh:11-12; an
uninitialised arithmetic temporary, json-array.hh:47, is given the value 0 -- it is never used before it is
assigned). -/
def Ty.new : (t : Ty) → t.Den
  | .num _ => NumField.new
  | .raw p => p.zero
  | .str => StrField.new
  | .bytes => ([] : List Byte)
  | .rep t => ([] : List t.Den)
  | .msg _ fs => Fields.new fs
/-- Default construction of a structure. -/
def Fields.new : (fs : Fields) → fs.Den
  | .nil => ()
  | .cons _ t rest => (t.new, rest.new)
end

mutual
/-- `json<T>::empty`: json-number.hh:136, 160, 184; json-string.hh:175; json-base64.hh:102; json-array.hh:74; messages
code.txt:115-131.  (For bare arithmetic types `empty` is never called by generated code.) -/
def Ty.empty : (t : Ty) → t.Den → Bool
  | .num _, v => v.empty
  | .raw p, v => p.near v p.zero
  | .str, v => v.empty
  | .bytes, v => List.isEmpty v
  | .rep _, v => List.isEmpty v
  | .msg _ fs, v => fs.empty v
/-- code.txt:119-131: conjunction over all fields, transient ones included (cppgen.cc:327-331). -/
def Fields.empty : (fs : Fields) → fs.Den → Bool
  | .nil, _ => true
  | .cons _ t rest, v => t.empty v.1 && rest.empty v.2
end

mutual
/-- `json<T>::clear`: json-number.hh:137, 161, 185; json-string.hh:176; json-base64.hh:103; json-array.hh:75; messages
code.txt:135-149. -/
def Ty.clear : (t : Ty) → t.Den → t.Den
  | .num _, v => v.clear
  | .raw p, _ => p.zero
  | .str, v => v.clear
  | .bytes, _ => ([] : List Byte)
  | .rep t, _ => ([] : List t.Den)
  | .msg _ fs, v => fs.clear v
/-- code.txt:139-149, all fields (cppgen.cc:347-351). -/
def Fields.clear : (fs : Fields) → fs.Den → fs.Den
  | .nil, _ => ()
  | .cons _ t rest, v => (t.clear v.1, rest.clear v.2)
end

/-- `std::vector`/`std::list` `operator==`: same size and pairwise equal elements (C++ library). -/
def listEq {α : Type} (e : α → α → Bool) : List α → List α → Bool
  | [], [] => true
  | a :: as, b :: bs => e a b && listEq e as bs
  | _, _ => false

mutual
/-- `json<T>::equal` and, for container elements, `operator==`: json-number.hh:27, 138, 186; json-string.hh:32, 177;
json-base64.hh:104; json-array.hh:76; messages code.txt:153-169 and protogen.hh:703. -/
def Ty.equal : (t : Ty) → t.Den → t.Den → Bool
  | .num _, a, b => NumField.eq a b
  | .raw p, a, b => p.ceq a b
  | .str, a, b => StrField.eq a b
  | .bytes, a, b => listEq (fun x y => x == y) a b
  | .rep t, a, b => listEq t.equal a b
  | .msg _ fs, a, b => fs.equal a b
/-- code.txt:157-169, all fields (cppgen.cc:367-371). -/
def Fields.equal : (fs : Fields) → fs.Den → fs.Den → Bool
  | .nil, _, _ => true
  | .cons _ t rest, a, b => t.equal a.1 b.1 && rest.equal a.2 b.2
end

mutual
/-- `json<T>::swap`: json-number.hh:139, 163, 187; json-string.hh:178; json-base64.hh:105; json-array.hh:77; messages
code.txt:173-187.  The result is the pair of the new values. -/
def Ty.swap : (t : Ty) → t.Den → t.Den → t.Den × t.Den
  | .num _, a, b => NumField.swap a b
  | .raw _, a, b => (b, a)
  | .str, a, b => StrField.swap a b
  | .bytes, a, b => (b, a)
  | .rep _, a, b => (b, a)
  | .msg _ fs, a, b => fs.swap a b
/-- code.txt:177-187, all fields (cppgen.cc:387-391). -/
def Fields.swap : (fs : Fields) → fs.Den → fs.Den → fs.Den × fs.Den
  | .nil, a, b => (a, b)
  | .cons _ t rest, a, b =>
    let r := t.swap a.1 b.1
    let s := rest.swap a.2 b.2
    ((r.1, s.1), (r.2, s.2))
end

/-- Copy assignment of a container (C++ library).  An implementation may reuse existing elements by assigning to them
(`reuse`, what libstdc++ does when the capacity suffices) or construct all elements anew. -/
def listAssign {α : Type} (asg : α → α → α) (reuse : Bool) : List α → List α → List α
  | a :: as, b :: bs => (if reuse then asg a b else b) :: listAssign asg reuse as bs
  | [], bs => bs
  | _, [] => []

mutual
/-- Copy assignment: json-number.hh:23, json-string.hh:25; messages by the implicitly defined memberwise assignment
(json.hh:71). -/
def Ty.assign (reuse : Bool) : (t : Ty) → t.Den → t.Den → t.Den
  | .num _, a, b => NumField.assign a b
  | .raw _, _, b => b
  | .str, a, b => StrField.assign a b
  | .bytes, _, b => b
  | .rep t, a, b => listAssign (t.assign reuse) reuse a b
  | .msg _ fs, a, b => fs.assign reuse a b
/-- Memberwise copy assignment. -/
def Fields.assign (reuse : Bool) : (fs : Fields) → fs.Den → fs.Den → fs.Den
  | .nil, _, _ => ()
  | .cons _ t rest, a, b => (t.assign reuse a.1 b.1, rest.assign reuse a.2 b.2)
end

/-- protogen.hh:607-615 `rol<uint8_t>`; the shift counts used are 0..7. -/
def rol8 (value count : Nat) : Nat := ((value <<< count) ||| (value >>> ((8 - count) % 8))) % 256

/-- protogen.hh:620, cppgen.cc:216: the mask for a text of the given length. -/
def obfMask (len : Nat) : Byte := byte (rol8 0x93 (len % 8))

/-- protogen.hh:617-625 `reveal`. -/
def reveal (s : Bytes) : Bytes := s.map (fun b => b ^^^ obfMask s.length)

/-- code.txt:232-234 with cppgen.cc:409-421: the `FIELDS` table.  The running number counts persistent fields. -/
def Fields.table : Fields → Nat → List (Bytes × Nat)
  | .nil, _ => []
  | .cons f _ rest, i => if f.transient then rest.table i else (f.key, i) :: rest.table (i + 1)

/-- `FIELDS.find(temp)` on an `unordered_map` built from an initializer list: the first entry of a key is kept. -/
def lookupKey (k : Bytes) : List (Bytes × Nat) → Option Nat
  | [] => none
  | (k', i) :: t => if k' = k then some i else lookupKey k t

/-- code.txt:218-240 `index(name)`; `none` is -1. -/
def indexOf (obf : Bool) (fs : Fields) (name : Bytes) : Option Nat :=
  lookupKey (if obf then reveal name else name) (fs.table 0)

end PG
