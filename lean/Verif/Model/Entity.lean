import Verif.Model.Write
/-
The public entry points: PG_X_Y_Z_ENTITY (source/cpp/json.hh:63-105), `message<T,J>` (protogen.hh:628-705) and the
array functions (json-array.hh:84-158), with the input and output iterators (protogen.hh:121-245).
-/
namespace PG

/-- `json_context::params` (json.hh:11-19): default parameters, or a copy of the caller's with its error cleared
(json.hh:76-80, 90-95; json-array.hh:87-91). -/
def ctxParams (params : Option Params) : Params :=
  match params with
  | none => {}
  | some q => { q with err := {} }

/-- What the caller's parameters contain after the call (json.hh:77-80, 84-86, 92-95, 97-99): the error is cleared
first, and replaced by the context's only when the call fails. -/
def paramsAfter (params : Option Params) (ok : Bool) (err : ErrInfo) : Option Params :=
  match params with
  | none => none
  | some q => some { q with err := if ok then {} else err }

/-- Result of a `deserialize` call: return value, caller's parameters, object. -/
structure DRes (α : Type) where
  ret : Bool
  params : Option Params
  obj : α

/-- json.hh:74-87 `deserialize(istream&, Parameters*)`, and json-array.hh:84-98 `deserialize_array`, over the stream
`s`, with fuel `n`; `none`: the loops did not finish within the fuel. -/
def deserializeFrom (t : Ty) (n : Nat) (s : IStream) (params : Option Params) (v : t.Den) : Option (DRes t.Den) :=
  let r := t.read n (Tz.open' s (ctxParams params).err) v
  match r.1 with
  | .fuel => none
  | rc => some { ret := rc = .ok, params := paramsAfter params (rc = .ok) r.2.1.err, obj := r.2.2 }

/-- The fuel given to the loops for an input of a given length; it is always enough (proved). -/
def fuelFor (bs : Bytes) : Nat := 2 * bs.length + 8

/-- protogen.hh:649-653 `deserialize(const std::string&)`, also 663-667 `std::vector<char>` and (bytes delivered by
`std::istream_iterator` with `noskipws`) 637-647, json-array.hh:101-105, 117-121. -/
def deserialize (t : Ty) (input : Bytes) (params : Option Params) (v : t.Den) : Option (DRes t.Den) :=
  deserializeFrom t (fuelFor input) (IStream.open' input) params v

/-- Result of a `serialize` call: return value, caller's parameters, bytes sent to the output stream. -/
structure SRes where
  ret : Bool
  params : Option Params
  out : Bytes
deriving DecidableEq, Repr

/-- json.hh:88-100 `serialize(ostream&, Parameters*)`, and json-array.hh:127-140 `serialize_array`. -/
def serialize (t : Ty) (params : Option Params) (v : t.Den) : SRes :=
  let p := ctxParams params
  let r := t.write p v p.err
  { ret := r.1 = .ok, params := paramsAfter params (r.1 = .ok) r.2.2, out := r.2.1 }

/-- protogen.hh:669-675 `serialize(std::string&)`, and 692-698 `std::vector<char>`, 677-683 `std::ostream`: a
`back_insert_iterator`/`ostream_iterator` ignores `++` and appends on assignment through `*`. -/
def serializeString (t : Ty) (params : Option Params) (v : t.Den) (out : Bytes) : Bool × Option Params × Bytes :=
  let r := serialize t params v
  (r.ret, r.params, out ++ r.out)

/-- protogen.hh:195-218 `mem_const_iterator<char>` over a memory block: index of the cursor and of the end.  Reads are
recorded as the set of accessed indices by `deref`. -/
structure MemIt where
  cursor : Nat
  endp : Nat
deriving DecidableEq, Repr

namespace MemIt
/-- protogen.hh:202-206 `operator++`. -/
def inc (i : MemIt) : MemIt := if i.cursor < i.endp then { i with cursor := i.cursor + 1 } else i
/-- protogen.hh:207-211 `operator*`: the accessed index, `none` for the internal `empty` object. -/
def deref (i : MemIt) : Option Nat := if i.cursor ≥ i.endp then none else some i.cursor
end MemIt

/-- protogen.hh:220-245 `mem_iterator<char>` driven by `iterator_ostream` (protogen.hh:121-145): every byte is stored by
`*++beg_ = value`.  State: the memory block and the iterator.  A store through `empty` is lost; a store at an index
outside the block is undefined behaviour (`none`). -/
def memPut (st : Bytes × MemIt) (b : Byte) : Option (Bytes × MemIt) :=
  let it := st.2.inc
  match it.deref with
  | none => some (st.1, it)
  | some i => if i < st.1.length then some (st.1.set i b, it) else none

/-- Send a byte sequence to the memory sink. -/
def memPutAll (st : Bytes × MemIt) : Bytes → Option (Bytes × MemIt)
  | [] => some st
  | b :: bs => match memPut st b with
    | none => none
    | some st => memPutAll st bs

/-- protogen.hh:685-690 `serialize(char*, size_t)`: return value, parameters and the buffer of `buf.length` bytes
afterwards; `none` is undefined behaviour. -/
def serializeBuf (t : Ty) (params : Option Params) (v : t.Den) (buf : Bytes) : Option (Bool × Option Params × Bytes) :=
  let r := serialize t params v
  match memPutAll (buf, ⟨0, buf.length⟩) r.out with
  | none => none
  | some (buf, _) => some (r.ret, r.params, buf)

end PG
