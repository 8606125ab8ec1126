import Verif.Proofs.CxxEntry
import Verif.Props.Runtime
/-
C92: the functions that a program calls, parsed and executed as C++ (as in Props/Runtime).
-/
set_option autoImplicit false
namespace PG.Cxx
open PG.Gen

/-- The serializer of a type, with fuel for the loops of its reader.  `read_field` of generated classes is in C85. -/
def typeCodec (t : Ty) (m : Nat) (rf : Bytes → Tz → t.Den → Res t.Den) : Codec t.Den :=
  ⟨t.read m, rf, t.write, t.empty, t.clear, t.equal, t.swap⟩

section
variable (σ : Bool) (t : Ty) (rf : Bytes → Tz → t.Den → Res t.Den)

/-- C92: `deserialize(istream&)` of a message and `deserialize_array`, on any stream: the return value, the parameters of the
caller and the object are those of the model, and there is a result exactly if there is one in the model. -/
theorem C92_deserialize :
    Does (jsonLines.map splice) 74 87 (fun f => ∀ (n m : Nat) (ps : Option Params) (s : Scene t.Den),
      f.run (entryLib σ (typeCodec t m rf)) n [.dom .source, paramsArg ps] s =
      (deserializeFrom t m s.inp ps s.obj).map fun r => (.bool r.ret, [.dom .source, paramsArg r.params],
        { s with obj := r.obj, inp := (t.read m (Tz.open' s.inp (ctxParams ps).err) s.obj).2.1.inp })) ∧
    Does arrayLines 85 98 (fun f => ∀ (n m : Nat) (ps : Option Params) (v : t.Den) (s : Scene t.Den),
      f.run (entryLib σ (typeCodec t m rf)) n [.dom (.obj v), .dom .source, paramsArg ps] s =
      (deserializeFrom t m s.inp ps v).map fun r => (.bool r.ret, [.dom (.obj r.obj), .dom .source, paramsArg r.params],
        { s with inp := (t.read m (Tz.open' s.inp (ctxParams ps).err) v).2.1.inp })) := by
  refine ⟨⟨_, deserFun_text, fun n m ps s => (deser_runs _ n s ps).trans ?_⟩,
    ⟨_, deserArrFun_text, fun n m ps v s => (deserArr_runs _ n s v ps).trans ?_⟩⟩
  · simp only [typeCodec, deserializeFrom]
    obtain ⟨rc, tz, v', hr⟩ : ∃ rc tz v', Ty.read t m (Tz.open' s.inp (ctxParams ps).err) s.obj = (rc, tz, v') := ⟨_, _, _, rfl⟩
    simp only [hr]
    cases rc <;> rfl
  · simp only [typeCodec, deserializeFrom]
    obtain ⟨rc, tz, v', hr⟩ : ∃ rc tz v', Ty.read t m (Tz.open' s.inp (ctxParams ps).err) v = (rc, tz, v') := ⟨_, _, _, rfl⟩
    simp only [hr]
    cases rc <;> rfl

/-- C92: `serialize(ostream&)` of a message and `serialize_array`. -/
theorem C92_serialize :
    Does (jsonLines.map splice) 88 100 (fun f => ∀ (n m : Nat) (ps : Option Params) (s : Scene t.Den),
      f.run (entryLib σ (typeCodec t m rf)) n [.dom .sink, paramsArg ps] s =
      some (.bool (serialize t ps s.obj).ret, [.dom .sink, paramsArg (serialize t ps s.obj).params],
        { s with out := s.out ++ (serialize t ps s.obj).out })) ∧
    Does arrayLines 128 140 (fun f => ∀ (n m : Nat) (ps : Option Params) (v : t.Den) (s : Scene t.Den),
      f.run (entryLib σ (typeCodec t m rf)) n [.dom (.obj v), .dom .sink, paramsArg ps] s =
      some (.bool (serialize t ps v).ret, [.dom (.obj v), .dom .sink, paramsArg (serialize t ps v).params],
        { s with out := s.out ++ (serialize t ps v).out })) := by
  refine ⟨⟨_, serFun_text, fun n m ps s => (ser_runs _ n s ps).trans ?_⟩,
    ⟨_, serArrFun_text, fun n m ps v s => (serArr_runs _ n s v ps).trans ?_⟩⟩
  · simp only [typeCodec, serialize]
    obtain ⟨rc, out, e, hr⟩ : ∃ rc out e, Ty.write (ctxParams ps) t s.obj (ctxParams ps).err = (rc, out, e) := ⟨_, _, _, rfl⟩
    have hw := write_ends (ctxParams ps) t s.obj (ctxParams ps).err
    rw [hr] at hw
    simp only [hr]
    cases rc <;> first | rfl | exact absurd rfl hw
  · simp only [typeCodec, serialize]
    obtain ⟨rc, out, e, hr⟩ : ∃ rc out e, Ty.write (ctxParams ps) t v (ctxParams ps).err = (rc, out, e) := ⟨_, _, _, rfl⟩
    have hw := write_ends (ctxParams ps) t v (ctxParams ps).err
    rw [hr] at hw
    simp only [hr]
    cases rc <;> first | rfl | exact absurd rfl hw

/-- C92: the one-line members of the class of a message. -/
theorem C92_members (m : Nat) :
    Does (jsonLines.map splice) 101 101 (fun f => ∀ (n : Nat) (s : Scene t.Den),
      f.run (entryLib σ (typeCodec t m rf)) n [] s = some (.void, [], { s with obj := t.clear s.obj })) ∧
    Does (jsonLines.map splice) 102 102 (fun f => ∀ (n : Nat) (s : Scene t.Den),
      f.run (entryLib σ (typeCodec t m rf)) n [] s = some (.bool (t.empty s.obj), [], s)) ∧
    Does (jsonLines.map splice) 103 103 (fun f => ∀ (n : Nat) (w : t.Den) (s : Scene t.Den),
      f.run (entryLib σ (typeCodec t m rf)) n [.dom (.obj w)] s = some (.bool (t.equal s.obj w), [.dom (.obj w)], s)) ∧
    Does (jsonLines.map splice) 104 104 (fun f => ∀ (n : Nat) (w : t.Den) (s : Scene t.Den),
      f.run (entryLib σ (typeCodec t m rf)) n [.dom (.obj w)] s =
      some (.void, [.dom (.obj (t.swap s.obj w).2)], { s with obj := (t.swap s.obj w).1 })) :=
  ⟨⟨_, entClearFun_text, fun n s => entClear_runs _ n s⟩,
   ⟨_, entEmptyFun_text, fun n s => entEmpty_runs _ n s⟩,
   ⟨_, entEqualFun_text, fun n w s => entEqual_runs _ n s w⟩,
   ⟨_, entSwapFun_text, fun n w s => entSwap_runs _ n s w⟩⟩

end

/-- C92: the class `json<N>` of a message hands everything over to the serializer `S`, whatever that is. -/
theorem C92_serializer (σ : Bool) {V : Type} (h : Codec V) :
    Does (jsonLines.map splice) 112 112 (fun f => ∀ (n : Nat) (s : Scene V) (v : V) (t : Token) (o : Bool) (q : Params),
      f.run (entryLib σ h) n [.dom (.ctx ⟨some t, o, q⟩), .dom (.obj v)] s =
      (let r := h.read ⟨t, s.inp, q.err⟩ v
       (rcNumber r.1).map fun i : Nat =>
        (.int .i32 i, [.dom (.ctx ⟨some r.2.1.cur, o, { q with err := r.2.1.err }⟩), .dom (.obj r.2.2)], { s with inp := r.2.1.inp }))) ∧
    Does (jsonLines.map splice) 113 113 (fun f => ∀ (n : Nat) (s : Scene V) (v : V) (t : Token) (o : Bool) (q : Params) (name : Bytes),
      f.run (entryLib σ h) n [.dom (.ctx ⟨some t, o, q⟩), .str name, .dom (.obj v)] s =
      (let r := h.readField name ⟨t, s.inp, q.err⟩ v
       (rcNumber r.1).map fun i : Nat =>
        (.int .i32 i, [.dom (.ctx ⟨some r.2.1.cur, o, { q with err := r.2.1.err }⟩), .str name, .dom (.obj r.2.2)],
          { s with inp := r.2.1.inp }))) ∧
    Does (jsonLines.map splice) 114 114 (fun f => ∀ (n : Nat) (s : Scene V) (v : V) (k : Option Token) (q : Params),
      f.run (entryLib σ h) n [.dom (.ctx ⟨k, true, q⟩), .dom (.obj v)] s =
      (let r := h.write q v q.err
       (rcNumber r.1).map fun i : Nat =>
        (.int .i32 i, [.dom (.ctx ⟨k, true, { q with err := r.2.2 }⟩), .dom (.obj v)], { s with out := s.out ++ r.2.1 }))) ∧
    Does (jsonLines.map splice) 115 115 (fun f => ∀ (n : Nat) (s : Scene V) (v : V),
      f.run (entryLib σ h) n [.dom (.obj v)] s = some (.bool (h.empty v), [.dom (.obj v)], s)) ∧
    Does (jsonLines.map splice) 116 116 (fun f => ∀ (n : Nat) (s : Scene V) (v : V),
      f.run (entryLib σ h) n [.dom (.obj v)] s = some (.void, [.dom (.obj (h.clear v))], s)) ∧
    Does (jsonLines.map splice) 117 117 (fun f => ∀ (n : Nat) (s : Scene V) (v w : V),
      f.run (entryLib σ h) n [.dom (.obj v), .dom (.obj w)] s = some (.bool (h.equal v w), [.dom (.obj v), .dom (.obj w)], s)) ∧
    Does (jsonLines.map splice) 118 118 (fun f => ∀ (n : Nat) (s : Scene V) (v w : V),
      f.run (entryLib σ h) n [.dom (.obj v), .dom (.obj w)] s =
      some (.void, [.dom (.obj (h.swap v w).1), .dom (.obj (h.swap v w).2)], s)) :=
  ⟨⟨_, swReadFun_text, fun n s v t o q => swRead_runs h n s v t o q⟩,
   ⟨_, swReadFieldFun_text, fun n s v t o q name => swReadField_runs h n s v t o q name⟩,
   ⟨_, swWriteFun_text, fun n s v k q => swWrite_runs h n s v q k⟩,
   ⟨_, swEmptyFun_text, fun n s v => swEmpty_runs h n s v⟩,
   ⟨_, swClearFun_text, fun n s v => swClear_runs h n s v⟩,
   ⟨_, swEqualFun_text, fun n s v w => swEqual_runs h n s v w⟩,
   ⟨_, swSwapFun_text, fun n s v w => swSwap_runs h n s v w⟩⟩

section
variable (σ : Bool) (t : Ty)

/-- The library for the overloads, with the functions of C92_deserialize and C92_serialize. -/
def overLib (m : Nat) : Lib (Way t.Den) (Place' t.Den) := wayLib σ (deserializeFrom t m) (serialize t) t.equal

/-- C92: the overloads of `deserialize` for a string, a vector, a `std::istream` and memory, and those of `deserialize_array` for a
string and a vector, read the bytes that they are given; those of the `std::istream` include white space, and its flag `skipws` is
restored. -/
theorem C92_inputs :
    Does protogenLines 649 653 (fun f => ∀ (n : Nat) (x : Bytes) (ps : Option Params) (s : Place' t.Den),
      f.run (overLib σ t (fuelFor x)) n [.str x, paramsPtr ps] s =
      (deserialize t x ps s.obj).map fun r => (.bool r.ret, [.str x, paramsPtr r.params], { s with obj := r.obj })) ∧
    Does protogenLines 663 667 (fun f => ∀ (n : Nat) (x : Bytes) (ps : Option Params) (s : Place' t.Den),
      f.run (overLib σ t (fuelFor x)) n [.str x, paramsPtr ps] s =
      (deserialize t x ps s.obj).map fun r => (.bool r.ret, [.str x, paramsPtr r.params], { s with obj := r.obj })) ∧
    Does protogenLines 637 647 (fun f => ∀ (n : Nat) (ps : Option Params) (s : Place' t.Den),
      f.run (overLib σ t (fuelFor s.content)) n [.dom .stdin, paramsPtr ps] s =
      (deserialize t s.content ps s.obj).map fun r => (.bool r.ret, [.dom .stdin, paramsPtr r.params], { s with obj := r.obj })) ∧
    Does protogenLines 655 661 (fun f => ∀ (n : Nat) (ps : Option Params) (before x after : Bytes) (b : Bool) (s : Place' t.Den),
      s.block = before ++ x ++ after →
      f.run (overLib σ t (fuelFor x)) n [.dom (.addr b before.length), .int .u64 (x.length : Int), paramsPtr ps] s =
      (deserialize t x ps s.obj).map fun r =>
        (.bool r.ret, [.dom (.addr b before.length), .int .u64 (x.length : Int), paramsPtr r.params], { s with obj := r.obj })) ∧
    Does arrayLines 101 105 (fun f => ∀ (n : Nat) (v : t.Den) (x : Bytes) (ps : Option Params) (s : Place' t.Den),
      f.run (overLib σ t (fuelFor x)) n [.dom (.obj v), .str x, paramsPtr ps] s =
      (deserialize t x ps v).map fun r => (.bool r.ret, [.dom (.obj r.obj), .str x, paramsPtr r.params], s)) ∧
    Does arrayLines 117 121 (fun f => ∀ (n : Nat) (v : t.Den) (x : Bytes) (ps : Option Params) (s : Place' t.Den),
      f.run (overLib σ t (fuelFor x)) n [.dom (.obj v), .str x, paramsPtr ps] s =
      (deserialize t x ps v).map fun r => (.bool r.ret, [.dom (.obj r.obj), .str x, paramsPtr r.params], s)) := by
  refine ⟨⟨_, deserStrFun_text, fun n x ps s => deserStr_runs _ _ _ n s x ps⟩,
    ⟨_, deserVecFun_text, fun n x ps s => deserVec_runs _ _ _ n s x ps⟩,
    ⟨_, deserStdFun_text, fun n ps s => deserStd_runs _ _ _ n s ps⟩,
    ⟨_, deserMemFun_text, fun n ps before x after b s hs => ?_⟩,
    ⟨_, deserArrStrFun_text, fun n v x ps s => deserArrStr_runs _ _ _ n s v x ps⟩,
    ⟨_, deserArrVecFun_text, fun n v x ps s => deserArrVec_runs _ _ _ n s v x ps⟩⟩
  have h := deserMem_runs (σ := σ) (deserializeFrom t (fuelFor x)) (serialize t) t.equal n s ps before.length x.length b
    (by rw [hs]; simp only [List.length_append]; omega)
  have e : (s.block.take (before.length + x.length)).drop before.length = x := by
    rw [hs, ← List.length_append, List.take_left, List.drop_left]
  rw [e] at h
  exact h

/-- C92: the overloads of `serialize` for a string, a vector and a `std::ostream`, and of `serialize_array` for a string and a vector,
append the text; that for memory fills the block. -/
theorem C92_outputs (m : Nat) :
    Does protogenLines 669 675 (fun f => ∀ (n : Nat) (ps : Option Params) (s : Place' t.Den),
      f.run (overLib σ t m) n [.dom .sink, paramsPtr ps] s =
      (let r := serializeString t ps s.obj s.out
       some (.bool r.1, [.dom .sink, paramsPtr r.2.1], { s with out := r.2.2 }))) ∧
    Does protogenLines 677 683 (fun f => ∀ (n : Nat) (ps : Option Params) (s : Place' t.Den),
      f.run (overLib σ t m) n [.dom .sink, paramsPtr ps] s =
      (let r := serializeString t ps s.obj s.out
       some (.bool r.1, [.dom .sink, paramsPtr r.2.1], { s with out := r.2.2 }))) ∧
    Does protogenLines 692 698 (fun f => ∀ (n : Nat) (ps : Option Params) (s : Place' t.Den),
      f.run (overLib σ t m) n [.dom .sink, paramsPtr ps] s =
      (let r := serializeString t ps s.obj s.out
       some (.bool r.1, [.dom .sink, paramsPtr r.2.1], { s with out := r.2.2 }))) ∧
    Does protogenLines 685 690 (fun f => ∀ (n : Nat) (ps : Option Params) (s : Place' t.Den),
      f.run (overLib σ t m) n [.dom (.addr false 0), .int .u64 (s.block.length : Int), paramsPtr ps] s =
      (serializeBuf t ps s.obj s.block).map fun r =>
        (.bool r.1, [.dom (.addr false 0), .int .u64 (s.block.length : Int), paramsPtr r.2.1], { s with block := r.2.2 })) ∧
    Does arrayLines 143 149 (fun f => ∀ (n : Nat) (v : t.Den) (ps : Option Params) (s : Place' t.Den),
      f.run (overLib σ t m) n [.dom (.obj v), .dom .sink, paramsPtr ps] s =
      (let r := serializeString t ps v s.out
       some (.bool r.1, [.dom (.obj v), .dom .sink, paramsPtr r.2.1], { s with out := r.2.2 }))) ∧
    Does arrayLines 152 158 (fun f => ∀ (n : Nat) (v : t.Den) (ps : Option Params) (s : Place' t.Den),
      f.run (overLib σ t m) n [.dom (.obj v), .dom .sink, paramsPtr ps] s =
      (let r := serializeString t ps v s.out
       some (.bool r.1, [.dom (.obj v), .dom .sink, paramsPtr r.2.1], { s with out := r.2.2 }))) := by
  refine ⟨⟨_, serStrFun_text, fun n ps s => serStr_runs _ _ _ n s ps⟩,
    ⟨_, serStdFun_text, fun n ps s => serStd_runs _ _ _ n s ps⟩,
    ⟨_, serVecFun_text, fun n ps s => serVec_runs _ _ _ n s ps⟩,
    ⟨_, serMemFun_text, fun n ps s => (serMem_runs _ _ _ n s ps 0 s.block.length).trans ?_⟩,
    ⟨_, serArrStrFun_text, fun n v ps s => serArrStr_runs _ _ _ n s v ps⟩,
    ⟨_, serArrVecFun_text, fun n v ps s => serArrVec_runs _ _ _ n s v ps⟩⟩
  simp only [serializeBuf, Nat.zero_add]
  cases memPutAll (s.block, ⟨0, s.block.length⟩) (serialize t ps s.obj).out <;> rfl

/-- C92: `==` and `!=`. -/
theorem C92_comparison (m : Nat) :
    Does protogenLines 703 703 (fun f => ∀ (n : Nat) (w : t.Den) (s : Place' t.Den),
      f.run (overLib σ t m) n [.dom (.obj w)] s = some (.bool (t.equal s.obj w), [.dom (.obj w)], s)) ∧
    Does protogenLines 704 704 (fun f => ∀ (n : Nat) (w : t.Den) (s : Place' t.Den),
      f.run (overLib σ t m) n [.dom (.obj w)] s = some (.bool (!t.equal s.obj w), [.dom (.obj w)], s)) :=
  ⟨⟨_, msgEqFun_text, fun n w s => msgEq_runs _ _ _ n s w⟩, ⟨_, msgNeFun_text, fun n w s => msgNe_runs _ _ _ n s w⟩⟩

/-- C92, negated for one function: `deserialize_array(T&, const char*, size_t)` (json-array.hh:107-114) makes a `mem_iterator<char>`,
whose constructor takes a `char*`, from a `const char*`.  There is no call of it, for any type, text or parameters, that can be
executed (a program that calls it is not accepted by a compiler). -/
theorem C92_is_false :
    Does arrayLines 108 114 (fun f => f.params.map (·.2) = [n!"container", n!"in", n!"len", n!"params"] ∧
      f.params.map (·.1) = [n!"T &", n!"const char *", n!"size_t", n!"Parameters *"] ∧
      ∀ (n m i : Nat) (len : Int) (v : t.Den) (ps : Option Params) (s : Place' t.Den),
        f.run (overLib σ t m) n [.dom (.obj v), .dom (.addr true i), .int .u64 len, paramsPtr ps] s = none) :=
  ⟨_, deserArrMemFun_text, rfl, rfl, fun n m i len v ps s => deserArrMem_runs _ _ _ n s v ps i len⟩

end

/-- A block with text around it; the flag of a stream in both states. -/
example : (let s : Place' Nat := ⟨0, true, b!" 1", b!"x[1]y", []⟩
    s.block = b!"x" ++ b!"[1]" ++ b!"y" ∧ extracted s.skipws s.content = b!"1" ∧ extracted false s.content = b!" 1") := by decide +kernel

end PG.Cxx
