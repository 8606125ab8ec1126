import Verif.Proofs.CxxEval
import Verif.Proofs.CxxEntryAst
/-
The entry points (json.hh:63-119, json-array.hh:80-158, protogen.hh:628-705), executed.
-/
set_option autoImplicit false
namespace PG.Cxx
variable {σ : Bool}

/-! ### Rules -/

section
variable {V : Type} {h : Codec V} (s : Scene V) (v w : V) (c : Ctx) (q r : Params) (e g : ErrInfo) (t : Token) (o : Bool)
theorem entry_signed : (entryLib σ h).signed = σ := (rfl)
theorem entry_ok : (entryLib σ h).constant [n!"protogen_X_Y_Z", n!"PGR_OK"] = some (.int .i32 0) := (rfl)
theorem entry_null : (entryLib σ h).constant [n!"nullptr"] = some .void := (rfl)
theorem entry_true : (entryLib σ h).constant [n!"true"] = some (.bool true) := (rfl)
theorem entry_false : (entryLib σ h).constant [n!"false"] = some (.bool false) := (rfl)
theorem entry_getNull : (entryLib σ h).get n!"nullptr" s = none := (rfl)
theorem entry_getTrue : (entryLib σ h).get n!"true" s = none := (rfl)
theorem entry_getFalse : (entryLib σ h).get n!"false" s = none := (rfl)
theorem entry_this : (entryLib σ h).get n!"this" s = some (.dom (.obj s.obj)) := (rfl)
theorem entry_setThis : (entryLib σ h).set n!"this" (.dom (.obj v)) s = some { s with obj := v } := (rfl)
theorem entry_error : (entryLib σ h).member (.dom (.params q)) n!"error" s = some (.dom (.err q.err)) := (rfl)
theorem entry_params : (entryLib σ h).member (.dom (.ctx c)) n!"params" s = some (.dom (.params c.params)) := (rfl)
theorem entry_tok : (entryLib σ h).member (.dom (.ctx c)) n!"tok" s = some (.undef none) := (rfl)
theorem entry_os : (entryLib σ h).member (.dom (.ctx c)) n!"os" s = some (.undef none) := (rfl)
theorem entry_setError : (entryLib σ h).update (.dom (.params q)) n!"error" (.dom (.err e)) = some (.dom (.params { q with err := e })) := (rfl)
theorem entry_setParams : (entryLib σ h).update (.dom (.ctx c)) n!"params" (.dom (.params q)) = some (.dom (.ctx { c with params := q })) := (rfl)
theorem entry_setTok : (entryLib σ h).update (.dom (.ctx c)) n!"tok" (.dom (.tok t)) = some (.dom (.ctx { c with tok := some t })) := (rfl)
theorem entry_setOs : (entryLib σ h).update (.dom (.ctx c)) n!"os" (.dom .sink) = some (.dom (.ctx { c with os := true })) := (rfl)
theorem entry_setObj : (entryLib σ h).update (.dom (.obj w)) n!"*" (.dom (.obj v)) = some (.dom (.obj v)) := (rfl)
theorem entry_tokenizer : (entryLib σ h).function [n!"protogen_X_Y_Z :: tokenizer"] s [.dom .source, .dom (.params q)] =
    some (.dom (.tok (Tz.open' s.inp q.err).cur), [none, some (.dom (.params { q with err := (Tz.open' s.inp q.err).err }))],
      { s with inp := (Tz.open' s.inp q.err).inp }) := (rfl)
theorem entry_move (x : Val (Part V)) : (entryLib σ h).function [n!"std", n!"move"] s [x] = some (x, [], s) := (rfl)
theorem entry_serializer (f : Name) (a : List (Val (Part V))) : (entryLib σ h).function [n!"S", f] s a = codec h f s a := (rfl)
theorem entry_static (f : Name) (a : List (Val (Part V))) : (entryLib σ h).statik n!"T" f s a = codec h f s a := (rfl)
theorem entry_clear : (entryLib σ h).method n!"clear" s [.dom (.err e)] = some (.void, [some (.dom (.err {}))], s) := (rfl)
theorem entry_starParams : (entryLib σ h).unary n!"*" (.dom (.params q)) s = some (.dom (.params q)) := (rfl)
theorem entry_starObj : (entryLib σ h).unary n!"*" (.dom (.obj v)) s = some (.dom (.obj v)) := (rfl)
theorem entry_ampTok : (entryLib σ h).unary n!"&" (.dom (.tok t)) s = some (.dom (.tok t)) := (rfl)
theorem entry_ampSink : (entryLib σ h).unary n!"&" (.dom .sink) s = some (.dom .sink) := (rfl)
theorem entry_given : (entryLib σ h).binary n!"!=" (.dom (.params q)) .void s = some (.bool true, s) := (rfl)
theorem entry_absent : (entryLib σ h).binary n!"!=" .void .void s = some (.bool false, s) := (rfl)
theorem binop_absent : binop (entryLib σ h) n!"!=" .void .void s = some (.bool false, s) := (rfl)
theorem unop_tok : unop (entryLib σ h) n!"&" (.dom (.tok t)) s = some (.dom (.tok t)) := (rfl)
theorem unop_sink : unop (entryLib σ h) n!"&" (.dom .sink) s = some (.dom .sink) := (rfl)
theorem entry_assignParams : (entryLib σ h).assign (.dom (.params q)) (.dom (.params r)) = some (.dom (.params r)) := (rfl)
theorem entry_assignErr : (entryLib σ h).assign (.dom (.err e)) (.dom (.err g)) = some (.dom (.err g)) := (rfl)
theorem initial_ctx : initial (entryLib σ h) n!"protogen_X_Y_Z :: json_context" none s = some (.dom (.ctx {})) := (rfl)
theorem codec_read : codec h n!"read" s [.dom (.ctx ⟨some t, o, q⟩), .dom (.obj v)] =
    (rcNumber (h.read ⟨t, s.inp, q.err⟩ v).1).map fun k : Nat =>
      (.int .i32 (k : Int), [some (.dom (.ctx ⟨some (h.read ⟨t, s.inp, q.err⟩ v).2.1.cur, o, { q with err := (h.read ⟨t, s.inp, q.err⟩ v).2.1.err }⟩)),
        some (.dom (.obj (h.read ⟨t, s.inp, q.err⟩ v).2.2))], { s with inp := (h.read ⟨t, s.inp, q.err⟩ v).2.1.inp }) := (rfl)
theorem codec_readField (name : Bytes) : codec h n!"read_field" s [.dom (.ctx ⟨some t, o, q⟩), .str name, .dom (.obj v)] =
    (rcNumber (h.readField name ⟨t, s.inp, q.err⟩ v).1).map fun k : Nat =>
      (.int .i32 (k : Int), [some (.dom (.ctx ⟨some (h.readField name ⟨t, s.inp, q.err⟩ v).2.1.cur, o,
          { q with err := (h.readField name ⟨t, s.inp, q.err⟩ v).2.1.err }⟩)), none,
        some (.dom (.obj (h.readField name ⟨t, s.inp, q.err⟩ v).2.2))], { s with inp := (h.readField name ⟨t, s.inp, q.err⟩ v).2.1.inp }) := (rfl)
theorem codec_write (k : Option Token) : codec h n!"write" s [.dom (.ctx ⟨k, true, q⟩), .dom (.obj v)] =
    (rcNumber (h.write q v q.err).1).map fun i : Nat =>
      (.int .i32 (i : Int), [some (.dom (.ctx ⟨k, true, { q with err := (h.write q v q.err).2.2 }⟩))],
        { s with out := s.out ++ (h.write q v q.err).2.1 }) := (rfl)
theorem codec_empty : codec h n!"empty" s [.dom (.obj v)] = some (.bool (h.empty v), [], s) := (rfl)
theorem codec_clear : codec h n!"clear" s [.dom (.obj v)] = some (.void, [some (.dom (.obj (h.clear v)))], s) := (rfl)
theorem codec_equal : codec h n!"equal" s [.dom (.obj v), .dom (.obj w)] = some (.bool (h.equal v w), [], s) := (rfl)
theorem codec_swap : codec h n!"swap" s [.dom (.obj v), .dom (.obj w)] =
    some (.void, [some (.dom (.obj (h.swap v w).1)), some (.dom (.obj (h.swap v w).2))], s) := (rfl)
end
attribute [cxx] entry_signed entry_ok entry_null entry_true entry_false entry_getNull entry_getTrue entry_getFalse entry_this
  entry_setThis entry_error entry_params entry_tok entry_os entry_setError entry_setParams entry_setTok entry_setOs entry_setObj
  entry_tokenizer entry_move entry_serializer entry_static entry_clear entry_starParams entry_starObj entry_ampTok entry_ampSink
  entry_given entry_absent binop_absent unop_tok unop_sink entry_assignParams entry_assignErr initial_ctx codec_empty codec_clear
  codec_equal codec_swap

/-! ### `deserialize(istream&)`, `serialize(ostream&)` -/

section
variable {V : Type} (h : Codec V) (n : Nat) (s : Scene V) (v w : V)

theorem deser_runs (ps : Option Params) :
    deserFun.run (entryLib σ h) n [.dom .source, paramsArg ps] s =
    (let r := h.read (Tz.open' s.inp (ctxParams ps).err) s.obj
     (rcNumber r.1).map fun _ : Nat =>
      (.bool (r.1 = .ok), [.dom .source, paramsArg (paramsAfter ps (r.1 = .ok) r.2.1.err)], { s with inp := r.2.1.inp, obj := r.2.2 })) := by
  have e : (ctxParams ps).err = {} := by cases ps <;> rfl
  rw [e]
  rcases hr : h.read (Tz.open' s.inp {}) s.obj with ⟨rc, tz, v'⟩
  have hr' : h.read ⟨(Tz.open' s.inp {}).cur, (Tz.open' s.inp {}).inp, (Tz.open' s.inp {}).err⟩ s.obj = (rc, tz, v') := hr
  cases ps <;> cases rc <;>
    cxxi [deserFun, paramsArg, codec_read, hr', rcNumber, paramsAfter, Int.reduceEq, decide_false, decide_true, Int.ofNat_zero, Option.map_none,
      Option.map_some, Option.bind_none]

theorem deserArr_runs (ps : Option Params) :
    deserArrFun.run (entryLib σ h) n [.dom (.obj v), .dom .source, paramsArg ps] s =
    (let r := h.read (Tz.open' s.inp (ctxParams ps).err) v
     (rcNumber r.1).map fun _ : Nat =>
      (.bool (r.1 = .ok), [.dom (.obj r.2.2), .dom .source, paramsArg (paramsAfter ps (r.1 = .ok) r.2.1.err)], { s with inp := r.2.1.inp })) := by
  have e : (ctxParams ps).err = {} := by cases ps <;> rfl
  rw [e]
  rcases hr : h.read (Tz.open' s.inp {}) v with ⟨rc, tz, v'⟩
  have hr' : h.read ⟨(Tz.open' s.inp {}).cur, (Tz.open' s.inp {}).inp, (Tz.open' s.inp {}).err⟩ v = (rc, tz, v') := hr
  cases ps <;> cases rc <;>
    cxxi [deserArrFun, paramsArg, codec_read, hr', rcNumber, paramsAfter, Int.reduceEq, decide_false, decide_true, Int.ofNat_zero,
      Option.map_none, Option.map_some, Option.bind_none]

theorem ser_runs (ps : Option Params) :
    serFun.run (entryLib σ h) n [.dom .sink, paramsArg ps] s =
    (let r := h.write (ctxParams ps) s.obj (ctxParams ps).err
     (rcNumber r.1).map fun _ : Nat =>
      (.bool (r.1 = .ok), [.dom .sink, paramsArg (paramsAfter ps (r.1 = .ok) r.2.2)], { s with out := s.out ++ r.2.1 })) := by
  cases ps with
  | none =>
    rcases hr : h.write {} s.obj {} with ⟨rc, out, e⟩
    cases rc <;>
    cxxi [serFun, paramsArg, codec_write, ctxParams, hr, rcNumber, paramsAfter, Int.reduceEq, decide_false, decide_true, Int.ofNat_zero,
      Option.map_none, Option.map_some, Option.bind_none]
  | some q =>
    rcases hr : h.write { q with err := {} } s.obj {} with ⟨rc, out, e⟩
    cases rc <;>
    cxxi [serFun, paramsArg, codec_write, ctxParams, hr, rcNumber, paramsAfter, Int.reduceEq, decide_false, decide_true, Int.ofNat_zero,
      Option.map_none, Option.map_some, Option.bind_none]

theorem serArr_runs (ps : Option Params) :
    serArrFun.run (entryLib σ h) n [.dom (.obj v), .dom .sink, paramsArg ps] s =
    (let r := h.write (ctxParams ps) v (ctxParams ps).err
     (rcNumber r.1).map fun _ : Nat =>
      (.bool (r.1 = .ok), [.dom (.obj v), .dom .sink, paramsArg (paramsAfter ps (r.1 = .ok) r.2.2)], { s with out := s.out ++ r.2.1 })) := by
  cases ps with
  | none =>
    rcases hr : h.write {} v {} with ⟨rc, out, e⟩
    cases rc <;>
    cxxi [serArrFun, paramsArg, codec_write, ctxParams, hr, rcNumber, paramsAfter, Int.reduceEq, decide_false, decide_true, Int.ofNat_zero,
      Option.map_none, Option.map_some, Option.bind_none]
  | some q =>
    rcases hr : h.write { q with err := {} } v {} with ⟨rc, out, e⟩
    cases rc <;>
    cxxi [serArrFun, paramsArg, codec_write, ctxParams, hr, rcNumber, paramsAfter, Int.reduceEq, decide_false, decide_true, Int.ofNat_zero,
      Option.map_none, Option.map_some, Option.bind_none]

theorem entClear_runs : entClearFun.run (entryLib σ h) n [] s = some (.void, [], { s with obj := h.clear s.obj }) := by
  cxx [entClearFun]
theorem entEmpty_runs : entEmptyFun.run (entryLib σ h) n [] s = some (.bool (h.empty s.obj), [], s) := by
  cxx [entEmptyFun]
theorem entEqual_runs : entEqualFun.run (entryLib σ h) n [.dom (.obj w)] s = some (.bool (h.equal s.obj w), [.dom (.obj w)], s) := by
  cxx [entEqualFun]
theorem entSwap_runs : entSwapFun.run (entryLib σ h) n [.dom (.obj w)] s =
    some (.void, [.dom (.obj (h.swap s.obj w).2)], { s with obj := (h.swap s.obj w).1 }) := by
  cxx [entSwapFun]

variable (t : Token) (o : Bool) (q : Params) (k : Option Token)

theorem swRead_runs : swReadFun.run (entryLib σ h) n [.dom (.ctx ⟨some t, o, q⟩), .dom (.obj v)] s =
    (let r := h.read ⟨t, s.inp, q.err⟩ v
     (rcNumber r.1).map fun i : Nat => (.int .i32 i, [.dom (.ctx ⟨some r.2.1.cur, o, { q with err := r.2.1.err }⟩), .dom (.obj r.2.2)],
      { s with inp := r.2.1.inp })) := by
  rcases hr : h.read ⟨t, s.inp, q.err⟩ v with ⟨rc, tz, v'⟩
  cases rc <;> cxxi [swReadFun, codec_read, hr, rcNumber, Option.map_none, Option.map_some, Option.bind_none]
theorem swReadField_runs (name : Bytes) : swReadFieldFun.run (entryLib σ h) n [.dom (.ctx ⟨some t, o, q⟩), .str name, .dom (.obj v)] s =
    (let r := h.readField name ⟨t, s.inp, q.err⟩ v
     (rcNumber r.1).map fun i : Nat =>
      (.int .i32 i, [.dom (.ctx ⟨some r.2.1.cur, o, { q with err := r.2.1.err }⟩), .str name, .dom (.obj r.2.2)],
      { s with inp := r.2.1.inp })) := by
  rcases hr : h.readField name ⟨t, s.inp, q.err⟩ v with ⟨rc, tz, v'⟩
  cases rc <;> cxxi [swReadFieldFun, codec_readField, hr, rcNumber, Option.map_none, Option.map_some, Option.bind_none]
theorem swWrite_runs : swWriteFun.run (entryLib σ h) n [.dom (.ctx ⟨k, true, q⟩), .dom (.obj v)] s =
    (let r := h.write q v q.err
     (rcNumber r.1).map fun i : Nat => (.int .i32 i, [.dom (.ctx ⟨k, true, { q with err := r.2.2 }⟩), .dom (.obj v)],
      { s with out := s.out ++ r.2.1 })) := by
  rcases hr : h.write q v q.err with ⟨rc, out, e⟩
  cases rc <;> cxxi [swWriteFun, codec_write, hr, rcNumber, Option.map_none, Option.map_some, Option.bind_none]
theorem swEmpty_runs : swEmptyFun.run (entryLib σ h) n [.dom (.obj v)] s = some (.bool (h.empty v), [.dom (.obj v)], s) := by
  cxx [swEmptyFun]
theorem swClear_runs : swClearFun.run (entryLib σ h) n [.dom (.obj v)] s = some (.void, [.dom (.obj (h.clear v))], s) := by
  cxx [swClearFun]
theorem swEqual_runs : swEqualFun.run (entryLib σ h) n [.dom (.obj v), .dom (.obj w)] s =
    some (.bool (h.equal v w), [.dom (.obj v), .dom (.obj w)], s) := by
  cxx [swEqualFun]
theorem swSwap_runs : swSwapFun.run (entryLib σ h) n [.dom (.obj v), .dom (.obj w)] s =
    some (.void, [.dom (.obj (h.swap v w).1), .dom (.obj (h.swap v w).2)], s) := by
  cxx [swSwapFun]

end
/-! ### The other overloads -/

theorem lettersOf_letters {V : Type} (x : Bytes) : lettersOf (letters σ x : List (Val (Way V))) = some x := by
  induction x with
  | nil => rfl
  | cons b x ih =>
    show (lettersOf (letters σ x : List (Val (Way V)))).map (IT.toByte (IT.ofByte σ b) :: ·) = _
    rw [ih, toByte_ofByte]; rfl

section
variable {V : Type} {de : IStream → Option Params → V → Option (DRes V)} {se : Option Params → V → SRes} {eq : V → V → Bool}
  (s : Place' V) (v w : V) (x : Bytes) (i j k : Nat) (ps : Option Params) (it : MemIt)
theorem way_signed : (wayLib σ de se eq).signed = σ := (rfl)
theorem way_get (n : Name) : (wayLib σ de se eq).get n s = none := (rfl)
theorem way_skipws : (wayLib σ de se eq).constant [n!"std", n!"ios_base", n!"skipws"] = some (.dom .skipws) := (rfl)
theorem way_begin : (wayLib σ de se eq).method n!"begin" s [.str x] = some (.iter (letters σ x), [], s) := (rfl)
theorem way_end : (wayLib σ de se eq).method n!"end" s [.str x] = some (.iter [], [], s) := (rfl)
theorem way_flags : (wayLib σ de se eq).method n!"flags" s [.dom .stdin] = some (.dom (.flags s.skipws), [], s) := (rfl)
theorem way_and (b : Bool) : (wayLib σ de se eq).binary n!"&" (.dom (.flags b)) (.dom .skipws) s =
    some (.int .i32 (if b then 4096 else 0), s) := (rfl)
theorem way_string : (wayLib σ de se eq).function [n!"iterator_istream < std :: string :: const_iterator >"] s
    [.iter (letters σ x), .iter []] = some (.dom (.stream (IStream.open' x)), [], s) := by
  show (lettersOf (letters σ x)).map _ = _
  rw [lettersOf_letters]; rfl
theorem way_vector : (wayLib σ de se eq).function [n!"iterator_istream < std :: vector < char > :: const_iterator >"] s
    [.iter (letters σ x), .iter []] = some (.dom (.stream (IStream.open' x)), [], s) := by
  show (lettersOf (letters σ x)).map _ = _
  rw [lettersOf_letters]; rfl
theorem way_noskip : (wayLib σ de se eq).function [n!"std", n!"noskipws"] s [.dom .stdin] = some (.void, [], { s with skipws := false }) := (rfl)
theorem way_skip : (wayLib σ de se eq).function [n!"std", n!"skipws"] s [.dom .stdin] = some (.void, [], { s with skipws := true }) := (rfl)
theorem way_iter : (wayLib σ de se eq).function [n!"std :: istream_iterator < char >"] s [.dom .stdin] =
    some (.dom (.chars (extracted s.skipws s.content)), [], s) := (rfl)
theorem way_stdin : (wayLib σ de se eq).function [n!"iterator_istream < std :: istream_iterator < char > >"] s
    [.dom (.chars x), .dom (.chars [])] = some (.dom (.stream (IStream.open' x)), [], s) := (rfl)
theorem way_mem (h : j ≤ s.block.length) : (wayLib σ de se eq).function [n!"iterator_istream < mem_const_iterator < char > >"] s
    [.dom (.mem ⟨i, j⟩), .dom (.mem ⟨j, k⟩)] = some (.dom (.stream (IStream.open' ((s.block.take j).drop i))), [], s) := by
  show (if _ ∧ j = j ∧ j ≤ s.block.length then _ else none) = _
  rw [if_pos ⟨rfl, rfl, h⟩]
theorem way_sink : (wayLib σ de se eq).function [n!"ittype"] s [.dom .sink] = some (.dom .back, [], s) := (rfl)
theorem way_back : (wayLib σ de se eq).function [n!"iterator_ostream < ittype >"] s [.dom .back] = some (.dom .os, [], s) := (rfl)
theorem way_memOs : (wayLib σ de se eq).function [n!"iterator_ostream < mem_iterator < char > >"] s [.dom (.mem it)] =
    some (.dom (.memOs it), [], s) := (rfl)
theorem way_equal : (wayLib σ de se eq).function [n!"equal"] s [.dom (.obj w)] = some (.bool (eq s.obj w), [], s) := (rfl)
theorem paramsOf_ptr : paramsOf (paramsPtr ps : Val (Way V)) = some ps := by cases ps <;> rfl
theorem way_deser (c : IStream) : (wayLib σ de se eq).function [n!"deserialize"] s [.dom (.stream c), paramsPtr ps] =
    (de c ps s.obj).map fun r => (.bool r.ret, [none, some (paramsPtr r.params)], { s with obj := r.obj }) := by
  cases ps <;> rfl
theorem way_ser : (wayLib σ de se eq).function [n!"serialize"] s [.dom .os, paramsPtr ps] =
    some (.bool (se ps s.obj).ret, [none, some (paramsPtr (se ps s.obj).params)], { s with out := s.out ++ (se ps s.obj).out }) := by
  cases ps <;> rfl
theorem way_serMem : (wayLib σ de se eq).function [n!"serialize"] s [.dom (.memOs it), paramsPtr ps] =
    (memPutAll (s.block, it) (se ps s.obj).out).map fun b =>
      (.bool (se ps s.obj).ret, [none, some (paramsPtr (se ps s.obj).params)], { s with block := b.1 }) := by
  cases ps <;> rfl
theorem way_deserArr (c : IStream) : (wayLib σ de se eq).function [n!"deserialize_array"] s [.dom (.obj v), .dom (.stream c), paramsPtr ps] =
    (de c ps v).map fun r => (.bool r.ret, [some (.dom (.obj r.obj)), none, some (paramsPtr r.params)], s) := by
  cases ps <;> rfl
theorem way_serArr : (wayLib σ de se eq).function [n!"serialize_array"] s [.dom (.obj v), .dom .os, paramsPtr ps] =
    some (.bool (se ps v).ret, [none, none, some (paramsPtr (se ps v).params)], { s with out := s.out ++ (se ps v).out }) := by
  cases ps <;> rfl
theorem way_constIter (b : Bool) (n : Nat) : (wayLib σ de se eq).inst n!"mem_const_iterator" n!"char" s [.dom (.addr b i), .int .u64 (n : Int)] =
    some (.dom (.mem ⟨i, i + n⟩), [], s) := (rfl)
theorem way_constIterZero (b : Bool) : (wayLib σ de se eq).inst n!"mem_const_iterator" n!"char" s [.dom (.addr b i), .int .i32 0] =
    some (.dom (.mem ⟨i, i⟩), [], s) := (rfl)
theorem way_memIter (n : Nat) : (wayLib σ de se eq).inst n!"mem_iterator" n!"char" s [.dom (.addr false i), .int .u64 (n : Int)] =
    some (.dom (.mem ⟨i, i + n⟩), [], s) := (rfl)
theorem way_memIterConst (n : Int) : (wayLib σ de se eq).inst n!"mem_iterator" n!"char" s [.dom (.addr true i), .int .u64 n] = none := (rfl)
theorem way_plus (b : Bool) (n : Nat) : (wayLib σ de se eq).binary n!"+" (.dom (.addr b i)) (.int .u64 (n : Int)) s =
    some (.dom (.addr b (i + n)), s) := (rfl)
theorem initial_endIter : initial (wayLib σ de se eq) n!"std :: istream_iterator < char >" none s = some (.dom (.chars [])) := (rfl)
theorem initial_typeString : initial (wayLib σ de se eq) n!"typedef std :: back_insert_iterator < std :: string >" none s = some .void := (rfl)
theorem initial_typeVector : initial (wayLib σ de se eq) n!"typedef std :: back_insert_iterator < std :: vector < char > >" none s = some .void := (rfl)
theorem initial_typeStream : initial (wayLib σ de se eq) n!"typedef std :: ostream_iterator < char >" none s = some .void := (rfl)
theorem initial_autoMem : (wayLib σ de se eq).init n!"auto" (some (.dom (.mem it))) s = some (.dom (.mem it)) := (rfl)
theorem initial_flag : initial (wayLib σ de se eq) n!"bool" (some (.int .i32 0)) s = some (.bool false) := (rfl)
theorem initial_flagSet : initial (wayLib σ de se eq) n!"bool" (some (.int .i32 4096)) s = some (.bool true) := (rfl)
theorem initial_flagBool (b : Bool) : initial (wayLib σ de se eq) n!"bool" (some (.bool b)) s = some (.bool b) := (rfl)
theorem builtin_strBegin {D : Type} : builtin n!"begin" (.str x : Val D) [] = none := (rfl)
theorem builtin_strEnd {D : Type} : builtin n!"end" (.str x : Val D) [] = none := (rfl)
theorem result_virtualBool {D S : Type} {L : Lib D S} (v : Val D) : result L n!"virtual bool" v = some v := (rfl)
end
attribute [cxx] way_signed way_get way_skipws way_begin way_end way_flags way_and way_string way_vector way_noskip way_skip way_iter
  way_stdin way_sink way_back way_memOs way_equal way_deser way_ser way_serMem way_deserArr way_serArr way_constIter
  way_constIterZero way_memIter way_memIterConst way_plus initial_endIter initial_typeString initial_typeVector
  initial_typeStream initial_autoMem initial_flag initial_flagSet initial_flagBool builtin_strBegin builtin_strEnd result_virtualBool

section
variable {V : Type} (de : IStream → Option Params → V → Option (DRes V)) (se : Option Params → V → SRes) (eq : V → V → Bool)
  (n : Nat) (s : Place' V) (v w : V) (x : Bytes) (ps : Option Params)

theorem deserStr_runs : deserStrFun.run (wayLib σ de se eq) n [.str x, paramsPtr ps] s =
    (de (IStream.open' x) ps s.obj).map fun r => (.bool r.ret, [.str x, paramsPtr r.params], { s with obj := r.obj }) := by
  cases hr : de (IStream.open' x) ps s.obj <;> cxx [deserStrFun, hr, Option.map_none, Option.map_some, Option.bind_none]

theorem deserVec_runs : deserVecFun.run (wayLib σ de se eq) n [.str x, paramsPtr ps] s =
    (de (IStream.open' x) ps s.obj).map fun r => (.bool r.ret, [.str x, paramsPtr r.params], { s with obj := r.obj }) := by
  cases hr : de (IStream.open' x) ps s.obj <;> cxx [deserVecFun, hr, Option.map_none, Option.map_some, Option.bind_none]

theorem deserStd_runs : deserStdFun.run (wayLib σ de se eq) n [.dom .stdin, paramsPtr ps] s =
    (de (IStream.open' s.content) ps s.obj).map fun r => (.bool r.ret, [.dom .stdin, paramsPtr r.params], { s with obj := r.obj }) := by
  rcases s with ⟨obj, sk, content, block, out⟩
  have e : extracted false content = content := (rfl)
  cases hr : de (IStream.open' content) ps obj <;> cases sk <;>
    cxx [deserStdFun, hr, e, Option.map_none, Option.map_some, Option.bind_none]

theorem deserMem_runs (i len : Nat) (b : Bool) (h : i + len ≤ s.block.length) :
    deserMemFun.run (wayLib σ de se eq) n [.dom (.addr b i), .int .u64 (len : Int), paramsPtr ps] s =
    (de (IStream.open' ((s.block.take (i + len)).drop i)) ps s.obj).map fun r =>
      (.bool r.ret, [.dom (.addr b i), .int .u64 (len : Int), paramsPtr r.params], { s with obj := r.obj }) := by
  cases hr : de (IStream.open' ((s.block.take (i + len)).drop i)) ps s.obj <;>
    cxx [deserMemFun, way_mem, h, hr, Option.map_none, Option.map_some, Option.bind_none]

theorem serStr_runs : serStrFun.run (wayLib σ de se eq) n [.dom .sink, paramsPtr ps] s =
    some (.bool (se ps s.obj).ret, [.dom .sink, paramsPtr (se ps s.obj).params], { s with out := s.out ++ (se ps s.obj).out }) := by
  cxx [serStrFun]

theorem serStd_runs : serStdFun.run (wayLib σ de se eq) n [.dom .sink, paramsPtr ps] s =
    some (.bool (se ps s.obj).ret, [.dom .sink, paramsPtr (se ps s.obj).params], { s with out := s.out ++ (se ps s.obj).out }) := by
  cxx [serStdFun]

theorem serVec_runs : serVecFun.run (wayLib σ de se eq) n [.dom .sink, paramsPtr ps] s =
    some (.bool (se ps s.obj).ret, [.dom .sink, paramsPtr (se ps s.obj).params], { s with out := s.out ++ (se ps s.obj).out }) := by
  cxx [serVecFun]

theorem serMem_runs (i len : Nat) :
    serMemFun.run (wayLib σ de se eq) n [.dom (.addr false i), .int .u64 (len : Int), paramsPtr ps] s =
    (memPutAll (s.block, ⟨i, i + len⟩) (se ps s.obj).out).map fun b =>
      (.bool (se ps s.obj).ret, [.dom (.addr false i), .int .u64 (len : Int), paramsPtr (se ps s.obj).params], { s with block := b.1 }) := by
  cases hr : memPutAll (s.block, ⟨i, i + len⟩) (se ps s.obj).out <;>
    cxx [serMemFun, hr, Option.map_none, Option.map_some, Option.bind_none]

theorem deserArrStr_runs : deserArrStrFun.run (wayLib σ de se eq) n [.dom (.obj v), .str x, paramsPtr ps] s =
    (de (IStream.open' x) ps v).map fun r => (.bool r.ret, [.dom (.obj r.obj), .str x, paramsPtr r.params], s) := by
  cases hr : de (IStream.open' x) ps v <;> cxx [deserArrStrFun, hr, Option.map_none, Option.map_some, Option.bind_none]

theorem deserArrVec_runs : deserArrVecFun.run (wayLib σ de se eq) n [.dom (.obj v), .str x, paramsPtr ps] s =
    (de (IStream.open' x) ps v).map fun r => (.bool r.ret, [.dom (.obj r.obj), .str x, paramsPtr r.params], s) := by
  cases hr : de (IStream.open' x) ps v <;> cxx [deserArrVecFun, hr, Option.map_none, Option.map_some, Option.bind_none]

/-- An iterator for writing is made from a pointer to constant characters: no constructor accepts it. -/
theorem deserArrMem_runs (i : Nat) (len : Int) :
    deserArrMemFun.run (wayLib σ de se eq) n [.dom (.obj v), .dom (.addr true i), .int .u64 len, paramsPtr ps] s = none := by
  cxx [deserArrMemFun, Option.map_none, Option.map_some, Option.bind_none]

theorem serArrStr_runs : serArrStrFun.run (wayLib σ de se eq) n [.dom (.obj v), .dom .sink, paramsPtr ps] s =
    some (.bool (se ps v).ret, [.dom (.obj v), .dom .sink, paramsPtr (se ps v).params], { s with out := s.out ++ (se ps v).out }) := by
  cxx [serArrStrFun]

theorem serArrVec_runs : serArrVecFun.run (wayLib σ de se eq) n [.dom (.obj v), .dom .sink, paramsPtr ps] s =
    some (.bool (se ps v).ret, [.dom (.obj v), .dom .sink, paramsPtr (se ps v).params], { s with out := s.out ++ (se ps v).out }) := by
  cxx [serArrVecFun]

theorem msgEq_runs : msgEqFun.run (wayLib σ de se eq) n [.dom (.obj w)] s = some (.bool (eq s.obj w), [.dom (.obj w)], s) := by
  cxx [msgEqFun]
theorem msgNe_runs : msgNeFun.run (wayLib σ de se eq) n [.dom (.obj w)] s = some (.bool (!eq s.obj w), [.dom (.obj w)], s) := by
  cxx [msgNeFun]
end
end PG.Cxx
