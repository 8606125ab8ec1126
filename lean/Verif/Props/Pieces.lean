import Verif.Proofs.CxxObject
import Verif.Props.Runtime
/-
C93: the small classes of protogen.hh (error record, tokens, iterators over memory, streams), parsed and executed as C++ (as in
Props/Runtime).
-/
set_option autoImplicit false
namespace PG.Cxx
open PG.Gen

/-! ### The error record -/

/-- C93: the constructor without arguments and `clear` make the record of the model without an error; the constructor with all
members stores them; the conversion to `bool` is true if there is no error; the comparisons are of the code, and of everything
but the message. -/
theorem C93_error (σ : Bool) :
    Does protogenLines 60 60 (fun f => ∀ n, f.run (quadLib σ n!"code" n!"message") n [] fresh = some (.void, [], Quad.ofErr {})) ∧
    Does protogenLines 80 85 (fun f => ∀ n s, f.run (quadLib σ n!"code" n!"message") n [] s = some (.void, [], Quad.ofErr {})) ∧
    Does protogenLines 63 64 (fun f => ∀ n (e : ErrInfo),
      ∃ args, f.run (quadLib σ n!"code" n!"message") n
        [.int .i32 e.code.number, .str e.code.message, .int .i32 e.line, .int .i32 e.col] fresh = some (.void, args, Quad.ofErr e)) ∧
    Does protogenLines 67 70 (fun f => ∀ n (e : ErrInfo),
      f.run (quadLib σ n!"code" n!"message") n [] (Quad.ofErr e) = some (.bool (decide (e.code = .ok)), [], Quad.ofErr e)) ∧
    Does protogenLines 71 74 (fun f => ∀ n (e : ErrInfo) (k : Int),
      f.run (quadLib σ n!"code" n!"message") n [.int .i32 k] (Quad.ofErr e) =
        some (.bool (decide (e.code.number = k)), [.int .i32 k], Quad.ofErr e)) ∧
    Does protogenLines 75 78 (fun f => ∀ n (e e' : ErrInfo),
      f.run (quadLib σ n!"code" n!"message") n [.dom (Quad.ofErr e')] (Quad.ofErr e) =
        some (.bool (decide (e.code.number = e'.code.number ∧ e.line = e'.line ∧ e.col = e'.col)), [.dom (Quad.ofErr e')], Quad.ofErr e)) :=
  ⟨⟨_, errNewFun_text, errNew_runs⟩, ⟨_, errClearFun_text, errClear_runs⟩,
   ⟨_, errNew4Fun_text, fun n e => ⟨_, errNew4_runs n _ _ _ _⟩⟩,
   ⟨_, errBoolFun_text, fun n e => by
    refine (errBool_runs n _ (Quad.ofErr e) rfl).trans ?_
    cases e.code <;> rfl⟩, ⟨_, errEqCodeFun_text, fun n e k => errEqCode_runs n _ k _ rfl⟩,
   ⟨_, errEqFun_text, fun n e e' => by
    refine (errEq_runs n _ _ _ _ _ _ _ _).trans ?_
    simp only [Quad.ofErr, Int.ofNat_inj]⟩⟩

/-- C93: the constructor with a code and a message leaves the position of the error uninitialized. -/
theorem C93_error_is_false (σ : Bool) :
    Does protogenLines 61 62 (fun f => ∀ n (k : Int) (x : Bytes), ∃ args q,
      f.run (quadLib σ n!"code" n!"message") n [.int .i32 k, .str x] fresh = some (.void, args, q) ∧ q.line = none ∧ q.col = none) :=
  ⟨_, errNew2Fun_text, fun n k x => ⟨_, _, errNew2_runs n x k, rfl, rfl⟩⟩

/-! ### Tokens -/

/-- C93: the constructors of tokens but the one that moves, the assignment and the exchange. -/
theorem C93_token (σ : Bool) :
    Does protogenLines 267 267 (fun f => ∀ n, f.run (quadLib σ n!"id" n!"value") n [] fresh = some (.void, [], Quad.ofTok {})) ∧
    Does protogenLines 268 268 (fun f => ∀ n (t : Token),
      f.run (quadLib σ n!"id" n!"value") n [.dom (Quad.ofTok t)] fresh = some (.void, [.dom (Quad.ofTok t)], Quad.ofTok t)) ∧
    Does protogenLines 270 271 (fun f => ∀ n (t : Token),
      ∃ args, f.run (quadLib σ n!"id" n!"value") n [.int .i32 (tidNumber t.id), .str t.value, .int .i32 t.line, .int .i32 t.col] fresh =
        some (.void, args, Quad.ofTok t)) ∧
    Does protogenLines 272 279 (fun f => ∀ n s (t : Token),
      f.run (quadLib σ n!"id" n!"value") n [.dom (Quad.ofTok t)] s = some (.dom (Quad.ofTok t), [.dom (Quad.ofTok t)], Quad.ofTok t)) ∧
    Does protogenLines 280 286 (fun f => ∀ n (s t : Token),
      f.run (quadLib σ n!"id" n!"value") n [.dom (Quad.ofTok t)] (Quad.ofTok s) = some (.void, [.dom (Quad.ofTok s)], Quad.ofTok t)) :=
  ⟨⟨_, tokNewFun_text, tokNew_runs⟩, ⟨_, tokCopyFun_text, fun n t => tokCopy_runs n _ _⟩,
   ⟨_, tokNew4Fun_text, fun n t => ⟨_, tokNew4_runs n _ _ _ _⟩⟩, ⟨_, tokAssignFun_text, fun n s t => tokAssign_runs n _ _ _ _ s⟩,
   ⟨_, tokSwapFun_text, fun n s t => tokSwap_runs n _ _ _ _ _ _ _ _⟩⟩

/-- C93: the constructor that moves exchanges members that it has not initialized, which reads them: the behaviour is undefined
whatever the argument is. -/
theorem C93_token_is_false (σ : Bool) :
    Does protogenLines 269 269 (fun f => ∀ n (t : Token), f.run (quadLib σ n!"id" n!"value") n [.dom (Quad.ofTok t)] fresh = none) ∧
    Does protogenLines 280 286 (fun f => ∀ n (t : Token), f.run (quadLib σ n!"id" n!"value") n [.dom (Quad.ofTok t)] fresh = none) :=
  ⟨⟨_, tokMoveFun_text, fun n t => tokMove_none n _ _ rfl⟩, ⟨_, tokSwapFun_text, fun n t => tokSwap_none n _ _ (Or.inl rfl)⟩⟩

/-! ### Iterators over memory -/

/-- C93: the two iterators over memory: made from a pointer and a length; `++` stops at the end; `*` at the end is the member
`empty`; they are equal if they are at the same place. -/
theorem C93_iterators (σ : Bool) :
    Does protogenLines 200 202 (fun f => ∀ n (i k : Nat) s, ∃ args,
      f.run (memLib σ) n [.dom (.ptr i), .int .u64 (k : Int)] s = some (.void, args, ⟨i, i + k⟩)) ∧
    Does protogenLines 203 207 (fun f => ∀ n s, f.run (memLib σ) n [] s = some (.dom (.it s.inc), [], s.inc)) ∧
    Does protogenLines 208 212 (fun f => ∀ n s, f.run (memLib σ) n [] s = some (.dom (.cell s.deref), [], s)) ∧
    Does protogenLines 213 216 (fun f => ∀ n s m,
      f.run (memLib σ) n [.dom (.it m)] s = some (.bool (decide (s.cursor = m.cursor)), [.dom (.it m)], s)) ∧
    Does protogenLines 228 230 (fun f => ∀ n (i k : Nat) s, ∃ args,
      f.run (memLib σ) n [.dom (.ptr i), .int .u64 (k : Int)] s = some (.void, args, ⟨i, i + k⟩)) ∧
    Does protogenLines 231 235 (fun f => ∀ n s, f.run (memLib σ) n [] s = some (.dom (.it s.inc), [], s.inc)) ∧
    Does protogenLines 236 240 (fun f => ∀ n s, f.run (memLib σ) n [] s = some (.dom (.cell s.deref), [], s)) ∧
    Does protogenLines 241 244 (fun f => ∀ n s m,
      f.run (memLib σ) n [.dom (.it m)] s = some (.bool (decide (s.cursor = m.cursor)), [.dom (.it m)], s)) :=
  ⟨⟨_, constNewFun_text, fun n i k s => ⟨_, constNew_runs n s i k⟩⟩, ⟨_, constIncFun_text, constInc_runs⟩,
   ⟨_, constStarFun_text, constStar_runs⟩, ⟨_, constEqFun_text, constEq_runs⟩,
   ⟨_, memNewFun_text, fun n i k s => ⟨_, memNew_runs n s i k⟩⟩, ⟨_, memIncFun_text, memInc_runs⟩,
   ⟨_, memStarFun_text, memStar_runs⟩, ⟨_, memEqFun_text, memEq_runs⟩⟩

/-! ### Streams -/

/-- C93: `iterator_ostream`: a number is sent as its decimal digits, a character with `*++`, a string with all its characters,
characters up to the first zero; `none` is a store outside of the block. -/
theorem C93_output (σ : Bool) :
    Does protogenLines 121 123 (fun f => ∀ n s t, f.run (sinkLib σ) n [.dom (.it t)] s = some (.void, [.dom (.it t)], t)) ∧
    Does protogenLines 110 114 (fun f => ∀ n s (t : IT) (k : Int), f.run (sinkLib σ) n [.int t k] s =
      (s.sendAll (decInt k)).map fun r => (.dom .self, [.int t k], r)) ∧
    Does protogenLines 124 128 (fun f => ∀ n s (b : Byte), f.run (sinkLib σ) n [.int .char (IT.ofByte σ b)] s =
      (s.send b).map fun t => (.dom .self, [.int .char (IT.ofByte σ b)], t)) ∧
    Does protogenLines 129 134 (fun f => ∀ n s (x : Bytes), x.length < n → f.run (sinkLib σ) n [.str x] s =
      (s.sendAll x).map fun t => (.dom .self, [.str x], t)) ∧
    Does protogenLines 135 139 (fun f => ∀ n s (x : Bytes), x.length < n → f.run (sinkLib σ) n [.ptr x] s =
      (s.sendAll (x.takeWhile (· ≠ 0))).map fun t => (.dom .self, [.ptr (x.dropWhile (· ≠ 0))], t)) ∧
    Does protogenLines 140 140 (fun f => ∀ n s (x : Bytes), f.run (sinkLib σ) n [.ptr x] s =
      (s.sendAll (x.takeWhile (· ≠ 0))).map fun t => (.dom .self, [.ptr x], t)) :=
  ⟨⟨_, outNewFun_text, outNew_runs⟩, ⟨_, outNumberFun_text, outNumber_runs⟩, ⟨_, outCharFun_text, outChar_runs⟩,
   ⟨_, outStringFun_text, outString_runs⟩, ⟨_, outConstCharsFun_text, outConstChars_runs⟩, ⟨_, outCharsFun_text, outChars_runs⟩⟩

/-- The first character sent to a block is stored in the second place of it, and what does not fit is lost (C41). -/
example : Sink.sendAll (.mem b!"....." ⟨0, 5⟩) b!"abc" = some (.mem b!".abc." ⟨3, 5⟩) ∧
    Sink.sendAll (.mem b!"..." ⟨0, 3⟩) b!"abc" = some (.mem b!".ab" ⟨3, 3⟩) := by decide +kernel

/-- C93: `iterator_istream` over a text starts at line and column 1 and skips the line feeds that are first; `line` and `column`. -/
theorem C93_input (σ : Bool) :
    Does protogenLines 161 165 (fun f => ∀ n (r : Bytes) s, f.run (openLib σ) n [.dom (.it r), .dom (.it [])] s =
      (IStream.skipInt r 1 1).map fun i =>
        (.void, [.dom (.it r), .dom (.it [])], (some i.rest, some [], some (i.line : Int), some (i.col : Int)))) ∧
    Does protogenLines 179 179 (fun f => ∀ n (s : IStream),
      f.run (streamLib σ) n [] (Cursor.of s) = some (.int .i32 s.line, [], Cursor.of s)) ∧
    Does protogenLines 180 180 (fun f => ∀ n (s : IStream),
      f.run (streamLib σ) n [] (Cursor.of s) = some (.int .i32 s.col, [], Cursor.of s)) :=
  ⟨⟨_, inNewFun_text, inNew_runs⟩, ⟨_, inLineFun_text, inLine_runs⟩, ⟨_, inColFun_text, inCol_runs⟩⟩

/-- C93: the tokenizer of a stream reads its first token when it is made; `line` and `column` are those of the stream. -/
theorem C93_tokenizer (σ : Bool) :
    Does protogenLines 292 295 (fun f => ∀ n (i : IStream) (q : Params) (e : Option ErrInfo) (o : Option IStream), ∃ args,
      f.run (lexLib σ) n [.dom (.source i), .dom (.params q)] ⟨o, e, {}⟩ =
        some (.void, args, ⟨some (Tz.open' i q.err).inp, some (Tz.open' i q.err).err, (Tz.open' i q.err).cur⟩)) ∧
    Does protogenLines 297 297 (fun f => ∀ n (i : IStream) (e : Option ErrInfo) (c : Token),
      f.run (lexLib σ) n [] ⟨some i, e, c⟩ = some (.int .i32 i.line, [], ⟨some i, e, c⟩)) ∧
    Does protogenLines 298 298 (fun f => ∀ n (i : IStream) (e : Option ErrInfo) (c : Token),
      f.run (lexLib σ) n [] ⟨some i, e, c⟩ = some (.int .i32 i.col, [], ⟨some i, e, c⟩)) :=
  ⟨⟨_, lexNewFun_text, fun n i q e o => ⟨_, lexNew_runs n i q _⟩⟩, ⟨_, lexLineFun_text, lexLine_runs⟩, ⟨_, lexColFun_text, lexCol_runs⟩⟩

/-- C93: the other functions of the tokenizer: `peek`, `ignore`, `set_error` and `parse_keyword`, of which the last two are not
called by anything. -/
theorem C93_rest {V F : Type} (σ : Bool) (ops : Ops V F) :
    Does protogenLines 355 355 (fun f => ∀ n w, f.run (runtimeLib σ ops) n [] w = some (.dom (.tok w.tz.cur), [], w)) ∧
    Does protogenLines 379 379 (fun f => ∀ n w, f.run (runtimeLib σ ops) n [] w =
      (rcNumber (skipValue w.tz).1).map fun k => (.int .i32 (k : Int), [], { w with tz := (skipValue w.tz).2 })) ∧
    Does protogenLines 375 378 (fun f => ∀ n (i : Option IStream) (e e' : ErrInfo) (c : Token),
      f.run (lexLib σ) n [.dom (.err e')] ⟨i, some e, c⟩ = some (.void, [.dom (.err e')], ⟨i, some e', c⟩)) ∧
    Does protogenLines 512 520 (fun f => ∀ n (x : Bytes) (i : IStream) (e : Option ErrInfo) (c : Token), x.length < n →
      f.run (lexLib σ) n [.str x] ⟨some i, e, c⟩ = (keyword i x).map fun r => (.bool r.1, [.str x], ⟨some r.2, e, c⟩)) :=
  ⟨⟨_, lexPeekFun_text, lexPeek_runs ops⟩, ⟨_, lexIgnoreFun_text, lexIgnore_runs ops⟩, ⟨_, lexSetFun_text, lexSet_runs⟩,
   ⟨_, lexKeyFun_text, lexKey_runs⟩⟩

/-- The keyword is read up to the first difference. -/
example : keyword ⟨b!"nulx", 1, 1⟩ b!"null" = some (false, ⟨b!"x", 1, 4⟩) ∧
    keyword ⟨b!"null,", 1, 1⟩ b!"null" = some (true, ⟨b!",", 1, 5⟩) := by decide +kernel

/-- Two line feeds before `[1`: the stream starts in the third line, and the tokenizer has read the bracket there. -/
example : IStream.skipInt b!"\n\n[1" 1 1 = some ⟨b!"[1", 3, 1⟩ ∧
    (Tz.open' (IStream.open' b!"\n\n[1") {}).cur = { id := .arrs, value := [], line := 3, col := 1 } := by decide +kernel

end PG.Cxx
