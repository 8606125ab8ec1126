import Verif.Proofs.CxxEval
import Verif.Proofs.CxxInt
import Verif.Proofs.CxxStream
import Verif.Proofs.CxxRuntime
import Verif.Proofs.CxxObjectAst
import Verif.Spec.CxxObject
/-
The functions of `ErrorInfo`, `token`, the iterators and streams of protogen.hh, executed.
-/
set_option autoImplicit false
namespace PG.Cxx
variable {σ : Bool}

/-! ### `ErrorInfo` -/

section
variable {num text : Name} (s q r : Quad)
theorem quad_signed : (quadLib σ num text).signed = σ := (rfl)
theorem quad_const (p : List Name) : (quadLib σ num text).constant p = constants p := (rfl)
theorem quad_this : (quadLib σ num text).get n!"this" s = some (.dom s) := (rfl)
theorem quad_setThis : (quadLib σ num text).set n!"this" (.dom q) s = some q := (rfl)
theorem quad_updateThis : (quadLib σ num text).update (.dom q) n!"*" (.dom r) = some (.dom r) := (rfl)
theorem quad_stdSwap (u v : Val Quad) : (quadLib σ num text).function [n!"std", n!"swap"] s [u, v] = some (.void, [some v, some u], s) := (rfl)
theorem quad_swap : (quadLib σ num text).function [n!"swap"] s [.dom q] =
    if [n!"swap"] = [n!"swap"] ∧ s.whole = true ∧ q.whole = true then some (.void, [some (.dom s)], q) else none := (rfl)
theorem quad_strSwap (x y : Bytes) : (quadLib σ num text).method n!"swap" s [.str x, .str y] = some (.void, [some (.str y), some (.str x)], s) := (rfl)
theorem quad_star : (quadLib σ num text).unary n!"*" (.dom q) s = some (.dom q) := (rfl)
theorem quad_assign : (quadLib σ num text).assign (.dom q) (.dom r) = some (.dom r) := (rfl)
theorem constants_pgok {D : Type} : (constants [n!"error_code", n!"PGERR_OK"] : Option (Val D)) = some (.int .i32 0) := (rfl)
theorem constants_none {D : Type} : (constants [n!"token_id", n!"NONE"] : Option (Val D)) = some (.int .i32 0) := (rfl)
theorem maybe_some {D : Type} (k : Int) : (maybe (some k) : Val D) = .int .i32 k := (rfl)
theorem maybe_none {D : Type} : (maybe none : Val D) = .undef (some .i32) := (rfl)
end
attribute [cxx] quad_signed quad_const quad_this quad_setThis quad_updateThis quad_stdSwap quad_swap quad_strSwap quad_star
  quad_assign constants_pgok constants_none maybe_some maybe_none
section
variable (s q : Quad) (k : Int) (x : Bytes)
theorem err_code : (quadLib σ n!"code" n!"message").get n!"code" s = some (maybe s.num) := (rfl)
theorem err_message : (quadLib σ n!"code" n!"message").get n!"message" s = some (.str s.text) := (rfl)
theorem err_line : (quadLib σ n!"code" n!"message").get n!"line" s = some (maybe s.line) := (rfl)
theorem err_col : (quadLib σ n!"code" n!"message").get n!"column" s = some (maybe s.col) := (rfl)
theorem err_setCode : (quadLib σ n!"code" n!"message").set n!"code" (.int .i32 k) s = some { s with num := some k } := (rfl)
theorem err_setMessage : (quadLib σ n!"code" n!"message").set n!"message" (.str x) s = some { s with text := x } := (rfl)
theorem err_setLine : (quadLib σ n!"code" n!"message").set n!"line" (.int .i32 k) s = some { s with line := some k } := (rfl)
theorem err_setCol : (quadLib σ n!"code" n!"message").set n!"column" (.int .i32 k) s = some { s with col := some k } := (rfl)
theorem err_mCode : (quadLib σ n!"code" n!"message").member (.dom q) n!"code" s = some (maybe q.num) := (rfl)
theorem err_mMessage : (quadLib σ n!"code" n!"message").member (.dom q) n!"message" s = some (.str q.text) := (rfl)
theorem err_mLine : (quadLib σ n!"code" n!"message").member (.dom q) n!"line" s = some (maybe q.line) := (rfl)
theorem err_mCol : (quadLib σ n!"code" n!"message").member (.dom q) n!"column" s = some (maybe q.col) := (rfl)
theorem err_uCode : (quadLib σ n!"code" n!"message").update (.dom q) n!"code" (.int .i32 k) = some (.dom { q with num := some k }) := (rfl)
theorem err_uMessage : (quadLib σ n!"code" n!"message").update (.dom q) n!"message" (.str x) = some (.dom { q with text := x }) := (rfl)
theorem err_uLine : (quadLib σ n!"code" n!"message").update (.dom q) n!"line" (.int .i32 k) = some (.dom { q with line := some k }) := (rfl)
theorem err_uCol : (quadLib σ n!"code" n!"message").update (.dom q) n!"column" (.int .i32 k) = some (.dom { q with col := some k }) := (rfl)
theorem tok_id : (quadLib σ n!"id" n!"value").get n!"id" s = some (maybe s.num) := (rfl)
theorem tok_value : (quadLib σ n!"id" n!"value").get n!"value" s = some (.str s.text) := (rfl)
theorem tok_line : (quadLib σ n!"id" n!"value").get n!"line" s = some (maybe s.line) := (rfl)
theorem tok_col : (quadLib σ n!"id" n!"value").get n!"column" s = some (maybe s.col) := (rfl)
theorem tok_setId : (quadLib σ n!"id" n!"value").set n!"id" (.int .i32 k) s = some { s with num := some k } := (rfl)
theorem tok_setValue : (quadLib σ n!"id" n!"value").set n!"value" (.str x) s = some { s with text := x } := (rfl)
theorem tok_setLine : (quadLib σ n!"id" n!"value").set n!"line" (.int .i32 k) s = some { s with line := some k } := (rfl)
theorem tok_setCol : (quadLib σ n!"id" n!"value").set n!"column" (.int .i32 k) s = some { s with col := some k } := (rfl)
theorem tok_mId : (quadLib σ n!"id" n!"value").member (.dom q) n!"id" s = some (maybe q.num) := (rfl)
theorem tok_mValue : (quadLib σ n!"id" n!"value").member (.dom q) n!"value" s = some (.str q.text) := (rfl)
theorem tok_mLine : (quadLib σ n!"id" n!"value").member (.dom q) n!"line" s = some (maybe q.line) := (rfl)
theorem tok_mCol : (quadLib σ n!"id" n!"value").member (.dom q) n!"column" s = some (maybe q.col) := (rfl)
theorem tok_uId : (quadLib σ n!"id" n!"value").update (.dom q) n!"id" (.int .i32 k) = some (.dom { q with num := some k }) := (rfl)
theorem tok_uValue : (quadLib σ n!"id" n!"value").update (.dom q) n!"value" (.str x) = some (.dom { q with text := x }) := (rfl)
theorem tok_uLine : (quadLib σ n!"id" n!"value").update (.dom q) n!"line" (.int .i32 k) = some (.dom { q with line := some k }) := (rfl)
theorem tok_uCol : (quadLib σ n!"id" n!"value").update (.dom q) n!"column" (.int .i32 k) = some (.dom { q with col := some k }) := (rfl)
end
attribute [cxx] err_code err_message err_line err_col err_setCode err_setMessage err_setLine err_setCol err_mCode err_mMessage
  err_mLine err_mCol err_uCode err_uMessage err_uLine err_uCol tok_id tok_value tok_line tok_col tok_setId tok_setValue tok_setLine
  tok_setCol tok_mId tok_mValue tok_mLine tok_mCol tok_uId tok_uValue tok_uLine tok_uCol

section
variable (n : Nat) (x y : Bytes) (a b c d e f g : Int)

/-- The object before the constructor: the text is empty. -/
def fresh : Quad := ⟨none, [], none, none⟩

theorem errNew_runs : errNewFun.run (quadLib σ n!"code" n!"message") n [] fresh = some (.void, [], ⟨some 0, [], some 0, some 0⟩) := by
  cxx [errNewFun, fresh]

theorem errNew2_runs : errNew2Fun.run (quadLib σ n!"code" n!"message") n [.int .i32 a, .str x] fresh =
    some (.void, [.int .i32 a, .str x], ⟨some a, x, none, none⟩) := by
  cxx [errNew2Fun, fresh]

theorem errNew4_runs : errNew4Fun.run (quadLib σ n!"code" n!"message") n [.int .i32 a, .str x, .int .i32 b, .int .i32 c] fresh =
    some (.void, [.int .i32 a, .str x, .int .i32 b, .int .i32 c], ⟨some a, x, some b, some c⟩) := by
  cxx [errNew4Fun, fresh]

theorem errBool_runs (s : Quad) (h : s.num = some a) :
    errBoolFun.run (quadLib σ n!"code" n!"message") n [] s = some (.bool (decide (a = 0)), [], s) := by
  cxx [errBoolFun, h]

theorem errEqCode_runs (s : Quad) (h : s.num = some a) :
    errEqCodeFun.run (quadLib σ n!"code" n!"message") n [.int .i32 b] s = some (.bool (decide (a = b)), [.int .i32 b], s) := by
  cxx [errEqCodeFun, h]

theorem errEq_runs :
    errEqFun.run (quadLib σ n!"code" n!"message") n [.dom ⟨some d, y, some e, some f⟩] ⟨some a, x, some b, some c⟩ =
    some (.bool (decide (a = d ∧ b = e ∧ c = f)), [.dom ⟨some d, y, some e, some f⟩], ⟨some a, x, some b, some c⟩) := by
  by_cases h1 : a = d <;> by_cases h2 : b = e <;> by_cases h3 : c = f <;> cxx [errEqFun, h1, h2, h3, and_self, and_true, and_false, decide_true, decide_false]

theorem errClear_runs (s : Quad) : errClearFun.run (quadLib σ n!"code" n!"message") n [] s =
    some (.void, [], ⟨some 0, [], some 0, some 0⟩) := by
  rcases s with ⟨_ | _, t, _ | _, _ | _⟩ <;> cxx [errClearFun]

theorem tokNew_runs : tokNewFun.run (quadLib σ n!"id" n!"value") n [] fresh = some (.void, [], ⟨some 0, [], some 0, some 0⟩) := by
  cxx [tokNewFun, fresh]
  rfl

theorem tokNew4_runs : tokNew4Fun.run (quadLib σ n!"id" n!"value") n [.int .i32 a, .str x, .int .i32 b, .int .i32 c] fresh =
    some (.void, [.int .i32 a, .str x, .int .i32 b, .int .i32 c], ⟨some a, x, some b, some c⟩) := by
  cxx [tokNew4Fun, fresh]

theorem tokCopy_runs (s q : Quad) : tokCopyFun.run (quadLib σ n!"id" n!"value") n [.dom q] s = some (.void, [.dom q], q) := by
  cxx [tokCopyFun]

theorem tokMove_runs (s q : Quad) (hs : s.whole = true) (hq : q.whole = true) :
    tokMoveFun.run (quadLib σ n!"id" n!"value") n [.dom q] s = some (.void, [.dom s], q) := by
  cxx [tokMoveFun, quad_swap, hs, hq, and_self]

theorem tokMove_none (s q : Quad) (hs : s.whole = false) : tokMoveFun.run (quadLib σ n!"id" n!"value") n [.dom q] s = none := by
  cxx [tokMoveFun, quad_swap, hs, Bool.false_eq_true, false_and, and_false, Option.map_none, Option.bind_none]

theorem tokAssign_runs (s : Quad) : tokAssignFun.run (quadLib σ n!"id" n!"value") n [.dom ⟨some a, x, some b, some c⟩] s =
    some (.dom ⟨some a, x, some b, some c⟩, [.dom ⟨some a, x, some b, some c⟩], ⟨some a, x, some b, some c⟩) := by
  rcases s with ⟨_ | _, t, _ | _, _ | _⟩ <;> cxx [tokAssignFun]

theorem tokSwap_runs :
    tokSwapFun.run (quadLib σ n!"id" n!"value") n [.dom ⟨some d, y, some e, some f⟩] ⟨some a, x, some b, some c⟩ =
    some (.void, [.dom ⟨some a, x, some b, some c⟩], ⟨some d, y, some e, some f⟩) := by
  cxx [tokSwapFun]

theorem tok_setUndef {num text : Name} (m : Name) (s : Quad) (t : Option IT) : (quadLib σ num text).set m (.undef t) s = none := (rfl)
theorem tok_updateUndef {num text : Name} (m : Name) (q : Quad) (t : Option IT) :
    (quadLib σ num text).update (.dom q) m (.undef t) = none := (rfl)

theorem tokSwap_none (s q : Quad) (h : s.whole = false ∨ q.whole = false) :
    tokSwapFun.run (quadLib σ n!"id" n!"value") n [.dom q] s = none := by
  rcases s with ⟨_ | _, t, _ | _, _ | _⟩ <;> rcases q with ⟨_ | _, u, _ | _, _ | _⟩ <;> first
    | (simp [Quad.whole] at h; done)
    | cxx [tokSwapFun, tok_setUndef, tok_updateUndef, Option.map_none, Option.bind_none]
end

/-! ### Iterators over memory -/

section
variable (s m : MemIt) (i j : Nat) (o : Option Nat)
theorem mem_signed : (memLib σ).signed = σ := (rfl)
theorem mem_this : (memLib σ).get n!"this" s = some (.dom (.it s)) := (rfl)
theorem mem_cursor : (memLib σ).get n!"cursor" s = some (.dom (.ptr s.cursor)) := (rfl)
theorem mem_end : (memLib σ).get n!"end" s = some (.dom (.ptr s.endp)) := (rfl)
theorem mem_empty : (memLib σ).get n!"empty" s = some (.dom (.cell none)) := (rfl)
theorem mem_setThis : (memLib σ).set n!"this" (.dom (.it m)) s = some m := (rfl)
theorem mem_setCursor : (memLib σ).set n!"cursor" (.dom (.ptr i)) s = some { s with cursor := i } := (rfl)
theorem mem_mCursor : (memLib σ).member (.dom (.it m)) n!"cursor" s = some (.dom (.ptr m.cursor)) := (rfl)
theorem mem_mEnd : (memLib σ).member (.dom (.it m)) n!"end" s = some (.dom (.ptr m.endp)) := (rfl)
theorem mem_mEmpty : (memLib σ).member (.dom (.it m)) n!"empty" s = some (.undef (some .char)) := (rfl)
theorem mem_uCursor : (memLib σ).update (.dom (.it m)) n!"cursor" (.dom (.ptr i)) = some (.dom (.it { m with cursor := i })) := (rfl)
theorem mem_uEnd : (memLib σ).update (.dom (.it m)) n!"end" (.dom (.ptr i)) = some (.dom (.it { m with endp := i })) := (rfl)
theorem mem_uEmpty : (memLib σ).update (.dom (.it m)) n!"empty" (.int .char 0) = some (.dom (.it m)) := (rfl)
theorem mem_star : (memLib σ).unary n!"*" (.dom (.ptr i)) s = some (.dom (.cell (some i))) := (rfl)
theorem mem_inc : (memLib σ).unary n!"++" (.dom (.ptr i)) s = some (.dom (.ptr (i + 1))) := (rfl)
theorem mem_starThis : (memLib σ).unary n!"*" (.dom (.it m)) s = some (.dom (.it m)) := (rfl)
theorem mem_lt : (memLib σ).binary n!"<" (.dom (.ptr i)) (.dom (.ptr j)) s = some (.bool (decide (i < j)), s) := (rfl)
theorem mem_ge : (memLib σ).binary n!">=" (.dom (.ptr i)) (.dom (.ptr j)) s = some (.bool (decide (j ≤ i)), s) := (rfl)
theorem mem_eq : (memLib σ).binary n!"==" (.dom (.ptr i)) (.dom (.ptr j)) s = some (.bool (decide (i = j)), s) := (rfl)
theorem mem_add (k : Nat) : (memLib σ).binary n!"+" (.dom (.ptr i)) (.int .u64 (k : Int)) s = some (.dom (.ptr (i + k)), s) := (rfl)
theorem mem_assign : (memLib σ).assign (.dom (.ptr i)) (.dom (.ptr j)) = some (.dom (.ptr j)) := (rfl)
end
attribute [cxx] mem_signed mem_this mem_cursor mem_end mem_empty mem_setThis mem_setCursor mem_mCursor mem_mEnd mem_mEmpty
  mem_uCursor mem_uEnd mem_uEmpty mem_star mem_inc mem_starThis mem_lt mem_ge mem_eq mem_add mem_assign

section
variable (n : Nat) (s m : MemIt)

theorem convert_charZero : IT.convert σ .char .i32 0 = 0 := by cases σ <;> rfl
section
variable {D S : Type} {L : Lib D S} (v : Val D)
theorem result_constIt : result L n!"mem_const_iterator &" v = some v := (rfl)
theorem result_memIt : result L n!"mem_iterator &" v = some v := (rfl)
theorem result_constT : result L n!"const T &" v = some v := (rfl)
theorem result_refT : result L n!"T &" v = some v := (rfl)
theorem result_ostream : result L n!"ostream &" v = some v := (rfl)
end
attribute [cxx] result_constIt result_memIt result_constT result_refT result_ostream

theorem constNew_runs (i k : Nat) : constNewFun.run (memLib σ) n [.dom (.ptr i), .int .u64 (k : Int)] s =
    some (.void, [.dom (.ptr i), .int .u64 (k : Int)], ⟨i, i + k⟩) := by
  cxxi [constNewFun, convert_charZero]
theorem memNew_runs (i k : Nat) : memNewFun.run (memLib σ) n [.dom (.ptr i), .int .u64 (k : Int)] s =
    some (.void, [.dom (.ptr i), .int .u64 (k : Int)], ⟨i, i + k⟩) := by
  cxxi [memNewFun, convert_charZero]
theorem constInc_runs : constIncFun.run (memLib σ) n [] s = some (.dom (.it s.inc), [], s.inc) := by
  by_cases h : s.cursor < s.endp <;> cxx [constIncFun, MemIt.inc, h]
theorem memInc_runs : memIncFun.run (memLib σ) n [] s = some (.dom (.it s.inc), [], s.inc) := by
  by_cases h : s.cursor < s.endp <;> cxx [memIncFun, MemIt.inc, h]
theorem constStar_runs : constStarFun.run (memLib σ) n [] s = some (.dom (.cell s.deref), [], s) := by
  by_cases h : s.endp ≤ s.cursor <;> cxx [constStarFun, MemIt.deref, h, ge_iff_le]
theorem memStar_runs : memStarFun.run (memLib σ) n [] s = some (.dom (.cell s.deref), [], s) := by
  by_cases h : s.endp ≤ s.cursor <;> cxx [memStarFun, MemIt.deref, h, ge_iff_le]
theorem constEq_runs : constEqFun.run (memLib σ) n [.dom (.it m)] s = some (.bool (decide (s.cursor = m.cursor)), [.dom (.it m)], s) := by
  cxx [constEqFun]
theorem memEq_runs : memEqFun.run (memLib σ) n [.dom (.it m)] s = some (.bool (decide (s.cursor = m.cursor)), [.dom (.it m)], s) := by
  cxx [memEqFun]
end

/-! ### `iterator_ostream` -/

section
variable (s t : Sink) (x : Bytes) (k : Int)
theorem sink_signed : (sinkLib σ).signed = σ := (rfl)
theorem sink_this : (sinkLib σ).get n!"this" s = some (.dom .self) := (rfl)
theorem sink_beg : (sinkLib σ).get n!"beg_" s = some (.dom (.it s)) := (rfl)
theorem sink_setBeg : (sinkLib σ).set n!"beg_" (.dom (.it t)) s = some t := (rfl)
theorem sink_setThis : (sinkLib σ).set n!"this" (.dom (.it t)) s = some t := (rfl)
theorem sink_mBeg : (sinkLib σ).member (.dom .self) n!"beg_" s = some (.undef none) := (rfl)
theorem sink_uBeg : (sinkLib σ).update (.dom .self) n!"beg_" (.dom (.it t)) = some (.dom (.it t)) := (rfl)
theorem sink_update : (sinkLib σ).update (.dom (.it s)) n!"*" (.int .char k) = (s.store (IT.toByte k)).map fun s => .dom (.it s) := (rfl)
theorem sink_toString (i : IT) : (sinkLib σ).function [n!"std", n!"to_string"] s [.int i k] = some (.str (decInt k), [], s) := (rfl)
theorem sink_begin : (sinkLib σ).method n!"begin" s [.str x] = some (.iter (x.map fun b => .int .char (IT.ofByte σ b)), [], s) := (rfl)
theorem sink_end : (sinkLib σ).method n!"end" s [.str x] = some (.iter [], [], s) := (rfl)
theorem sink_send : (sinkLib σ).method n!"operator<<" s [.dom .self, .str x] = (s.sendAll x).map fun t => (.dom .self, [], t) := (rfl)
theorem sink_inc : (sinkLib σ).unary n!"++" (.dom (.it t)) s = some (.dom (.it t.inc)) := (rfl)
theorem sink_star : (sinkLib σ).unary n!"*" (.dom (.it t)) s = some (.undef (some .char)) := (rfl)
theorem sink_starThis : (sinkLib σ).unary n!"*" (.dom .self) s = some (.dom .self) := (rfl)
theorem sink_put : (sinkLib σ).binary n!"<<" (.dom .self) (.ptr x) s =
    (s.sendAll (x.takeWhile (· ≠ 0))).map fun t => (.dom .self, t) := (rfl)
theorem sink_cast : (sinkLib σ).cast n!"const char *" (.ptr x) = some (.ptr x) := (rfl)
theorem builtin_strBegin' {D : Type} : builtin n!"begin" (.str x : Val D) [] = none := (rfl)
theorem builtin_strEnd' {D : Type} : builtin n!"end" (.str x : Val D) [] = none := (rfl)
end
attribute [cxx] sink_signed sink_this sink_beg sink_setBeg sink_setThis sink_mBeg sink_uBeg sink_update sink_toString sink_begin sink_end sink_send sink_inc sink_star
  sink_starThis sink_put sink_cast builtin_strBegin' builtin_strEnd'

/-- `*++beg_ = value` is what the model does. -/
theorem store_inc (s : Sink) (b : Byte) : s.inc.store b = s.send b := by
  cases s with
  | back x => rfl
  | mem x it =>
    simp only [Sink.inc, Sink.store, Sink.send, memPut]
    cases it.inc.deref with
    | none => rfl
    | some i => by_cases h : i < x.length <;> simp [h]

theorem sendAll_nil (s : Sink) : s.sendAll [] = some s := by cases s <;> simp [Sink.sendAll, memPutAll]

theorem sendAll_cons (s : Sink) (b : Byte) (bs : Bytes) : s.sendAll (b :: bs) = (s.send b).bind fun s => s.sendAll bs := by
  cases s with
  | back x => simp [Sink.sendAll, Sink.send]
  | mem x it =>
    simp only [Sink.sendAll, Sink.send, memPutAll]
    cases memPut (x, it) b <;> rfl

section
variable (n : Nat) (s : Sink)

theorem outNew_runs (t : Sink) : outNewFun.run (sinkLib σ) n [.dom (.it t)] s = some (.void, [.dom (.it t)], t) := by
  cxx [outNewFun]

theorem outNumber_runs (t : IT) (k : Int) : outNumberFun.run (sinkLib σ) n [.int t k] s =
    (s.sendAll (decInt k)).map fun r => (.dom .self, [.int t k], r) := by
  cases h : s.sendAll (decInt k) <;> cxx [outNumberFun, h, Option.map_none, Option.map_some, Option.bind_none]

theorem outChar_runs (b : Byte) : outCharFun.run (sinkLib σ) n [.int .char (IT.ofByte σ b)] s =
    (s.send b).map fun t => (.dom .self, [.int .char (IT.ofByte σ b)], t) := by
  cases h : s.send b <;> cxx [outCharFun, store_inc, toByte_ofByte, h, Option.map_none, Option.map_some, Option.bind_none]

/-- The loop over a string; `l` is what is yet to be written. -/
theorem outString_loop (m : Nat) (x l : Bytes) (hn : l.length < n) :
    iterate (test (sinkLib σ) (.binary n!"!=" (.name n!"it") (.call (.member (.name n!"value") n!"end") .nil)))
      (exec (sinkLib σ) m outStringFunBody1) (perform (sinkLib σ) (.incr n!"++" true (.name n!"it"))) n
      ⟨[[(n!"it", .iter (l.map fun b => .int .char (IT.ofByte σ b)))], [], [(n!"value", .str x)]], s⟩ =
    (s.sendAll l).map fun t => (.next, ⟨[[(n!"it", .iter [])], [], [(n!"value", .str x)]], t⟩) := by
  induction l generalizing n s with
  | nil =>
    obtain ⟨n, rfl⟩ : ∃ k, n = k + 1 := ⟨n - 1, by simp only [List.length_nil] at hn; omega⟩
    rw [iterate_done (by cxxi [List.map_nil]; rfl), sendAll_nil]
    rfl
  | cons b t ih =>
    obtain ⟨n, rfl⟩ : ∃ k, n = k + 1 := ⟨n - 1, by omega⟩
    rw [List.length_cons] at hn
    rw [sendAll_cons]
    cases h : s.send b with
    | none =>
      rw [iterate_none (by cxxi [List.map_cons]; rfl)
        (by cxxi [outStringFunBody1, List.map_cons, store_inc, toByte_ofByte, h, Option.map_none, Option.bind_none])]
      rfl
    | some r =>
      rw [iterate_next (by cxxi [List.map_cons]; rfl)
        (by cxxi [outStringFunBody1, List.map_cons, store_inc, toByte_ofByte, h, Option.map_some]; rfl) (by cxxi []; rfl)]
      exact ih n r (by omega)

theorem outString_runs (x : Bytes) (hn : x.length < n) : outStringFun.run (sinkLib σ) n [.str x] s =
    (s.sendAll x).map fun t => (.dom .self, [.str x], t) := by
  have hl := outString_loop (σ := σ) n s n x x hn
  cases h : s.sendAll x <;> rw [h] at hl <;> cxx [outStringFun, hl, Option.map_none, Option.map_some, Option.bind_none]

/-- The loop over characters that end with a zero. -/
theorem outConstChars_loop (m : Nat) (x : Bytes) (hn : x.length < n) :
    iterate (test (sinkLib σ) (.binary n!"!=" (.unary n!"*" (.name n!"value")) (.int .i32 0)))
      (exec (sinkLib σ) m outConstCharsFunBody1) some n ⟨[[], [(n!"value", .ptr x)]], s⟩ =
    (s.sendAll (x.takeWhile (· ≠ 0))).map fun t => (.next, ⟨[[], [(n!"value", .ptr (x.dropWhile (· ≠ 0)))]], t⟩) := by
  induction x generalizing n s with
  | nil =>
    obtain ⟨n, rfl⟩ : ∃ k, n = k + 1 := ⟨n - 1, by simp only [List.length_nil] at hn; omega⟩
    rw [iterate_done (by cxxi []; rfl), List.takeWhile_nil, sendAll_nil]
    rfl
  | cons b t ih =>
    obtain ⟨n, rfl⟩ : ∃ k, n = k + 1 := ⟨n - 1, by omega⟩
    rw [List.length_cons] at hn
    by_cases hb : b = 0
    · subst hb
      rw [iterate_done (by cxxi [ofByte_zero]; rfl), List.takeWhile_cons_of_neg (by simp), List.dropWhile_cons_of_neg (by simp), sendAll_nil]
      rfl
    · have hz : IT.ofByte σ b ≠ 0 := fun h => hb (ofByte_eq_zero.mp h)
      rw [List.takeWhile_cons_of_pos (by simpa using hb), List.dropWhile_cons_of_pos (by simpa using hb), sendAll_cons]
      cases h : s.send b with
      | none =>
        rw [iterate_none (by cxxi [hz]; rfl)
          (by cxxi [outConstCharsFunBody1, store_inc, toByte_ofByte, h, Option.map_none, Option.bind_none])]
        rfl
      | some r =>
        rw [iterate_next (by cxxi [hz]; rfl)
          (by cxxi [outConstCharsFunBody1, store_inc, toByte_ofByte, h, Option.map_some]; rfl) rfl]
        exact ih n r (by omega)

theorem outConstChars_runs (x : Bytes) (hn : x.length < n) : outConstCharsFun.run (sinkLib σ) n [.ptr x] s =
    (s.sendAll (x.takeWhile (· ≠ 0))).map fun t => (.dom .self, [.ptr (x.dropWhile (· ≠ 0))], t) := by
  have hl := outConstChars_loop (σ := σ) n s n x hn
  cases h : s.sendAll (x.takeWhile (· ≠ 0)) <;> rw [h] at hl <;>
    cxx [outConstCharsFun, hl, Option.map_none, Option.map_some, Option.bind_none]

theorem outChars_runs (x : Bytes) : outCharsFun.run (sinkLib σ) n [.ptr x] s =
    (s.sendAll (x.takeWhile (· ≠ 0))).map fun t => (.dom .self, [.ptr x], t) := by
  cases h : s.sendAll (x.takeWhile (· ≠ 0)) <;> cxx [outCharsFun, h, Option.map_none, Option.map_some, Option.bind_none]

end

/-! ### The constructors of `iterator_istream` and `tokenizer` -/

section
variable (s t : Opening) (r : Bytes) (k : Int)
theorem open_signed : (openLib σ).signed = σ := (rfl)
theorem open_this : (openLib σ).get n!"this" s = some (.dom (.obj s)) := (rfl)
theorem open_set : (openLib σ).set n!"this" (.dom (.obj t)) s = some t := (rfl)
theorem open_beg : (openLib σ).member (.dom (.obj t)) n!"beg_" s = some (.undef none) := (rfl)
theorem open_end : (openLib σ).member (.dom (.obj t)) n!"end_" s = some (.undef none) := (rfl)
theorem open_line : (openLib σ).member (.dom (.obj t)) n!"line_" s = some (.undef (some .i32)) := (rfl)
theorem open_col : (openLib σ).member (.dom (.obj t)) n!"column_" s = some (.undef (some .i32)) := (rfl)
theorem open_uBeg : (openLib σ).update (.dom (.obj s)) n!"beg_" (.dom (.it r)) = some (.dom (.obj (some r, s.2))) := (rfl)
theorem open_uEnd : (openLib σ).update (.dom (.obj s)) n!"end_" (.dom (.it r)) = some (.dom (.obj (s.1, some r, s.2.2))) := (rfl)
theorem open_uLine : (openLib σ).update (.dom (.obj s)) n!"line_" (.int .i32 k) = some (.dom (.obj (s.1, s.2.1, some k, s.2.2.2))) := (rfl)
theorem open_uCol : (openLib σ).update (.dom (.obj s)) n!"column_" (.int .i32 k) = some (.dom (.obj (s.1, s.2.1, s.2.2.1, some k))) := (rfl)
theorem open_skip : (openLib σ).function [n!"skip"] (some r, some [], some 1, some 1) [] =
    (IStream.skipInt r 1 1).map fun s => (.void, [], (some s.rest, some [], some (s.line : Int), some (s.col : Int))) := (rfl)
end
attribute [cxx] open_signed open_this open_set open_beg open_end open_line open_col open_uBeg open_uEnd open_uLine open_uCol open_skip

theorem inNew_runs (n : Nat) (r : Bytes) (s : Opening) : inNewFun.run (openLib σ) n [.dom (.it r), .dom (.it [])] s =
    (IStream.skipInt r 1 1).map fun i => (.void, [.dom (.it r), .dom (.it [])], (some i.rest, some [], some (i.line : Int), some (i.col : Int))) := by
  cases h : IStream.skipInt r 1 1 <;> cxxi [inNewFun, h, Option.map_none, Option.map_some, Option.bind_none]

section
variable (s t : Lexing) (i : IStream) (q : Params) (e : ErrInfo)
theorem lex_signed : (lexLib σ).signed = σ := (rfl)
theorem lex_this : (lexLib σ).get n!"this" s = some (.dom (.obj s)) := (rfl)
theorem lex_input : (lexLib σ).get n!"input_" s = s.inp.map fun i => .dom (.source i) := (rfl)
theorem lex_set : (lexLib σ).set n!"this" (.dom (.obj t)) s = some t := (rfl)
theorem lex_mInput : (lexLib σ).member (.dom (.obj t)) n!"input_" s = some (.undef none) := (rfl)
theorem lex_mError : (lexLib σ).member (.dom (.obj t)) n!"error_" s = some (.undef none) := (rfl)
theorem lex_mParams : (lexLib σ).member (.dom (.params q)) n!"error" s = some (.dom (.err q.err)) := (rfl)
theorem lex_uInput : (lexLib σ).update (.dom (.obj s)) n!"input_" (.dom (.source i)) = some (.dom (.obj { s with inp := some i })) := (rfl)
theorem lex_uError : (lexLib σ).update (.dom (.obj s)) n!"error_" (.dom (.err e)) = some (.dom (.obj { s with err := some e })) := (rfl)
theorem lex_next (c : Token) : (lexLib σ).function [n!"next"] ⟨some i, some e, c⟩ [] =
    some (.dom (.tok (Tz.next ⟨c, i, e⟩).cur), [], ⟨some (Tz.next ⟨c, i, e⟩).inp, some (Tz.next ⟨c, i, e⟩).err, (Tz.next ⟨c, i, e⟩).cur⟩) := (rfl)
theorem lex_line : (lexLib σ).method n!"line" s [.dom (.source i)] = some (.int .i32 i.line, [], s) := (rfl)
theorem lex_column : (lexLib σ).method n!"column" s [.dom (.source i)] = some (.int .i32 i.col, [], s) := (rfl)
end
theorem lex_true (s : Lexing) : ((lexLib σ).get n!"true" s).or ((lexLib σ).constant [n!"true"]) = some (.bool true) := (rfl)
theorem lex_false (s : Lexing) : ((lexLib σ).get n!"false" s).or ((lexLib σ).constant [n!"false"]) = some (.bool false) := (rfl)
attribute [cxx] lex_true lex_false
section
variable (s : Lexing) (i : IStream) (e e' : ErrInfo) (x : Bytes)
theorem lex_error : (lexLib σ).get n!"error_" s = s.err.map fun e => .dom (.err e) := (rfl)
theorem lex_setError : (lexLib σ).set n!"error_" (.dom (.err e)) s = some { s with err := some e } := (rfl)
theorem lex_assign : (lexLib σ).assign (.dom (.err e)) (.dom (.err e')) = some (.dom (.err e')) := (rfl)
theorem lex_peek : (lexLib σ).method n!"peek" s [.dom (.source i)] = some (.int .i32 (IT.ofByte σ i.peek), [], s) := (rfl)
theorem lex_advance : (lexLib σ).method n!"next" s [.dom (.source i)] = i.nextInt.map fun i => (.void, [], { s with inp := some i }) := (rfl)
theorem lex_begin : (lexLib σ).method n!"begin" s [.str x] = some (.iter (x.map fun b => .int .char (IT.ofByte σ b)), [], s) := (rfl)
theorem lex_end : (lexLib σ).method n!"end" s [.str x] = some (.iter [], [], s) := (rfl)
end
attribute [cxx] lex_error lex_setError lex_assign lex_peek lex_advance lex_begin lex_end
attribute [cxx] lex_signed lex_this lex_input lex_set lex_mInput lex_mError lex_mParams lex_uInput lex_uError lex_next lex_line lex_column

theorem lexNew_runs (n : Nat) (i : IStream) (q : Params) (s : Lexing) :
    lexNewFun.run (lexLib σ) n [.dom (.source i), .dom (.params q)] s =
    some (.void, [.dom (.source i), .dom (.params q)],
      ⟨some (Tz.next ⟨s.cur, i, q.err⟩).inp, some (Tz.next ⟨s.cur, i, q.err⟩).err, (Tz.next ⟨s.cur, i, q.err⟩).cur⟩) := by
  cxxi [lexNewFun]

theorem lexLine_runs (n : Nat) (i : IStream) (e : Option ErrInfo) (c : Token) :
    lexLineFun.run (lexLib σ) n [] ⟨some i, e, c⟩ = some (.int .i32 i.line, [], ⟨some i, e, c⟩) := by
  cxxi [lexLineFun, Option.map_some]

theorem lexCol_runs (n : Nat) (i : IStream) (e : Option ErrInfo) (c : Token) :
    lexColFun.run (lexLib σ) n [] ⟨some i, e, c⟩ = some (.int .i32 i.col, [], ⟨some i, e, c⟩) := by
  cxxi [lexColFun, Option.map_some]

theorem inLine_runs (n : Nat) (s : IStream) : inLineFun.run (streamLib σ) n [] (Cursor.of s) = some (.int .i32 s.line, [], Cursor.of s) := by
  cxxi [inLineFun, Cursor.of]

theorem inCol_runs (n : Nat) (s : IStream) : inColFun.run (streamLib σ) n [] (Cursor.of s) = some (.int .i32 s.col, [], Cursor.of s) := by
  cxxi [inColFun, Cursor.of]

theorem lexPeek_runs {V F : Type} (ops : Ops V F) (n : Nat) (w : World) :
    lexPeekFun.run (runtimeLib σ ops) n [] w = some (.dom (.tok w.tz.cur), [], w) := by
  cxxi [lexPeekFun]

theorem lexIgnore_runs {V F : Type} (ops : Ops V F) (n : Nat) (w : World) :
    lexIgnoreFun.run (runtimeLib σ ops) n [] w =
      (rcNumber (skipValue w.tz).1).map fun k => (.int .i32 (k : Int), [], { w with tz := (skipValue w.tz).2 }) := by
  obtain ⟨rc, tz, h⟩ : ∃ rc tz, skipValue w.tz = (rc, tz) := ⟨_, _, rfl⟩
  cases rc <;> cxxi [lexIgnoreFun, h, returned, rcNumber] <;> rfl

theorem lexSet_runs (n : Nat) (i : Option IStream) (e e' : ErrInfo) (c : Token) :
    lexSetFun.run (lexLib σ) n [.dom (.err e')] ⟨i, some e, c⟩ = some (.void, [.dom (.err e')], ⟨i, some e', c⟩) := by
  cxxi [lexSetFun, Option.map_some]

/-- The loop over the characters of the keyword; `l` are those yet to be compared. -/
theorem lexKey_loop (m n : Nat) (x l : Bytes) (i : IStream) (e : Option ErrInfo) (c : Token) (hn : l.length < n) :
    ∃ l', iterate (test (lexLib σ) (.binary n!"!=" (.name n!"c'") (.call (.member (.name n!"keyword") n!"end") .nil)))
      (exec (lexLib σ) m lexKeyFunBody1) (perform (lexLib σ) (.incr n!"++" true (.name n!"c'"))) n
      ⟨[[(n!"c'", .iter (l.map fun b => .int .char (IT.ofByte σ b)))], [], [(n!"keyword", .str x)]], ⟨some i, e, c⟩⟩ =
    (keyword i l).map fun r =>
      (if r.1 = true then .next else .ret (.bool false), ⟨[[(n!"c'", .iter l')], [], [(n!"keyword", .str x)]], ⟨some r.2, e, c⟩⟩) := by
  induction l generalizing n i with
  | nil =>
    obtain ⟨n, rfl⟩ : ∃ k, n = k + 1 := ⟨n - 1, by simp only [List.length_nil] at hn; omega⟩
    exact ⟨[], iterate_done (by cxxi [List.map_nil])⟩
  | cons b t ih =>
    obtain ⟨n, rfl⟩ : ∃ k, n = k + 1 := ⟨n - 1, by omega⟩
    rw [List.length_cons] at hn
    unfold keyword
    by_cases hb : i.peek = b
    · rw [if_pos hb]
      cases h : i.nextInt with
      | none =>
        exact ⟨[], iterate_none (by cxxi [List.map_cons]; rfl)
          (by cxxi [lexKeyFunBody1, List.map_cons, hb, h, Option.map_some, Option.map_none, Option.bind_none])⟩
      | some j =>
        rw [iterate_next (by cxxi [List.map_cons]; rfl)
          (by cxxi [lexKeyFunBody1, List.map_cons, hb, h, Option.map_some]; rfl) (by cxxi []; rfl)]
        exact ih n j (by omega)
    · have hz : ¬ IT.ofByte σ i.peek = IT.ofByte σ b := fun h => hb (ofByte_inj.mp h)
      rw [if_neg hb]
      exact ⟨_, iterate_ret (by cxxi [List.map_cons]; rfl)
        (by cxxi [lexKeyFunBody1, List.map_cons, hz, Option.map_some]; rfl)⟩

theorem lexKey_runs (n : Nat) (x : Bytes) (i : IStream) (e : Option ErrInfo) (c : Token) (hn : x.length < n) :
    lexKeyFun.run (lexLib σ) n [.str x] ⟨some i, e, c⟩ =
      (keyword i x).map fun r => (.bool r.1, [.str x], ⟨some r.2, e, c⟩) := by
  obtain ⟨l', hl⟩ := lexKey_loop (σ := σ) n n x x i e c hn
  rcases h : keyword i x with _ | ⟨_ | _, j⟩ <;> rw [h] at hl <;>
    cxxi [lexKeyFun, hl, Option.map_none, Option.map_some, Option.bind_none, Bool.false_eq_true]

end PG.Cxx
