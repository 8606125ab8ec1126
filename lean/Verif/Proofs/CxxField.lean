import Verif.Proofs.CxxEval
import Verif.Proofs.CxxFieldAst
import Verif.Spec.CxxField
/-
The functions of `field<T>` (json-number.hh:19-29) and `string_field` (json-string.hh:18-37), and those of `json<field<T>>`,
`json<T>`, `json<bool>`, `json<std::string>`, `json<string_field>`, `json<T>` for containers and bytes that are one call each.
-/
set_option autoImplicit false
namespace PG.Cxx
variable {σ : Bool}

/-! ### Rules -/

theorem exchange_swap {D S : Type} (s : S) (a b : Val D) :
    exchange [n!"std", n!"swap"] s [a, b] = some (.void, [some b, some a], s) := (rfl)
attribute [cxx] exchange_swap

section
variable {p : Prim} (s o a b : NumField p) (x y : p.Den)
theorem num_signed : (numLib σ p).signed = σ := (rfl)
theorem num_true : (numLib σ p).constant [n!"true"] = some (.bool true) := (rfl)
theorem num_false : (numLib σ p).constant [n!"false"] = some (.bool false) := (rfl)
theorem num_getTrue : (numLib σ p).get n!"true" s = none := (rfl)
theorem num_getFalse : (numLib σ p).get n!"false" s = none := (rfl)
theorem num_this : (numLib σ p).get n!"this" s = some (.dom (.obj s)) := (rfl)
theorem num_value : (numLib σ p).get n!"value_" s = some (.dom (.val s.value)) := (rfl)
theorem num_empty : (numLib σ p).get n!"empty_" s = some (.bool s.empty) := (rfl)
theorem num_setThis : (numLib σ p).set n!"this" (.dom (.obj o)) s = some o := (rfl)
theorem num_setValue : (numLib σ p).set n!"value_" (.dom (.val x)) s = some { s with value := x } := (rfl)
theorem num_setEmpty (e : Bool) : (numLib σ p).set n!"empty_" (.bool e) s = some { s with empty := e } := (rfl)
theorem num_memberValue : (numLib σ p).member (.dom (.obj o)) n!"value_" s = some (.dom (.val o.value)) := (rfl)
theorem num_memberEmpty : (numLib σ p).member (.dom (.obj o)) n!"empty_" s = some (.bool o.empty) := (rfl)
theorem num_updateValue : (numLib σ p).update (.dom (.obj o)) n!"value_" (.dom (.val x)) = some (.dom (.obj { o with value := x })) := (rfl)
theorem num_updateEmpty (e : Bool) : (numLib σ p).update (.dom (.obj o)) n!"empty_" (.bool e) = some (.dom (.obj { o with empty := e })) := (rfl)
theorem num_swap (u v : Val (Item p)) : (numLib σ p).function [n!"std", n!"swap"] s [u, v] = some (.void, [some v, some u], s) := (rfl)
theorem num_equal : (numLib σ p).function [n!"equal_number"] s [.dom (.val x), .dom (.val y)] =
    some (.int .i32 (if p.near x y then 1 else 0), [], s) := (rfl)
theorem num_callEmpty : (numLib σ p).method n!"empty" s [.dom (.obj o)] = some (.bool o.empty, [], s) := (rfl)
theorem num_callClear : (numLib σ p).method n!"clear" s [.dom (.obj o)] = some (.void, [some (.dom (.obj o.clear))], s) := (rfl)
theorem num_callSwap : (numLib σ p).method n!"swap" s [.dom (.obj a), .dom (.obj b)] =
    some (.void, [some (.dom (.obj (a.swap b).1)), some (.dom (.obj (a.swap b).2))], s) := (rfl)
theorem num_star : (numLib σ p).unary n!"*" (.dom (.obj o)) s = some (.dom (.obj o)) := (rfl)
theorem num_eq : (numLib σ p).binary n!"==" (.dom (.val x)) (.dom (.val y)) s = some (.bool (p.ceq x y), s) := (rfl)
theorem num_ne : (numLib σ p).binary n!"!=" (.dom (.val x)) (.dom (.val y)) s = some (.bool (!p.ceq x y), s) := (rfl)
theorem num_same : (numLib σ p).binary n!"==" (.dom (.obj a)) (.dom (.obj b)) s = some (.bool (a.eq b), s) := (rfl)
theorem num_assign : (numLib σ p).assign (.dom (.val x)) (.dom (.val y)) = some (.dom (.val y)) := (rfl)
theorem num_cast : (numLib σ p).cast n!"T" (.int .i32 0) = some (.dom (.val p.zero)) := (rfl)
end
attribute [cxx] num_signed num_true num_false num_getTrue num_getFalse num_this num_value num_empty num_setThis num_setValue
  num_setEmpty num_memberValue num_memberEmpty num_updateValue num_updateEmpty num_swap num_equal num_callEmpty num_callClear
  num_callSwap num_star num_eq num_ne num_same num_assign num_cast

section
variable (s o a b : StrField) (x y : Bytes)
theorem str_signed : (strLib σ).signed = σ := (rfl)
theorem str_true : (strLib σ).constant [n!"true"] = some (.bool true) := (rfl)
theorem str_false : (strLib σ).constant [n!"false"] = some (.bool false) := (rfl)
theorem str_getTrue : (strLib σ).get n!"true" s = none := (rfl)
theorem str_getFalse : (strLib σ).get n!"false" s = none := (rfl)
theorem str_this : (strLib σ).get n!"this" s = some (.dom s) := (rfl)
theorem str_value : (strLib σ).get n!"value_" s = some (.str s.value) := (rfl)
theorem str_null : (strLib σ).get n!"null_" s = some (.bool s.null) := (rfl)
theorem str_setThis : (strLib σ).set n!"this" (.dom o) s = some o := (rfl)
theorem str_setValue : (strLib σ).set n!"value_" (.str x) s = some { s with value := x } := (rfl)
theorem str_setNull (e : Bool) : (strLib σ).set n!"null_" (.bool e) s = some { s with null := e } := (rfl)
theorem str_memberValue : (strLib σ).member (.dom o) n!"value_" s = some (.str o.value) := (rfl)
theorem str_memberNull : (strLib σ).member (.dom o) n!"null_" s = some (.bool o.null) := (rfl)
theorem str_updateValue : (strLib σ).update (.dom o) n!"value_" (.str x) = some (.dom { o with value := x }) := (rfl)
theorem str_updateNull (e : Bool) : (strLib σ).update (.dom o) n!"null_" (.bool e) = some (.dom { o with null := e }) := (rfl)
theorem str_swap (u v : Val StrField) : (strLib σ).function [n!"std", n!"swap"] s [u, v] = some (.void, [some v, some u], s) := (rfl)
theorem str_callEmpty : (strLib σ).method n!"empty" s [.dom o] = some (.bool o.empty, [], s) := (rfl)
theorem str_callClear : (strLib σ).method n!"clear" s [.dom o] = some (.void, [some (.dom o.clear)], s) := (rfl)
theorem str_callSwap : (strLib σ).method n!"swap" s [.dom a, .dom b] =
    some (.void, [some (.dom (a.swap b).1), some (.dom (a.swap b).2)], s) := (rfl)
theorem str_swapStrings : (strLib σ).method n!"swap" s [.str x, .str y] = some (.void, [some (.str y), some (.str x)], s) := (rfl)
theorem str_star : (strLib σ).unary n!"*" (.dom o) s = some (.dom o) := (rfl)
theorem str_same : (strLib σ).binary n!"==" (.dom a) (.dom b) s = some (.bool (a.eq b), s) := (rfl)
end
attribute [cxx] str_signed str_true str_false str_getTrue str_getFalse str_this str_value str_null str_setThis str_setValue
  str_setNull str_memberValue str_memberNull str_updateValue str_updateNull str_swap str_callEmpty str_callClear str_callSwap
  str_swapStrings str_star str_same

section
variable {T : Type} {eq : T → T → Bool}
theorem list_swap (u v : Val T) : (listLib σ eq).function [n!"std", n!"swap"] () [u, v] = some (.void, [some v, some u], ()) := (rfl)
theorem list_same (x y : List (Val T)) :
    (listLib σ eq).binary n!"==" (.arr x) (.arr y) () = (sameElements eq x y).map fun r => (.bool r, ()) := (rfl)
end
attribute [cxx] list_swap list_same

/-! ### `field<T>` -/

section
variable {p : Prim} (n : Nat) (a b : NumField p) (x y : p.Den)

theorem numSwap_runs : numSwapFun.run (numLib σ p) n [.dom (.obj b)] a =
    some (.void, [.dom (.obj (a.swap b).2)], (a.swap b).1) := by
  cxx [numSwapFun, NumField.swap]

theorem numSwapT_runs : numSwapTFun.run (numLib σ p) n [.dom (.val x)] a =
    some (.void, [.dom (.val (a.swapT x).2)], (a.swapT x).1) := by
  cxx [numSwapTFun, NumField.swapT]

theorem numEmpty_runs : numEmptyFun.run (numLib σ p) n [] a = some (.bool a.empty, [], a) := by
  cxx [numEmptyFun]

theorem numClear_runs : numClearFun.run (numLib σ p) n [] a = some (.void, [], a.clear) := by
  cxx [numClearFun, NumField.clear]

theorem numAssign_runs : numAssignFun.run (numLib σ p) n [.dom (.obj b)] a =
    some (.dom (.obj (a.assign b)), [.dom (.obj b)], a.assign b) := by
  rcases b with ⟨v, e⟩
  cases e <;> cxx [numAssignFun, NumField.assign]

theorem numAssignT_runs : numAssignTFun.run (numLib σ p) n [.dom (.val x)] a =
    some (.dom (.obj (a.assignT x)), [.dom (.val x)], a.assignT x) := by
  cxx [numAssignTFun, NumField.assignT]

theorem numEqT_runs : numEqTFun.run (numLib σ p) n [.dom (.val x)] a = some (.bool (a.eqT x), [.dom (.val x)], a) := by
  cxx [numEqTFun, NumField.eqT]

theorem numNeT_runs : numNeTFun.run (numLib σ p) n [.dom (.val x)] a = some (.bool (a.neT x), [.dom (.val x)], a) := by
  cxx [numNeTFun, NumField.neT]

theorem numEq_runs : numEqFun.run (numLib σ p) n [.dom (.obj b)] a = some (.bool (a.eq b), [.dom (.obj b)], a) := by
  cxx [numEqFun, NumField.eq]

theorem numNe_runs : numNeFun.run (numLib σ p) n [.dom (.obj b)] a = some (.bool (a.ne b), [.dom (.obj b)], a) := by
  cxx [numNeFun, NumField.ne]

theorem numGet_runs : numGetFun.run (numLib σ p) n [] a = some (.dom (.val a.get), [], a) := by
  cxx [numGetFun, NumField.get]

/-! ### `json<field<T>>`, `json<T>`, `json<bool>` -/

variable (s : NumField p)

theorem fieldEmpty_runs : fieldEmptyFun.run (numLib σ p) n [.dom (.obj a)] s = some (.bool a.empty, [.dom (.obj a)], s) := by
  cxx [fieldEmptyFun]
theorem fieldClear_runs : fieldClearFun.run (numLib σ p) n [.dom (.obj a)] s = some (.void, [.dom (.obj a.clear)], s) := by
  cxx [fieldClearFun]
theorem fieldEqual_runs : fieldEqualFun.run (numLib σ p) n [.dom (.obj a), .dom (.obj b)] s =
    some (.bool (a.eq b), [.dom (.obj a), .dom (.obj b)], s) := by
  cxx [fieldEqualFun]
theorem fieldSwap_runs : fieldSwapFun.run (numLib σ p) n [.dom (.obj a), .dom (.obj b)] s =
    some (.void, [.dom (.obj (a.swap b).1), .dom (.obj (a.swap b).2)], s) := by
  cxx [fieldSwapFun]

theorem truth_one (c : Bool) : decide ((if c = true then (1 : Int) else 0) ≠ 0) = c := by cases c <;> decide

theorem rawEmpty_runs : rawEmptyFun.run (numLib σ p) n [.dom (.val x)] s = some (.bool (p.near x p.zero), [.dom (.val x)], s) := by
  cxx [rawEmptyFun]
  cases p.near x p.zero <;> rfl
theorem rawClear_runs : rawClearFun.run (numLib σ p) n [.dom (.val x)] s = some (.void, [.dom (.val p.zero)], s) := by
  cxx [rawClearFun]
theorem rawEqual_runs : rawEqualFun.run (numLib σ p) n [.dom (.val x), .dom (.val y)] s =
    some (.bool (p.near x y), [.dom (.val x), .dom (.val y)], s) := by
  cxx [rawEqualFun]
  cases p.near x y <;> rfl
theorem rawSwap_runs : rawSwapFun.run (numLib σ p) n [.dom (.val x), .dom (.val y)] s =
    some (.void, [.dom (.val y), .dom (.val x)], s) := by
  cxx [rawSwapFun]

theorem boolEmpty_runs (c : Bool) : boolEmptyFun.run (numLib σ p) n [.bool c] s = some (.bool (!c), [.bool c], s) := by
  cxx [boolEmptyFun]
theorem boolClear_runs (c : Bool) : boolClearFun.run (numLib σ p) n [.bool c] s = some (.void, [.bool false], s) := by
  cxx [boolClearFun]
theorem boolEqual_runs (c d : Bool) : boolEqualFun.run (numLib σ p) n [.bool c, .bool d] s =
    some (.bool (c == d), [.bool c, .bool d], s) := by
  cxx [boolEqualFun]
theorem boolSwap_runs (c d : Bool) : boolSwapFun.run (numLib σ p) n [.bool c, .bool d] s =
    some (.void, [.bool d, .bool c], s) := by
  cxx [boolSwapFun]
end

/-! ### `string_field` -/

section
variable (n : Nat) (a b s : StrField) (x y : Bytes)

theorem strNew_runs : strNewFun.run (strLib σ) n [.str x] StrField.new = some (.void, [.str x], StrField.ofString x) := by
  cxx [strNewFun, StrField.ofString]
theorem strOfChars_runs : strOfCharsFun.run (strLib σ) n [.ptr x] StrField.new = some (.void, [.ptr x], StrField.ofChars x) := by
  cxx [strOfCharsFun, StrField.ofChars]
theorem strSwap_runs : strSwapFun.run (strLib σ) n [.dom b] a = some (.void, [.dom (a.swap b).2], (a.swap b).1) := by
  cxx [strSwapFun, StrField.swap]
theorem strSwapT_runs : strSwapTFun.run (strLib σ) n [.str x] a = some (.void, [.str (a.swapT x).2], (a.swapT x).1) := by
  cxx [strSwapTFun, StrField.swapT]
theorem strEmpty_runs : strEmptyFun.run (strLib σ) n [] a = some (.bool a.empty, [], a) := by
  cxx [strEmptyFun, StrField.empty]
theorem strSetEmpty_runs (e : Bool) : strSetEmptyFun.run (strLib σ) n [.bool e] a = some (.void, [.bool e], a.setEmpty e) := by
  cases e <;> cxx [strSetEmptyFun, StrField.setEmpty]
theorem strClear_runs : strClearFun.run (strLib σ) n [] a = some (.void, [], a.clear) := by
  cxx [strClearFun, StrField.clear]
theorem strAssign_runs : strAssignFun.run (strLib σ) n [.dom b] a = some (.dom (a.assign b), [.dom b], a.assign b) := by
  rcases b with ⟨v, e⟩
  cases e <;> cxx [strAssignFun, StrField.assign]
theorem strAssignT_runs : strAssignTFun.run (strLib σ) n [.str x] a = some (.dom (a.assignT x), [.str x], a.assignT x) := by
  cxx [strAssignTFun, StrField.assignT]
theorem strAssignC_runs : strAssignCFun.run (strLib σ) n [.ptr x] a = some (.dom (a.assignC x), [.ptr x], a.assignC x) := by
  cxx [strAssignCFun, StrField.assignC]
theorem strEqC_runs : strEqCFun.run (strLib σ) n [.ptr x] a = some (.bool (a.eqC x), [.ptr x], a) := by
  cxx [strEqCFun, StrField.eqC]
theorem strNeC_runs : strNeCFun.run (strLib σ) n [.ptr x] a = some (.bool (a.neC x), [.ptr x], a) := by
  cxx [strNeCFun, StrField.neC, decide_not]
theorem strEqT_runs : strEqTFun.run (strLib σ) n [.str x] a = some (.bool (a.eqT x), [.str x], a) := by
  cxx [strEqTFun, StrField.eqT]
theorem strNeT_runs : strNeTFun.run (strLib σ) n [.str x] a = some (.bool (a.neT x), [.str x], a) := by
  cxx [strNeTFun, StrField.neT, decide_not]
theorem strEq_runs : strEqFun.run (strLib σ) n [.dom b] a = some (.bool (a.eq b), [.dom b], a) := by
  cxx [strEqFun, StrField.eq]
theorem strNe_runs : strNeFun.run (strLib σ) n [.dom b] a = some (.bool (a.ne b), [.dom b], a) := by
  cxx [strNeFun, StrField.ne, decide_not]
theorem strRef_runs : strRefFun.run (strLib σ) n [] a = some (.str a.get, [], a) := by cxx [strRefFun, StrField.get]
theorem strGet_runs : strGetFun.run (strLib σ) n [] a = some (.str a.get, [], a) := by cxx [strGetFun, StrField.get]
theorem strStar_runs : strStarFun.run (strLib σ) n [] a = some (.str a.get, [], a) := by cxx [strStarFun, StrField.get]
theorem strStarConst_runs : strStarConstFun.run (strLib σ) n [] a = some (.str a.get, [], a) := by cxx [strStarConstFun, StrField.get]

/-! ### `json<std::string>`, `json<string_field>` -/

theorem stringEmpty_runs : stringEmptyFun.run (strLib σ) n [.str x] s = some (.bool x.isEmpty, [.str x], s) := by
  cxx [stringEmptyFun]
theorem stringClear_runs : stringClearFun.run (strLib σ) n [.str x] s = some (.void, [.str []], s) := by
  cxx [stringClearFun]
theorem stringEqual_runs : stringEqualFun.run (strLib σ) n [.str x, .str y] s = some (.bool (decide (x = y)), [.str x, .str y], s) := by
  cxx [stringEqualFun]
theorem stringSwap_runs : stringSwapFun.run (strLib σ) n [.str x, .str y] s = some (.void, [.str y, .str x], s) := by
  cxx [stringSwapFun]
theorem strFieldEmpty_runs : strFieldEmptyFun.run (strLib σ) n [.dom a] s = some (.bool a.empty, [.dom a], s) := by
  cxx [strFieldEmptyFun]
theorem strFieldClear_runs : strFieldClearFun.run (strLib σ) n [.dom a] s = some (.void, [.dom a.clear], s) := by
  cxx [strFieldClearFun]
theorem strFieldEqual_runs : strFieldEqualFun.run (strLib σ) n [.dom a, .dom b] s = some (.bool (a.eq b), [.dom a, .dom b], s) := by
  cxx [strFieldEqualFun]
theorem strFieldSwap_runs : strFieldSwapFun.run (strLib σ) n [.dom a, .dom b] s =
    some (.void, [.dom (a.swap b).1, .dom (a.swap b).2], s) := by
  cxx [strFieldSwapFun]
end

/-! ### Containers -/

section
variable {T : Type} {eq : T → T → Bool} (n : Nat)

theorem sameElements_dom (x y : List T) : sameElements eq (x.map .dom) (y.map .dom) = some (listEq eq x y) := by
  induction x generalizing y with
  | nil => cases y <;> rfl
  | cons a as ih =>
    cases y with
    | nil => rfl
    | cons b bs =>
      show (if eq a b = true then _ else _) = some (eq a b && listEq eq as bs)
      cases eq a b
      · rfl
      · exact ih bs

/-- The elements of a `std::vector<uint8_t>`. -/
def octetVals (x : Bytes) : List (Val T) := x.map fun b => .int .u8 b.toNat

theorem sameElements_bytes (x y : Bytes) : sameElements eq (octetVals x) (octetVals y) = some (listEq (fun a b : Byte => a == b) x y) := by
  induction x generalizing y with
  | nil => cases y <;> rfl
  | cons a as ih =>
    cases y with
    | nil => rfl
    | cons b bs =>
      show (if decide ((a.toNat : Int) = b.toNat) = true then _ else _) = some ((a == b) && listEq _ as bs)
      have : decide ((a.toNat : Int) = b.toNat) = (a == b) := by
        rw [Bool.eq_iff_iff, decide_eq_true_eq, beq_iff_eq, ← UInt8.toNat_inj]; omega
      rw [this]
      cases a == b
      · rfl
      · exact ih bs

theorem listEmpty_runs (x : List (Val T)) : listEmptyFun.run (listLib σ eq) n [.arr x] () = some (.bool x.isEmpty, [.arr x], ()) := by
  cxx [listEmptyFun]
theorem listClear_runs (x : List (Val T)) : listClearFun.run (listLib σ eq) n [.arr x] () = some (.void, [.arr []], ()) := by
  cxx [listClearFun]
theorem listEqual_runs (x y : List T) : listEqualFun.run (listLib σ eq) n [.arr (x.map .dom), .arr (y.map .dom)] () =
    some (.bool (listEq eq x y), [.arr (x.map .dom), .arr (y.map .dom)], ()) := by
  cxx [listEqualFun, sameElements_dom]
theorem listSwap_runs (x y : List (Val T)) : listSwapFun.run (listLib σ eq) n [.arr x, .arr y] () =
    some (.void, [.arr y, .arr x], ()) := by
  cxx [listSwapFun]
theorem bytesEmpty_runs (x : List (Val T)) : bytesEmptyFun.run (listLib σ eq) n [.arr x] () = some (.bool x.isEmpty, [.arr x], ()) := by
  cxx [bytesEmptyFun]
theorem bytesClear_runs (x : List (Val T)) : bytesClearFun.run (listLib σ eq) n [.arr x] () = some (.void, [.arr []], ()) := by
  cxx [bytesClearFun]
theorem bytesEqual_runs (x y : Bytes) : bytesEqualFun.run (listLib σ eq) n [.arr (octetVals x), .arr (octetVals y)] () =
    some (.bool (listEq (fun a b : Byte => a == b) x y), [.arr (octetVals x), .arr (octetVals y)], ()) := by
  cxx [bytesEqualFun, sameElements_bytes]
theorem bytesSwap_runs (x y : List (Val T)) : bytesSwapFun.run (listLib σ eq) n [.arr x, .arr y] () =
    some (.void, [.arr y, .arr x], ()) := by
  cxx [bytesSwapFun]
end

end PG.Cxx
