import Verif.Proofs.CxxField
import Verif.Proofs.CxxNumber
import Verif.Props.Runtime
/-
C90, C91: the classes of the fields and the conversions of numbers, parsed and executed as C++ (as in Props/Runtime).
-/
set_option autoImplicit false
namespace PG.Cxx
open PG.Gen

/-! ### C90: the classes of the fields -/

/-- C90: the functions of `field<T>`; the object is the state, the arguments are passed by reference. -/
theorem C90_field (σ : Bool) (p : Prim) :
    Does numberLines 19 19 (fun f => ∀ (n : Nat) (a : NumField p) (b : NumField p), f.run (numLib σ p) n [.dom (.obj b)] a = some (.void, [.dom (.obj (a.swap b).2)], (a.swap b).1)) ∧
    Does numberLines 20 20 (fun f => ∀ (n : Nat) (a : NumField p) (x : p.Den), f.run (numLib σ p) n [.dom (.val x)] a = some (.void, [.dom (.val (a.swapT x).2)], (a.swapT x).1)) ∧
    Does numberLines 21 21 (fun f => ∀ (n : Nat) (a : NumField p), f.run (numLib σ p) n [] a = some (.bool a.empty, [], a)) ∧
    Does numberLines 22 22 (fun f => ∀ (n : Nat) (a : NumField p), f.run (numLib σ p) n [] a = some (.void, [], a.clear)) ∧
    Does numberLines 23 23 (fun f => ∀ (n : Nat) (a : NumField p) (b : NumField p), f.run (numLib σ p) n [.dom (.obj b)] a = some (.dom (.obj (a.assign b)), [.dom (.obj b)], a.assign b)) ∧
    Does numberLines 24 24 (fun f => ∀ (n : Nat) (a : NumField p) (x : p.Den), f.run (numLib σ p) n [.dom (.val x)] a = some (.dom (.obj (a.assignT x)), [.dom (.val x)], a.assignT x)) ∧
    Does numberLines 25 25 (fun f => ∀ (n : Nat) (a : NumField p) (x : p.Den), f.run (numLib σ p) n [.dom (.val x)] a = some (.bool (a.eqT x), [.dom (.val x)], a)) ∧
    Does numberLines 26 26 (fun f => ∀ (n : Nat) (a : NumField p) (x : p.Den), f.run (numLib σ p) n [.dom (.val x)] a = some (.bool (a.neT x), [.dom (.val x)], a)) ∧
    Does numberLines 27 27 (fun f => ∀ (n : Nat) (a : NumField p) (b : NumField p), f.run (numLib σ p) n [.dom (.obj b)] a = some (.bool (a.eq b), [.dom (.obj b)], a)) ∧
    Does numberLines 28 28 (fun f => ∀ (n : Nat) (a : NumField p) (b : NumField p), f.run (numLib σ p) n [.dom (.obj b)] a = some (.bool (a.ne b), [.dom (.obj b)], a)) ∧
    Does numberLines 29 29 (fun f => ∀ (n : Nat) (a : NumField p), f.run (numLib σ p) n [] a = some (.dom (.val a.get), [], a)) :=
  ⟨⟨_, numSwapFun_text, numSwap_runs⟩,
   ⟨_, numSwapTFun_text, numSwapT_runs⟩,
   ⟨_, numEmptyFun_text, numEmpty_runs⟩,
   ⟨_, numClearFun_text, numClear_runs⟩,
   ⟨_, numAssignFun_text, numAssign_runs⟩,
   ⟨_, numAssignTFun_text, numAssignT_runs⟩,
   ⟨_, numEqTFun_text, numEqT_runs⟩,
   ⟨_, numNeTFun_text, numNeT_runs⟩,
   ⟨_, numEqFun_text, numEq_runs⟩,
   ⟨_, numNeFun_text, numNe_runs⟩,
   ⟨_, numGetFun_text, numGet_runs⟩⟩

/-- Assigning an empty field keeps the old value, so that two empty fields can differ (C64). -/
example : (NumField.assign (p := .bool) ⟨true, false⟩ ⟨false, true⟩) = ⟨true, true⟩ ∧
    (NumField.eq (p := .bool) ⟨true, true⟩ ⟨false, true⟩) = false := by decide +kernel

/-- C90: the functions of `string_field`; both constructors are run on the initial values of the members. -/
theorem C90_string_field (σ : Bool) :
    Does stringLines 18 18 (fun f => ∀ (n : Nat) (x : Bytes), f.run (strLib σ) n [.str x] StrField.new = some (.void, [.str x], StrField.ofString x)) ∧
    Does stringLines 19 19 (fun f => ∀ (n : Nat) (x : Bytes), f.run (strLib σ) n [.ptr x] StrField.new = some (.void, [.ptr x], StrField.ofChars x)) ∧
    Does stringLines 20 20 (fun f => ∀ (n : Nat) (a : StrField) (b : StrField), f.run (strLib σ) n [.dom b] a = some (.void, [.dom (a.swap b).2], (a.swap b).1)) ∧
    Does stringLines 21 21 (fun f => ∀ (n : Nat) (a : StrField) (x : Bytes), f.run (strLib σ) n [.str x] a = some (.void, [.str (a.swapT x).2], (a.swapT x).1)) ∧
    Does stringLines 22 22 (fun f => ∀ (n : Nat) (a : StrField), f.run (strLib σ) n [] a = some (.bool a.empty, [], a)) ∧
    Does stringLines 23 23 (fun f => ∀ (n : Nat) (a : StrField) (e : Bool), f.run (strLib σ) n [.bool e] a = some (.void, [.bool e], a.setEmpty e)) ∧
    Does stringLines 24 24 (fun f => ∀ (n : Nat) (a : StrField), f.run (strLib σ) n [] a = some (.void, [], a.clear)) ∧
    Does stringLines 25 25 (fun f => ∀ (n : Nat) (a : StrField) (b : StrField), f.run (strLib σ) n [.dom b] a = some (.dom (a.assign b), [.dom b], a.assign b)) ∧
    Does stringLines 26 26 (fun f => ∀ (n : Nat) (a : StrField) (x : Bytes), f.run (strLib σ) n [.str x] a = some (.dom (a.assignT x), [.str x], a.assignT x)) ∧
    Does stringLines 27 27 (fun f => ∀ (n : Nat) (a : StrField) (x : Bytes), f.run (strLib σ) n [.ptr x] a = some (.dom (a.assignC x), [.ptr x], a.assignC x)) ∧
    Does stringLines 28 28 (fun f => ∀ (n : Nat) (a : StrField) (x : Bytes), f.run (strLib σ) n [.ptr x] a = some (.bool (a.eqC x), [.ptr x], a)) ∧
    Does stringLines 29 29 (fun f => ∀ (n : Nat) (a : StrField) (x : Bytes), f.run (strLib σ) n [.ptr x] a = some (.bool (a.neC x), [.ptr x], a)) ∧
    Does stringLines 30 30 (fun f => ∀ (n : Nat) (a : StrField) (x : Bytes), f.run (strLib σ) n [.str x] a = some (.bool (a.eqT x), [.str x], a)) ∧
    Does stringLines 31 31 (fun f => ∀ (n : Nat) (a : StrField) (x : Bytes), f.run (strLib σ) n [.str x] a = some (.bool (a.neT x), [.str x], a)) ∧
    Does stringLines 32 32 (fun f => ∀ (n : Nat) (a : StrField) (b : StrField), f.run (strLib σ) n [.dom b] a = some (.bool (a.eq b), [.dom b], a)) ∧
    Does stringLines 33 33 (fun f => ∀ (n : Nat) (a : StrField) (b : StrField), f.run (strLib σ) n [.dom b] a = some (.bool (a.ne b), [.dom b], a)) ∧
    Does stringLines 34 34 (fun f => ∀ (n : Nat) (a : StrField), f.run (strLib σ) n [] a = some (.str a.get, [], a)) ∧
    Does stringLines 35 35 (fun f => ∀ (n : Nat) (a : StrField), f.run (strLib σ) n [] a = some (.str a.get, [], a)) ∧
    Does stringLines 36 36 (fun f => ∀ (n : Nat) (a : StrField), f.run (strLib σ) n [] a = some (.str a.get, [], a)) ∧
    Does stringLines 37 37 (fun f => ∀ (n : Nat) (a : StrField), f.run (strLib σ) n [] a = some (.str a.get, [], a)) :=
  ⟨⟨_, strNewFun_text, strNew_runs⟩,
   ⟨_, strOfCharsFun_text, strOfChars_runs⟩,
   ⟨_, strSwapFun_text, strSwap_runs⟩,
   ⟨_, strSwapTFun_text, strSwapT_runs⟩,
   ⟨_, strEmptyFun_text, strEmpty_runs⟩,
   ⟨_, strSetEmptyFun_text, strSetEmpty_runs⟩,
   ⟨_, strClearFun_text, strClear_runs⟩,
   ⟨_, strAssignFun_text, strAssign_runs⟩,
   ⟨_, strAssignTFun_text, strAssignT_runs⟩,
   ⟨_, strAssignCFun_text, strAssignC_runs⟩,
   ⟨_, strEqCFun_text, strEqC_runs⟩,
   ⟨_, strNeCFun_text, strNeC_runs⟩,
   ⟨_, strEqTFun_text, strEqT_runs⟩,
   ⟨_, strNeTFun_text, strNeT_runs⟩,
   ⟨_, strEqFun_text, strEq_runs⟩,
   ⟨_, strNeFun_text, strNe_runs⟩,
   ⟨_, strRefFun_text, strRef_runs⟩,
   ⟨_, strGetFun_text, strGet_runs⟩,
   ⟨_, strStarFun_text, strStar_runs⟩,
   ⟨_, strStarConstFun_text, strStarConst_runs⟩⟩

/-- The text from a pointer ends before the first zero. -/
example : (StrField.ofChars [97, 98, 0, 99]) = ⟨b!"ab", false⟩ ∧ (StrField.ofChars [97, 98, 0, 99]).eqC [97, 98] = true := by decide +kernel

/-- C90: `empty`, `clear`, `equal` and `swap` of `json<field<T>>` and `json<T>`. -/
theorem C90_json_numbers (σ : Bool) (p : Prim) :
    Does numberLines 136 136 (fun f => ∀ (n : Nat) (a : NumField p) (s : NumField p), f.run (numLib σ p) n [.dom (.obj a)] s = some (.bool a.empty, [.dom (.obj a)], s)) ∧
    Does numberLines 137 137 (fun f => ∀ (n : Nat) (a : NumField p) (s : NumField p), f.run (numLib σ p) n [.dom (.obj a)] s = some (.void, [.dom (.obj a.clear)], s)) ∧
    Does numberLines 138 138 (fun f => ∀ (n : Nat) (a : NumField p) (b : NumField p) (s : NumField p), f.run (numLib σ p) n [.dom (.obj a), .dom (.obj b)] s = some (.bool (a.eq b), [.dom (.obj a), .dom (.obj b)], s)) ∧
    Does numberLines 139 139 (fun f => ∀ (n : Nat) (a : NumField p) (b : NumField p) (s : NumField p), f.run (numLib σ p) n [.dom (.obj a), .dom (.obj b)] s = some (.void, [.dom (.obj (a.swap b).1), .dom (.obj (a.swap b).2)], s)) ∧
    Does numberLines 160 160 (fun f => ∀ (n : Nat) (x : p.Den) (s : NumField p), f.run (numLib σ p) n [.dom (.val x)] s = some (.bool (p.near x p.zero), [.dom (.val x)], s)) ∧
    Does numberLines 161 161 (fun f => ∀ (n : Nat) (x : p.Den) (s : NumField p), f.run (numLib σ p) n [.dom (.val x)] s = some (.void, [.dom (.val p.zero)], s)) ∧
    Does numberLines 162 162 (fun f => ∀ (n : Nat) (x : p.Den) (y : p.Den) (s : NumField p), f.run (numLib σ p) n [.dom (.val x), .dom (.val y)] s = some (.bool (p.near x y), [.dom (.val x), .dom (.val y)], s)) ∧
    Does numberLines 163 163 (fun f => ∀ (n : Nat) (x : p.Den) (y : p.Den) (s : NumField p), f.run (numLib σ p) n [.dom (.val x), .dom (.val y)] s = some (.void, [.dom (.val y), .dom (.val x)], s)) :=
  ⟨⟨_, fieldEmptyFun_text, fieldEmpty_runs⟩,
   ⟨_, fieldClearFun_text, fieldClear_runs⟩,
   ⟨_, fieldEqualFun_text, fieldEqual_runs⟩,
   ⟨_, fieldSwapFun_text, fieldSwap_runs⟩,
   ⟨_, rawEmptyFun_text, rawEmpty_runs⟩,
   ⟨_, rawClearFun_text, rawClear_runs⟩,
   ⟨_, rawEqualFun_text, rawEqual_runs⟩,
   ⟨_, rawSwapFun_text, rawSwap_runs⟩⟩

/-- C90: `empty`, `clear`, `equal` and `swap` of `json<bool>`. -/
theorem C90_json_bool (σ : Bool) (p : Prim) :
    Does numberLines 184 184 (fun f => ∀ (n : Nat) (s : NumField p) (c : Bool), f.run (numLib σ p) n [.bool c] s = some (.bool (!c), [.bool c], s)) ∧
    Does numberLines 185 185 (fun f => ∀ (n : Nat) (s : NumField p) (c : Bool), f.run (numLib σ p) n [.bool c] s = some (.void, [.bool false], s)) ∧
    Does numberLines 186 186 (fun f => ∀ (n : Nat) (s : NumField p) (c d : Bool), f.run (numLib σ p) n [.bool c, .bool d] s = some (.bool (c == d), [.bool c, .bool d], s)) ∧
    Does numberLines 187 187 (fun f => ∀ (n : Nat) (s : NumField p) (c d : Bool), f.run (numLib σ p) n [.bool c, .bool d] s = some (.void, [.bool d, .bool c], s)) :=
  ⟨⟨_, boolEmptyFun_text, boolEmpty_runs⟩,
   ⟨_, boolClearFun_text, boolClear_runs⟩,
   ⟨_, boolEqualFun_text, boolEqual_runs⟩,
   ⟨_, boolSwapFun_text, boolSwap_runs⟩⟩

/-- C90: `empty`, `clear`, `equal` and `swap` of `json<std::string>` and `json<string_field>`. -/
theorem C90_json_strings (σ : Bool) :
    Does stringLines 148 148 (fun f => ∀ (n : Nat) (s : StrField) (x : Bytes), f.run (strLib σ) n [.str x] s = some (.bool x.isEmpty, [.str x], s)) ∧
    Does stringLines 149 149 (fun f => ∀ (n : Nat) (s : StrField) (x : Bytes), f.run (strLib σ) n [.str x] s = some (.void, [.str []], s)) ∧
    Does stringLines 150 150 (fun f => ∀ (n : Nat) (s : StrField) (x : Bytes) (y : Bytes), f.run (strLib σ) n [.str x, .str y] s = some (.bool (decide (x = y)), [.str x, .str y], s)) ∧
    Does stringLines 151 151 (fun f => ∀ (n : Nat) (s : StrField) (x : Bytes) (y : Bytes), f.run (strLib σ) n [.str x, .str y] s = some (.void, [.str y, .str x], s)) ∧
    Does stringLines 175 175 (fun f => ∀ (n : Nat) (a : StrField) (s : StrField), f.run (strLib σ) n [.dom a] s = some (.bool a.empty, [.dom a], s)) ∧
    Does stringLines 176 176 (fun f => ∀ (n : Nat) (a : StrField) (s : StrField), f.run (strLib σ) n [.dom a] s = some (.void, [.dom a.clear], s)) ∧
    Does stringLines 177 177 (fun f => ∀ (n : Nat) (a : StrField) (b : StrField) (s : StrField), f.run (strLib σ) n [.dom a, .dom b] s = some (.bool (a.eq b), [.dom a, .dom b], s)) ∧
    Does stringLines 178 178 (fun f => ∀ (n : Nat) (a : StrField) (b : StrField) (s : StrField), f.run (strLib σ) n [.dom a, .dom b] s = some (.void, [.dom (a.swap b).1, .dom (a.swap b).2], s)) :=
  ⟨⟨_, stringEmptyFun_text, stringEmpty_runs⟩,
   ⟨_, stringClearFun_text, stringClear_runs⟩,
   ⟨_, stringEqualFun_text, stringEqual_runs⟩,
   ⟨_, stringSwapFun_text, stringSwap_runs⟩,
   ⟨_, strFieldEmptyFun_text, strFieldEmpty_runs⟩,
   ⟨_, strFieldClearFun_text, strFieldClear_runs⟩,
   ⟨_, strFieldEqualFun_text, strFieldEqual_runs⟩,
   ⟨_, strFieldSwapFun_text, strFieldSwap_runs⟩⟩

/-- C90: `empty`, `clear`, `equal` and `swap` of `json<T>` for containers and `json<std::vector<uint8_t>>`; `eq` compares elements. -/
theorem C90_json_containers {T : Type} (σ : Bool) (eq : T → T → Bool) :
    Does arrayLines 74 74 (fun f => ∀ (n : Nat) (x : List (Val T)), f.run (listLib σ eq) n [.arr x] () = some (.bool x.isEmpty, [.arr x], ())) ∧
    Does arrayLines 75 75 (fun f => ∀ (n : Nat) (x : List (Val T)), f.run (listLib σ eq) n [.arr x] () = some (.void, [.arr []], ())) ∧
    Does arrayLines 76 76 (fun f => ∀ (n : Nat) (x y : List T), f.run (listLib σ eq) n [.arr (x.map .dom), .arr (y.map .dom)] () = some (.bool (listEq eq x y), [.arr (x.map .dom), .arr (y.map .dom)], ())) ∧
    Does arrayLines 77 77 (fun f => ∀ (n : Nat) (x y : List (Val T)), f.run (listLib σ eq) n [.arr x, .arr y] () = some (.void, [.arr y, .arr x], ())) ∧
    Does base64Lines 102 102 (fun f => ∀ (n : Nat) (x : List (Val T)), f.run (listLib σ eq) n [.arr x] () = some (.bool x.isEmpty, [.arr x], ())) ∧
    Does base64Lines 103 103 (fun f => ∀ (n : Nat) (x : List (Val T)), f.run (listLib σ eq) n [.arr x] () = some (.void, [.arr []], ())) ∧
    Does base64Lines 104 104 (fun f => ∀ (n : Nat) (x y : Bytes), f.run (listLib σ eq) n [.arr (octetVals x), .arr (octetVals y)] () = some (.bool (listEq (fun a b : Byte => a == b) x y), [.arr (octetVals x), .arr (octetVals y)], ())) ∧
    Does base64Lines 105 105 (fun f => ∀ (n : Nat) (x y : List (Val T)), f.run (listLib σ eq) n [.arr x, .arr y] () = some (.void, [.arr y, .arr x], ())) :=
  ⟨⟨_, listEmptyFun_text, listEmpty_runs⟩,
   ⟨_, listClearFun_text, listClear_runs⟩,
   ⟨_, listEqualFun_text, listEqual_runs⟩,
   ⟨_, listSwapFun_text, listSwap_runs⟩,
   ⟨_, bytesEmptyFun_text, bytesEmpty_runs⟩,
   ⟨_, bytesClearFun_text, bytesClear_runs⟩,
   ⟨_, bytesEqualFun_text, bytesEqual_runs⟩,
   ⟨_, bytesSwapFun_text, bytesSwap_runs⟩⟩

/-- What the model's functions on members are made of. -/
theorem C90_types (p : Prim) (t : Ty) :
    (∀ a b, (Ty.num p).empty a = a.empty ∧ (Ty.num p).clear a = a.clear ∧ (Ty.num p).equal a b = NumField.eq a b ∧
      (Ty.num p).swap a b = NumField.swap a b) ∧
    (∀ a b, Ty.str.empty a = a.empty ∧ Ty.str.clear a = a.clear ∧ Ty.str.equal a b = StrField.eq a b ∧
      Ty.str.swap a b = StrField.swap a b) ∧
    (∀ a b, (Ty.raw p).empty a = p.near a p.zero ∧ (Ty.raw p).clear a = p.zero ∧ (Ty.raw p).swap a b = (b, a)) ∧
    (∀ a b : List t.Den, (Ty.rep t).empty a = a.isEmpty ∧ (Ty.rep t).clear a = [] ∧ (Ty.rep t).equal a b = listEq t.equal a b ∧
      (Ty.rep t).swap a b = (b, a)) :=
  ⟨fun _ _ => ⟨rfl, rfl, rfl, rfl⟩, fun _ _ => ⟨rfl, rfl, rfl, rfl⟩, fun _ _ => ⟨rfl, rfl, rfl⟩, fun _ _ => ⟨rfl, rfl, rfl, rfl⟩⟩

/-! ### C91: numbers and texts -/

/-- As `Does`, with the macros that are defined. -/
def DoesIf (defs : List Bytes) (lines : List Bytes) (a b : Nat) (P : Fun → Prop) : Prop :=
  ∃ f, Fun.of defs 60 (slice lines a b) = some f ∧ P f

/-- C91: `string_to_number` and `number_to_string` of the floating point types, whatever the locale of the thread (`cur`) and
whatever the platform does in locales other than "C": the result is that of the model, and the locale is the same afterwards. -/
theorem C91_floats (σ : Bool) (c : Platform) (k : FKind) (hc : c.made = true) :
    Does numberLines 33 53 (fun f => ∀ (n cur : Nat) (text : Bytes), 0 ∉ text →
      f.run (fltLib σ c k) n [.str text] cur = some (.dom (.flt (fltOfText k text).val), [.str text], cur)) ∧
    DoesIf [b!"__USE_GNU"] numberLines 33 53 (fun f => ∀ (n cur : Nat) (text : Bytes), 0 ∉ text →
      f.run (fltLib σ c k) n [.str text] cur = some (.dom (.flt (fltOfText k text).val), [.str text], cur)) ∧
    Does numberLines 76 93 (fun f => ∀ (n cur : Nat) (v : CFlt k),
      f.run (fltLib σ c k) n [.dom (.flt v.val)] cur = some (.str (textOfFlt v), [.dom (.flt v.val)], cur)) :=
  ⟨⟨_, parseFltFun_text, fun n cur t h => parseFlt_runs c k n cur t hc h⟩,
   ⟨_, parseFltGnuFun_text, fun n cur t h => parseFltGnu_runs c k n cur t hc h⟩,
   ⟨_, showFltFun_text, fun n cur v => showFlt_runs c k n cur v hc⟩⟩

/-- A platform whose other locales write a comma. -/
def commaPlatform : Platform := ⟨true, fun _ _ => .nan, fun _ x => (printfF x).map fun b => if b = c!"." then c!"," else b⟩

/-- In such a locale the text is still `0.500000`. -/
example : commaPlatform.show 1 (.fin false (2 ^ 1073)) = b!"0,500000" ∧ commaPlatform.show 0 (.fin false (2 ^ 1073)) = b!"0.500000" := by decide +kernel

/-- C91: if the locale "C" cannot be made, every text is read as 0 and every number is written as `0`. -/
theorem C91_no_locale (σ : Bool) (c : Platform) (k : FKind) (hc : c.made = false) :
    Does numberLines 33 53 (fun f => ∀ (n cur : Nat) (text : Bytes),
      f.run (fltLib σ c k) n [.str text] cur = some (.int .i32 0, [.str text], cur)) ∧
    DoesIf [b!"__USE_GNU"] numberLines 33 53 (fun f => ∀ (n cur : Nat) (text : Bytes),
      f.run (fltLib σ c k) n [.str text] cur = some (.int .i32 0, [.str text], cur)) ∧
    Does numberLines 76 93 (fun f => ∀ (n cur : Nat) (v : CFlt k),
      f.run (fltLib σ c k) n [.dom (.flt v.val)] cur = some (.str b!"0", [.dom (.flt v.val)], cur)) :=
  ⟨⟨_, parseFltFun_text, fun n cur t => parseFlt_fails c k n cur t hc⟩,
   ⟨_, parseFltGnuFun_text, fun n cur t => parseFltGnu_fails c k n cur t hc⟩,
   ⟨_, showFltFun_text, fun n cur v => showFlt_fails c k n cur v hc⟩⟩

/-- C91: `string_to_number` and `number_to_string` of the integer types, with the conversion from `long` and `unsigned long`. -/
theorem C91_integers (σ : Bool) (k : IKind) :
    (k.signed = true → Does numberLines 56 63 (fun f => ∀ (n : Nat) (text : Bytes), 0 ∉ text →
      f.run (intLib σ k) n [.str text] () = some (.int (itOf k) (intOfText k text).val, [.str text], ()))) ∧
    (k.signed = false → Does numberLines 66 73 (fun f => ∀ (n : Nat) (text : Bytes), 0 ∉ text →
      f.run (intLib σ k) n [.str text] () = some (.int (itOf k) (intOfText k text).val, [.str text], ()))) ∧
    Does numberLines 96 99 (fun f => ∀ (n : Nat) (v : CInt k),
      f.run (intLib σ k) n [.int (itOf k) v.val] () = some (.str (textOfInt v), [.int (itOf k) v.val], ())) :=
  ⟨fun hk => ⟨_, parseSignedFun_text, fun n t h => parseSigned_runs k hk n t h⟩,
   fun hk => ⟨_, parseUnsignedFun_text, fun n t h => parseUnsigned_runs k hk n t h⟩,
   ⟨_, showIntFun_text, fun n v => showInt_runs k n v⟩⟩

/-- Numerals out of range. -/
example : (intOfText .i32 b!"4294967297").val = 1 ∧ (intOfText .u8 b!"256").val = 0 ∧
    (intOfText .u64 b!"-1").val = 18446744073709551615 ∧ (intOfText .i64 b!"9223372036854775808").val = 9223372036854775807 := by
  decide +kernel

/-- C91: number tokens have no zero byte, so the hypothesis of the conversions is met where they are called. -/
theorem C91_tokens (inp : IStream) : (0 : Byte) ∉ (lexNumber inp []).1 := lexNumber_ne inp

/-- C91: `equal_number`, with `std::nextafter` as the C standard defines it (Spec/CxxNumber). -/
theorem C91_equal_number (σ : Bool) (c : Platform) (i : IKind) (k : FKind) :
    Does numberLines 102 106 (fun f => ∀ (n cur : Nat) (a b : CFlt k),
      f.run (fltLib σ c k) n [.dom (.flt a.val), .dom (.flt b.val)] cur =
      some (.int .i32 (if (Prim.flt k).near a b then 1 else 0), [.dom (.flt a.val), .dom (.flt b.val)], cur)) ∧
    Does numberLines 109 112 (fun f => ∀ (n : Nat) (a b : CInt i),
      f.run (intLib σ i) n [.int (itOf i) a.val, .int (itOf i) b.val] () =
      some (.int .i32 (if (Prim.int i).near a b then 1 else 0), [.int (itOf i) a.val, .int (itOf i) b.val], ())) :=
  ⟨⟨_, nearFltFun_text, fun n cur a b => nearFlt_runs c k n cur a b⟩, ⟨_, nearIntFun_text, fun n a b => nearInt_runs i n a b⟩⟩

/-- Towards the greatest number, the neighbour of the greatest number is itself; that of infinity is below it. -/
example : nextafter .f64 (.fin false (maxMag .f64)) (.fin false (maxMag .f64)) = .fin false (maxMag .f64) ∧
    nextafter .f64 (.inf false) (.fin false (maxMag .f64)) = .fin false (maxMag .f64) ∧
    nextafter .f32 (.fin true 0) (.fin false (maxMag .f32)) = .fin false (2 ^ 925) := by decide +kernel

end PG.Cxx
