import Verif.Proofs.CxxRuntime
import Verif.Proofs.CxxInt
import Verif.Proofs.Fuel
/-
Reading and writing of numbers, truth values, strings and fields (json-number.hh:117-183, json-string.hh:40-58, 157-174).
-/
set_option autoImplicit false
namespace PG.Cxx
variable {V F : Type} {σ : Bool} {ops : Ops V F}

/-- A reader has ended. -/
def readAs {α V F : Type} (r : Res α) (v : α → Val (Dom V F)) (w : World) : Option (Val (Dom V F) × List (Val (Dom V F)) × World) :=
  (rcNumber r.1).map fun k : Nat => (.int .i32 (k : Int), [.dom .ctx, v r.2.2], { w with tz := r.2.1 })

/-- A writer has ended. -/
def wroteAs {V F : Type} (r : WRes) (v : Val (Dom V F)) (w : World) : Option (Val (Dom V F) × List (Val (Dom V F)) × World) :=
  (rcNumber r.1).map fun k : Nat =>
    (.int .i32 (k : Int), [.dom .ctx, v], { w with tz := { w.tz with err := r.2.2 }, out := w.out ++ r.2.1 })

section
variable (w : World)
theorem inst_parse (s : Bytes) : (runtimeLib σ ops).inst n!"string_to_number" n!"T" w [.str s] =
    some (.dom (.val (ops.parse s)), [], w) := (rfl)
theorem assign_val (x y : V) : (runtimeLib σ ops).assign (.dom (.val x)) (.dom (.val y)) = some (.dom (.val y)) := (rfl)
theorem assign_fld (f : F) (x : V) : (runtimeLib σ ops).assign (.dom (.fld f)) (.dom (.val x)) = some (.dom (.fld (ops.assign f x))) := (rfl)
theorem assign_str (f : F) (s : Bytes) : (runtimeLib σ ops).assign (.dom (.fld f)) (.str s) = some (.dom (.fld (ops.assignStr f s))) := (rfl)
theorem function_text (x : V) : (runtimeLib σ ops).function [n!"number_to_string"] w [.dom (.val x)] = some (.str (ops.text x), [], w) := (rfl)
theorem unary_os : (runtimeLib σ ops).unary n!"*" (.dom .osPtr) w = some (.dom .os) := (rfl)
theorem os_str (s : Bytes) : (runtimeLib σ ops).binary n!"<<" (.dom .os) (.str s) w = some (.dom .os, { w with out := w.out ++ s }) := (rfl)
theorem os_char (v : Int) : (runtimeLib σ ops).binary n!"<<" (.dom .os) (.int .char v) w =
    some (.dom .os, { w with out := w.out ++ [IT.toByte v] }) := (rfl)
theorem method_empty (f : F) : (runtimeLib σ ops).method n!"empty" w [.dom (.fld f)] = some (.bool (ops.empty f), [], w) := (rfl)
theorem method_setEmpty (f : F) (b : Bool) : (runtimeLib σ ops).method n!"empty" w [.dom (.fld f), .bool b] =
    some (.void, [some (.dom (.fld (ops.setEmpty f b)))], w) := (rfl)
theorem statik_readStr (s : Bytes) : (runtimeLib σ ops).statik n!"std :: string , void" n!"read" w [.dom .ctx, .str s] =
    returned (stringRead w.tz s).1 [none, some (.str (stringRead w.tz s).2.2)] { w with tz := (stringRead w.tz s).2.1 } := (rfl)
theorem statik_writeStr (f : F) : (runtimeLib σ ops).statik n!"std :: string , void" n!"write" w [.dom .ctx, .dom (.fld f)] =
    returned (stringWrite w.ascii (ops.str f) w.tz.err).1 []
      { w with tz := { w.tz with err := (stringWrite w.ascii (ops.str f) w.tz.err).2.2 },
               out := w.out ++ (stringWrite w.ascii (ops.str f) w.tz.err).2.1 } := (rfl)
theorem statik_read (x : V) : (runtimeLib σ ops).statik n!"T" n!"read" w [.dom .ctx, .dom (.val x)] =
    returned (ops.read w.tz x).1 [none, some (.dom (.val (ops.read w.tz x).2.2))] { w with tz := (ops.read w.tz x).2.1 } := (rfl)
theorem statik_write (x : V) : (runtimeLib σ ops).statik n!"T" n!"write" w [.dom .ctx, .dom (.val x)] =
    returned (ops.write x w.tz.err).1 []
      { w with tz := { w.tz with err := (ops.write x w.tz.err).2.2 }, out := w.out ++ (ops.write x w.tz.err).2.1 } := (rfl)
theorem statik_clear : (runtimeLib σ ops).statik n!"T" n!"clear" w [.undef none] = some (.void, [some (.dom (.val ops.zero))], w) := (rfl)
theorem init_T : (runtimeLib σ ops).init n!"T" none w = some (.undef none) := (rfl)
theorem init_TVal (v : Val (Dom V F)) : (runtimeLib σ ops).init n!"T" (some v) w = some v := (rfl)
theorem cast_fld (f : F) : (runtimeLib σ ops).cast n!"T" (.dom (.fld f)) = some (.dom (.val (ops.get f))) := (rfl)
theorem returned_fuel (m : List (Option (Val (Dom V F)))) : returned .fuel m w = none := (rfl)
attribute [cxx] returned_fuel inst_parse assign_val assign_fld assign_str function_text unary_os os_str os_char method_empty method_setEmpty
  statik_readStr statik_writeStr statik_read statik_write statik_clear init_T init_TVal cast_fld
end

/-- What json-number.hh:145-154 does with a given conversion from text. -/
def numberRead {V : Type} (parse : Bytes → V) (tz : Tz) (v : V) : Res V :=
  if tz.cur.id = .nil then (.nil, tz, v)
  else if tz.cur.id ≠ .number then ((tz.error .invalidNumber).1, (tz.error .invalidNumber).2, v)
  else (.ok, tz.next, parse tz.cur.value)

/-- json-number.hh:145-154. -/
theorem readNumber_runs (n : Nat) (v : V) (w : World) :
    readNumberFun.run (runtimeLib σ ops) n [.dom .ctx, .dom (.val v)] w = readAs (numberRead ops.parse w.tz v) (fun x => .dom (.val x)) w := by
  unfold numberRead
  by_cases h : w.tz.cur.id = .nil
  · cxx [readNumberFun, h, readAs, rcNumber]
  by_cases h2 : w.tz.cur.id = .number
  · cxx [readNumberFun, h2, readAs, rcNumber]
  · cxx [readNumberFun, h, h2, readAs, rcNumber, error_fst]

/-- json-number.hh:155-159. -/
theorem writeNumber_runs (n : Nat) (v : V) (w : World) :
    writeNumberFun.run (runtimeLib σ ops) n [.dom .ctx, .dom (.val v)] w = wroteAs (.ok, ops.text v, w.tz.err) (.dom (.val v)) w := by
  cxx [writeNumberFun, wroteAs, rcNumber]

/-- json-number.hh:169-178. -/
theorem readBool_runs (n : Nat) (v : Bool) (w : World) :
    readBoolFun.run (runtimeLib σ ops) n [.dom .ctx, .bool v] w = readAs (Prim.bool.read w.tz v) (fun x : Bool => .bool x) w := by
  unfold Prim.read
  by_cases h : w.tz.cur.id = .nil
  · cxx [readBoolFun, h, readAs, rcNumber]
  by_cases h1 : w.tz.cur.id = .btrue
  · cxx [readBoolFun, h1, readAs, rcNumber, and_true, and_false, false_and]
  by_cases h2 : w.tz.cur.id = .bfalse
  · cxx [readBoolFun, h2, readAs, rcNumber, and_true, and_false, false_and]
  · cxx [readBoolFun, h, h1, h2, readAs, rcNumber, error_fst, and_true]

/-- json-number.hh:179-183. -/
theorem writeBool_runs (n : Nat) (v : Bool) (w : World) :
    writeBoolFun.run (runtimeLib σ ops) n [.dom .ctx, .bool v] w = wroteAs (.ok, Prim.bool.text v, w.tz.err) (.bool v) w := by
  cases v
  · cxx [writeBoolFun, wroteAs, rcNumber, Prim.text]; rfl
  · cxx [writeBoolFun, wroteAs, rcNumber, Prim.text]; rfl

/-- json-string.hh:50-58. -/
theorem readString_runs (n : Nat) (v : Bytes) (w : World) :
    readStringFun.run (runtimeLib σ ops) n [.dom .ctx, .str v] w = readAs (stringRead w.tz v) (fun s => .str s) w := by
  unfold stringRead
  by_cases h : w.tz.cur.id = .nil
  · cxx [readStringFun, h, readAs, rcNumber]
  rcases hx : w.tz.expect .string with ⟨b, tz'⟩
  cases b
  · cxx [readStringFun, h, hx, readAs, rcNumber, error_fst]
  · cxx [readStringFun, h, hx, readAs, rcNumber]

/-- json-string.hh:157-165. -/
theorem readStrField_runs (n : Nat) (f : F) (w : World) :
    readStrFieldFun.run (runtimeLib σ ops) n [.dom .ctx, .dom (.fld f)] w =
      readAs ((stringRead w.tz []).1, (stringRead w.tz []).2.1,
        ops.assignStr (ops.setEmpty f ((stringRead w.tz []).1 = .nil)) (stringRead w.tz []).2.2) (fun f => .dom (.fld f)) w := by
  rcases hx : stringRead w.tz [] with ⟨rc, tz', s⟩
  cases rc
  · cxxi [readStrFieldFun, Int.reduceEq, hx, readAs, rcNumber]
  · cxxi [readStrFieldFun, Int.reduceEq, hx, readAs, rcNumber]
  · cxxi [readStrFieldFun, Int.reduceEq, hx, readAs, rcNumber]
  · cxxi [readStrFieldFun, Int.reduceEq, hx, readAs, rcNumber]

/-- json-string.hh:166-174. -/
theorem writeStrField_runs (n : Nat) (f : F) (w : World) :
    writeStrFieldFun.run (runtimeLib σ ops) n [.dom .ctx, .dom (.fld f)] w =
      wroteAs (if ops.empty f then (.ok, b!"null", w.tz.err) else stringWrite w.ascii (ops.str f) w.tz.err) (.dom (.fld f)) w := by
  cases h : ops.empty f
  · rcases hx : stringWrite w.ascii (ops.str f) w.tz.err with ⟨rc, tz', s⟩
    cases rc
    · cxxi [writeStrFieldFun, Int.reduceEq, h, hx, wroteAs, rcNumber]
    · cxxi [writeStrFieldFun, Int.reduceEq, h, hx, wroteAs, rcNumber]
    · cxxi [writeStrFieldFun, Int.reduceEq, h, hx, wroteAs, rcNumber]
    · cxxi [writeStrFieldFun, Int.reduceEq, h, hx, wroteAs, rcNumber]
  · cxxi [writeStrFieldFun, Int.reduceEq, h, wroteAs, rcNumber]

/-- json-number.hh:117-125. -/
theorem readField_runs (n : Nat) (f : F) (w : World) :
    readFieldFun.run (runtimeLib σ ops) n [.dom .ctx, .dom (.fld f)] w =
      readAs ((ops.read w.tz ops.zero).1, (ops.read w.tz ops.zero).2.1,
        if (ops.read w.tz ops.zero).1 ≠ .nil then ops.assign f (ops.read w.tz ops.zero).2.2 else f) (fun f => .dom (.fld f)) w := by
  rcases hx : ops.read w.tz ops.zero with ⟨rc, tz', s⟩
  cases rc
  · cxxi [readFieldFun, Int.reduceEq, hx, readAs, rcNumber]
  · cxxi [readFieldFun, Int.reduceEq, hx, readAs, rcNumber]
  · cxxi [readFieldFun, Int.reduceEq, hx, readAs, rcNumber]
  · cxxi [readFieldFun, Int.reduceEq, hx, readAs, rcNumber]

/-- json-number.hh:126-135. -/
theorem writeField_runs (n : Nat) (f : F) (w : World) :
    writeFieldFun.run (runtimeLib σ ops) n [.dom .ctx, .dom (.fld f)] w =
      wroteAs (if ops.empty f then (.ok, b!"null", w.tz.err) else ops.write (ops.get f) w.tz.err) (.dom (.fld f)) w := by
  cases h : ops.empty f
  · rcases hx : ops.write (ops.get f) w.tz.err with ⟨rc, tz', s⟩
    cases rc
    · cxxi [writeFieldFun, Int.reduceEq, h, hx, wroteAs, rcNumber]
    · cxxi [writeFieldFun, Int.reduceEq, h, hx, wroteAs, rcNumber]
    · cxxi [writeFieldFun, Int.reduceEq, h, hx, wroteAs, rcNumber]
    · cxxi [writeFieldFun, Int.reduceEq, h, hx, wroteAs, rcNumber]
  · cxxi [writeFieldFun, Int.reduceEq, h, wroteAs, rcNumber]

end PG.Cxx
