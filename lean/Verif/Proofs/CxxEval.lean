import Verif.Proofs.CxxAttr
import Verif.Proofs.CxxAst
import Verif.Spec.CxxLib
/-
Execution by simplification.
-/
set_option autoImplicit false
namespace PG.Cxx

/-- Only the first argument is simplified. -/
theorem bind_first {α β : Type} {a b : Option α} (f : α → Option β) (h : a = b) : a.bind f = b.bind f := by rw [h]
/-- Only the last argument is simplified. -/
theorem map_last {α β : Type} {a b : Option α} (f : α → β) (h : a = b) : a.map f = b.map f := by rw [h]
/-- Only the condition is simplified. -/
theorem ite_cond {α : Type} {p q : Prop} [Decidable p] [Decidable q] (x y : α) (h : p = q) :
    (if p then x else y) = if q then x else y := by
  by_cases hp : p
  · rw [if_pos hp, if_pos (h ▸ hp)]
  · rw [if_neg hp, if_neg (h ▸ hp)]
attribute [congr] bind_first map_last ite_cond

section
variable {D S : Type} {L : Lib D S} {s : S}

theorem intType_int : intType n!"int" = some .i32 := by decide
theorem intType_size : intType n!"size_t" = some .u64 := by decide
theorem intType_char : intType n!"char" = some .char := by decide
theorem intType_u8 : intType n!"uint8_t" = some .u8 := by decide
theorem intType_i32 : intType n!"int32_t" = some .i32 := by decide
theorem intType_u32 : intType n!"uint32_t" = some .u32 := by decide
theorem intType_staticInt : intType n!"static int" = some .i32 := by decide
theorem intType_staticI32 : intType n!"static const int32_t" = some .i32 := by decide
theorem intType_staticU32 : intType n!"static const uint32_t" = some .u32 := by decide
theorem intType_void : intType n!"void" = none := by decide
theorem intType_bool : intType n!"bool" = none := by decide
theorem intType_string : intType n!"std :: string" = none := by decide
theorem intType_staticVoid : intType n!"static void" = none := by decide
theorem intType_T : intType n!"T" = none := by decide
theorem intType_token : intType n!"token" = none := by decide
theorem intType_tokenRef : intType n!"token &" = none := by decide
theorem intType_auto : intType n!"auto" = none := by decide
theorem intType_autoRef : intType n!"auto &" = none := by decide
theorem intType_value : intType n!"typename T :: value_type" = none := by decide
theorem intType_chars : intType n!"static const char *" = none := by decide
theorem intType_pointer : intType n!"const char *" = none := by decide
theorem intType_reveal : intType n!"static inline std :: string" = none := by decide

theorem initial_int (v : Val D) : initial L n!"int" (some v) s = toInt L.signed .i32 v := (rfl)
theorem initial_size (v : Val D) : initial L n!"size_t" (some v) s = toInt L.signed .u64 v := (rfl)
theorem initial_u8 (v : Val D) : initial L n!"uint8_t" (some v) s = toInt L.signed .u8 v := (rfl)
theorem initial_i32 (v : Val D) : initial L n!"int32_t" (some v) s = toInt L.signed .i32 v := (rfl)
theorem initial_u32 (v : Val D) : initial L n!"uint32_t" (some v) s = toInt L.signed .u32 v := (rfl)
theorem initial_staticI32 (v : Val D) : initial L n!"static const int32_t" (some v) s = toInt L.signed .i32 v := (rfl)
theorem initial_staticU32 (v : Val D) : initial L n!"static const uint32_t" (some v) s = toInt L.signed .u32 v := (rfl)
theorem initial_string (x : Bytes) : initial L n!"std :: string" (some (.str x)) s = some (.str x) := (rfl)
theorem initial_string0 : initial L n!"std :: string" none s = some (.str []) := (rfl)
theorem initial_chars (x : Bytes) : initial L n!"static const char *" (some (.str x)) s = some (.str x) := (rfl)
theorem initial_pointer (x : Bytes) : initial L n!"const char *" (some (.ptr x)) s = some (.ptr x) := (rfl)
theorem initial_auto (d : D) : initial L n!"auto" (some (.dom d)) s = L.init n!"auto" (some (.dom d)) s := (rfl)
theorem initial_autoInt (t : IT) (v : Int) : initial L n!"auto" (some (.int t v)) s = some (.int t v) := (rfl)
theorem initial_autoIter (l : List (Val D)) : initial L n!"auto" (some (.iter l)) s = some (.iter l) := (rfl)
theorem initial_autoRef (v : Val D) : initial L n!"auto &" (some v) s = L.init n!"auto &" (some v) s := (rfl)
theorem initial_T (v : Option (Val D)) : initial L n!"T" v s = L.init n!"T" v s := (rfl)
theorem initial_value (v : Option (Val D)) :
    initial L n!"typename T :: value_type" v s = L.init n!"typename T :: value_type" v s := (rfl)

theorem binop_int (o : Name) (t u : IT) (x y : Int) (h : ¬ (o = n!"<<" ∨ o = n!">>")) : binop L o (.int t x) (.int u y) s =
    match IT.compare o (IT.convert L.signed (IT.common t u) t x) (IT.convert L.signed (IT.common t u) u y) with
    | some r => some (.bool r, s)
    | none => (IT.arith o (IT.common t u) (IT.convert L.signed (IT.common t u) t x)
        (IT.convert L.signed (IT.common t u) u y)).map fun v => (.int (IT.common t u) v, s) := by
  unfold binop
  simp only
  rw [if_neg h]
  cases IT.compare o (IT.convert L.signed (IT.common t u) t x) (IT.convert L.signed (IT.common t u) u y) <;> rfl

theorem binop_eq (t u : IT) (x y : Int) : binop L n!"==" (.int t x) (.int u y) s =
    some (.bool (decide (IT.convert L.signed (IT.common t u) t x = IT.convert L.signed (IT.common t u) u y)), s) := by
  rw [binop_int _ _ _ _ _ (by decide)]; rfl
theorem binop_ne (t u : IT) (x y : Int) : binop L n!"!=" (.int t x) (.int u y) s =
    some (.bool (decide (IT.convert L.signed (IT.common t u) t x ≠ IT.convert L.signed (IT.common t u) u y)), s) := by
  rw [binop_int _ _ _ _ _ (by decide)]; rfl
theorem binop_lt (t u : IT) (x y : Int) : binop L n!"<" (.int t x) (.int u y) s =
    some (.bool (decide (IT.convert L.signed (IT.common t u) t x < IT.convert L.signed (IT.common t u) u y)), s) := by
  rw [binop_int _ _ _ _ _ (by decide)]; rfl
theorem binop_le (t u : IT) (x y : Int) : binop L n!"<=" (.int t x) (.int u y) s =
    some (.bool (decide (IT.convert L.signed (IT.common t u) t x ≤ IT.convert L.signed (IT.common t u) u y)), s) := by
  rw [binop_int _ _ _ _ _ (by decide)]; rfl
theorem binop_ge (t u : IT) (x y : Int) : binop L n!">=" (.int t x) (.int u y) s =
    some (.bool (decide (IT.convert L.signed (IT.common t u) u y ≤ IT.convert L.signed (IT.common t u) t x)), s) := by
  rw [binop_int _ _ _ _ _ (by decide)]; rfl
theorem binop_add (t u : IT) (x y : Int) : binop L n!"+" (.int t x) (.int u y) s =
    (IT.fit (IT.common t u) (IT.convert L.signed (IT.common t u) t x + IT.convert L.signed (IT.common t u) u y)).map
      fun v => (.int (IT.common t u) v, s) := by
  rw [binop_int _ _ _ _ _ (by decide)]; rfl
theorem binop_sub (t u : IT) (x y : Int) : binop L n!"-" (.int t x) (.int u y) s =
    (IT.fit (IT.common t u) (IT.convert L.signed (IT.common t u) t x - IT.convert L.signed (IT.common t u) u y)).map
      fun v => (.int (IT.common t u) v, s) := by
  rw [binop_int _ _ _ _ _ (by decide)]; rfl
theorem binop_mul (t u : IT) (x y : Int) : binop L n!"*" (.int t x) (.int u y) s =
    (IT.fit (IT.common t u) (IT.convert L.signed (IT.common t u) t x * IT.convert L.signed (IT.common t u) u y)).map
      fun v => (.int (IT.common t u) v, s) := by
  rw [binop_int _ _ _ _ _ (by decide)]; rfl
/-- Operators on bits. -/
theorem binop_bits (o : Name) (ho : o = n!"&" ∨ o = n!"|" ∨ o = n!"^") (t u : IT) (x y : Int) :
    binop L o (.int t x) (.int u y) s =
    (IT.arith o (IT.common t u) (IT.convert L.signed (IT.common t u) t x) (IT.convert L.signed (IT.common t u) u y)).map
      fun v => (.int (IT.common t u) v, s) := by
  rcases ho with rfl | rfl | rfl <;> (rw [binop_int _ _ _ _ _ (by decide)]; rfl)
theorem binop_shl (t u : IT) (x y : Int) : binop L n!"<<" (.int t x) (.int u y) s =
    (IT.shift n!"<<" t.promote (IT.convert L.signed t.promote t x) (IT.convert L.signed u.promote u y)).map
      fun v => (.int t.promote v, s) := (rfl)
theorem binop_shr (t u : IT) (x y : Int) : binop L n!">>" (.int t x) (.int u y) s =
    (IT.shift n!">>" t.promote (IT.convert L.signed t.promote t x) (IT.convert L.signed u.promote u y)).map
      fun v => (.int t.promote v, s) := (rfl)
theorem binop_strEq (x y : Bytes) : binop L n!"==" (.str x) (.str y) s = some (.bool (decide (x = y)), s) := (rfl)
theorem binop_boolEq (x y : Bool) : binop L n!"==" (.bool x) (.bool y) s = some (.bool (x == y), s) := (rfl)
theorem binop_strChar (x : Bytes) (y : Int) : binop L n!"+" (.str x) (.int .char y) s = some (.str (x ++ [IT.toByte y]), s) := (rfl)
theorem binop_iter (x y : List (Val D)) : binop L n!"!=" (.iter x) (.iter y) s = some (.bool (decide (x.length ≠ y.length)), s) := (rfl)
theorem binop_dom (o : Name) (d : D) (v : Val D) : binop L o (.dom d) v s = L.binary o (.dom d) v s := by cases v <;> rfl

theorem unop_not (b : Bool) : unop L n!"!" (.bool b) s = some (.bool !b) := (rfl)
theorem unop_neg (t : IT) (v : Int) : unop L n!"-" (.int t v) s =
    (IT.fit t.promote (-(IT.convert L.signed t.promote t v))).map (.int t.promote) := (rfl)
theorem unop_ptr (c : Byte) (r : Bytes) : unop L n!"*" (.ptr (c :: r)) s = some (.int .char (IT.ofByte L.signed c)) := (rfl)
theorem unop_ptr0 : unop L n!"*" (.ptr []) s = some (.int .char 0) := (rfl)
theorem unop_iter (x : Val D) (r : List (Val D)) : unop L n!"*" (.iter (x :: r)) s = some x := (rfl)
theorem unop_dom (d : D) : unop L n!"*" (.dom d) s = L.unary n!"*" (.dom d) s := (rfl)

theorem increment_int (t : IT) (v : Int) : increment L n!"++" (.int t v) s =
    (IT.fit t.promote (IT.convert L.signed t.promote t v + 1)).map fun w => .int t (IT.convert L.signed t t.promote w) := (rfl)
theorem increment_ptr (c : Byte) (r : Bytes) : increment L n!"++" (.ptr (c :: r)) s = some (.ptr r) := (rfl)
theorem increment_ptr0 : increment L n!"++" (.ptr []) s = some (.undef none) := (rfl)
theorem increment_iter (x : Val D) (r : List (Val D)) : increment L n!"++" (.iter (x :: r)) s = some (.iter r) := (rfl)
theorem increment_dom (d : D) : increment L n!"++" (.dom d) s = L.unary n!"++" (.dom d) s := (rfl)

theorem builtin_dom (m : Name) (d : D) (args : List (Val D)) : builtin m (.dom d) args = none := by
  unfold builtin; rfl
theorem builtin_size (x : Bytes) : builtin (D := D) n!"size" (.str x) [] = some (.int .u64 x.length, none) := (rfl)
theorem builtin_length (x : Bytes) : builtin (D := D) n!"length" (.str x) [] = some (.int .u64 x.length, none) := (rfl)
theorem builtin_clear (x : Bytes) : builtin (D := D) n!"clear" (.str x) [] = some (.void, some (.str [])) := (rfl)
theorem builtin_cstr (x : Bytes) : builtin (D := D) n!"c_str" (.str x) [] = some (.ptr x, none) := (rfl)
theorem builtin_reserve (x : Bytes) (t : IT) (v : Int) :
    builtin (D := D) n!"reserve" (.str x) [.int t v] = some (.void, some (.str x)) := (rfl)
theorem builtin_arrSize (l : List (Val D)) : builtin n!"size" (.arr l) [] = some (.int .u64 l.length, none) := (rfl)
theorem builtin_begin (l : List (Val D)) : builtin n!"begin" (.arr l) [] = some (.iter l, none) := (rfl)
theorem builtin_end (l : List (Val D)) : builtin n!"end" (.arr l) [] = some (.iter [], none) := (rfl)
theorem builtin_push (l : List (Val D)) (x : Val D) : builtin n!"push_back" (.arr l) [x] = some (.void, some (.arr (l ++ [x]))) := (rfl)

theorem both_false (st : St D S) (k : Option (Bool × St D S)) : both (D := D) false st k = some (.bool false, st) := (rfl)
theorem both_true (st : St D S) (y : Bool) (st' : St D S) : both (D := D) true st (some (y, st')) = some (.bool y, st') := (rfl)
theorem both_some (x y : Bool) (st : St D S) : both (D := D) x st (some (y, st)) = some (.bool (x && y), st) := by cases x <;> rfl
theorem either_true (st : St D S) (k : Option (Bool × St D S)) : either (D := D) true st k = some (.bool true, st) := (rfl)
theorem either_false (st : St D S) (y : Bool) (st' : St D S) : either (D := D) false st (some (y, st')) = some (.bool y, st') := (rfl)
theorem either_some (x y : Bool) (st : St D S) : either (D := D) x st (some (y, st)) = some (.bool (x || y), st) := by
  cases x <;> rfl

theorem result_int (v : Val D) : result L n!"int" v = toInt L.signed .i32 v := (rfl)
theorem result_staticInt (v : Val D) : result L n!"static int" v = toInt L.signed .i32 v := (rfl)
theorem result_u8 (v : Val D) : result L n!"uint8_t" v = toInt L.signed .u8 v := (rfl)
theorem result_void (v : Val D) : result L n!"void" v = some v := (rfl)
theorem result_staticVoid (v : Val D) : result L n!"static void" v = some v := (rfl)
theorem result_token (v : Val D) : result L n!"token" v = some v := (rfl)
theorem result_tokenRef (v : Val D) : result L n!"token &" v = some v := (rfl)
theorem result_T (v : Val D) : result L n!"T" v = some v := (rfl)
theorem result_reveal (v : Val D) : result L n!"static inline std :: string" v = some v := (rfl)
theorem result_field (v : Val D) : result L n!"field < T > &" v = some v := (rfl)
theorem result_strField (v : Val D) : result L n!"string_field &" v = some v := (rfl)
theorem result_valueRef (v : Val D) : result L n!"value_type &" v = some v := (rfl)
theorem result_constValueRef (v : Val D) : result L n!"const value_type &" v = some v := (rfl)
theorem result_none (v : Val D) : result L 0 v = some v := (rfl)
theorem result_bool (v : Val D) : result L n!"bool" v = (truth v).map .bool := (rfl)
theorem result_staticBool (v : Val D) : result L n!"static bool" v = (truth v).map .bool := (rfl)
theorem result_string (x : Bytes) : result L n!"std :: string" (.str x) = some (.str x) := (rfl)
theorem result_chars (l : List (Val D)) : result L n!"std :: string" (.arr l) = (characters l).map .str := (rfl)
theorem binop_strNe (x y : Bytes) : binop L n!"!=" (.str x) (.str y) s = some (.bool (decide (x ≠ y)), s) := (rfl)
theorem binop_boolNe (x y : Bool) : binop L n!"!=" (.bool x) (.bool y) s = some (.bool (x != y), s) := (rfl)
theorem binop_ptrEq (x y : Bytes) : binop L n!"==" (.str x) (.ptr y) s = some (.bool (decide (x = y.takeWhile (· ≠ 0))), s) := (rfl)
theorem binop_ptrNe (x y : Bytes) : binop L n!"!=" (.str x) (.ptr y) s = some (.bool (decide (x ≠ y.takeWhile (· ≠ 0))), s) := (rfl)
theorem binop_arr (o : Name) (x y : List (Val D)) : binop L o (.arr x) (.arr y) s = L.binary o (.arr x) (.arr y) s := (rfl)
theorem builtin_empty (x : Bytes) : builtin (D := D) n!"empty" (.str x) [] = some (.bool x.isEmpty, none) := (rfl)
theorem builtin_arrEmpty (l : List (Val D)) : builtin n!"empty" (.arr l) [] = some (.bool l.isEmpty, none) := (rfl)
theorem builtin_arrClear (l : List (Val D)) : builtin n!"clear" (.arr l) [] = some (.void, some (.arr [])) := (rfl)
theorem builtin_swap (x y : Bytes) : builtin (D := D) n!"swap" (.str x) [.str y] = none := (rfl)

end

attribute [cxx] both_false both_true both_some either_true either_false either_some eval evalAll place storeAll exec execAll execCases test perform isLabel getIn getVar setIn setVar St.declare St.enter St.leave
  truth toInt assigned Place.get Place.put Place.assign Option.map_some Option.map_none Option.bind_some Option.bind_none
  Option.some_or Option.none_or Option.or_none List.tail_cons
  List.length_cons List.length_nil List.map_cons List.map_nil List.zip_cons_cons List.zip_nil_right List.zip_nil_left
  Fun.run intType_int intType_size intType_char intType_u8 intType_i32 intType_u32 intType_staticInt intType_staticI32
  intType_staticU32 intType_void intType_bool intType_string intType_staticVoid intType_T intType_token intType_tokenRef
  intType_auto intType_autoRef intType_value intType_chars intType_pointer intType_reveal
  initial_int initial_size initial_u8 initial_i32 initial_u32 initial_staticI32 initial_staticU32 initial_string initial_string0
  initial_chars initial_pointer initial_auto initial_autoInt initial_autoIter initial_autoRef initial_T initial_value
  binop_eq binop_ne binop_lt binop_le binop_ge binop_add binop_sub binop_mul binop_shl binop_shr binop_strEq binop_boolEq
  binop_strChar binop_iter binop_dom unop_not unop_neg unop_ptr unop_ptr0 unop_iter unop_dom increment_int increment_ptr
  increment_ptr0 increment_iter increment_dom builtin_dom builtin_size builtin_length builtin_clear builtin_cstr builtin_reserve
  builtin_arrSize builtin_begin builtin_end builtin_push element setElement elements
  IT.promote IT.common IT.rank List.getLast?_cons_cons List.getLast?_singleton Option.getD_some decide_true decide_false
  Bool.not_true Bool.not_false Bool.true_and Bool.and_true Bool.false_and Bool.and_false Bool.true_or Bool.or_true Bool.false_or
  Bool.or_false Int.cast_ofNat_Int ne_eq not_true_eq_false not_false_eq_true
attribute [cxx] result_int result_staticInt result_u8 result_void result_staticVoid result_token result_tokenRef
  result_T result_reveal result_field result_strField result_valueRef result_constValueRef result_none result_bool
  result_staticBool result_string result_chars binop_strNe binop_boolNe binop_ptrEq binop_ptrNe binop_arr builtin_empty
  builtin_arrEmpty builtin_arrClear builtin_swap

/-- Execution. -/
macro "cxx" "[" ls:Lean.Parser.Tactic.simpLemma,* "]" : tactic =>
  `(tactic| simp -implicitDefEqProofs only [cxx, ↓reduceIte, ↓reduceBind, ↓reduceMap, reduceByteEq, Nat.reduceEqDiff, Nat.reduceLeDiff, reduceCtorEq, Bool.false_eq_true, $ls,*])

/-- Execution with arithmetic on literals. -/
macro "cxxi" "[" ls:Lean.Parser.Tactic.simpLemma,* "]" : tactic =>
  `(tactic| simp -implicitDefEqProofs only [cxx, ↓reduceIte, ↓reduceBind, ↓reduceMap, reduceByteEq, Int.reduceLE, Int.reduceLT, Int.reduceToNat,
    Int.reduceMul, Int.reduceSub, Int.reduceAdd, Nat.reduceEqDiff, Nat.reduceLeDiff, reduceCtorEq, Bool.false_eq_true, $ls,*])

variable {σ : Bool}

theorem ofByte_zero : IT.ofByte σ 0 = 0 := by cases σ <;> decide

theorem ofByte_range (b : Byte) : -128 ≤ IT.ofByte σ b ∧ IT.ofByte σ b ≤ 255 := by
  have := b.toNat_lt
  unfold IT.ofByte
  split <;> omega

theorem toByte_ofByte (b : Byte) : IT.toByte (IT.ofByte σ b) = b := by
  have h := b.toNat_lt
  unfold IT.toByte IT.ofByte
  apply UInt8.toNat_inj.mp
  split <;> rw [UInt8.toNat_ofNat'] <;> omega

theorem ofByte_inj {a b : Byte} : IT.ofByte σ a = IT.ofByte σ b ↔ a = b :=
  ⟨fun h => by rw [← toByte_ofByte (σ := σ) a, h, toByte_ofByte], fun h => by rw [h]⟩

theorem ofByte_eq_zero {b : Byte} : IT.ofByte σ b = 0 ↔ b = 0 := by
  rw [← ofByte_inj (σ := σ) (b := 0), ofByte_zero]

theorem wrap_i32 {v : Int} (h : -2147483648 ≤ v ∧ v ≤ 2147483647) : IT.wrap σ .i32 v = v := by
  unfold IT.wrap
  simp only
  omega

theorem convert_self (t : IT) (v : Int) : IT.convert σ t t v = v := by
  unfold IT.convert
  rw [if_pos rfl]

theorem convert_byte (b : Byte) : IT.convert σ .i32 .char (IT.ofByte σ b) = IT.ofByte σ b := by
  unfold IT.convert
  rw [if_neg (by decide), wrap_i32]
  have := ofByte_range (σ := σ) b
  omega

theorem convert_char (b : Byte) : IT.convert σ .char .i32 (IT.ofByte σ b) = IT.ofByte σ b := by
  unfold IT.convert
  rw [if_neg (by decide)]
  unfold IT.wrap
  simp only
  rw [toByte_ofByte]

attribute [cxx] convert_self convert_byte convert_char toByte_ofByte ofByte_inj ofByte_eq_zero

/-- Ranges of characters below 128. -/
theorem byte_range (b lo hi : Byte) (h1 : lo < 128) (h2 : hi < 128) :
    (decide (IT.ofByte σ lo ≤ IT.ofByte σ b) && decide (IT.ofByte σ b ≤ IT.ofByte σ hi)) = (decide (lo ≤ b) && decide (b ≤ hi)) := by
  have h1 : lo.toNat < 128 := h1
  have h2 : hi.toNat < 128 := h2
  have h3 := b.toNat_lt
  have e1 : IT.ofByte σ lo = lo.toNat := by unfold IT.ofByte; rw [if_neg (by omega)]
  have e2 : IT.ofByte σ hi = hi.toNat := by unfold IT.ofByte; rw [if_neg (by omega)]
  rw [e1, e2, Bool.eq_iff_iff]
  simp only [Bool.and_eq_true, decide_eq_true_eq, UInt8.le_iff_toNat_le]
  unfold IT.ofByte
  split <;> omega

theorem fit_i32 {v : Int} (h : -2147483648 ≤ v ∧ v ≤ 2147483647) : IT.fit .i32 v = some v := if_pos h

theorem fit_i32_none {v : Int} (h : ¬ (-2147483648 ≤ v ∧ v ≤ 2147483647)) : IT.fit .i32 v = none := if_neg h

theorem binop_and {D S : Type} {L : Lib D S} {s : S} (x y : Int) (hx : 0 ≤ x) (hy : 0 ≤ y) :
    binop L n!"&" (.int .i32 x) (.int .i32 y) s = some (.int .i32 ((x.toNat &&& y.toNat : Nat) : Int), s) := by
  rw [binop_bits _ (.inl rfl)]
  cxx [convert_self]
  show (if _ then _ else if x < 0 ∨ y < 0 then none else _ : Option Int).map _ = _
  rw [if_neg (fun h => absurd h.2.1 (by omega)), if_neg (by omega)]
  rfl
theorem binop_or {D S : Type} {L : Lib D S} {s : S} (x y : Int) (hx : 0 ≤ x) (hy : 0 ≤ y) :
    binop L n!"|" (.int .i32 x) (.int .i32 y) s = some (.int .i32 ((x.toNat ||| y.toNat : Nat) : Int), s) := by
  rw [binop_bits _ (.inr (.inl rfl))]
  cxx [convert_self]
  unfold IT.arith
  rw [if_neg (by decide), if_neg (by decide), if_neg (by decide), if_neg (by decide), if_neg (fun h => absurd h.1 (by decide)),
    if_neg (by omega), if_neg (by decide), if_pos rfl]
  rfl
theorem shift_shr (x y : Int) (hx : 0 ≤ x) (hy : 0 ≤ y) (hy2 : y < 32) :
    IT.shift n!">>" .i32 x y = some ((x.toNat >>> y.toNat : Nat) : Int) := by
  unfold IT.shift
  have : ((IT.i32.bits : Nat) : Int) = 32 := rfl
  rw [this, if_neg (by omega)]
  rfl
theorem shift_shl (x y : Int) (hx : 0 ≤ x) (hy : 0 ≤ y) (hy2 : y < 32) :
    IT.shift n!"<<" .i32 x y = IT.fit .i32 ((x.toNat <<< y.toNat : Nat) : Int) := by
  unfold IT.shift
  have : ((IT.i32.bits : Nat) : Int) = 32 := rfl
  rw [this, if_neg (by omega)]
  rfl
theorem toByte_byte (x : Nat) : IT.toByte (IT.convert σ .char .i32 (x : Int)) = byte x := by
  have : IT.convert σ .char .i32 (x : Int) = IT.ofByte σ (IT.toByte x) := rfl
  rw [this, toByte_ofByte]
  unfold IT.toByte byte
  apply UInt8.toNat_inj.mp
  rw [UInt8.toNat_ofNat', UInt8.toNat_ofNat']
  omega

section
variable {D S : Type} {c : St D S → Option (Bool × St D S)} {body : St D S → Option (Flow D × St D S)}
  {step : St D S → Option (St D S)} {n : Nat} {st s1 s2 s3 : St D S}

theorem iterate_next (h1 : c st = some (true, s1)) (h2 : body s1 = some (.next, s2)) (h3 : step s2 = some s3) :
    iterate c body step (n + 1) st = iterate c body step n s3 := by
  simp only [iterate, h1, h2, h3, Option.bind_some, ↓reduceIte]

theorem iterate_continue (h1 : c st = some (true, s1)) (h2 : body s1 = some (.continue, s2)) (h3 : step s2 = some s3) :
    iterate c body step (n + 1) st = iterate c body step n s3 := by
  simp only [iterate, h1, h2, h3, Option.bind_some, ↓reduceIte]

theorem iterate_break (h1 : c st = some (true, s1)) (h2 : body s1 = some (.break, s2)) :
    iterate c body step (n + 1) st = some (.next, s2) := by
  simp only [iterate, h1, h2, Option.bind_some, ↓reduceIte]

theorem iterate_ret {v : Val D} (h1 : c st = some (true, s1)) (h2 : body s1 = some (.ret v, s2)) :
    iterate c body step (n + 1) st = some (.ret v, s2) := by
  simp only [iterate, h1, h2, Option.bind_some, ↓reduceIte]

theorem iterate_goto {l : Name} (h1 : c st = some (true, s1)) (h2 : body s1 = some (.goto l, s2)) :
    iterate c body step (n + 1) st = some (.goto l, s2) := by
  simp only [iterate, h1, h2, Option.bind_some, ↓reduceIte]

theorem iterate_done (h1 : c st = some (false, s1)) : iterate c body step (n + 1) st = some (.next, s1) := by
  simp only [iterate, h1, Option.bind_some, Bool.false_eq_true, ↓reduceIte]

theorem iterate_none (h1 : c st = some (true, s1)) (h2 : body s1 = none) : iterate c body step (n + 1) st = none := by
  simp only [iterate, h1, h2, Option.bind_some, Option.bind_none, ↓reduceIte]

end

end PG.Cxx
