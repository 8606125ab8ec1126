import Verif.Proofs.GenLib
/-
The functions of cppgen.cc for types and options (cppgen.cc:77-167 and 226-260), executed.
-/
set_option autoImplicit false
namespace PG.Cxx.Throw
open PG.Proto PG.Gen Maker

/-! ### Outcomes -/

theorem resOf_bind {α β : Type} (st : Printed) (r : Gen.Res α) (f : α → Gen.Res β) : resOf st (r.bind f) = (resOf st r).bind fun a => resOf st (f a) := by
  cases r <;> rfl
theorem resOf_ok {α : Type} (st : Printed) (a : α) : resOf st (.ok a) = .ok a := rfl
theorem resOf_exc {α : Type} (st : Printed) (e : GExc) : resOf st (.exc e : Gen.Res α) = .thrown (.during st e.text e.line e.col) := rfl
theorem after_exception (st : Printed) (t : Bytes) (l c : Int) : (Thrown.exception t l c).after st = .during st t l c := rfl
theorem sameRes {α β : Type} {st : Printed} {r : Gen.Res α} {f g : α → Ran β} (h : ∀ a, f a = g a) : (resOf st r).bind f = (resOf st r).bind g := by
  cases r <;> first | rfl | exact h _

/-- Execution, with the outcomes of the functions of the model. -/
macro "cxg" "[" ls:Lean.Parser.Tactic.simpLemma,* "]" : tactic =>
  `(tactic| cxp [resOf_bind, resOf_ok, resOf_exc, after_exception, Int.reduceEq, $ls,*])

variable {s : Bool} {w : Given}

theorem initial_autoStr {D S : Type} {L : Lib D S} (x : Bytes) (u : S) : initial L n!"auto" (some (.str x)) u = some (.str x) := (rfl)
attribute [cxt] initial_autoStr

/-! ### Options -/

theorem getString_runs (n : Nat) (p : OptMap) (x y : Bytes) (st : Printed) :
    run (genLib s w) n Maker.stringFun [.dom (.options p), .str x, .str y] st =
      (resOf st (getString p x y)).bind fun v => .ok (.str v, [.dom (.options p), .str x, .str y], st) := by
  unfold getString
  cases h : p.find x with
  | none => cxg [Maker.stringFun, h, Option.isSome]
  | some e =>
    by_cases h2 : e.type = .string
    · cxg [Maker.stringFun, h, Option.isSome, eq_true h2]
    · cxg [Maker.stringFun, h, Option.isSome, eq_false h2]
      rfl

theorem getBool_runs (n : Nat) (p : OptMap) (x : Bytes) (y : Bool) (st : Printed) :
    run (genLib s w) n Maker.boolFun [.dom (.options p), .str x, .bool y] st =
      (resOf st (getBool p x y)).bind fun v => .ok (.bool v, [.dom (.options p), .str x, .bool y], st) := by
  unfold getBool
  cases h : p.find x with
  | none => cxg [Maker.boolFun, h, Option.isSome]
  | some e =>
    by_cases h2 : e.type = .boolean
    · cxg [Maker.boolFun, h, Option.isSome, eq_true h2]
      rw [show (e.value == [116, 114, 117, 101]) = decide (e.value = [116, 114, 117, 101]) from by rw [Bool.eq_iff_iff]; simp]
    · cxg [Maker.boolFun, h, Option.isSome, eq_false h2]
      rfl

theorem transient_runs (n : Nat) (f : Field) (st : Printed) :
    run (genLib s w) n Maker.transientFun [.dom (.field f)] st =
      (resOf st (isTransient f)).bind fun v => .ok (.bool v, [.dom (.field f)], st) := by
  unfold isTransient
  cxg [Maker.transientFun]
  refine sameRes fun b => ?_
  cxg [Maker.transientFun]

/-! ### Loops over iterators -/

/-- What follows an iteration: the rest of the loop, or what follows the loop. -/
def after {α σ β D S : Type} (f : List α → σ → St D S) (F : List α → σ → Ran β) (K : Flow D × St D S → Ran β) (x : α) (xs : List α) :
    Flow D × σ → Ran β
  | (.next, a) => F xs a
  | (.continue, a) => F xs a
  | (.break, a) => K (.next, f (x :: xs) a)
  | (.ret v, a) => K (.ret v, f (x :: xs) a)
  | (.goto l, a) => K (.goto l, f (x :: xs) a)

/-- A loop over a list: `f` is the state of the loop, given what is left of the list and what has been computed; `g` is an iteration;
`F` is the loop and what follows it. -/
theorem iterate_suffix {α σ β D S : Type} {c : St D S → Ran (Bool × St D S)} {body : St D S → Ran (Flow D × St D S)}
    {step : St D S → Ran (St D S)} (f : List α → σ → St D S) (g : σ → α → Ran (Flow D × σ)) (Q : List α → Prop) (P : List α → σ → Prop)
    (F : List α → σ → Ran β) (K : Flow D × St D S → Ran β)
    (hQ : ∀ x xs, Q (x :: xs) → Q xs)
    (hc : ∀ xs a, Q xs → c (f xs a) = .ok (decide (xs.length ≠ 0), f xs a))
    (hb : ∀ x xs a, Q (x :: xs) → P (x :: xs) a → body (f (x :: xs) a) = (g a x).bind fun r => .ok (r.1, f (x :: xs) r.2))
    (hs : ∀ x xs a, Q (x :: xs) → step (f (x :: xs) a) = .ok (f xs a))
    (hP : ∀ x xs a r, P (x :: xs) a → g a x = .ok r → r.1 = .next ∨ r.1 = .continue → P xs r.2)
    (h0 : ∀ a, P [] a → K (.next, f [] a) = F [] a)
    (hF : ∀ x xs a, P (x :: xs) a → F (x :: xs) a = (g a x).bind (after f F K x xs))
    (n : Nat) (xs : List α) (a : σ) (hq : Q xs) (ha : P xs a) (hn : xs.length < n) :
    (iterate c body step n (f xs a)).bind K = F xs a := by
  induction xs generalizing n a with
  | nil =>
    obtain ⟨n, rfl⟩ : ∃ k, n = k + 1 := ⟨n - 1, by simp at hn; omega⟩
    rw [iterate_done (s1 := f [] a) (by rw [hc _ _ hq]; rfl)]
    exact h0 a ha
  | cons x xs ih =>
    obtain ⟨n, rfl⟩ : ∃ k, n = k + 1 := ⟨n - 1, by simp at hn; omega⟩
    rw [hF x xs a ha]
    simp only [iterate, hc _ _ hq, hb x xs a hq ha, Ran.bind, List.length_cons, ne_eq, Nat.add_eq_zero_iff, Nat.succ_ne_self, and_false,
      not_false_eq_true, decide_true, ↓reduceIte]
    cases h : g a x with
    | ok r =>
      have e := fun hr => ih n r.2 (hQ x xs hq) (hP x xs a r ha h hr) (by simp at hn; omega)
      obtain ⟨fl, a2⟩ := r
      have hs := hs x xs a2 hq
      cases fl <;> first | rfl | (simp only [Ran.bind, hs]; exact e (.inl rfl)) | (simp only [Ran.bind, hs]; exact e (.inr rfl))
    | thrown e => rfl
    | fuel => rfl
    | undef => rfl

theorem iterate_list {α σ β D S : Type} {c : St D S → Ran (Bool × St D S)} {body : St D S → Ran (Flow D × St D S)}
    {step : St D S → Ran (St D S)} (f : List α → σ → St D S) (g : σ → α → Ran (Flow D × σ)) (P : List α → σ → Prop)
    (F : List α → σ → Ran β) (K : Flow D × St D S → Ran β)
    (hc : ∀ xs a, c (f xs a) = .ok (decide (xs.length ≠ 0), f xs a))
    (hb : ∀ x xs a, P (x :: xs) a → body (f (x :: xs) a) = (g a x).bind fun r => .ok (r.1, f (x :: xs) r.2))
    (hs : ∀ x xs a, step (f (x :: xs) a) = .ok (f xs a))
    (hP : ∀ x xs a r, P (x :: xs) a → g a x = .ok r → r.1 = .next ∨ r.1 = .continue → P xs r.2)
    (h0 : ∀ a, P [] a → K (.next, f [] a) = F [] a)
    (hF : ∀ x xs a, P (x :: xs) a → F (x :: xs) a = (g a x).bind (after f F K x xs))
    (n : Nat) (xs : List α) (a : σ) (ha : P xs a) (hn : xs.length < n) :
    (iterate c body step n (f xs a)).bind K = F xs a :=
  iterate_suffix f g (fun _ => True) P F K (fun _ _ _ => trivial) (fun xs a _ => hc xs a) (fun x xs a _ => hb x xs a)
    (fun x xs a _ => hs x xs a) hP h0 hF n xs a trivial ha hn

theorem chr_46 {c : Byte} : (IT.ofByte s c = 46) = (c = 46) := by rw [← ofByte_inj (σ := s), lit_46]

/-! ### `nativePackage` -/

/-- The variables of `nativePackage` in its loop. -/
def packageVars (s : Bool) (p : Bytes) (st : Printed) (r : Bytes) (a : Bytes) : St GVal Printed :=
  ⟨[[(n!"c'", .iter (r.map fun c => .int .char (IT.ofByte s c)))], [(n!"name", .str a)], [(n!"package", .str p)]], st⟩

theorem nativePackage_runs (n : Nat) (p : Bytes) (st : Printed) (hn : p.length < n) :
    run (genLib s w) n packageFun [.str p] st = .ok (.str (nativePackage p), [.str p], st) := by
  unfold nativePackage
  by_cases h : p = []
  · subst h
    cxg [packageFun, List.isEmpty_nil]
  · have h2 : p.isEmpty = false := by simp [h]
    cxg [packageFun, h, h2, List.nil_append]
    rw [show (⟨_, _⟩ : St GVal Printed) = packageVars s p st p b!" ::" from rfl]
    refine iterate_list (β := Val GVal × List (Val GVal) × Printed) (packageVars s p st) (fun a c => .ok (.next, if c = c!"." then a ++ b!"::" else a ++ [c])) (fun _ _ => True)
      (fun r a => .ok (.str (a ++ r.flatMap fun c => if c = c!"." then b!"::" else [c]), [.str p], st)) _ ?_ ?_ ?_ ?_ ?_ ?_ n p _ trivial hn
    · intro xs a
      cxg [packageVars, List.length_map]
    · intro c xs a _
      by_cases h : c = 46
      · cxg [packageVars, packageFunBody1, h]
      · cxg [packageVars, packageFunBody1, chr_46, h]
    · intro c xs a
      cxg [packageVars]
    · intros; trivial
    · intro a _
      cxg [packageVars, packageFun, List.flatMap_nil, List.append_nil]
    · intro c xs a _
      by_cases h : c = 46
      · cxg [after, h, List.flatMap_cons, List.append_assoc]
      · cxg [after, h, List.flatMap_cons, List.append_assoc]

/-! ### `nativeType` -/

theorem gen_r_name {i : Nat} {m : Message} (st : Printed) (h : w.msgs[i]? = some m) :
    (genBase s w).member (.dom (.ref (some i))) n!"name" st = some (.str m.name) := by
  show (w.msgs[i]?.bind _) = _
  rw [h]; rfl
theorem gen_r_package {i : Nat} {m : Message} (st : Printed) (h : w.msgs[i]? = some m) :
    (genBase s w).member (.dom (.ref (some i))) n!"package" st = some (.str m.package) := by
  show (w.msgs[i]?.bind _) = _
  rw [h]; rfl

theorem nativeType_runs (n : Nat) (f : Field) (st : Printed) (hm : f.type.id = .message) (hv : Valid w.msgs f) :
    run (genLib s w) n typeFun [.dom (.field f)] st =
      (resOf st (nativeType w.msgs f)).bind fun x => .ok (.str x, [.dom (.field f)], st) := by
  unfold nativeType
  cases hr : f.type.ref with
  | none =>
    cxg [typeFun, hm, typeNum, hr, Int.reduceLE]
    rfl
  | some i =>
    obtain ⟨m, h⟩ : ∃ m, w.msgs[i]? = some m := ⟨w.msgs[i]'(hv i hr), List.getElem?_eq_getElem _⟩
    cxg [typeFun, hm, typeNum, hr, Int.reduceLE, gen_r_name st h, gen_r_package st h, h]

/-! ### `fieldNativeType` -/

theorem num_double : ((typeNum (.scalar .double) : Nat) : Int) = 6 := (rfl)
theorem num_float : ((typeNum (.scalar .float) : Nat) : Int) = 7 := (rfl)
theorem num_int32 : ((typeNum (.scalar .int32) : Nat) : Int) = 8 := (rfl)
theorem num_int64 : ((typeNum (.scalar .int64) : Nat) : Int) = 9 := (rfl)
theorem num_uint32 : ((typeNum (.scalar .uint32) : Nat) : Int) = 10 := (rfl)
theorem num_uint64 : ((typeNum (.scalar .uint64) : Nat) : Int) = 11 := (rfl)
theorem num_sint32 : ((typeNum (.scalar .sint32) : Nat) : Int) = 12 := (rfl)
theorem num_sint64 : ((typeNum (.scalar .sint64) : Nat) : Int) = 13 := (rfl)
theorem num_fixed32 : ((typeNum (.scalar .fixed32) : Nat) : Int) = 14 := (rfl)
theorem num_fixed64 : ((typeNum (.scalar .fixed64) : Nat) : Int) = 15 := (rfl)
theorem num_sfixed32 : ((typeNum (.scalar .sfixed32) : Nat) : Int) = 16 := (rfl)
theorem num_sfixed64 : ((typeNum (.scalar .sfixed64) : Nat) : Int) = 17 := (rfl)
theorem num_bool : ((typeNum (.scalar .bool) : Nat) : Int) = 18 := (rfl)
theorem num_string : ((typeNum (.scalar .string) : Nat) : Int) = 19 := (rfl)
theorem num_bytes : ((typeNum (.scalar .bytes) : Nat) : Int) = 20 := (rfl)
theorem at_double : ((rows.map fun r => (.dom (.row r) : Val GVal)))[0]? = some (.dom (.row (some (mapping .double)))) := (rfl)
theorem at_float : ((rows.map fun r => (.dom (.row r) : Val GVal)))[1]? = some (.dom (.row (some (mapping .float)))) := (rfl)
theorem at_int32 : ((rows.map fun r => (.dom (.row r) : Val GVal)))[2]? = some (.dom (.row (some (mapping .int32)))) := (rfl)
theorem at_int64 : ((rows.map fun r => (.dom (.row r) : Val GVal)))[3]? = some (.dom (.row (some (mapping .int64)))) := (rfl)
theorem at_uint32 : ((rows.map fun r => (.dom (.row r) : Val GVal)))[4]? = some (.dom (.row (some (mapping .uint32)))) := (rfl)
theorem at_uint64 : ((rows.map fun r => (.dom (.row r) : Val GVal)))[5]? = some (.dom (.row (some (mapping .uint64)))) := (rfl)
theorem at_sint32 : ((rows.map fun r => (.dom (.row r) : Val GVal)))[6]? = some (.dom (.row (some (mapping .sint32)))) := (rfl)
theorem at_sint64 : ((rows.map fun r => (.dom (.row r) : Val GVal)))[7]? = some (.dom (.row (some (mapping .sint64)))) := (rfl)
theorem at_fixed32 : ((rows.map fun r => (.dom (.row r) : Val GVal)))[8]? = some (.dom (.row (some (mapping .fixed32)))) := (rfl)
theorem at_fixed64 : ((rows.map fun r => (.dom (.row r) : Val GVal)))[9]? = some (.dom (.row (some (mapping .fixed64)))) := (rfl)
theorem at_sfixed32 : ((rows.map fun r => (.dom (.row r) : Val GVal)))[10]? = some (.dom (.row (some (mapping .sfixed32)))) := (rfl)
theorem at_sfixed64 : ((rows.map fun r => (.dom (.row r) : Val GVal)))[11]? = some (.dom (.row (some (mapping .sfixed64)))) := (rfl)
theorem at_bool : ((rows.map fun r => (.dom (.row r) : Val GVal)))[12]? = some (.dom (.row (some (mapping .bool)))) := (rfl)
theorem at_bytes : ((rows.map fun r => (.dom (.row r) : Val GVal)))[14]? = some (.dom (.row (some (mapping .bytes)))) := (rfl)
theorem num_message : ((typeNum .message : Nat) : Int) = 21 := (rfl)
theorem byte_62 : IT.toByte 62 = 62 := (rfl)
theorem byte_46 : IT.toByte 46 = 46 := (rfl)
theorem byte_95 : IT.toByte 95 = 95 := (rfl)
attribute [cxt] num_message byte_62 byte_46 byte_95 num_double num_float num_int32 num_int64 num_uint32 num_uint64 num_sint32 num_sint64 num_fixed32 num_fixed64 num_sfixed32 num_sfixed64 num_bool num_string num_bytes at_double at_float at_int32 at_int64 at_uint32 at_uint64 at_sint32 at_sint64 at_fixed32 at_fixed64 at_sfixed32 at_sfixed64 at_bool at_bytes

theorem fit_0 : IT.fit .i32 0 = some 0 := (rfl)
theorem fit_1 : IT.fit .i32 1 = some 1 := (rfl)
theorem fit_2 : IT.fit .i32 2 = some 2 := (rfl)
theorem fit_3 : IT.fit .i32 3 = some 3 := (rfl)
theorem fit_4 : IT.fit .i32 4 = some 4 := (rfl)
theorem fit_5 : IT.fit .i32 5 = some 5 := (rfl)
theorem fit_6 : IT.fit .i32 6 = some 6 := (rfl)
theorem fit_7 : IT.fit .i32 7 = some 7 := (rfl)
theorem fit_8 : IT.fit .i32 8 = some 8 := (rfl)
theorem fit_9 : IT.fit .i32 9 = some 9 := (rfl)
theorem fit_10 : IT.fit .i32 10 = some 10 := (rfl)
theorem fit_11 : IT.fit .i32 11 = some 11 := (rfl)
theorem fit_12 : IT.fit .i32 12 = some 12 := (rfl)
theorem fit_13 : IT.fit .i32 13 = some 13 := (rfl)
theorem fit_14 : IT.fit .i32 14 = some 14 := (rfl)
attribute [cxt] fit_0 fit_1 fit_2 fit_3 fit_4 fit_5 fit_6 fit_7 fit_8 fit_9 fit_10 fit_11 fit_12 fit_13 fit_14

theorem fieldType_runs (n : Nat) (f : Field) (b : Bool) (st : Printed) (hv : Valid w.msgs f) :
    run (genLib s w) n fieldTypeFun [.dom (.field f), .bool b] st =
      (resOf st (fieldNativeType w.msgs f b)).bind fun x => .ok (.str x, [.dom (.field f), .bool b], st) := by
  unfold fieldNativeType valueType
  cases hm : f.type.id with
  | message =>
    cxg [fieldTypeFun, hm, Int.reduceLE, gen_nativeType st f hm hv]
    refine sameRes fun x => ?_
    cases hr : f.type.repeated <;> cases b <;> cxg [fieldTypeFun, hr, hm]
  | scalar t => 
    cases t <;> cases hr : f.type.repeated <;> cases b <;> cxg [fieldTypeFun, hm, Int.reduceLE, Int.reduceLT, Int.reduceSub, Int.reduceToNat, convert_self, hr] <;> rfl

end PG.Cxx.Throw
