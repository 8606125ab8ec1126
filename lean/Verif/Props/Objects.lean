import Verif.Props.Demo
import Verif.Proofs.FltPrec
/-
C29 (clear, empty, default construction), C30 (equality), C31 (swap), C32 (assignment).
-/
set_option autoImplicit false
namespace PG

/-! ### C29 -/

theorem Prim.ceq_zero (p : Prim) : p.ceq p.zero p.zero = true := by
  cases p with
  | int k => simp [Prim.ceq]
  | flt k => rfl
  | bool => rfl

theorem Prim.near_zero (p : Prim) : p.near p.zero p.zero = true := by
  cases p with
  | int k => simp [Prim.near]
  | flt k => cases k <;> decide +kernel
  | bool => rfl

mutual
/-- `clear` gives the state of a default constructed object. -/
theorem Ty.clear_eq_new : (t : Ty) → (v : t.Den) → t.clear v = t.new
  | .num _, _ => rfl
  | .raw _, _ => rfl
  | .str, _ => rfl
  | .bytes, _ => rfl
  | .rep _, _ => rfl
  | .msg _ fs, v => Fields.clear_eq_new fs v
theorem Fields.clear_eq_new : (fs : Fields) → (v : fs.Den) → fs.clear v = fs.new
  | .nil, _ => rfl
  | .cons _ t rest, v => by
    simp only [Fields.clear, Fields.new]
    rw [Ty.clear_eq_new t, Fields.clear_eq_new rest]
end

mutual
theorem Ty.empty_new : (t : Ty) → t.empty t.new = true
  | .num _ => rfl
  | .raw p => p.near_zero
  | .str => rfl
  | .bytes => rfl
  | .rep _ => rfl
  | .msg _ fs => Fields.empty_new fs
theorem Fields.empty_new : (fs : Fields) → fs.empty fs.new = true
  | .nil => rfl
  | .cons _ t rest => by
    simp only [Fields.empty, Fields.new]
    rw [Ty.empty_new t, Fields.empty_new rest]; rfl
end

mutual
theorem Ty.equal_new : (t : Ty) → t.equal t.new t.new = true
  | .num p => by simp only [Ty.equal, Ty.new, NumField.eq, NumField.new]; rw [p.ceq_zero]; rfl
  | .raw p => p.ceq_zero
  | .str => rfl
  | .bytes => rfl
  | .rep _ => rfl
  | .msg _ fs => Fields.equal_new fs
theorem Fields.equal_new : (fs : Fields) → fs.equal fs.new fs.new = true
  | .nil => rfl
  | .cons _ t rest => by
    simp only [Fields.equal, Fields.new]
    rw [Ty.equal_new t, Fields.equal_new rest]; rfl
end

theorem Fields.write_new (p : Params) (hp : p.serializeNull = false) : (fs : Fields) → (first : Bool) → (e : ErrInfo) →
    fs.write p fs.new first e = ([], e)
  | .nil, _, _ => rfl
  | .cons f t rest, first, e => by
    simp only [Fields.write, Fields.new, hp, Ty.empty_new t, Fields.write_new p hp rest]
    simp

/-- C29.  After `clear()` an object is in the state of a default constructed object. -/
theorem C29_clear_is_default (t : Ty) (v : t.Den) : t.clear v = t.new := t.clear_eq_new v

/-- The zero of an arithmetic type: the integer 0, the positive floating point 0, false. -/
def Prim.IsZero : (p : Prim) → p.Den → Prop
  | .int _, v => CInt.val v = 0
  | .flt _, v => Subtype.val v = Flt.fin false 0
  | .bool, v => v = false

mutual
/-- Nothing is set: numbers are zero and marked empty, strings are null and without characters, byte sequences and
    containers have no elements, the fields of messages are unset themselves. -/
def Ty.Unset : (t : Ty) → t.Den → Prop
  | .num p, v => p.IsZero v.value ∧ v.empty = true
  | .raw p, v => p.IsZero v
  | .str, v => v.value = [] ∧ v.null = true
  | .bytes, v => v = ([] : List Byte)
  | .rep t, v => v = ([] : List t.Den)
  | .msg _ fs, v => fs.Unset v
def Fields.Unset : (fs : Fields) → fs.Den → Prop
  | .nil, _ => True
  | .cons _ t rest, v => t.Unset v.1 ∧ rest.Unset v.2
end

theorem Prim.isZero_zero : (p : Prim) → p.IsZero p.zero
  | .int k => by cases k <;> rfl
  | .flt _ => rfl
  | .bool => rfl

mutual
theorem Ty.unset_new : (t : Ty) → t.Unset t.new
  | .num p => ⟨p.isZero_zero, rfl⟩
  | .raw p => p.isZero_zero
  | .str => ⟨rfl, rfl⟩
  | .bytes => rfl
  | .rep _ => rfl
  | .msg _ fs => Fields.unset_new fs
theorem Fields.unset_new : (fs : Fields) → fs.Unset fs.new
  | .nil => trivial
  | .cons _ t rest => ⟨Ty.unset_new t, Fields.unset_new rest⟩
end

/-- C29.  A default constructed object and an object after `clear()` are unset: the values that the fields hold are
    fixed too, not only the flags. -/
theorem C29_unset (t : Ty) (v : t.Den) : t.Unset t.new ∧ t.Unset (t.clear v) := by
  rw [t.clear_eq_new v]; exact ⟨t.unset_new, t.unset_new⟩

/-- C29.  After `clear()` an object is empty and equal to a default constructed object. -/
theorem C29_clear_empty_equal (t : Ty) (v : t.Den) : t.empty (t.clear v) = true ∧ t.equal (t.clear v) t.new = true ∧
    t.clear (t.clear v) = t.clear v := by
  rw [t.clear_eq_new v, t.clear_eq_new t.new]
  exact ⟨t.empty_new, t.equal_new, rfl⟩

/-- C29.  After `clear()` a message serializes to `{}`, unless nulls are asked for. -/
theorem C29_clear_serializes (obf : Bool) (fs : Fields) (v : (Ty.msg obf fs).Den) (params : Option Params)
    (h : ∀ q, params = some q → q.serializeNull = false) :
    (serialize (.msg obf fs) params ((Ty.msg obf fs).clear v)).out = b!"{}" ∧
    (serialize (.msg obf fs) params ((Ty.msg obf fs).clear v)).ret = true := by
  have hp : (ctxParams params).serializeNull = false := by
    cases params with
    | none => rfl
    | some q => exact h q rfl
  rw [Ty.clear_eq_new]
  simp only [serialize, Ty.write, Ty.new, Fields.write_new _ hp]
  exact ⟨rfl, rfl⟩

/-- An object that is empty need not be in the default state: a number can hold a stale value. -/
theorem C29_empty_is_not_default :
    Ty.empty (.num (.int .i32)) ⟨CInt.cast .i32 5, true⟩ = true ∧
    Ty.equal (.num (.int .i32)) ⟨CInt.cast .i32 5, true⟩ NumField.new = false := by decide +kernel

example : Demo.person.empty Demo.alice = false ∧ Demo.person.clear Demo.alice = Demo.person.new ∧
    (serialize Demo.person none (Demo.person.clear Demo.alice)).out = b!"{}" := by decide +kernel

/-- With `serialize_null` the condition of `C29_clear_serializes` is needed. -/
example : (serialize Demo.address (some { serializeNull := true }) Demo.address.new).out =
    b!"{\"number\":null,\"street\":null}" := by decide +kernel

/-! ### C30 -/

/-- A floating point value without the sign of zero. -/
def Flt.unsigned0 : Flt → Flt
  | .fin s m => .fin (s && m != 0) m
  | x => x

/-- The same for the values of a C++ floating point type. -/
def CFlt.unsigned0 {k : FKind} (v : CFlt k) : CFlt k := if v.val = .fin true 0 then CFlt.zero k else v

/-- A value without the sign of zero. -/
def Prim.unsigned0 : (p : Prim) → p.Den → p.Den
  | .int _, v => v
  | .flt _, v => CFlt.unsigned0 v
  | .bool, v => v

/-- Not a NaN. -/
def Prim.NotNan : (p : Prim) → p.Den → Prop
  | .flt _, v => v.val ≠ .nan
  | _, _ => True

mutual
/-- The object with every negative zero replaced by zero. -/
def Ty.unsigned0 : (t : Ty) → t.Den → t.Den
  | .num p, v => ⟨p.unsigned0 v.value, v.empty⟩
  | .raw p, v => p.unsigned0 v
  | .str, v => v
  | .bytes, v => v
  | .rep t, v => List.map t.unsigned0 v
  | .msg _ fs, v => fs.unsigned0 v
/-- All fields with negative zeros replaced by zeros. -/
def Fields.unsigned0 : (fs : Fields) → fs.Den → fs.Den
  | .nil, _ => ()
  | .cons _ t rest, v => (t.unsigned0 v.1, rest.unsigned0 v.2)
end

mutual
/-- No floating point variable in the object is NaN. -/
def Ty.NotNan : (t : Ty) → t.Den → Prop
  | .num p, v => p.NotNan v.value
  | .raw p, v => p.NotNan v
  | .rep t, v => ∀ x ∈ v, t.NotNan x
  | .msg _ fs, v => fs.NotNan v
  | _, _ => True
/-- No floating point variable in the fields is NaN. -/
def Fields.NotNan : (fs : Fields) → fs.Den → Prop
  | .nil, _ => True
  | .cons _ t rest, v => t.NotNan v.1 ∧ rest.NotNan v.2
end

theorem flt_unsigned0_val {k : FKind} (v : CFlt k) : v.unsigned0.val = v.val.unsigned0 := by
  unfold CFlt.unsigned0
  by_cases h : v.val = .fin true 0
  · rw [if_pos h, h]; rfl
  · rw [if_neg h]
    cases hv : v.val with
    | nan => rfl
    | inf s => rfl
    | fin s m =>
      rw [hv] at h
      cases s with
      | false => rfl
      | true =>
        have : m ≠ 0 := fun hm => h (by rw [hm])
        simp [Flt.unsigned0, this]

theorem flt_unsigned0_inj {k : FKind} (a b : CFlt k) : a.unsigned0 = b.unsigned0 ↔ a.val.unsigned0 = b.val.unsigned0 := by
  rw [← flt_unsigned0_val, ← flt_unsigned0_val]
  constructor
  · intro h; rw [h]
  · intro h; exact CFlt.ext h

theorem Flt.ceq_iff (x y : Flt) : Flt.ceq x y = true ↔ x ≠ .nan ∧ x.unsigned0 = y.unsigned0 := by
  cases x with
  | nan => simp [Flt.ceq]
  | inf s => cases y <;> simp [Flt.ceq, Flt.unsigned0]
  | fin s m =>
    cases y with
    | nan => simp [Flt.ceq, Flt.unsigned0]
    | inf s' => simp [Flt.ceq, Flt.unsigned0]
    | fin s' n =>
      simp only [Flt.ceq, Flt.unsigned0, Bool.and_eq_true, beq_iff_eq, Bool.or_eq_true, Flt.fin.injEq, ne_eq,
        reduceCtorEq, not_false_eq_true, true_and]
      constructor
      · rintro ⟨rfl, h | h⟩
        · subst h; exact ⟨rfl, rfl⟩
        · subst h; simp
      · rintro ⟨h, rfl⟩
        refine ⟨rfl, ?_⟩
        by_cases hm : m = 0
        · exact .inr hm
        · left
          have : (m != 0) = true := by simp [hm]
          rwa [this, Bool.and_true, Bool.and_true] at h

theorem Prim.ceq_iff (p : Prim) (a b : p.Den) :
    p.ceq a b = true ↔ p.NotNan a ∧ p.unsigned0 a = p.unsigned0 b := by
  cases p with
  | int k =>
    have h : ∀ x y : CInt k, decide (x.val = y.val) = true ↔ True ∧ x = y := by
      intro x y
      cases x; cases y
      simp
    exact h a b
  | bool => simp [Prim.ceq, Prim.NotNan, Prim.unsigned0]
  | flt k =>
    have h : ∀ x y : CFlt k, Flt.ceq x.val y.val = true ↔ x.val ≠ .nan ∧ x.unsigned0 = y.unsigned0 := by
      intro x y
      rw [flt_unsigned0_inj]; exact Flt.ceq_iff _ _
    exact h a b

theorem listEq_iff {α : Type} {e : α → α → Bool} {N : α → Prop} {u : α → α}
    (h : ∀ a b, e a b = true ↔ N a ∧ u a = u b) (as bs : List α) :
    listEq e as bs = true ↔ (∀ x ∈ as, N x) ∧ as.map u = bs.map u := by
  induction as generalizing bs with
  | nil => cases bs <;> simp [listEq]
  | cons a as ih =>
    cases bs with
    | nil => simp [listEq]
    | cons b bs =>
      simp only [listEq, Bool.and_eq_true, h, ih, List.map_cons, List.cons.injEq, List.mem_cons, forall_eq_or_imp]
      constructor
      · rintro ⟨⟨h1, h2⟩, h3, h4⟩; exact ⟨⟨h1, h3⟩, h2, h4⟩
      · rintro ⟨⟨h1, h3⟩, h2, h4⟩; exact ⟨⟨h1, h2⟩, h3, h4⟩

mutual
theorem Ty.equal_iff : (t : Ty) → (a b : t.Den) → (t.equal a b = true ↔ t.NotNan a ∧ t.unsigned0 a = t.unsigned0 b)
  | .num p, a, b => by
    simp only [Ty.equal, NumField.eq, Bool.and_eq_true, Prim.ceq_iff, Ty.NotNan, Ty.unsigned0, beq_iff_eq, NumField.mk.injEq]
    constructor
    · rintro ⟨h1, h2, h3⟩; exact ⟨h2, h3, h1⟩
    · rintro ⟨h2, h3, h1⟩; exact ⟨h1, h2, h3⟩
  | .raw p, a, b => p.ceq_iff a b
  | .str, a, b => by
    cases a; cases b
    simp only [Ty.equal, StrField.eq, Ty.NotNan, Ty.unsigned0, Bool.and_eq_true, beq_iff_eq, decide_eq_true_eq, true_and,
      StrField.mk.injEq]
    exact And.comm
  | .bytes, a, b => by
    have := listEq_iff (e := fun (x y : Byte) => x == y) (N := fun _ => True) (u := id) (by intro x y; simp) a b
    simp only [Ty.equal, Ty.NotNan, Ty.unsigned0]
    rw [this]
    simp
  | .rep t, a, b => listEq_iff (Ty.equal_iff t) a b
  | .msg _ fs, a, b => Fields.equal_iff fs a b
theorem Fields.equal_iff : (fs : Fields) → (a b : fs.Den) →
    (fs.equal a b = true ↔ fs.NotNan a ∧ fs.unsigned0 a = fs.unsigned0 b)
  | .nil, _, _ => by simp [Fields.equal, Fields.NotNan, Fields.unsigned0]
  | .cons _ t rest, a, b => by
    simp only [Fields.equal, Bool.and_eq_true, Ty.equal_iff t, Fields.equal_iff rest, Fields.NotNan, Fields.unsigned0,
      Prod.mk.injEq]
    constructor
    · rintro ⟨⟨h1, h2⟩, h3, h4⟩; exact ⟨⟨h1, h3⟩, h2, h4⟩
    · rintro ⟨⟨h1, h3⟩, h2, h4⟩; exact ⟨⟨h1, h2⟩, h3, h4⟩
end

theorem Prim.notNan_unsigned0 (p : Prim) (a b : p.Den) (h : p.unsigned0 a = p.unsigned0 b) (ha : p.NotNan a) :
    p.NotNan b := by
  cases p with
  | int k => trivial
  | bool => trivial
  | flt k =>
    have H : ∀ x y : CFlt k, x.unsigned0 = y.unsigned0 → x.val ≠ .nan → y.val ≠ .nan := by
      intro x y h hx hy
      rw [flt_unsigned0_inj, hy] at h
      cases hv : x.val with
      | nan => exact hx hv
      | inf s => rw [hv] at h; simp [Flt.unsigned0] at h
      | fin s m => rw [hv] at h; simp [Flt.unsigned0] at h
    exact H a b h ha

theorem map_notNan {α : Type} {N : α → Prop} {u : α → α} (h : ∀ a b, u a = u b → N a → N b) {as bs : List α}
    (he : as.map u = bs.map u) (ha : ∀ x ∈ as, N x) : ∀ x ∈ bs, N x := by
  induction as generalizing bs with
  | nil =>
    cases bs with
    | nil => exact ha
    | cons b bs => simp at he
  | cons a as ih =>
    cases bs with
    | nil => simp at he
    | cons b bs =>
      simp only [List.map_cons, List.cons.injEq] at he
      intro x hx
      rcases List.mem_cons.mp hx with rfl | hx
      · exact h a x he.1 (ha a (by simp))
      · exact ih he.2 (fun y hy => ha y (by simp [hy])) x hx

mutual
theorem Ty.notNan_unsigned0 : (t : Ty) → (a b : t.Den) → t.unsigned0 a = t.unsigned0 b → t.NotNan a → t.NotNan b
  | .num p, a, b, h, ha => by
    simp only [Ty.unsigned0, NumField.mk.injEq] at h
    exact p.notNan_unsigned0 _ _ h.1 ha
  | .raw p, a, b, h, ha => p.notNan_unsigned0 _ _ h ha
  | .str, _, _, _, _ => trivial
  | .bytes, _, _, _, _ => trivial
  | .rep t, _, _, h, ha => map_notNan (Ty.notNan_unsigned0 t) h ha
  | .msg _ fs, a, b, h, ha => Fields.notNan_unsigned0 fs a b h ha
theorem Fields.notNan_unsigned0 : (fs : Fields) → (a b : fs.Den) → fs.unsigned0 a = fs.unsigned0 b → fs.NotNan a → fs.NotNan b
  | .nil, _, _, _, _ => trivial
  | .cons _ t rest, a, b, h, ha => by
    simp only [Fields.unsigned0, Prod.mk.injEq] at h
    exact ⟨Ty.notNan_unsigned0 t _ _ h.1 ha.1, Fields.notNan_unsigned0 rest _ _ h.2 ha.2⟩
end

/-- C30, what `operator==` decides: the two objects hold the same data up to the sign of zeros, and no NaN. -/
theorem C30_equal_means (t : Ty) (a b : t.Den) :
    t.equal a b = true ↔ t.NotNan a ∧ t.unsigned0 a = t.unsigned0 b := t.equal_iff a b

/-- C30, reflexivity absent NaN. -/
theorem C30_reflexive (t : Ty) (a : t.Den) (h : t.NotNan a) : t.equal a a = true := (t.equal_iff a a).mpr ⟨h, rfl⟩

/-- C30, symmetry (also with NaN). -/
theorem C30_symmetric (t : Ty) (a b : t.Den) : t.equal a b = t.equal b a := by
  have h : ∀ x y : t.Den, t.equal x y = true → t.equal y x = true := fun x y h => by
    have h := (t.equal_iff x y).mp h
    exact (t.equal_iff y x).mpr ⟨t.notNan_unsigned0 x y h.2 h.1, h.2.symm⟩
  cases h1 : t.equal a b with
  | true => rw [h a b h1]
  | false =>
    cases h2 : t.equal b a with
    | true => rw [h b a h2] at h1; cases h1
    | false => rfl

/-- C30, transitivity. -/
theorem C30_transitive (t : Ty) (a b c : t.Den) (h1 : t.equal a b = true) (h2 : t.equal b c = true) :
    t.equal a c = true := by
  have h1 := (t.equal_iff a b).mp h1
  have h2 := (t.equal_iff b c).mp h2
  exact (t.equal_iff a c).mpr ⟨h1.1, h1.2.trans h2.2⟩

/-- protogen.hh:704 `operator!=` on messages. -/
def Ty.notEqual (t : Ty) (a b : t.Den) : Bool := !t.equal a b

/-- C30, `!=` is the negation of `==`: on messages (protogen.hh:704) by definition, on the field classes
(json-number.hh:27-28, json-string.hh:32-33) because both tests are complementary. -/
theorem C30_not_equal (t : Ty) (a b : t.Den) (p : Prim) (x y : NumField p) (s s' : StrField) :
    t.notEqual a b = !t.equal a b ∧ NumField.ne x y = !NumField.eq x y ∧ StrField.ne s s' = !StrField.eq s s' := by
  refine ⟨rfl, ?_, ?_⟩
  · simp only [NumField.ne, NumField.eq, Bool.not_and]; rfl
  · simp only [StrField.ne, StrField.eq, Bool.not_and]; rfl

/-- C30, equal objects serialize to the same text once negative zeros are written as zeros. -/
theorem C30_same_text (t : Ty) (a b : t.Den) (params : Option Params) (h : t.equal a b = true) :
    serialize t params (t.unsigned0 a) = serialize t params (t.unsigned0 b) := by
  rw [((t.equal_iff a b).mp h).2]

/-- C30, and to the very same text when they hold no negative zero. -/
theorem C30_same_text_exact (t : Ty) (a b : t.Den) (params : Option Params) (h : t.equal a b = true)
    (ha : t.unsigned0 a = a) (hb : t.unsigned0 b = b) : serialize t params a = serialize t params b := by
  have := C30_same_text t a b params h
  rwa [ha, hb] at this

/-- The negative zero shows in the text. -/
theorem C30_sign_of_zero_shows :
    let t : Ty := .msg false (.cons (Demo.fld b!"x") (.num (.flt .f64)) .nil)
    let v (s : Bytes) : t.Den := (⟨fltOfText .f64 s, false⟩, ())
    t.equal (v b!"0") (v b!"-0") = true ∧ (serialize t none (v b!"0")).out = b!"{\"x\":0.000000}" ∧
    (serialize t none (v b!"-0")).out = b!"{\"x\":-0.000000}" := by decide +kernel

/-- Comparing a `field<T>` with a plain value: `!=` is not the negation of `==` when the field is empty
(json-number.hh:25-26). -/
theorem C30_field_against_value : NumField.eqT (NumField.new (p := .bool)) true = false ∧
    NumField.neT (NumField.new (p := .bool)) true = false := by decide +kernel

example : Demo.person.equal Demo.alice Demo.alice = true ∧ Demo.person.equal Demo.alice Demo.person.new = false := by
  decide +kernel

/-! ### C31 -/

mutual
theorem Ty.swap_eq : (t : Ty) → (a b : t.Den) → t.swap a b = (b, a)
  | .num _, _, _ => rfl
  | .raw _, _, _ => rfl
  | .str, _, _ => rfl
  | .bytes, _, _ => rfl
  | .rep _, _, _ => rfl
  | .msg _ fs, a, b => Fields.swap_eq fs a b
theorem Fields.swap_eq : (fs : Fields) → (a b : fs.Den) → fs.swap a b = (b, a)
  | .nil, _, _ => rfl
  | .cons _ t rest, a, b => by simp only [Fields.swap, Ty.swap_eq t, Fields.swap_eq rest]
end

/-- C31.  `swap` exchanges the complete contents, transient fields and stale values included. -/
theorem C31_swap_exchanges (t : Ty) (a b : t.Den) : t.swap a b = (b, a) := t.swap_eq a b

/-- C31.  Doing it twice restores both objects. -/
theorem C31_swap_twice (t : Ty) (a b : t.Den) : t.swap (t.swap a b).1 (t.swap a b).2 = (a, b) := by
  simp only [t.swap_eq]

/-- json-number.hh:20: swapping a field with a plain value makes the field non-empty and hands out its value, also when
the field was empty. -/
theorem C31_swap_with_value {p : Prim} (a : NumField p) (x : p.Den) :
    (a.swapT x).1.value = x ∧ (a.swapT x).1.empty = false ∧ (a.swapT x).2 = a.value := ⟨rfl, rfl, rfl⟩

example : Demo.person.swap Demo.alice Demo.person.new = (Demo.person.new, Demo.alice) := by decide +kernel

/-! ### C32 -/

mutual
/-- Every number and string in the object is set (not empty, not null). -/
def Ty.Full : (t : Ty) → t.Den → Prop
  | .num _, v => v.empty = false
  | .str, v => v.null = false
  | .rep t, v => ∀ x ∈ v, t.Full x
  | .msg _ fs, v => fs.Full v
  | _, _ => True
/-- Every number and string in the fields is set. -/
def Fields.Full : (fs : Fields) → fs.Den → Prop
  | .nil, _ => True
  | .cons _ t rest, v => t.Full v.1 ∧ rest.Full v.2
end

theorem listAssign_eq {α : Type} {asg : α → α → α} {reuse : Bool} (as bs : List α) (h : ∀ a, ∀ b ∈ bs, asg a b = b) :
    listAssign asg reuse as bs = bs := by
  induction as generalizing bs with
  | nil => cases bs <;> rfl
  | cons a as ih =>
    cases bs with
    | nil => rfl
    | cons b bs =>
      simp only [listAssign]
      rw [ih bs (fun a b hb => h a b (by simp [hb])), h a b (by simp)]
      split <;> rfl

mutual
theorem Ty.assign_full (reuse : Bool) : (t : Ty) → (a b : t.Den) → t.Full b → t.assign reuse a b = b
  | .num _, a, b, h => by
    have h : b.empty = false := h
    simp only [Ty.assign, NumField.assign, h]; cases b; simp_all
  | .raw _, _, _, _ => rfl
  | .str, a, b, h => by
    have h : b.null = false := h
    simp only [Ty.assign, StrField.assign, h]; cases b; simp_all
  | .bytes, _, _, _ => rfl
  | .rep t, a, b, h => listAssign_eq a b (fun x y hy => Ty.assign_full reuse t x y (h y hy))
  | .msg _ fs, a, b, h => Fields.assign_full reuse fs a b h
theorem Fields.assign_full (reuse : Bool) : (fs : Fields) → (a b : fs.Den) → fs.Full b → fs.assign reuse a b = b
  | .nil, _, _, _ => rfl
  | .cons _ t rest, a, b, h => by
    simp only [Fields.assign, Ty.assign_full reuse t a.1 b.1 h.1, Fields.assign_full reuse rest a.2 b.2 h.2]
end

/-- C32 for sources all of whose numbers and strings are set: the target becomes the same data, so it is equal (absent
NaN) and serializes identically.  Missing from the full statement: sources with an empty field, for which it is false
(`C32_stale_value_makes_unequal`). -/
theorem C32_assign_full_partial (reuse : Bool) (t : Ty) (a b : t.Den) (h : t.Full b) :
    t.assign reuse a b = b ∧ (t.NotNan b → t.equal (t.assign reuse a b) b = true) ∧
    ∀ p, serialize t p (t.assign reuse a b) = serialize t p b := by
  rw [t.assign_full reuse a b h]
  exact ⟨rfl, C30_reflexive t b, fun _ => rfl⟩

mutual
/-- Empty numbers and null strings hold the default value (no stale data). -/
def Ty.Tidy : (t : Ty) → t.Den → Prop
  | .num p, v => v.empty = true → v.value = p.zero
  | .str, v => v.null = true → v.value = []
  | .rep t, v => ∀ x ∈ v, t.Tidy x
  | .msg _ fs, v => fs.Tidy v
  | _, _ => True
/-- No stale data in the fields. -/
def Fields.Tidy : (fs : Fields) → fs.Den → Prop
  | .nil, _ => True
  | .cons _ t rest, v => t.Tidy v.1 ∧ rest.Tidy v.2
end

mutual
theorem Ty.assign_new (reuse : Bool) : (t : Ty) → (b : t.Den) → t.Tidy b → t.assign reuse t.new b = b
  | .num _, b, h => by
    cases b with
    | mk v e =>
      cases e with
      | false => rfl
      | true => have h := h rfl; simp only at h; subst h; rfl
  | .raw _, _, _ => rfl
  | .str, b, h => by
    cases b with
    | mk v e =>
      cases e with
      | false => rfl
      | true => have h := h rfl; simp only at h; subst h; rfl
  | .bytes, _, _ => rfl
  | .rep t, b, h => by simp only [Ty.assign, Ty.new]; cases b <;> rfl
  | .msg _ fs, b, h => Fields.assign_new reuse fs b h
theorem Fields.assign_new (reuse : Bool) : (fs : Fields) → (b : fs.Den) → fs.Tidy b → fs.assign reuse fs.new b = b
  | .nil, _, _ => rfl
  | .cons _ t rest, b, h => by
    simp only [Fields.assign, Fields.new, Ty.assign_new reuse t b.1 h.1, Fields.assign_new reuse rest b.2 h.2]
end

/-- C32 for targets that were just constructed or cleared, and sources without stale data: the target becomes the same
data.  Missing from the full statement: targets that already hold something. -/
theorem C32_assign_to_cleared_partial (reuse : Bool) (t : Ty) (a b : t.Den) (h : t.Tidy b) :
    t.assign reuse (t.clear a) b = b := by rw [t.clear_eq_new]; exact t.assign_new reuse b h

/-- C32 is false: assigning from an object with an empty field leaves the old value behind, and the objects differ. -/
theorem C32_stale_value_makes_unequal (reuse : Bool) :
    Demo.address.equal (Demo.address.assign reuse (Demo.addr 7 b!"x") Demo.address.new) Demo.address.new = false := by
  cases reuse <;> decide +kernel

/-- ... and for strings the old value is even serialized. -/
theorem C32_stale_string_serialized (reuse : Bool) :
    (serialize Demo.address none (Demo.address.assign reuse (Demo.addr 7 b!"x") Demo.address.new)).out = b!"{\"street\":\"x\"}" ∧
    (serialize Demo.address none Demo.address.new).out = b!"{}" := by cases reuse <;> decide +kernel

mutual
/-- No string field anywhere in the type. -/
def Ty.NoStr : Ty → Prop
  | .str => False
  | .rep t => t.NoStr
  | .msg _ fs => fs.NoStr
  | _ => True
/-- No string field in the fields. -/
def Fields.NoStr : Fields → Prop
  | .nil => True
  | .cons _ t rest => t.NoStr ∧ rest.NoStr
end

theorem listAssign_nil {α : Type} (asg : α → α → α) (reuse : Bool) (as bs : List α) :
    (listAssign asg reuse as bs).isEmpty = bs.isEmpty := by
  cases as <;> cases bs <;> rfl

mutual
theorem Ty.empty_assign (reuse : Bool) : (t : Ty) → (a b : t.Den) → t.NoStr → t.empty (t.assign reuse a b) = t.empty b
  | .num _, a, b, _ => by simp only [Ty.empty, Ty.assign, NumField.assign]; split <;> rfl
  | .raw _, _, _, _ => rfl
  | .str, _, _, h => h.elim
  | .bytes, _, _, _ => rfl
  | .rep t, a, b, _ => listAssign_nil _ reuse a b
  | .msg _ fs, a, b, h => Fields.empty_assign reuse fs a b h
theorem Fields.empty_assign (reuse : Bool) : (fs : Fields) → (a b : fs.Den) → fs.NoStr →
    fs.empty (fs.assign reuse a b) = fs.empty b
  | .nil, _, _, _ => rfl
  | .cons _ t rest, a, b, h => by
    simp only [Fields.empty, Fields.assign, Ty.empty_assign reuse t a.1 b.1 h.1, Fields.empty_assign reuse rest a.2 b.2 h.2]
end

theorem writeElems_assign {α : Type} {asg : α → α → α} {reuse : Bool} {wr : α → ErrInfo → WRes}
    (h : ∀ a b e, wr (asg a b) e = wr b e) (as bs : List α) (e : ErrInfo) :
    writeElems wr (listAssign asg reuse as bs) e = writeElems wr bs e := by
  induction as generalizing bs e with
  | nil => cases bs <;> rfl
  | cons a as ih =>
    cases bs with
    | nil => rfl
    | cons b bs =>
      have hw : ∀ e, wr (if reuse then asg a b else b) e = wr b e := by intro e; split; exact h a b e; rfl
      simp only [listAssign]
      cases bs with
      | nil =>
        have : listAssign asg reuse as [] = [] := by cases as <;> rfl
        rw [this]
        simp only [writeElems, hw]
      | cons b' bs =>
        have := ih (b' :: bs)
        cases hl : listAssign asg reuse as (b' :: bs) with
        | nil => cases as <;> simp [listAssign] at hl
        | cons c cs =>
          rw [hl] at this
          simp only [writeElems, hw, this]

mutual
theorem Ty.write_assign (reuse : Bool) (p : Params) : (t : Ty) → (a b : t.Den) → (e : ErrInfo) → t.NoStr →
    t.write p (t.assign reuse a b) e = t.write p b e
  | .num _, a, b, e, _ => by
    cases b with
    | mk v em => cases em <;> rfl
  | .raw _, _, _, _, _ => rfl
  | .str, _, _, _, h => h.elim
  | .bytes, _, _, _, _ => rfl
  | .rep t, a, b, e, h => by
    simp only [Ty.write, Ty.assign]
    rw [writeElems_assign (fun a b e => Ty.write_assign reuse p t a b e h)]
  | .msg _ fs, a, b, e, h => by
    simp only [Ty.write, Ty.assign]
    rw [Fields.write_assign reuse p fs a b true e h]
theorem Fields.write_assign (reuse : Bool) (p : Params) : (fs : Fields) → (a b : fs.Den) → (first : Bool) → (e : ErrInfo) →
    fs.NoStr → fs.write p (fs.assign reuse a b) first e = fs.write p b first e
  | .nil, _, _, _, _, _ => rfl
  | .cons f t rest, a, b, first, e, h => by
    simp only [Fields.write, Fields.assign, Ty.empty_assign reuse t a.1 b.1 h.1, Ty.write_assign reuse p t a.1 b.1 _ h.1,
      Fields.write_assign reuse p rest a.2 b.2 _ _ h.2]
end

/-- C32, the second half, for types without string fields: whatever the target held, it serializes as the source. -/
theorem C32_assign_serializes_partial (reuse : Bool) (t : Ty) (a b : t.Den) (h : t.NoStr) (params : Option Params) :
    serialize t params (t.assign reuse a b) = serialize t params b := by
  simp only [serialize, t.write_assign reuse _ a b _ h]

example : Demo.address.Full (Demo.addr 7 b!"x") := ⟨rfl, rfl, trivial⟩
example : Demo.address.Tidy Demo.address.new := ⟨fun _ => rfl, fun _ => rfl, trivial⟩
example : (Ty.msg false (.cons (Demo.fld b!"n") (.num .bool) (.cons (Demo.fld b!"xs") (.rep (.raw (.int .i32))) .nil))).NoStr :=
  ⟨trivial, trivial, trivial⟩

end PG
