import Verif.Spec.History
import Verif.Model.Write
import Verif.Props.Demo
/-
C64: the field classes.
-/
set_option autoImplicit false
namespace PG

/-- An operation carried out on a `field<T>`: the results of all members that do it (none for strings only). -/
def NumField.apply {p : Prim} (a : NumField p) : FieldOp p.Den → List (NumField p)
  | .set x => [a.assignT x, (a.swapT x).1]
  | .swap n x => [(a.swap ⟨x, n⟩).1, (NumField.swap ⟨x, n⟩ a).2]
  | .copy n x => [a.assign ⟨x, n⟩]
  | .clear => [a.clear]
  | .unnull => []
  | .poke _ => []

/-- An operation carried out on a `string_field`: the results of all members that do it. -/
def StrField.apply (a : StrField) : FieldOp Bytes → List StrField
  | .set x => [a.assignT x, (a.swapT x).1, a.assign (.ofString x)] ++ (if 0 ∈ x then [] else [a.assignC x, a.assign (.ofChars x)])
  | .swap n x => [(a.swap ⟨x, n⟩).1, (StrField.swap ⟨x, n⟩ a).2]
  | .copy n x => [a.assign ⟨x, n⟩]
  | .clear => [a.clear, a.setEmpty true]
  | .unnull => [a.setEmpty false]
  | .poke x => [a.poke x]

/-- The states a new `field<T>` can be in after a history. -/
inductive NumField.Reach {p : Prim} : List (FieldOp p.Den) → NumField p → Prop
  | new : NumField.Reach [] .new
  | op {h : List (FieldOp p.Den)} {a b : NumField p} {o : FieldOp p.Den} : NumField.Reach h a → b ∈ a.apply o → NumField.Reach (o :: h) b

/-- The states a new `string_field` can be in after a history. -/
inductive StrField.Reach : List (FieldOp Bytes) → StrField → Prop
  | new : StrField.Reach [] .new
  | op {h : List (FieldOp Bytes)} {a b : StrField} {o : FieldOp Bytes} : StrField.Reach h a → b ∈ a.apply o → StrField.Reach (o :: h) b

/-- C64 for numbers: whatever was done to a field, by whichever of its members, it is null and holds the value that the
history says. -/
theorem C64_number_history {p : Prim} {h : List (FieldOp p.Den)} {a : NumField p} (hr : NumField.Reach h a) :
    a.empty = nullAfter h ∧ a.get = valueAfter p.zero h := by
  induction hr with
  | new => exact ⟨rfl, rfl⟩
  | @op h a b o _ hb ih =>
    obtain ⟨h1, h2⟩ := ih
    cases o <;> simp only [NumField.apply, List.mem_cons, List.not_mem_nil, or_false] at hb
    case set x => rcases hb with rfl | rfl <;> exact ⟨rfl, rfl⟩
    case swap n x => rcases hb with rfl | rfl <;> exact ⟨rfl, rfl⟩
    case copy n x =>
      subst hb
      cases n
      · exact ⟨rfl, rfl⟩
      · exact ⟨rfl, h2⟩
    case clear => subst hb; exact ⟨rfl, rfl⟩

theorem takeWhile_noNul : (x : Bytes) → 0 ∉ x → x.takeWhile (· ≠ 0) = x
  | [], _ => rfl
  | b :: x, h => by
    simp only [List.mem_cons, not_or] at h
    rw [List.takeWhile_cons, if_pos (by simpa using fun e => h.1 e.symm), takeWhile_noNul x h.2]

/-- C64 for strings. -/
theorem C64_string_history {h : List (FieldOp Bytes)} {a : StrField} (hr : StrField.Reach h a) :
    a.null = nullAfter h ∧ a.get = valueAfter [] h := by
  induction hr with
  | new => exact ⟨rfl, rfl⟩
  | @op h a b o _ hb ih =>
    obtain ⟨h1, h2⟩ := ih
    cases o <;> simp only [StrField.apply, List.mem_cons, List.mem_append, List.not_mem_nil, or_false] at hb
    case set x =>
      rcases hb with (rfl | rfl | rfl) | hb
      · exact ⟨rfl, rfl⟩
      · exact ⟨rfl, rfl⟩
      · exact ⟨rfl, rfl⟩
      · split at hb
        · simp at hb
        · rename_i hx
          simp only [List.mem_cons, List.not_mem_nil, or_false, StrField.ofChars, StrField.assignC, takeWhile_noNul x hx] at hb
          rcases hb with rfl | rfl <;> exact ⟨rfl, rfl⟩
    case swap n x => rcases hb with rfl | rfl <;> exact ⟨rfl, rfl⟩
    case copy n x =>
      subst hb
      cases n
      · exact ⟨rfl, rfl⟩
      · exact ⟨rfl, h2⟩
    case clear => rcases hb with rfl | rfl <;> exact ⟨rfl, rfl⟩
    case unnull => subst hb; exact ⟨rfl, h2⟩
    case poke x => subst hb; exact ⟨h1, rfl⟩

/-- C64, swapping with a plain value hands out what the field held before. -/
theorem C64_swap_hands_out {p : Prim} {h : List (FieldOp p.Den)} {a : NumField p} (hr : NumField.Reach h a) (x : p.Den)
    {h' : List (FieldOp Bytes)} {s : StrField} (hs : StrField.Reach h' s) (y : Bytes) :
    (a.swapT x).2 = valueAfter p.zero h ∧ (s.swapT y).2 = valueAfter [] h' :=
  ⟨(C64_number_history hr).2, (C64_string_history hs).2⟩

/-- C64, comparing with a plain value: a null field is neither equal nor unequal to anything; otherwise the values are
compared. -/
theorem C64_compare_number {p : Prim} {h : List (FieldOp p.Den)} {a : NumField p} (hr : NumField.Reach h a) (x : p.Den) :
    (a.eqT x = true ↔ nullAfter h = false ∧ p.ceq (valueAfter p.zero h) x = true) ∧
    (a.neT x = true ↔ nullAfter h = false ∧ p.ceq (valueAfter p.zero h) x = false) := by
  obtain ⟨h1, h2⟩ := C64_number_history hr
  have h2 : a.value = _ := h2
  simp [NumField.eqT, NumField.neT, ← h1, ← h2]

theorem C64_compare_string {h : List (FieldOp Bytes)} {a : StrField} (hr : StrField.Reach h a) (x : Bytes) :
    (a.eqT x = true ↔ nullAfter h = false ∧ valueAfter [] h = x) ∧
    (a.neT x = true ↔ nullAfter h = false ∧ valueAfter [] h ≠ x) ∧
    (0 ∉ x → a.eqC x = a.eqT x ∧ a.neC x = a.neT x) := by
  obtain ⟨h1, h2⟩ := C64_string_history hr
  have h2 : a.value = _ := h2
  refine ⟨?_, ?_, fun hx => ?_⟩
  · simp [StrField.eqT, ← h1, ← h2]
  · simp [StrField.neT, ← h1, ← h2]
  · simp only [StrField.eqC, StrField.neC, StrField.eqT, StrField.neT, takeWhile_noNul x hx, and_self]

/-- C64, comparing with another field. -/
theorem C64_compare_fields {p : Prim} {h g : List (FieldOp p.Den)} {a b : NumField p} (ha : NumField.Reach h a)
    (hb : NumField.Reach g b) {h' g' : List (FieldOp Bytes)} {s t : StrField} (hs : StrField.Reach h' s) (ht : StrField.Reach g' t) :
    (a.eq b = true ↔ nullAfter h = nullAfter g ∧ p.ceq (valueAfter p.zero h) (valueAfter p.zero g) = true) ∧
    (s.eq t = true ↔ nullAfter h' = nullAfter g' ∧ valueAfter [] h' = valueAfter [] g') := by
  obtain ⟨a1, a2⟩ := C64_number_history ha
  obtain ⟨b1, b2⟩ := C64_number_history hb
  obtain ⟨s1, s2⟩ := C64_string_history hs
  obtain ⟨t1, t2⟩ := C64_string_history ht
  have a2 : a.value = _ := a2
  have b2 : b.value = _ := b2
  have s2 : s.value = _ := s2
  have t2 : t.value = _ := t2
  constructor
  · simp [NumField.eq, ← a1, ← a2, ← b1, ← b2]
  · simp [StrField.eq, ← s1, ← s2, ← t1, ← t2]

/-- C64, `empty()`, which decides whether the field is written: for numbers the field is null, for strings it is null and
holds no characters. -/
theorem C64_empty {p : Prim} {h : List (FieldOp p.Den)} {a : NumField p} (ha : NumField.Reach h a)
    {h' : List (FieldOp Bytes)} {s : StrField} (hs : StrField.Reach h' s) :
    Ty.empty (.num p) a = nullAfter h ∧ (Ty.empty .str s = true ↔ nullAfter h' = true ∧ valueAfter [] h' = []) := by
  obtain ⟨a1, -⟩ := C64_number_history ha
  obtain ⟨s1, s2⟩ := C64_string_history hs
  have s2 : s.value = _ := s2
  refine ⟨a1, ?_⟩
  simp [Ty.empty, StrField.empty, ← s1, ← s2]

/-- A string that was set, and then was assigned a null string, still holds its old value and is not `empty()`; a string
written through `operator*` is not `empty()` but not equal to what was written either. -/
theorem C64_stale :
    (∃ s, StrField.Reach [.copy true [], .set b!"x"] s ∧ s.null = true ∧ s.empty = false ∧ s.eqT b!"x" = false) ∧
    (∃ s, StrField.Reach [.poke b!"x"] s ∧ s.get = b!"x" ∧ s.empty = false ∧ s.eqT b!"x" = false) :=
  ⟨⟨_, .op (.op .new (List.mem_cons_self)) (List.mem_cons_self), by decide⟩, ⟨_, .op .new (List.mem_cons_self), by decide⟩⟩

/-- C64, the stale value cannot come back by the flag alone unless `empty(false)` is called; after `clear()` or
`empty(true)` nothing of the history is left. -/
theorem C64_forget {α : Type} (zero : α) (h g : List (FieldOp α)) (later : List (FieldOp α)) :
    nullAfter (later ++ .clear :: h) = nullAfter (later ++ .clear :: g) ∧
    valueAfter zero (later ++ .clear :: h) = valueAfter zero (later ++ .clear :: g) := by
  induction later with
  | nil => exact ⟨rfl, rfl⟩
  | cons o later ih => cases o <;> simp [nullAfter, valueAfter, ih]

/-- The hypotheses are met: set to 7, exchanged with the null field, set again through a copy. -/
example : ∃ a : NumField (.int .i32), NumField.Reach (p := .int .i32) [.copy false (CInt.cast .i32 9), .swap true (CInt.cast .i32 0), .set (CInt.cast .i32 7)] a ∧
    a.empty = false ∧ a.get = CInt.cast .i32 9 :=
  ⟨_, .op (.op (.op .new List.mem_cons_self) List.mem_cons_self) List.mem_cons_self, rfl, rfl⟩

end PG
