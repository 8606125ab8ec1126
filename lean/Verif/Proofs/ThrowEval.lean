import Verif.Proofs.ThrowAttr
import Verif.Spec.CxxProto
/-
Execution with exceptions by simplification.
-/
set_option autoImplicit false
namespace PG.Cxx

/-- Only the first argument is simplified. -/
theorem Ran.bind_first {α β : Type} {a b : Ran α} (f : α → Ran β) (h : a = b) : a.bind f = b.bind f := by rw [h]
attribute [congr] Ran.bind_first

theorem Ran.bind_ok {α β : Type} (a : α) (f : α → Ran β) : (Ran.ok a).bind f = f a := (rfl)
theorem Ran.bind_thrown {α β : Type} (e : Thrown) (f : α → Ran β) : (Ran.thrown e).bind f = .thrown e := (rfl)
theorem Ran.bind_fuel {α β : Type} (f : α → Ran β) : (Ran.fuel : Ran α).bind f = .fuel := (rfl)
theorem Ran.bind_undef {α β : Type} (f : α → Ran β) : (Ran.undef : Ran α).bind f = .undef := (rfl)
theorem Ran.bind_assoc {α β γ : Type} (a : Ran α) (f : α → Ran β) (g : β → Ran γ) : (a.bind f).bind g = a.bind fun x => (f x).bind g := by
  cases a <;> rfl
theorem Ran.of_some {α : Type} (a : α) : Ran.of (some a) = .ok a := (rfl)
theorem Ran.of_none {α : Type} : Ran.of (none : Option α) = .undef := (rfl)
theorem Ran.bind_ite {α β : Type} (p : Prop) [Decidable p] (a b : Ran α) (f : α → Ran β) :
    (if p then a else b).bind f = if p then a.bind f else b.bind f := by split <;> rfl

namespace Throw
variable {D S : Type} {L : ThrowLib D S}

theorem both_false (st : St D S) (k : Ran (Bool × St D S)) : both (D := D) false st k = .ok (.bool false, st) := (rfl)
theorem both_true (st : St D S) (k : Ran (Bool × St D S)) : both (D := D) true st k = k.bind fun q => .ok (.bool q.1, q.2) := (rfl)
theorem both_ok (x y : Bool) (st : St D S) : both (D := D) x st (.ok (y, st)) = .ok (.bool (x && y), st) := by cases x <;> rfl
theorem either_true (st : St D S) (k : Ran (Bool × St D S)) : either (D := D) true st k = .ok (.bool true, st) := (rfl)
theorem either_false (st : St D S) (k : Ran (Bool × St D S)) : either (D := D) false st k = k.bind fun q => .ok (.bool q.1, q.2) := (rfl)
theorem either_ok (x y : Bool) (st : St D S) : either (D := D) x st (.ok (y, st)) = .ok (.bool (x || y), st) := by cases x <;> rfl

section
variable {c : St D S → Ran (Bool × St D S)} {body : St D S → Ran (Flow D × St D S)} {step : St D S → Ran (St D S)} {n : Nat}
  {st s1 s2 s3 : St D S}

theorem iterate_next (h1 : c st = .ok (true, s1)) (h2 : body s1 = .ok (.next, s2)) (h3 : step s2 = .ok s3) :
    iterate c body step (n + 1) st = iterate c body step n s3 := by
  simp only [iterate, h1, h2, h3, Ran.bind, ↓reduceIte]
theorem iterate_continue (h1 : c st = .ok (true, s1)) (h2 : body s1 = .ok (.continue, s2)) (h3 : step s2 = .ok s3) :
    iterate c body step (n + 1) st = iterate c body step n s3 := by
  simp only [iterate, h1, h2, h3, Ran.bind, ↓reduceIte]
theorem iterate_break (h1 : c st = .ok (true, s1)) (h2 : body s1 = .ok (.break, s2)) :
    iterate c body step (n + 1) st = .ok (.next, s2) := by
  simp only [iterate, h1, h2, Ran.bind, ↓reduceIte]
theorem iterate_ret {v : Val D} (h1 : c st = .ok (true, s1)) (h2 : body s1 = .ok (.ret v, s2)) :
    iterate c body step (n + 1) st = .ok (.ret v, s2) := by
  simp only [iterate, h1, h2, Ran.bind, ↓reduceIte]
theorem iterate_done (h1 : c st = .ok (false, s1)) : iterate c body step (n + 1) st = .ok (.next, s1) := by
  simp only [iterate, h1, Ran.bind, Bool.false_eq_true, ↓reduceIte]
theorem iterate_throw {e : Thrown} (h1 : c st = .ok (true, s1)) (h2 : body s1 = .thrown e) :
    iterate c body step (n + 1) st = .thrown e := by
  simp only [iterate, h1, h2, Ran.bind, ↓reduceIte]
theorem iterate_fuel (h1 : c st = .ok (true, s1)) (h2 : body s1 = .fuel) : iterate c body step (n + 1) st = .fuel := by
  simp only [iterate, h1, h2, Ran.bind, ↓reduceIte]
theorem iterate_test {e : Thrown} (h1 : c st = .thrown e) : iterate c body step (n + 1) st = .thrown e := by
  simp only [iterate, h1, Ran.bind]
theorem iterate_testFuel (h1 : c st = .fuel) : iterate c body step (n + 1) st = .fuel := by
  simp only [iterate, h1, Ran.bind]
theorem repeated_next (h1 : body st = .ok (.next, s1)) (h2 : c s1 = .ok (true, s2)) :
    repeated c body (n + 1) st = repeated c body n s2 := by
  simp only [repeated, h1, h2, Ran.bind, ↓reduceIte]
theorem repeated_done (h1 : body st = .ok (.next, s1)) (h2 : c s1 = .ok (false, s2)) :
    repeated c body (n + 1) st = .ok (.next, s2) := by
  simp only [repeated, h1, h2, Ran.bind, Bool.false_eq_true, ↓reduceIte]
theorem repeated_break (h1 : body st = .ok (.break, s1)) : repeated c body (n + 1) st = .ok (.next, s1) := by
  simp only [repeated, h1, Ran.bind]
theorem repeated_ret {v : Val D} (h1 : body st = .ok (.ret v, s1)) : repeated c body (n + 1) st = .ok (.ret v, s1) := by
  simp only [repeated, h1, Ran.bind]
theorem repeated_throw {e : Thrown} (h1 : body st = .thrown e) : repeated c body (n + 1) st = .thrown e := by
  simp only [repeated, h1, Ran.bind]
theorem repeated_fuel (h1 : body st = .fuel) : repeated c body (n + 1) st = .fuel := by
  simp only [repeated, h1, Ran.bind]
end

attribute [cxt] both_false both_true both_ok either_true either_false either_ok eval evalAll place storeAll exec execAll execCases
  test perform isLabel run Ran.of_some Ran.of_none Ran.bind_ok Ran.bind_thrown Ran.bind_fuel Ran.bind_undef
end Throw

/-- Execution. -/
macro "cxt" "[" ls:Lean.Parser.Tactic.simpLemma,* "]" : tactic =>
  `(tactic| simp -implicitDefEqProofs only [cxx, cxt, ↓reduceIte, ↓reduceBind, ↓reduceMap, ↓reduceRan, reduceByteEq, Nat.reduceEqDiff, Nat.reduceLeDiff, reduceCtorEq, Bool.false_eq_true, $ls,*])

end PG.Cxx
