import Verif.Proofs.CxxEval
import Verif.Spec.CxxThrow
/-
Execution with exceptions by simplification: the outcome of a sequence.
-/
set_option autoImplicit false
/-- Rules of execution with exceptions. -/
register_simp_attr cxt

namespace PG.Cxx
theorem Ran.bind_of_ok {α β : Type} {a : Ran α} {x : α} (f : α → Ran β) (h : a = .ok x) : a.bind f = f x := by rw [h]; rfl
theorem Ran.bind_of_thrown {α β : Type} {a : Ran α} {e : Thrown} (f : α → Ran β) (h : a = .thrown e) : a.bind f = .thrown e := by
  rw [h]; rfl
theorem Ran.bind_of_fuel {α β : Type} {a : Ran α} (f : α → Ran β) (h : a = .fuel) : a.bind f = .fuel := by rw [h]; rfl
theorem Ran.bind_of_undef {α β : Type} {a : Ran α} (f : α → Ran β) (h : a = .undef) : a.bind f = .undef := by rw [h]; rfl
theorem Ran.bind_of_eq {α β : Type} {a b : Ran α} (f : α → Ran β) (h : a = b) : a.bind f = b.bind f := by rw [h]
theorem Ran.bind_of_bind {α β γ : Type} {a : Ran α} {b : Ran γ} {g : γ → Ran α} (f : α → Ran β) (h : a = b.bind g) :
    a.bind f = b.bind fun x => (g x).bind f := by rw [h]; cases b <;> rfl

open Lean Meta Simp in
/-- `a.bind f`: `a` first, and `f` only once `a` is known; sequences are grouped to the right. -/
simproc_decl reduceRan (Ran.bind _ _) := fun e => do
  let_expr Ran.bind α β a f := e | return .continue
  let r ← simp a
  let h ← r.getProof
  match_expr r.expr with
  | Ran.ok _ x => return .visit { expr := f.beta #[x], proof? := mkAppN (mkConst ``Ran.bind_of_ok) #[α, β, a, x, f, h] }
  | Ran.thrown _ x => return .done { expr := mkApp2 (mkConst ``Ran.thrown) β x, proof? := mkAppN (mkConst ``Ran.bind_of_thrown) #[α, β, a, x, f, h] }
  | Ran.fuel _ => return .done { expr := mkApp (mkConst ``Ran.fuel) β, proof? := mkAppN (mkConst ``Ran.bind_of_fuel) #[α, β, a, f, h] }
  | Ran.undef _ => return .done { expr := mkApp (mkConst ``Ran.undef) β, proof? := mkAppN (mkConst ``Ran.bind_of_undef) #[α, β, a, f, h] }
  | Ran.bind γ _ b g =>
    let k ← withLocalDeclD `x γ fun x => mkLambdaFVars #[x] (mkAppN e.getAppFn #[α, β, g.beta #[x], f])
    return .done { expr := mkAppN e.getAppFn #[γ, β, b, k], proof? := mkAppN (mkConst ``Ran.bind_of_bind) #[α, β, γ, a, b, g, f, h] }
  | _ =>
    if r.expr == a then return .done { expr := e }
    return .done { expr := mkAppN e.getAppFn #[α, β, r.expr, f], proof? := mkAppN (mkConst ``Ran.bind_of_eq) #[α, β, a, r.expr, f, h] }
end PG.Cxx
