import Lean.Meta.Tactic.Simp.RegisterCommand
import Lean.Meta.Tactic.Simp.BuiltinSimprocs
/-- Rules of execution. -/
register_simp_attr cxx

open Lean Meta Simp in
/-- Equations between literals for bytes. -/
simproc_decl reduceByteEq ((_ : UInt8) = _) := fun e => do
  let_expr Eq _ a b := e | return .continue
  let some (x, _) ← getOfNatValue? a ``UInt8 | return .continue
  let some (y, _) ← getOfNatValue? b ``UInt8 | return .continue
  evalPropStep e (x % 256 == y % 256)

namespace PG.Cxx
theorem bind_of_some {α β : Type} {a : Option α} {x : α} (f : α → Option β) (h : a = some x) : a.bind f = f x := by rw [h]; rfl
theorem bind_of_none {α β : Type} {a : Option α} (f : α → Option β) (h : a = none) : a.bind f = none := by rw [h]; rfl
theorem map_of_some {α β : Type} {a : Option α} {x : α} (f : α → β) (h : a = some x) : a.map f = some (f x) := by rw [h]; rfl
theorem map_of_none {α β : Type} {a : Option α} (f : α → β) (h : a = none) : a.map f = none := by rw [h]; rfl
theorem bind_of_eq {α β : Type} {a b : Option α} (f : α → Option β) (h : a = b) : a.bind f = b.bind f := by rw [h]
theorem map_of_eq {α β : Type} {a b : Option α} (f : α → β) (h : a = b) : a.map f = b.map f := by rw [h]

open Lean Meta Simp in
/-- `a.bind f`: `a` first, and `f` only once `a` is known. -/
simproc_decl reduceBind (Option.bind _ _) := fun e => do
  let_expr Option.bind α β a f := e | return .continue
  let r ← simp a
  let h ← r.getProof
  match_expr r.expr with
  | some _ x => return .visit { expr := f.beta #[x], proof? := mkAppN (mkConst ``bind_of_some) #[α, β, a, x, f, h] }
  | none _ => return .done { expr := mkApp (mkConst ``Option.none [Level.zero]) β, proof? := mkAppN (mkConst ``bind_of_none) #[α, β, a, f, h] }
  | _ =>
    if r.expr == a then return .done { expr := e }
    return .done { expr := mkAppN e.getAppFn #[α, β, r.expr, f], proof? := mkAppN (mkConst ``bind_of_eq) #[α, β, a, r.expr, f, h] }

open Lean Meta Simp in
/-- `a.map f`: `a` first, and `f` only once `a` is known. -/
simproc_decl reduceMap (Option.map _ _) := fun e => do
  let_expr Option.map α β f a := e | return .continue
  let r ← simp a
  let h ← r.getProof
  match_expr r.expr with
  | some _ x =>
    return .visit { expr := mkApp2 (mkConst ``Option.some [Level.zero]) β (f.beta #[x]), proof? := mkAppN (mkConst ``map_of_some) #[α, β, a, x, f, h] }
  | none _ => return .done { expr := mkApp (mkConst ``Option.none [Level.zero]) β, proof? := mkAppN (mkConst ``map_of_none) #[α, β, a, f, h] }
  | _ =>
    if r.expr == a then return .done { expr := e }
    return .done { expr := mkAppN e.getAppFn #[α, β, f, r.expr], proof? := mkAppN (mkConst ``map_of_eq) #[α, β, a, r.expr, f, h] }
end PG.Cxx
