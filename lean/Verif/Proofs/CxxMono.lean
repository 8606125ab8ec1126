import Verif.Spec.CxxRun
/-
Execution (Spec/CxxRun.lean) depends on the library only through what is called: if a library does for the names that a function
calls what another one does, wherever that one does something, then the function does with it what it does with the other one.
-/
set_option autoImplicit false
namespace PG.Cxx
variable {D S : Type}

/-- Wherever one does something, the other one does the same. -/
def Le {α : Type} (a b : Option α) : Prop := ∀ r, a = some r → b = some r

theorem Le.refl {α : Type} (a : Option α) : Le a a := fun _ h => h

theorem Le.trans {α : Type} {a b c : Option α} (h : Le a b) (k : Le b c) : Le a c := fun r e => k r (h r e)

theorem Le.none {α : Type} (a : Option α) : Le none a := fun _ h => by cases h

theorem Le.bind {α β : Type} {a b : Option α} {f g : α → Option β} (h : Le a b) (k : ∀ x, Le (f x) (g x)) : Le (a.bind f) (b.bind g) := by
  intro r e
  cases ha : a with
  | none => rw [ha] at e; cases e
  | some x =>
    rw [ha] at e
    rw [h x ha]
    exact k x r e

theorem Le.map {α β : Type} {a b : Option α} (f : α → β) (h : Le a b) : Le (a.map f) (b.map f) := by
  intro r e
  cases ha : a with
  | none => rw [ha] at e; cases e
  | some x =>
    rw [ha] at e
    rw [h x ha]
    exact e

mutual
/-- All functions that an expression calls are among those. -/
def Expr.Uses (P : Name → Bool) : Expr → Bool
  | .member e _ => e.Uses P
  | .index a i => a.Uses P && i.Uses P
  | .call (.name f) args => P f && args.Uses P
  | .call (.qual [f]) args => P f && args.Uses P
  | .call (.member e _) args => e.Uses P && args.Uses P
  | .call f args => f.Uses P && args.Uses P
  | .unary _ e => e.Uses P
  | .incr _ _ e => e.Uses P
  | .binary _ a b => a.Uses P && b.Uses P
  | .cond c a b => c.Uses P && a.Uses P && b.Uses P
  | .assign a b => a.Uses P && b.Uses P
  | .update _ a b => a.Uses P && b.Uses P
  | .cast _ e => e.Uses P
  | .braces es => es.Uses P
  | .comma a b => a.Uses P && b.Uses P
  | _ => true
/-- The same for lists of expressions. -/
def Exprs.Uses (P : Name → Bool) : Exprs → Bool
  | .nil => true
  | .cons e es => e.Uses P && es.Uses P
end

mutual
/-- All functions that a statement calls are among those. -/
def Stmt.Uses (P : Name → Bool) : Stmt → Bool
  | .expr e => e.Uses P
  | .decl _ _ none => true
  | .decl _ _ (some e) => e.Uses P
  | .array _ _ k none => k.Uses P
  | .array _ _ k (some e) => k.Uses P && e.Uses P
  | .made t _ args => P t && args.Uses P
  | .ret none => true
  | .ret (some e) => e.Uses P
  | .ite c a b => c.Uses P && a.Uses P && b.Uses P
  | .switch e cases => e.Uses P && cases.Uses P
  | .block l => l.Uses P
  | .while c s => c.Uses P && s.Uses P
  | .doWhile s c => s.Uses P && c.Uses P
  | .for i c step s => i.Uses P && c.Uses P && step.Uses P && s.Uses P
  | .seq a b => a.Uses P && b.Uses P
  | .attempt s _ _ h => s.Uses P && h.Uses P
  | _ => true
/-- The same for lists of statements. -/
def Stmts.Uses (P : Name → Bool) : Stmts → Bool
  | .nil => true
  | .cons s l => s.Uses P && l.Uses P
/-- The same for the labels of a `switch`. -/
def Cases.Uses (P : Name → Bool) : Cases → Bool
  | .nil => true
  | .cons none body rest => body.Uses P && rest.Uses P
  | .cons (some e) body rest => e.Uses P && body.Uses P && rest.Uses P
end

/-- A library with other functions and methods. -/
def Lib.with (L : Lib D S) (F : List Name → Callee D S) (M : Name → Callee D S) : Lib D S :=
  { L with function := F, method := M }

/-- The others do what those of the library do; for functions, as far as the given names go. -/
structure Serves (P : Name → Bool) (L : Lib D S) (F : List Name → Callee D S) (M : Name → Callee D S) : Prop where
  function : ∀ p, (∀ f, p = [f] → P f = true) → ∀ s args, Le (L.function p s args) (F p s args)
  method : ∀ f s args, Le (L.method f s args) (M f s args)

variable {P : Name → Bool} {L : Lib D S} {F : List Name → Callee D S} {M : Name → Callee D S}

theorem with_get (p : Place) (st : St D S) : p.get (L.with F M) st = p.get L st := by
  induction p with
  | var n => rfl
  | member p n ih => simp only [Place.get, ih]; rfl
  | «at» p i ih => simp only [Place.get, ih]; rfl
  | deref p ih => simp only [Place.get, ih]; rfl

theorem with_put (p : Place) : ∀ (v : Val D) (st : St D S), p.put (L.with F M) v st = p.put L v st := by
  induction p with
  | var n => intro v st; rfl
  | member p n ih => intro v st; simp only [Place.put, with_get, ih]; rfl
  | «at» p i ih => intro v st; simp only [Place.put, with_get, ih]; rfl
  | deref p ih => intro v st; simp only [Place.put, with_get, ih]; rfl

theorem with_assign (p : Place) (v : Val D) (st : St D S) : p.assign (L.with F M) v st = p.assign L v st := by
  simp only [Place.assign, with_get, with_put]; rfl

theorem single {P : Name → Bool} {f : Name} (h : P f = true) : ∀ g, [f] = [g] → P g = true := by
  intro g e; cases e; exact h

mutual
theorem eval_le (H : Serves P L F M) : (e : Expr) → e.Uses P = true → (st : St D S) → Le (eval L e st) (eval (L.with F M) e st)
  | .name n, _, st => Le.refl _
  | .qual p, _, st => Le.refl _
  | .int _ _, _, st => Le.refl _
  | .chr _, _, st => Le.refl _
  | .str _, _, st => Le.refl _
  | .member e n, h, st => by
    simp only [Expr.Uses] at h
    simp only [eval]
    exact (eval_le H e h st).bind fun r => Le.refl _
  | .index a i, h, st => by
    simp only [Expr.Uses, Bool.and_eq_true] at h
    simp only [eval]
    exact (eval_le H a h.1 st).bind fun r => (eval_le H i h.2 r.2).bind fun q => Le.refl _
  | .call (.name f) args, h, st => by
    simp only [Expr.Uses, Bool.and_eq_true] at h
    simp only [eval]
    split
    · exact Le.refl _
    · exact (evalAll_le H args h.2 st).bind fun r => (H.function [f] (single h.1) _ _).bind fun q => (storeAll_le H args h.2 _ _).map _
  | .call (.qual p) args, h, st => by
    have h2 : (∀ f, p = [f] → P f = true) ∧ args.Uses P = true := by
      match p, h with
      | [], h => simp only [Expr.Uses, Bool.and_eq_true] at h; exact ⟨fun f e => (by cases e), h.2⟩
      | [f], h => simp only [Expr.Uses, Bool.and_eq_true] at h; exact ⟨single h.1, h.2⟩
      | a :: b :: r, h => simp only [Expr.Uses, Bool.and_eq_true] at h; exact ⟨fun f e => (by cases e), h.2⟩
    simp only [eval]
    exact (evalAll_le H args h2.2 st).bind fun r => (H.function p h2.1 _ _).bind fun q => (storeAll_le H args h2.2 _ _).map _
  | .call (.inst f t) args, h, st => by
    simp only [Expr.Uses, Bool.and_eq_true] at h
    simp only [eval]
    exact (evalAll_le H args h.2 st).bind fun r => Le.bind (Le.refl _) fun q => (storeAll_le H args h.2 _ _).map _
  | .call (.statik t f) args, h, st => by
    simp only [Expr.Uses, Bool.and_eq_true] at h
    simp only [eval]
    exact (evalAll_le H args h.2 st).bind fun r => Le.bind (Le.refl _) fun q => (storeAll_le H args h.2 _ _).map _
  | .call (.member e f) args, h, st => by
    simp only [Expr.Uses, Bool.and_eq_true] at h
    simp only [eval]
    refine (eval_le H e h.1 st).bind fun o => (evalAll_le H args h.2 _).bind fun r => ?_
    split
    · exact Le.refl _
    · simp only [with_put]
      exact (place_le H e h.1 _).bind fun p => Le.refl _
    · refine (H.method f _ _).bind fun q => ?_
      split
      · exact Le.refl _
      · exact (storeAll_le H args h.2 _ _).map _
      · simp only [with_put]
        exact (place_le H e h.1 _).bind fun p => Le.bind (Le.refl _) fun st => (storeAll_le H args h.2 _ _).map _
  | .call (.int _ _) _, _, _ | .call (.chr _) _, _, _ | .call (.str _) _, _, _ | .call (.index _ _) _, _, _ | .call (.call _ _) _, _, _
  | .call (.unary _ _) _, _, _ | .call (.incr _ _ _) _, _, _ | .call (.binary _ _ _) _, _, _ | .call (.cond _ _ _) _, _, _
  | .call (.assign _ _) _, _, _ | .call (.update _ _ _) _, _, _ | .call (.cast _ _) _, _, _ | .call (.braces _) _, _, _
  | .call (.comma _ _) _, _, _ => Le.none _
  | .inst _ _, _, _ => Le.none _
  | .statik _ _, _, _ => Le.none _
  | .unary o e, h, st => by
    simp only [Expr.Uses] at h
    simp only [eval]
    exact (eval_le H e h st).bind fun r => Le.refl _
  | .incr o b e, h, st => by
    simp only [Expr.Uses] at h
    simp only [eval, with_put]
    exact (eval_le H e h st).bind fun r => Le.bind (Le.refl _) fun v => (place_le H e h _).bind fun p => Le.refl _
  | .binary o a b, h, st => by
    simp only [Expr.Uses, Bool.and_eq_true] at h
    simp only [eval]
    refine (eval_le H a h.1 st).bind fun r => ?_
    split
    · refine Le.bind (Le.refl _) fun x => ?_
      unfold both
      split
      · exact Le.map _ ((eval_le H b h.2 _).bind fun q => Le.refl _)
      · exact Le.refl _
    · split
      · refine Le.bind (Le.refl _) fun x => ?_
        unfold either
        split
        · exact Le.refl _
        · exact Le.map _ ((eval_le H b h.2 _).bind fun q => Le.refl _)
      · exact (eval_le H b h.2 _).bind fun q => Le.refl _
  | .cond c a b, h, st => by
    simp only [Expr.Uses, Bool.and_eq_true] at h
    simp only [eval]
    refine (eval_le H c h.1.1 st).bind fun r => Le.bind (Le.refl _) fun x => ?_
    split
    · exact eval_le H a h.1.2 _
    · exact eval_le H b h.2 _
  | .assign a b, h, st => by
    simp only [Expr.Uses, Bool.and_eq_true] at h
    simp only [eval, with_assign]
    exact (eval_le H b h.2 st).bind fun r => (place_le H a h.1 _).bind fun p => Le.refl _
  | .update o a b, h, st => by
    simp only [Expr.Uses, Bool.and_eq_true] at h
    simp only [eval, with_assign]
    exact (eval_le H a h.1 st).bind fun x => (eval_le H b h.2 _).bind fun y => Le.bind (Le.refl _) fun v =>
      (place_le H a h.1 _).bind fun p => Le.refl _
  | .cast t e, h, st => by
    simp only [Expr.Uses] at h
    simp only [eval]
    exact (eval_le H e h st).bind fun r => Le.refl _
  | .braces es, h, st => by
    simp only [Expr.Uses] at h
    simp only [eval]
    exact (evalAll_le H es h st).map _
  | .comma a b, h, st => by
    simp only [Expr.Uses, Bool.and_eq_true] at h
    simp only [eval]
    exact (eval_le H a h.1 st).bind fun r => eval_le H b h.2 _

theorem evalAll_le (H : Serves P L F M) : (es : Exprs) → es.Uses P = true → (st : St D S) →
    Le (evalAll L es st) (evalAll (L.with F M) es st)
  | .nil, _, st => Le.refl _
  | .cons e es, h, st => by
    simp only [Exprs.Uses, Bool.and_eq_true] at h
    simp only [evalAll]
    exact (eval_le H e h.1 st).bind fun r => (evalAll_le H es h.2 _).map _

theorem place_le (H : Serves P L F M) : (e : Expr) → e.Uses P = true → (st : St D S) →
    Le (place L e st) (place (L.with F M) e st)
  | .name n, _, st => Le.refl _
  | .member e n, h, st => by
    simp only [Expr.Uses] at h
    simp only [place]
    exact (place_le H e h st).map _
  | .index a i, h, st => by
    simp only [Expr.Uses, Bool.and_eq_true] at h
    simp only [place]
    exact (place_le H a h.1 st).bind fun r => (eval_le H i h.2 _).bind fun q => Le.refl _
  | .unary o e, h, st => by
    simp only [Expr.Uses] at h
    simp only [place]
    split
    · exact (place_le H e h st).map _
    · exact Le.refl _
  | .incr o b e, h, st => by
    simp only [Expr.Uses] at h
    simp only [place, with_put]
    split
    · exact (eval_le H e h st).bind fun r => Le.bind (Le.refl _) fun v => (place_le H e h _).bind fun p => Le.refl _
    · exact Le.refl _
  | .qual _, _, _ | .int _ _, _, _ | .chr _, _, _ | .str _, _, _ | .call _ _, _, _ | .inst _ _, _, _ | .statik _ _, _, _
  | .binary _ _ _, _, _ | .cond _ _ _, _, _ | .assign _ _, _, _ | .update _ _ _, _, _ | .cast _ _, _, _ | .braces _, _, _
  | .comma _ _, _, _ => Le.none _

theorem storeAll_le (H : Serves P L F M) : (es : Exprs) → es.Uses P = true → (xs : List (Option (Val D))) → (st : St D S) →
    Le (storeAll L es xs st) (storeAll (L.with F M) es xs st)
  | _, _, [], st => by simp only [storeAll]; exact Le.refl _
  | .cons e es, h, some x :: xs, st => by
    simp only [Exprs.Uses, Bool.and_eq_true] at h
    simp only [storeAll, with_put]
    exact (place_le H e h.1 st).bind fun p => Le.bind (Le.refl _) fun st => storeAll_le H es h.2 xs st
  | .cons e es, h, none :: xs, st => by
    simp only [Exprs.Uses, Bool.and_eq_true] at h
    simp only [storeAll]
    exact storeAll_le H es h.2 xs st
  | .nil, _, _ :: _, _ => by simp only [storeAll]; exact Le.none _
end

theorem iterate_le {c c' : St D S → Option (Bool × St D S)} {body body' : St D S → Option (Flow D × St D S)}
    {step step' : St D S → Option (St D S)} (hc : ∀ st, Le (c st) (c' st)) (hb : ∀ st, Le (body st) (body' st))
    (hs : ∀ st, Le (step st) (step' st)) (n : Nat) (st : St D S) : Le (iterate c body step n st) (iterate c' body' step' n st) := by
  induction n generalizing st with
  | zero => exact Le.refl _
  | succ n ih =>
    simp only [iterate]
    refine (hc st).bind fun r => ?_
    split
    · refine (hb _).bind fun q => ?_
      split
      · exact (hs _).bind ih
      · exact (hs _).bind ih
      · exact Le.refl _
      · exact Le.refl _
    · exact Le.refl _

theorem test_le (H : Serves P L F M) (e : Expr) (h : e.Uses P = true) (st : St D S) : Le (test L e st) (test (L.with F M) e st) :=
  (eval_le H e h st).bind fun _ => Le.refl _

theorem perform_le (H : Serves P L F M) (e : Expr) (h : e.Uses P = true) (st : St D S) :
    Le (perform L e st) (perform (L.with F M) e st) := (eval_le H e h st).map _

theorem isLabel_le (H : Serves P L F M) (v : Val D) (e : Expr) (h : e.Uses P = true) (st : St D S) :
    Le (isLabel L v e st) (isLabel (L.with F M) v e st) := (eval_le H e h st).bind fun _ => Le.refl _

mutual
theorem exec_le (H : Serves P L F M) (n : Nat) : (s : Stmt) → s.Uses P = true → (st : St D S) →
    Le (exec L n s st) (exec (L.with F M) n s st)
  | .expr e, h, st => by
    simp only [Stmt.Uses] at h
    simp only [exec]
    exact (eval_le H e h st).map _
  | .decl t x none, _, st => by simp only [exec]; exact Le.refl _
  | .decl t x (some e), h, st => by
    simp only [Stmt.Uses] at h
    simp only [exec]
    exact (eval_le H e h st).bind fun r => Le.refl _
  | .array t x k none, h, st => by
    simp only [Stmt.Uses] at h
    simp only [exec]
    exact (eval_le H k h st).bind fun r => Le.refl _
  | .array t x k (some e), h, st => by
    simp only [Stmt.Uses, Bool.and_eq_true] at h
    simp only [exec]
    exact (eval_le H k h.1 st).bind fun r => (eval_le H e h.2 _).bind fun q => Le.refl _
  | .made t x args, h, st => by
    simp only [Stmt.Uses, Bool.and_eq_true] at h
    simp only [exec]
    exact (evalAll_le H args h.2 st).bind fun r => (H.function [t] (single h.1) _ _).bind fun q => (storeAll_le H args h.2 _ _).map _
  | .ret none, _, st => by simp only [exec]; exact Le.refl _
  | .ret (some e), h, st => by
    simp only [Stmt.Uses] at h
    simp only [exec]
    exact (eval_le H e h st).map _
  | .ite c a b, h, st => by
    simp only [Stmt.Uses, Bool.and_eq_true] at h
    simp only [exec]
    refine (test_le H c h.1.1 st).bind fun r => ?_
    split
    · exact exec_le H n a h.1.2 _
    · exact exec_le H n b h.2 _
  | .switch e cases, h, st => by
    simp only [Stmt.Uses, Bool.and_eq_true] at h
    simp only [exec]
    exact (eval_le H e h.1 st).bind fun r => (execCases_le H n cases h.2 _ _).map _
  | .block l, h, st => by
    simp only [Stmt.Uses] at h
    simp only [exec]
    exact (execAll_le H n l h _ _).map _
  | .while c s, h, st => by
    simp only [Stmt.Uses, Bool.and_eq_true] at h
    simp only [exec]
    exact iterate_le (test_le H c h.1) (exec_le H n s h.2) (fun _ => Le.refl _) n st
  | .doWhile s c, h, st => by
    simp only [Stmt.Uses, Bool.and_eq_true] at h
    simp only [exec]
    refine (exec_le H n s h.1 st).bind fun q => ?_
    split
    · exact iterate_le (test_le H c h.2) (exec_le H n s h.1) (fun _ => Le.refl _) n _
    · exact iterate_le (test_le H c h.2) (exec_le H n s h.1) (fun _ => Le.refl _) n _
    · exact Le.refl _
    · exact Le.refl _
  | .for i c step s, h, st => by
    simp only [Stmt.Uses, Bool.and_eq_true] at h
    simp only [exec]
    exact (exec_le H n i h.1.1.1 _).bind fun r =>
      (iterate_le (test_le H c h.1.1.2) (exec_le H n s h.2) (perform_le H step h.1.2) n _).map _
  | .break, _, st => by simp only [exec]; exact Le.refl _
  | .continue, _, st => by simp only [exec]; exact Le.refl _
  | .goto l, _, st => by simp only [exec]; exact Le.refl _
  | .label _, _, st => by simp only [exec]; exact Le.refl _
  | .skip, _, st => by simp only [exec]; exact Le.refl _
  | .attempt _ _ _ _, _, _ => by simp only [exec]; exact Le.refl _
  | .seq a b, h, st => by
    simp only [Stmt.Uses, Bool.and_eq_true] at h
    simp only [exec]
    refine (exec_le H n a h.1 st).bind fun r => ?_
    split
    · exact exec_le H n b h.2 _
    · exact Le.refl _

theorem execAll_le (H : Serves P L F M) (n : Nat) : (l : Stmts) → l.Uses P = true → (g : Option Name) → (st : St D S) →
    Le (execAll L n g l st) (execAll (L.with F M) n g l st)
  | .nil, _, none, st => by simp only [execAll]; exact Le.refl _
  | .nil, _, some l, st => by simp only [execAll]; exact Le.refl _
  | .cons s rest, h, none, st => by
    simp only [Stmts.Uses, Bool.and_eq_true] at h
    simp only [execAll]
    refine (exec_le H n s h.1 st).bind fun r => ?_
    split
    · exact execAll_le H n rest h.2 _ _
    · exact execAll_le H n rest h.2 _ _
    · exact Le.refl _
  | .cons s rest, h, some l, st => by
    simp only [Stmts.Uses, Bool.and_eq_true] at h
    simp only [execAll]
    exact execAll_le H n rest h.2 _ _

theorem execCases_le (H : Serves P L F M) (n : Nat) : (l : Cases) → l.Uses P = true → (v : Option (Val D)) → (st : St D S) →
    Le (execCases L n v l st) (execCases (L.with F M) n v l st)
  | .nil, _, v, st => by simp only [execCases]; exact Le.refl _
  | .cons e body rest, h, none, st => by
    have h2 : body.Uses P = true ∧ rest.Uses P = true := by
      cases e <;> simp only [Cases.Uses, Bool.and_eq_true] at h
      · exact h
      · exact ⟨h.1.2, h.2⟩
    simp only [execCases]
    refine (execAll_le H n body h2.1 none st).bind fun r => ?_
    split
    · exact execCases_le H n rest h2.2 _ _
    · exact Le.refl _
  | .cons (some e) body rest, h, some v, st => by
    simp only [Cases.Uses, Bool.and_eq_true] at h
    simp only [execCases]
    refine (isLabel_le H v e h.1.1 st).bind fun b => ?_
    split
    · refine (execAll_le H n body h.1.2 none st).bind fun r => ?_
      split
      · exact execCases_le H n rest h.2 _ _
      · exact Le.refl _
    · exact execCases_le H n rest h.2 _ _
  | .cons none body rest, h, some v, st => by
    simp only [Cases.Uses, Bool.and_eq_true] at h
    simp only [execCases]
    split
    · exact execAll_le H n body h.1 none st
    · exact Le.refl _
end

mutual
theorem Expr.uses_all (e : Expr) : e.Uses (fun _ => true) = true := by
  cases e with
  | call f args =>
    have ha := Exprs.uses_all args
    have hf := Expr.uses_all f
    unfold Expr.Uses
    split <;> simp_all [Expr.Uses]
  | _ => simp_all [Expr.Uses, Expr.uses_all, Exprs.uses_all]
theorem Exprs.uses_all (e : Exprs) : e.Uses (fun _ => true) = true := by
  cases e <;> simp_all [Exprs.Uses, Expr.uses_all, Exprs.uses_all]
end
mutual
theorem Stmt.uses_all (e : Stmt) : e.Uses (fun _ => true) = true := by
  cases e with
  | decl a b c => cases c <;> simp_all [Stmt.Uses, Expr.uses_all]
  | array a b k c => cases c <;> simp_all [Stmt.Uses, Expr.uses_all]
  | ret c => cases c <;> simp_all [Stmt.Uses, Expr.uses_all]
  | _ => simp_all [Stmt.Uses, Expr.uses_all, Exprs.uses_all, Stmt.uses_all, Stmts.uses_all, Cases.uses_all]
theorem Stmts.uses_all (e : Stmts) : e.Uses (fun _ => true) = true := by
  cases e <;> simp_all [Stmts.Uses, Stmt.uses_all, Stmts.uses_all]
theorem Cases.uses_all (e : Cases) : e.Uses (fun _ => true) = true := by
  cases e with
  | nil => rfl
  | cons l b r =>
    have hb := Stmts.uses_all b
    have hr := Cases.uses_all r
    cases l <;> simp [Cases.Uses, hb, hr, Expr.uses_all]
end

/-- A function does with the others what it does with those of the library. -/
theorem run_le (H : Serves P L F M) (n : Nat) (f : Fun) (h : f.body.Uses P = true) (args : List (Val D)) (s : S) :
    Le (f.run L n args s) (f.run (L.with F M) n args s) := by
  unfold Fun.run
  split
  · refine (execAll_le H n f.body h none _).bind fun r => ?_
    exact Le.refl _
  · exact Le.refl _

end PG.Cxx
