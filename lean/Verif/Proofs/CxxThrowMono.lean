import Verif.Spec.CxxThrow
import Verif.Proofs.CxxMono
/-
Execution with exceptions (Spec/CxxThrow.lean) depends on the library only through what is called, as in Proofs/CxxMono.lean; here
exceptions and loops that make too many iterations are kept as well.
-/
set_option autoImplicit false
namespace PG.Cxx.Throw
variable {D S : Type}

/-- Wherever one is defined, the other one is the same. -/
def Le {α : Type} (a b : Ran α) : Prop := a = .undef ∨ b = a

theorem Le.refl {α : Type} (a : Ran α) : Le a a := .inr rfl

theorem Le.none {α : Type} (a : Ran α) : Le .undef a := .inl rfl

theorem Le.trans {α : Type} {a b c : Ran α} (h : Le a b) (k : Le b c) : Le a c := by
  rcases h with h | h
  · exact .inl h
  · rw [h] at k; exact k

theorem Le.bind {α β : Type} {a b : Ran α} {f g : α → Ran β} (h : Le a b) (k : ∀ x, Le (f x) (g x)) : Le (a.bind f) (b.bind g) := by
  rcases h with h | h
  · rw [h]; exact .inl rfl
  · rw [h]
    cases a with
    | ok x => exact k x
    | _ => exact Le.refl _

/-- A library with other functions and methods. -/
def with' (L : ThrowLib D S) (F : List Name → Thrower D S) (M : Name → Thrower D S) : ThrowLib D S :=
  { L with function := F, method := M }

/-- The others do what those of the library do, as far as the given names go. -/
structure Serves (P : Name → Bool) (L : ThrowLib D S) (F : List Name → Thrower D S) (M : Name → Thrower D S) : Prop where
  function : ∀ p, (∀ f, p = [f] → P f = true) → ∀ s args, Le (L.function p s args) (F p s args)
  method : ∀ m s args, Le (L.method m s args) (M m s args)

variable {P : Name → Bool} {L : ThrowLib D S} {F : List Name → Thrower D S} {M : Name → Thrower D S}

theorem single {P : Name → Bool} {f : Name} (h : P f = true) : ∀ g, [f] = [g] → P g = true := by
  intro g e; cases e; exact h

mutual
theorem eval_le (H : Serves P L F M) : (e : Expr) → e.Uses P = true → (st : St D S) → Le (eval L e st) (eval (with' L F M) e st)
  | .name n, _, st => Le.refl _
  | .qual p, _, st => Le.refl _
  | .int _ _, _, st => Le.refl _
  | .chr _, _, st => Le.refl _
  | .str _, _, st => Le.refl _
  | .member e n, h, st => by
    simp only [Expr.Uses] at h
    simp only [eval]
    exact (eval_le H e h st).bind fun r => Le.refl _
  | .index a i, h, st => by
    simp only [Expr.Uses, Bool.and_eq_true] at h
    simp only [eval]
    exact (eval_le H a h.1 st).bind fun r => (eval_le H i h.2 r.2).bind fun q => Le.refl _
  | .call (.name f) args, h, st => by
    simp only [Expr.Uses, Bool.and_eq_true] at h
    simp only [eval]
    exact (evalAll_le H args h.2 st).bind fun r => (H.function [f] (single h.1) _ _).bind fun q => (storeAll_le H args h.2 _ _).bind fun _ => Le.refl _
  | .call (.qual p) args, h, st => by
    have h2 : (∀ f, p = [f] → P f = true) ∧ args.Uses P = true := by
      match p, h with
      | [], h => simp only [Expr.Uses, Bool.and_eq_true] at h; exact ⟨fun f e => (by cases e), h.2⟩
      | [f], h => simp only [Expr.Uses, Bool.and_eq_true] at h; exact ⟨single h.1, h.2⟩
      | a :: b :: r, h => simp only [Expr.Uses, Bool.and_eq_true] at h; exact ⟨fun f e => (by cases e), h.2⟩
    simp only [eval]
    exact (evalAll_le H args h2.2 st).bind fun r => (H.function p h2.1 _ _).bind fun q => (storeAll_le H args h2.2 _ _).bind fun _ => Le.refl _
  | .call (.inst f t) args, h, st => by
    simp only [Expr.Uses, Bool.and_eq_true] at h
    simp only [eval]
    exact (evalAll_le H args h.2 st).bind fun r => (H.function [f, t] (fun g e => by cases e) _ _).bind fun q =>
      (storeAll_le H args h.2 _ _).bind fun _ => Le.refl _
  | .call (.member e f) args, h, st => by
    simp only [Expr.Uses, Bool.and_eq_true] at h
    simp only [eval]
    refine (eval_le H e h.1 st).bind fun o => (evalAll_le H args h.2 _).bind fun r => ?_
    split
    · exact Le.refl _
    · exact (place_le H e h.1 _).bind fun p => Le.refl _
    · refine Le.bind (H.method _ _ _) fun q => ?_
      split
      · exact Le.refl _
      · exact (storeAll_le H args h.2 _ _).bind fun _ => Le.refl _
      · exact (place_le H e h.1 _).bind fun p => Le.bind (Le.refl _) fun st => (storeAll_le H args h.2 _ _).bind fun _ => Le.refl _
  | .call (.int _ _) _, _, _ | .call (.chr _) _, _, _ | .call (.str _) _, _, _ | .call (.index _ _) _, _, _ | .call (.call _ _) _, _, _
  | .call (.unary _ _) _, _, _ | .call (.incr _ _ _) _, _, _ | .call (.binary _ _ _) _, _, _ | .call (.cond _ _ _) _, _, _
  | .call (.assign _ _) _, _, _ | .call (.update _ _ _) _, _, _ | .call (.cast _ _) _, _, _ | .call (.braces _) _, _, _
  | .call (.comma _ _) _, _, _ | .call (.statik _ _) _, _, _ => Le.none _
  | .inst _ _, _, _ => Le.none _
  | .statik _ _, _, _ => Le.none _
  | .unary o e, h, st => by
    simp only [Expr.Uses] at h
    simp only [eval]
    exact (eval_le H e h st).bind fun r => Le.refl _
  | .incr o b e, h, st => by
    simp only [Expr.Uses] at h
    simp only [eval]
    exact (eval_le H e h st).bind fun r => Le.bind (Le.refl _) fun v => (place_le H e h _).bind fun p => Le.refl _
  | .binary o a b, h, st => by
    simp only [Expr.Uses, Bool.and_eq_true] at h
    simp only [eval]
    refine (eval_le H a h.1 st).bind fun r => ?_
    split
    · refine Le.bind (Le.refl _) fun x => ?_
      unfold both
      split
      · exact ((eval_le H b h.2 _).bind fun q => Le.refl _).bind fun _ => Le.refl _
      · exact Le.refl _
    · split
      · refine Le.bind (Le.refl _) fun x => ?_
        unfold either
        split
        · exact Le.refl _
        · exact ((eval_le H b h.2 _).bind fun q => Le.refl _).bind fun _ => Le.refl _
      · exact (eval_le H b h.2 _).bind fun q => Le.refl _
  | .cond c a b, h, st => by
    simp only [Expr.Uses, Bool.and_eq_true] at h
    simp only [eval]
    refine (eval_le H c h.1.1 st).bind fun r => Le.bind (Le.refl _) fun x => ?_
    split
    · exact eval_le H a h.1.2 _
    · exact eval_le H b h.2 _
  | .assign (.index a i) b, h, st => by
    simp only [Expr.Uses, Bool.and_eq_true] at h
    simp only [eval]
    refine (eval_le H b h.2 st).bind fun r => (eval_le H i h.1.2 _).bind fun k => ?_
    split
    · refine (eval_le H a h.1.1 _).bind fun o => Le.bind (H.method _ _ _) fun q => ?_
      split
      · exact (place_le H a h.1.1 _).bind fun p => Le.refl _
      · exact Le.refl _
    · split
      · exact Le.refl _
      · exact (place_le H a h.1.1 _).bind fun p => Le.refl _
    · exact Le.refl _
  | .assign (.unary o a) b, h, st => by
    simp only [Expr.Uses, Bool.and_eq_true] at h
    simp only [eval]
    refine (eval_le H b h.2 st).bind fun r => (eval_le H a h.1 _).bind fun p => ?_
    show Le (match if o = n!"*" then L.store p.1 r.1 p.2.lib else none with | some s => _ | none => _)
      (match if o = n!"*" then L.store p.1 r.1 p.2.lib else none with | some s => _ | none => _)
    split
    · exact Le.refl _
    · exact (place_le H (.unary o a) (by simp only [Expr.Uses]; exact h.1) _).bind fun p => Le.refl _
  | .assign (.name n) b, h, st => by
    simp only [Expr.Uses, Bool.and_eq_true] at h
    simp only [eval]
    exact (eval_le H b h.2 st).bind fun r => (place_le H (.name n) rfl _).bind fun p => Le.refl _
  | .assign (.qual p) b, h, st => by
    simp only [Expr.Uses, Bool.and_eq_true] at h
    simp only [eval, place]
    exact (eval_le H b h.2 st).bind fun r => Le.refl _
  | .assign (.int t v) b, h, st => by
    simp only [Expr.Uses, Bool.and_eq_true] at h
    simp only [eval, place]
    exact (eval_le H b h.2 st).bind fun r => Le.refl _
  | .assign (.chr c) b, h, st => by
    simp only [Expr.Uses, Bool.and_eq_true] at h
    simp only [eval, place]
    exact (eval_le H b h.2 st).bind fun r => Le.refl _
  | .assign (.str x) b, h, st => by
    simp only [Expr.Uses, Bool.and_eq_true] at h
    simp only [eval, place]
    exact (eval_le H b h.2 st).bind fun r => Le.refl _
  | .assign (.member e n) b, h, st => by
    simp only [Expr.Uses, Bool.and_eq_true] at h
    simp only [eval]
    exact (eval_le H b h.2 st).bind fun r => (place_le H (.member e n) (by simp only [Expr.Uses]; exact h.1) _).bind fun p => Le.refl _
  | .assign (.call f l) b, h, st => by
    simp only [Expr.Uses, Bool.and_eq_true] at h
    simp only [eval, place]
    exact (eval_le H b h.2 st).bind fun r => Le.refl _
  | .assign (.inst f t) b, h, st => by
    simp only [Expr.Uses, Bool.and_eq_true] at h
    simp only [eval, place]
    exact (eval_le H b h.2 st).bind fun r => Le.refl _
  | .assign (.statik t f) b, h, st => by
    simp only [Expr.Uses, Bool.and_eq_true] at h
    simp only [eval, place]
    exact (eval_le H b h.2 st).bind fun r => Le.refl _
  | .assign (.incr o x e) b, h, st => by
    simp only [Expr.Uses, Bool.and_eq_true] at h
    simp only [eval, place]
    exact (eval_le H b h.2 st).bind fun r => Le.refl _
  | .assign (.binary o x y) b, h, st => by
    simp only [Expr.Uses, Bool.and_eq_true] at h
    simp only [eval, place]
    exact (eval_le H b h.2 st).bind fun r => Le.refl _
  | .assign (.cond c x y) b, h, st => by
    simp only [Expr.Uses, Bool.and_eq_true] at h
    simp only [eval, place]
    exact (eval_le H b h.2 st).bind fun r => Le.refl _
  | .assign (.assign x y) b, h, st => by
    simp only [Expr.Uses, Bool.and_eq_true] at h
    simp only [eval, place]
    exact (eval_le H b h.2 st).bind fun r => Le.refl _
  | .assign (.update o x y) b, h, st => by
    simp only [Expr.Uses, Bool.and_eq_true] at h
    simp only [eval, place]
    exact (eval_le H b h.2 st).bind fun r => Le.refl _
  | .assign (.cast t e) b, h, st => by
    simp only [Expr.Uses, Bool.and_eq_true] at h
    simp only [eval, place]
    exact (eval_le H b h.2 st).bind fun r => Le.refl _
  | .assign (.braces es) b, h, st => by
    simp only [Expr.Uses, Bool.and_eq_true] at h
    simp only [eval, place]
    exact (eval_le H b h.2 st).bind fun r => Le.refl _
  | .assign (.comma x y) b, h, st => by
    simp only [Expr.Uses, Bool.and_eq_true] at h
    simp only [eval, place]
    exact (eval_le H b h.2 st).bind fun r => Le.refl _
  | .update o a b, h, st => by
    simp only [Expr.Uses, Bool.and_eq_true] at h
    simp only [eval]
    exact (eval_le H a h.1 st).bind fun x => (eval_le H b h.2 _).bind fun y => Le.bind (Le.refl _) fun v =>
      (place_le H a h.1 _).bind fun p => Le.refl _
  | .cast t e, h, st => by
    simp only [Expr.Uses] at h
    simp only [eval]
    exact (eval_le H e h st).bind fun r => Le.refl _
  | .braces es, h, st => by
    simp only [Expr.Uses] at h
    simp only [eval]
    exact (evalAll_le H es h st).bind fun _ => Le.refl _
  | .comma a b, h, st => by
    simp only [Expr.Uses, Bool.and_eq_true] at h
    simp only [eval]
    exact (eval_le H a h.1 st).bind fun r => eval_le H b h.2 _

theorem evalAll_le (H : Serves P L F M) : (es : Exprs) → es.Uses P = true → (st : St D S) →
    Le (evalAll L es st) (evalAll (with' L F M) es st)
  | .nil, _, st => Le.refl _
  | .cons e es, h, st => by
    simp only [Exprs.Uses, Bool.and_eq_true] at h
    simp only [evalAll]
    exact (eval_le H e h.1 st).bind fun r => (evalAll_le H es h.2 _).bind fun _ => Le.refl _

theorem place_le (H : Serves P L F M) : (e : Expr) → e.Uses P = true → (st : St D S) →
    Le (place L e st) (place (with' L F M) e st)
  | .name n, _, st => Le.refl _
  | .member e n, h, st => by
    simp only [Expr.Uses] at h
    simp only [place]
    exact (place_le H e h st).bind fun _ => Le.refl _
  | .index a i, h, st => by
    simp only [Expr.Uses, Bool.and_eq_true] at h
    simp only [place]
    exact (place_le H a h.1 st).bind fun r => (eval_le H i h.2 _).bind fun q => Le.refl _
  | .unary o e, h, st => by
    simp only [Expr.Uses] at h
    simp only [place]
    split
    · exact (place_le H e h st).bind fun _ => Le.refl _
    · split
      · exact place_le H e h st
      · exact Le.refl _
  | .qual _, _, _ | .int _ _, _, _ | .chr _, _, _ | .str _, _, _ | .call _ _, _, _ | .inst _ _, _, _ | .statik _ _, _, _
  | .binary _ _ _, _, _ | .cond _ _ _, _, _ | .assign _ _, _, _ | .update _ _ _, _, _ | .cast _ _, _, _ | .braces _, _, _
  | .comma _ _, _, _ | .incr _ _ _, _, _ => Le.none _

theorem storeAll_le (H : Serves P L F M) : (es : Exprs) → es.Uses P = true → (xs : List (Option (Val D))) → (st : St D S) →
    Le (storeAll L es xs st) (storeAll (with' L F M) es xs st)
  | _, _, [], st => by simp only [storeAll]; exact Le.refl _
  | .cons e es, h, some x :: xs, st => by
    simp only [Exprs.Uses, Bool.and_eq_true] at h
    simp only [storeAll]
    exact (place_le H e h.1 st).bind fun p => Le.bind (Le.refl _) fun st => storeAll_le H es h.2 xs st
  | .cons e es, h, none :: xs, st => by
    simp only [Exprs.Uses, Bool.and_eq_true] at h
    simp only [storeAll]
    exact storeAll_le H es h.2 xs st
  | .nil, _, _ :: _, _ => by simp only [storeAll]; exact Le.none _
end

theorem iterate_le {c c' : St D S → Ran (Bool × St D S)} {body body' : St D S → Ran (Flow D × St D S)}
    {step step' : St D S → Ran (St D S)} (hc : ∀ st, Le (c st) (c' st)) (hb : ∀ st, Le (body st) (body' st))
    (hs : ∀ st, Le (step st) (step' st)) (n : Nat) (st : St D S) : Le (iterate c body step n st) (iterate c' body' step' n st) := by
  induction n generalizing st with
  | zero => exact Le.refl _
  | succ n ih =>
    simp only [iterate]
    refine (hc st).bind fun r => ?_
    split
    · refine (hb _).bind fun q => ?_
      split
      · exact (hs _).bind ih
      · exact (hs _).bind ih
      · exact Le.refl _
      · exact Le.refl _
    · exact Le.refl _

theorem repeated_le {c c' : St D S → Ran (Bool × St D S)} {body body' : St D S → Ran (Flow D × St D S)}
    (hc : ∀ st, Le (c st) (c' st)) (hb : ∀ st, Le (body st) (body' st)) (n : Nat) (st : St D S) :
    Le (repeated c body n st) (repeated c' body' n st) := by
  induction n generalizing st with
  | zero => exact Le.refl _
  | succ n ih =>
    simp only [repeated]
    refine (hb _).bind fun q => ?_
    split
    · refine (hc _).bind fun r => ?_
      split
      · exact ih _
      · exact Le.refl _
    · refine (hc _).bind fun r => ?_
      split
      · exact ih _
      · exact Le.refl _
    · exact Le.refl _
    · exact Le.refl _

theorem test_le (H : Serves P L F M) (e : Expr) (h : e.Uses P = true) (st : St D S) : Le (test L e st) (test (with' L F M) e st) :=
  (eval_le H e h st).bind fun _ => Le.refl _

theorem perform_le (H : Serves P L F M) (e : Expr) (h : e.Uses P = true) (st : St D S) :
    Le (perform L e st) (perform (with' L F M) e st) := (eval_le H e h st).bind fun _ => Le.refl _

theorem isLabel_le (H : Serves P L F M) (v : Val D) (e : Expr) (h : e.Uses P = true) (st : St D S) :
    Le (isLabel L v e st) (isLabel (with' L F M) v e st) := (eval_le H e h st).bind fun _ => Le.refl _

mutual
theorem exec_le (H : Serves P L F M) (n : Nat) : (s : Stmt) → s.Uses P = true → (st : St D S) →
    Le (exec L n s st) (exec (with' L F M) n s st)
  | .expr e, h, st => by
    simp only [Stmt.Uses] at h
    simp only [exec]
    exact (eval_le H e h st).bind fun _ => Le.refl _
  | .decl t x none, _, st => by simp only [exec]; exact Le.refl _
  | .decl t x (some e), h, st => by
    simp only [Stmt.Uses] at h
    simp only [exec]
    exact (eval_le H e h st).bind fun r => Le.refl _
  | .array t x k none, _, st => by simp only [exec]; exact Le.refl _
  | .array t x k (some e), h, st => by
    simp only [Stmt.Uses, Bool.and_eq_true] at h
    simp only [exec]
    exact (eval_le H k h.1 st).bind fun r => (eval_le H e h.2 _).bind fun q => Le.refl _
  | .made t x args, h, st => by
    simp only [Stmt.Uses, Bool.and_eq_true] at h
    simp only [exec]
    exact (evalAll_le H args h.2 st).bind fun r => (H.function [t] (single h.1) _ _).bind fun q => (storeAll_le H args h.2 _ _).bind fun _ => Le.refl _
  | .ret none, _, st => by simp only [exec]; exact Le.refl _
  | .ret (some e), h, st => by
    simp only [Stmt.Uses] at h
    simp only [exec]
    exact (eval_le H e h st).bind fun _ => Le.refl _
  | .ite c a b, h, st => by
    simp only [Stmt.Uses, Bool.and_eq_true] at h
    simp only [exec]
    refine (test_le H c h.1.1 st).bind fun r => ?_
    split
    · exact exec_le H n a h.1.2 _
    · exact exec_le H n b h.2 _
  | .switch e cases, h, st => by
    simp only [Stmt.Uses, Bool.and_eq_true] at h
    simp only [exec]
    exact (eval_le H e h.1 st).bind fun r => (execCases_le H n cases h.2 _ _).bind fun _ => Le.refl _
  | .block l, h, st => by
    simp only [Stmt.Uses] at h
    simp only [exec]
    exact (execAll_le H n l h _).bind fun _ => Le.refl _
  | .while c s, h, st => by
    simp only [Stmt.Uses, Bool.and_eq_true] at h
    simp only [exec]
    exact iterate_le (test_le H c h.1) (exec_le H n s h.2) (fun _ => Le.refl _) n st
  | .doWhile s c, h, st => by
    simp only [Stmt.Uses, Bool.and_eq_true] at h
    simp only [exec]
    exact repeated_le (test_le H c h.2) (exec_le H n s h.1) n st
  | .for i c step s, h, st => by
    simp only [Stmt.Uses, Bool.and_eq_true] at h
    simp only [exec]
    exact (exec_le H n i h.1.1.1 _).bind fun r =>
      (iterate_le (test_le H c h.1.1.2) (exec_le H n s h.2) (perform_le H step h.1.2) n _).bind fun _ => Le.refl _
  | .break, _, st => by simp only [exec]; exact Le.refl _
  | .continue, _, st => by simp only [exec]; exact Le.refl _
  | .goto l, _, st => by simp only [exec]; exact Le.refl _
  | .label _, _, st => by simp only [exec]; exact Le.refl _
  | .skip, _, st => by simp only [exec]; exact Le.refl _
  | .attempt s t x d, h, st => by
    simp only [Stmt.Uses, Bool.and_eq_true] at h
    simp only [exec]
    rcases exec_le H n s h.1 st with e | e
    · rw [e]; exact Le.none _
    · rw [e]
      cases exec L n s st with
      | thrown e =>
        show Le (match L.caught t e st.lib with | some (v, lib) => _ | none => _) (match L.caught t e st.lib with | some (v, lib) => _ | none => _)
        split
        · exact (exec_le H n d h.2 _).bind fun _ => Le.refl _
        · exact Le.refl _
      | _ => exact Le.refl _
  | .seq a b, h, st => by
    simp only [Stmt.Uses, Bool.and_eq_true] at h
    simp only [exec]
    refine (exec_le H n a h.1 st).bind fun r => ?_
    split
    · exact exec_le H n b h.2 _
    · exact Le.refl _

theorem execAll_le (H : Serves P L F M) (n : Nat) : (l : Stmts) → l.Uses P = true → (st : St D S) →
    Le (execAll L n l st) (execAll (with' L F M) n l st)
  | .nil, _, st => by simp only [execAll]; exact Le.refl _
  | .cons s rest, h, st => by
    simp only [Stmts.Uses, Bool.and_eq_true] at h
    simp only [execAll]
    refine (exec_le H n s h.1 st).bind fun r => ?_
    split
    · exact execAll_le H n rest h.2 _
    · exact Le.refl _

theorem execCases_le (H : Serves P L F M) (n : Nat) : (l : Cases) → l.Uses P = true → (v : Option (Val D)) → (st : St D S) →
    Le (execCases L n v l st) (execCases (with' L F M) n v l st)
  | .nil, _, v, st => by simp only [execCases]; exact Le.refl _
  | .cons e body rest, h, none, st => by
    have h2 : body.Uses P = true ∧ rest.Uses P = true := by
      cases e <;> simp only [Cases.Uses, Bool.and_eq_true] at h
      · exact h
      · exact ⟨h.1.2, h.2⟩
    simp only [execCases]
    refine (execAll_le H n body h2.1 st).bind fun r => ?_
    split
    · exact execCases_le H n rest h2.2 _ _
    · exact Le.refl _
  | .cons (some e) body rest, h, some v, st => by
    simp only [Cases.Uses, Bool.and_eq_true] at h
    simp only [execCases]
    refine (isLabel_le H v e h.1.1 st).bind fun b => ?_
    split
    · refine (execAll_le H n body h.1.2 st).bind fun r => ?_
      split
      · exact execCases_le H n rest h.2 _ _
      · exact Le.refl _
    · exact execCases_le H n rest h.2 _ _
  | .cons none body rest, h, some v, st => by
    simp only [Cases.Uses, Bool.and_eq_true] at h
    simp only [execCases]
    split
    · exact execAll_le H n body h.1 st
    · exact Le.refl _
end

/-- A function does with the others what it does with those of the library. -/
theorem run_le (H : Serves P L F M) (n : Nat) (f : Fun) (h : f.body.Uses P = true) (args : List (Val D)) (s : S) :
    Le (run L n f args s) (run (with' L F M) n f args s) := by
  unfold run
  split
  · exact (execAll_le H n f.body h _).bind fun r => Le.refl _
  · exact Le.refl _

end PG.Cxx.Throw
