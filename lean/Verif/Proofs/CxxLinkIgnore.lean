import Verif.Spec.CxxLink
import Verif.Proofs.CxxIgnore
import Verif.Proofs.CxxObjectAst
/-
`ignore_array`, `ignore_object`, `ignore_value` and `ignore` (protogen.hh:379, 541-602) do what the model does if what they call does so
in the states in which it is called: each of them reaches only states with less text to read.
-/
set_option autoImplicit false
namespace PG.Cxx
variable {V F : Type} {σ : Bool} {ops : Ops V F} {B : Nat} {w : World}

/-- The library in which the functions of the tokenizer do something only below a rank. -/
def limited (σ : Bool) (ops : Ops V F) (B : Nat) : Lib (Dom V F) World :=
  inner σ ops fun f w args => if rank f w < B then tokenizer σ f w args else none

theorem limited_signed : (limited σ ops B).signed = (runtimeLib σ ops).signed := (rfl)
theorem limited_constant : (limited σ ops B).constant = (runtimeLib σ ops).constant := (rfl)
theorem limited_get : (limited σ ops B).get = (runtimeLib σ ops).get := (rfl)
theorem limited_set : (limited σ ops B).set = (runtimeLib σ ops).set := (rfl)
theorem limited_member : (limited σ ops B).member = (runtimeLib σ ops).member := (rfl)
theorem limited_update : (limited σ ops B).update = (runtimeLib σ ops).update := (rfl)
theorem limited_inst : (limited σ ops B).inst = (runtimeLib σ ops).inst := (rfl)
theorem limited_statik : (limited σ ops B).statik = (runtimeLib σ ops).statik := (rfl)
theorem limited_method : (limited σ ops B).method = (runtimeLib σ ops).method := (rfl)
theorem limited_unary : (limited σ ops B).unary = (runtimeLib σ ops).unary := (rfl)
theorem limited_binary : (limited σ ops B).binary = (runtimeLib σ ops).binary := (rfl)
theorem limited_assign : (limited σ ops B).assign = (runtimeLib σ ops).assign := (rfl)
theorem limited_init : (limited σ ops B).init = (runtimeLib σ ops).init := (rfl)
theorem limited_cast : (limited σ ops B).cast = (runtimeLib σ ops).cast := (rfl)
theorem limited_size : (limited σ ops B).size = (runtimeLib σ ops).size := (rfl)
theorem limited_call_peek (l : List (Val (Dom V F))) : (limited σ ops B).function [n!"peek"] w l = tokenizer σ n!"peek" w l := (rfl)
theorem limited_call_error (l : List (Val (Dom V F))) : (limited σ ops B).function [n!"error"] w l = tokenizer σ n!"error" w l := (rfl)
theorem limited_call_next (h : 3 < B) (l : List (Val (Dom V F))) :
    (limited σ ops B).function [n!"next"] w l = tokenizer σ n!"next" w l := if_pos (by show 2 < B; omega)
theorem limited_call_expect (h : 3 < B) (l : List (Val (Dom V F))) :
    (limited σ ops B).function [n!"expect"] w l = tokenizer σ n!"expect" w l := if_pos h
theorem limited_call_array (h : 2 * w.tz.m + 4 < B) (l : List (Val (Dom V F))) :
    (limited σ ops B).function [n!"ignore_array"] w l = tokenizer σ n!"ignore_array" w l := if_pos h
theorem limited_call_object (h : 2 * w.tz.m + 4 < B) (l : List (Val (Dom V F))) :
    (limited σ ops B).function [n!"ignore_object"] w l = tokenizer σ n!"ignore_object" w l := if_pos h
theorem limited_call_value (h : 2 * w.tz.m + 5 < B) (l : List (Val (Dom V F))) :
    (limited σ ops B).function [n!"ignore_value"] w l = tokenizer σ n!"ignore_value" w l := if_pos h
attribute [cxx] limited_signed limited_constant limited_get limited_set limited_member limited_update limited_inst limited_statik limited_method limited_unary limited_binary limited_assign limited_init limited_cast limited_size limited_call_peek limited_call_error limited_call_next limited_call_expect limited_call_array limited_call_object limited_call_value

/-- The loop of `ignore_array`. -/
theorem limited_array_loop (m : Nat) (n k : Nat) (w : World) (hB3 : 3 < B) (hw : 2 * w.tz.m + 5 < B)
    (hn : 2 * w.tz.m + 2 ≤ n) (hk : 2 * w.tz.m + 2 ≤ k) :
    ∃ f tz', iterate (test (limited σ ops B) (.binary n!"!=" (.member (.call (.name n!"peek") .nil) n!"id") (.qual [n!"token_id",
  n!"ARRE"])))
      (exec (limited σ ops B) m ignoreArrayFunBody1) some n ⟨[[], []], w⟩ = some (f, ⟨[[], []], { w with tz := tz' }⟩) ∧
      ((f = .next ∧ ignoreArrLoop k w.tz = ignoreArrEnd tz') ∨
        ∃ c v, f = .ret (.int .i32 (v : Nat)) ∧ rcNumber c = some v ∧ ignoreArrLoop k w.tz = (c, tz')) := by
  induction n generalizing w k with
  | zero => omega
  | succ n ih =>
    obtain ⟨k, rfl⟩ : ∃ j, k = j + 1 := ⟨k - 1, by omega⟩
    rw [ignoreArrLoop]
    by_cases h : w.tz.cur.id = .arre
    · rw [if_pos h]
      exact ⟨_, w.tz, iterate_done (by cxx [hB3, hw, h]), .inl ⟨rfl, rfl⟩⟩
    · rw [if_neg h, ignoreValue_stable (b := enough w.tz) (by omega) (by have := m_enough w.tz; omega), ← skipValue]
      have h1 : test (limited σ ops B) (.binary n!"!=" (.member (.call (.name n!"peek") .nil) n!"id") (.qual [n!"token_id",
          n!"ARRE"])) ⟨[[], []], w⟩ = some (true, ⟨[[], []], w⟩) := by
        cxx [hB3, hw, h]
      have hf := ignoreValue_fin (enough w.tz) w.tz (by have := m_enough w.tz; omega)
      rw [← skipValue] at hf
      rcases hs : skipValue w.tz with ⟨r, tz1⟩
      rw [hs] at hf
      cases r with
      | fuel => exact absurd rfl hf.1
      | error => exact ⟨_, tz1, iterate_ret h1 (by cxx [hB3, hw, ignoreArrayFunBody1, hs]; rfl), .inr ⟨_, 1, rfl, rfl, rfl⟩⟩
      | nil => exact ⟨_, tz1, iterate_ret h1 (by cxx [hB3, hw, ignoreArrayFunBody1, hs]; rfl), .inr ⟨_, 2, rfl, rfl, rfl⟩⟩
      | ok =>
        rcases tz1.expect_cases .comma (by decide) (by decide) with ⟨tz2, he, hm⟩ | he
        · rw [iterate_next h1 (by cxx [hB3, hw, ignoreArrayFunBody1, hs, he]; rfl) rfl]
          have hf2 : tz1.m ≤ w.tz.m := hf.2
          simp only [he]
          exact ih k { w with tz := tz2 } (by show 2 * tz2.m + 5 < B; omega) (by show 2 * tz2.m + 2 ≤ n; omega) (by show 2 * tz2.m + 2 ≤ k; omega)
        · refine ⟨_, tz1, iterate_break h1 (by cxx [hB3, hw, ignoreArrayFunBody1, hs, he]), .inl ⟨rfl, ?_⟩⟩
          simp only [he]

/-- protogen.hh:541-555. -/
theorem limited_ignoreArray_runs (n : Nat) (w : World) (hB : 2 * w.tz.m + 4 ≤ B) (hn : 2 * w.tz.inp.rest.length + 8 ≤ n) :
    ignoreArrayFun.run (limited σ ops B) n [] w = (rcNumber (skipArray w.tz).1).map fun k : Nat =>
      (.int .i32 (k : Int), [], { w with tz := (skipArray w.tz).2 }) := by
  have hB3 : 3 < B := by omega
  unfold skipArray
  by_cases h : w.tz.cur.id = .arrs
  · have hm := w.tz.next_m_le
    have hm2 := m_enough w.tz
    have he : enough w.tz = 2 * w.tz.inp.rest.length + 8 := rfl
    have e : w.tz.expect .arrs = (true, w.tz.next) := expect_pos h
    obtain ⟨f, tz', hl, hf⟩ := limited_array_loop (σ := σ) (ops := ops) (B := B) n n (enough w.tz) { w with tz := w.tz.next }
      hB3 (by show 2 * w.tz.next.m + 5 < B; have := Tz.next_m (tz := w.tz) (by rw [h]; decide) (by rw [h]; decide); omega)
      (by show 2 * w.tz.next.m + 2 ≤ n; omega) (by show 2 * w.tz.next.m + 2 ≤ enough w.tz; omega)
    simp only [e]
    rcases hf with ⟨rfl, hf⟩ | ⟨c, v, rfl, hc, hf⟩
    · simp only at hf
      rw [hf]
      unfold ignoreArrEnd
      rcases hx : tz'.expect .arre with ⟨x, tz2⟩
      cases x with
      | true => cxx [hB3, ignoreArrayFun, e, hl, hx, rcNumber]
      | false => cxx [hB3, ignoreArrayFun, e, hl, hx, rcNumber, error_fst]
    · simp only at hf
      rw [hf]
      cxx [hB3, ignoreArrayFun, e, hl, hc]
  · have e : w.tz.expect .arrs = (false, w.tz) := expect_neg h
    simp only [e]
    cxx [hB3, ignoreArrayFun, e, rcNumber, error_fst]

/-- The loop of `ignore_object`. -/
theorem limited_object_loop (m : Nat) (n k : Nat) (w : World) (hB3 : 3 < B) (hw : 2 * w.tz.m + 5 < B)
    (hn : 2 * w.tz.m + 2 ≤ n) (hk : 2 * w.tz.m + 2 ≤ k) :
    ∃ f tz', iterate (test (limited σ ops B) (.binary n!"!=" (.member (.call (.name n!"peek") .nil) n!"id") (.qual [n!"token_id",
        n!"OBJE"])))
      (exec (limited σ ops B) m ignoreObjectFunBody1) some n ⟨[[], []], w⟩ = some (f, ⟨[[], []], { w with tz := tz' }⟩) ∧
      ((f = .next ∧ ignoreObjLoop k w.tz = ignoreObjEnd tz') ∨
        ∃ c v, f = .ret (.int .i32 (v : Nat)) ∧ rcNumber c = some v ∧ ignoreObjLoop k w.tz = (c, tz')) := by
  induction n generalizing w k with
  | zero => omega
  | succ n ih =>
    obtain ⟨k, rfl⟩ : ∃ j, k = j + 1 := ⟨k - 1, by omega⟩
    rw [ignoreObjLoop]
    by_cases h : w.tz.cur.id = .obje
    · rw [if_pos h]
      exact ⟨_, w.tz, iterate_done (by cxx [hB3, h]), .inl ⟨rfl, rfl⟩⟩
    rw [if_neg h]
    have h1 : test (limited σ ops B) (.binary n!"!=" (.member (.call (.name n!"peek") .nil) n!"id") (.qual [n!"token_id",
        n!"OBJE"])) ⟨[[], []], w⟩ = some (true, ⟨[[], []], w⟩) := by
      cxx [hB3, h]
    have herr : ∀ (tz : Tz) (c : ECode), tz.error c = (.error, (tz.error c).2) := fun tz c => by rw [← error_fst tz c]
    rcases w.tz.expect_cases .string (by decide) (by decide) with ⟨tz1, e1, hm1⟩ | e1
    · simp only [e1]
      rcases tz1.expect_cases .colon (by decide) (by decide) with ⟨tz2, e2, hm2⟩ | e2
      · have hw2 : 2 * tz2.m + 5 < B := by omega
        simp only [e2]
        rw [ignoreValue_stable (b := enough tz2) (by omega) (by have := m_enough tz2; omega), ← skipValue]
        have hf := ignoreValue_fin (enough tz2) tz2 (by have := m_enough tz2; omega)
        rw [← skipValue] at hf
        rcases hs : skipValue tz2 with ⟨r, tz3⟩
        rw [hs] at hf
        cases r with
        | fuel => exact absurd rfl hf.1
        | error => exact ⟨_, tz3, iterate_ret h1 (by cxx [hB3, ignoreObjectFunBody1, e1, e2, hw2, hs]; rfl), .inr ⟨_, 1, rfl, rfl, rfl⟩⟩
        | nil => exact ⟨_, tz3, iterate_ret h1 (by cxx [hB3, ignoreObjectFunBody1, e1, e2, hw2, hs]; rfl), .inr ⟨_, 2, rfl, rfl, rfl⟩⟩
        | ok =>
          rcases tz3.expect_cases .comma (by decide) (by decide) with ⟨tz4, e4, hm4⟩ | e4
          · rw [iterate_next h1 (by cxx [hB3, ignoreObjectFunBody1, e1, e2, hw2, hs, e4]; rfl) rfl]
            have hf2 : tz3.m ≤ tz2.m := hf.2
            simp only [e4]
            exact ih k { w with tz := tz4 } (by show 2 * tz4.m + 5 < B; omega) (by show 2 * tz4.m + 2 ≤ n; omega) (by show 2 * tz4.m + 2 ≤ k; omega)
          · refine ⟨_, tz3, iterate_break h1 (by cxx [hB3, ignoreObjectFunBody1, e1, e2, hw2, hs, e4]), .inl ⟨rfl, ?_⟩⟩
            simp only [e4]
      · simp only [e2]
        exact ⟨_, _, iterate_ret h1 (by cxx [hB3, ignoreObjectFunBody1, e1, e2]), .inr ⟨_, 1, rfl, rfl, herr _ _⟩⟩
    · simp only [e1]
      exact ⟨_, _, iterate_ret h1 (by cxx [hB3, ignoreObjectFunBody1, e1]), .inr ⟨_, 1, rfl, rfl, herr _ _⟩⟩

/-- protogen.hh:557-575. -/
theorem limited_ignoreObject_runs (n : Nat) (w : World) (hB : 2 * w.tz.m + 4 ≤ B) (hn : 2 * w.tz.inp.rest.length + 8 ≤ n) :
    ignoreObjectFun.run (limited σ ops B) n [] w = (rcNumber (skipObject w.tz).1).map fun k : Nat =>
      (.int .i32 (k : Int), [], { w with tz := (skipObject w.tz).2 }) := by
  have hB3 : 3 < B := by omega
  unfold skipObject
  by_cases h : w.tz.cur.id = .objs
  · have hm := w.tz.next_m_le
    have hm2 := m_enough w.tz
    have he : enough w.tz = 2 * w.tz.inp.rest.length + 8 := rfl
    have e : w.tz.expect .objs = (true, w.tz.next) := expect_pos h
    obtain ⟨f, tz', hl, hf⟩ := limited_object_loop (σ := σ) (ops := ops) (B := B) n n (enough w.tz) { w with tz := w.tz.next }
      hB3 (by show 2 * w.tz.next.m + 5 < B; have := Tz.next_m (tz := w.tz) (by rw [h]; decide) (by rw [h]; decide); omega)
      (by show 2 * w.tz.next.m + 2 ≤ n; omega) (by show 2 * w.tz.next.m + 2 ≤ enough w.tz; omega)
    simp only [e]
    rcases hf with ⟨rfl, hf⟩ | ⟨c, v, rfl, hc, hf⟩
    · simp only at hf
      rw [hf]
      unfold ignoreObjEnd
      rcases hx : tz'.expect .obje with ⟨x, tz2⟩
      cases x with
      | true => cxx [hB3, ignoreObjectFun, e, hl, hx, rcNumber]
      | false => cxx [hB3, ignoreObjectFun, e, hl, hx, rcNumber, error_fst]
    · simp only at hf
      rw [hf]
      cxx [hB3, ignoreObjectFun, e, hl, hc]
  · have e : w.tz.expect .objs = (false, w.tz) := expect_neg h
    simp only [e]
    cxx [hB3, ignoreObjectFun, e, rcNumber, error_fst]

/-- protogen.hh:577-602. -/
theorem limited_ignoreValue_runs (n : Nat) (w : World) (hB : 2 * w.tz.m + 5 ≤ B) :
    ignoreValueFun.run (limited σ ops B) n [] w = (rcNumber (skipValue w.tz).1).map fun k : Nat =>
      (.int .i32 (k : Int), [], { w with tz := (skipValue w.tz).2 }) := by
  have hB3 : 3 < B := by omega
  have hw : 2 * w.tz.m + 4 < B := by omega
  have hm := w.tz.next_m_le
  have hm2 := m_enough w.tz
  have he : enough w.tz = 2 * w.tz.inp.rest.length + 8 := rfl
  unfold skipValue
  rw [show enough w.tz = (2 * w.tz.inp.rest.length + 7) + 1 from rfl, ignoreValue]
  cases h : w.tz.cur.id with
  | none => cxx [hB3, hw, ignoreValueFun, h, rcNumber, error_fst]
  | objs =>
    have e : skipObject w.tz = ignoreObjLoop (2 * w.tz.inp.rest.length + 7) w.tz.next := by
      unfold skipObject
      rw [expect_pos h]
      exact ignoreObjLoop_stable (by omega) (by omega)
    rw [← e]
    cases hr : rcNumber (skipObject w.tz).1 with
    | none => cxx [hB3, hw, ignoreValueFun, h, returned, hr]
    | some v => cxx [hB3, hw, ignoreValueFun, h, returned, hr]
  | arrs =>
    have e : skipArray w.tz = ignoreArrLoop (2 * w.tz.inp.rest.length + 7) w.tz.next := by
      unfold skipArray
      rw [expect_pos h]
      exact ignoreArrLoop_stable (by omega) (by omega)
    rw [← e]
    cases hr : rcNumber (skipArray w.tz).1 with
    | none => cxx [hB3, hw, ignoreValueFun, h, returned, hr]
    | some v => cxx [hB3, hw, ignoreValueFun, h, returned, hr]
  | eos | obje | colon | comma | arre => cxx [hB3, hw, ignoreValueFun, h, rcNumber, error_fst]
  | string | number | nil | btrue | bfalse =>
    by_cases h2 : (w.tz.next.cur.id = .none || w.tz.next.cur.id = .eos) = true
    · simp only [h2, ↓reduceIte]
      simp only [Bool.or_eq_true, decide_eq_true_eq] at h2
      rcases h2 with h2 | h2 <;> cxx [hB3, hw, ignoreValueFun, h, h2, rcNumber, error_fst]
    · simp only [h2, ↓reduceIte]
      simp only [Bool.or_eq_true, decide_eq_true_eq, not_or] at h2
      cxx [hB3, hw, ignoreValueFun, h, h2.1, h2.2, rcNumber]

/-- protogen.hh:379. -/
theorem limited_ignore_runs (n : Nat) (w : World) (hB : 2 * w.tz.m + 5 < B) :
    lexIgnoreFun.run (limited σ ops B) n [] w = (rcNumber (skipValue w.tz).1).map fun k : Nat =>
      (.int .i32 (k : Int), [], { w with tz := (skipValue w.tz).2 }) := by
  cases hr : rcNumber (skipValue w.tz).1 with
  | none => cxx [lexIgnoreFun, hB, returned, hr]
  | some v => cxx [lexIgnoreFun, hB, returned, hr]

end PG.Cxx
