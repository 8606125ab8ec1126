import Verif.Proofs.CxxTok
import Verif.Proofs.Fuel
/-
`ignore_array`, `ignore_object` and `ignore_value` (protogen.hh:541-602) are `skipArray`, `skipObject` and `skipValue`.
-/
set_option autoImplicit false
namespace PG.Cxx
variable {V F : Type} {σ : Bool} {ops : Ops V F}

theorem m_enough (tz : Tz) : 2 * tz.m + 6 ≤ enough tz := by
  unfold Tz.m enough
  split <;> omega

theorem stable {α : Type} {f : Nat → α} {P : α → Prop} {a b : Nat} (ha : P (f a)) (hb : P (f b))
    (h : ∀ n k, P (f n) → f (n + k) = f n) : f a = f b := by
  rcases Nat.le_total a b with hab | hab
  · obtain ⟨k, rfl⟩ := Nat.exists_eq_add_of_le hab
    exact (h a k ha).symm
  · obtain ⟨k, rfl⟩ := Nat.exists_eq_add_of_le hab
    exact h b k hb

theorem ignoreValue_stable {tz : Tz} {a b : Nat} (ha : 2 * tz.m + 1 ≤ a) (hb : 2 * tz.m + 1 ≤ b) :
    ignoreValue a tz = ignoreValue b tz :=
  stable (P := fun r => r.1 ≠ .fuel) (f := fun n => ignoreValue n tz) (ignoreValue_fin a tz ha).1 (ignoreValue_fin b tz hb).1
    fun n k => ignoreValue_mono n k tz

theorem ignoreArrLoop_stable {tz : Tz} {a b : Nat} (ha : 2 * tz.m + 2 ≤ a) (hb : 2 * tz.m + 2 ≤ b) :
    ignoreArrLoop a tz = ignoreArrLoop b tz :=
  stable (P := fun r => r.1 ≠ .fuel) (f := fun n => ignoreArrLoop n tz) (ignoreArrLoop_fin a tz ha).1 (ignoreArrLoop_fin b tz hb).1
    fun n k => ignoreArrLoop_mono n k tz

theorem ignoreObjLoop_stable {tz : Tz} {a b : Nat} (ha : 2 * tz.m + 2 ≤ a) (hb : 2 * tz.m + 2 ≤ b) :
    ignoreObjLoop a tz = ignoreObjLoop b tz :=
  stable (P := fun r => r.1 ≠ .fuel) (f := fun n => ignoreObjLoop n tz) (ignoreObjLoop_fin a tz ha).1 (ignoreObjLoop_fin b tz hb).1
    fun n k => ignoreObjLoop_mono n k tz

/-- The loop of `ignore_array`. -/
theorem array_loop (m : Nat) (n k : Nat) (w : World) (hn : 2 * w.tz.m + 2 ≤ n) (hk : 2 * w.tz.m + 2 ≤ k) :
    ∃ f tz', iterate (test (runtimeLib σ ops) (.binary n!"!=" (.member (.call (.name n!"peek") .nil) n!"id") (.qual [n!"token_id",
  n!"ARRE"])))
      (exec (runtimeLib σ ops) m ignoreArrayFunBody1) some n ⟨[[], []], w⟩ = some (f, ⟨[[], []], { w with tz := tz' }⟩) ∧
      ((f = .next ∧ ignoreArrLoop k w.tz = ignoreArrEnd tz') ∨
        ∃ c v, f = .ret (.int .i32 (v : Nat)) ∧ rcNumber c = some v ∧ ignoreArrLoop k w.tz = (c, tz')) := by
  induction n generalizing w k with
  | zero => omega
  | succ n ih =>
    obtain ⟨k, rfl⟩ : ∃ j, k = j + 1 := ⟨k - 1, by omega⟩
    rw [ignoreArrLoop]
    by_cases h : w.tz.cur.id = .arre
    · rw [if_pos h]
      exact ⟨_, w.tz, iterate_done (by cxx [h]), .inl ⟨rfl, rfl⟩⟩
    · rw [if_neg h, ignoreValue_stable (b := enough w.tz) (by omega) (by have := m_enough w.tz; omega), ← skipValue]
      have h1 : test (runtimeLib σ ops) (.binary n!"!=" (.member (.call (.name n!"peek") .nil) n!"id") (.qual [n!"token_id",
          n!"ARRE"])) ⟨[[], []], w⟩ = some (true, ⟨[[], []], w⟩) := by
        cxx [h]
      have hf := ignoreValue_fin (enough w.tz) w.tz (by have := m_enough w.tz; omega)
      rw [← skipValue] at hf
      rcases hs : skipValue w.tz with ⟨r, tz1⟩
      rw [hs] at hf
      cases r with
      | fuel => exact absurd rfl hf.1
      | error => exact ⟨_, tz1, iterate_ret h1 (by cxx [ignoreArrayFunBody1, hs]; rfl), .inr ⟨_, 1, rfl, rfl, rfl⟩⟩
      | nil => exact ⟨_, tz1, iterate_ret h1 (by cxx [ignoreArrayFunBody1, hs]; rfl), .inr ⟨_, 2, rfl, rfl, rfl⟩⟩
      | ok =>
        rcases tz1.expect_cases .comma (by decide) (by decide) with ⟨tz2, he, hm⟩ | he
        · rw [iterate_next h1 (by cxx [ignoreArrayFunBody1, hs, he]; rfl) rfl]
          have hf2 : tz1.m ≤ w.tz.m := hf.2
          simp only [he]
          exact ih k { w with tz := tz2 } (by show 2 * tz2.m + 2 ≤ n; omega) (by show 2 * tz2.m + 2 ≤ k; omega)
        · refine ⟨_, tz1, iterate_break h1 (by cxx [ignoreArrayFunBody1, hs, he]), .inl ⟨rfl, ?_⟩⟩
          simp only [he]

/-- protogen.hh:541-555. -/
theorem ignoreArray_runs (n : Nat) (w : World) (hn : 2 * w.tz.inp.rest.length + 8 ≤ n) :
    ignoreArrayFun.run (runtimeLib σ ops) n [] w = (rcNumber (skipArray w.tz).1).map fun k : Nat =>
      (.int .i32 (k : Int), [], { w with tz := (skipArray w.tz).2 }) := by
  unfold skipArray
  by_cases h : w.tz.cur.id = .arrs
  · have hm := w.tz.next_m_le
    have hm2 := m_enough w.tz
    have he : enough w.tz = 2 * w.tz.inp.rest.length + 8 := rfl
    have e : w.tz.expect .arrs = (true, w.tz.next) := expect_pos h
    obtain ⟨f, tz', hl, hf⟩ := array_loop (σ := σ) (ops := ops) n n (enough w.tz) { w with tz := w.tz.next }
      (by show 2 * w.tz.next.m + 2 ≤ n; omega) (by show 2 * w.tz.next.m + 2 ≤ enough w.tz; omega)
    simp only [e]
    rcases hf with ⟨rfl, hf⟩ | ⟨c, v, rfl, hc, hf⟩
    · simp only at hf
      rw [hf]
      unfold ignoreArrEnd
      rcases hx : tz'.expect .arre with ⟨x, tz2⟩
      cases x with
      | true => cxx [ignoreArrayFun, e, hl, hx, rcNumber]
      | false => cxx [ignoreArrayFun, e, hl, hx, rcNumber, error_fst]
    · simp only at hf
      rw [hf]
      cxx [ignoreArrayFun, e, hl, hc]
  · have e : w.tz.expect .arrs = (false, w.tz) := expect_neg h
    simp only [e]
    cxx [ignoreArrayFun, e, rcNumber, error_fst]

/-- The loop of `ignore_object`. -/
theorem object_loop (m : Nat) (n k : Nat) (w : World) (hn : 2 * w.tz.m + 2 ≤ n) (hk : 2 * w.tz.m + 2 ≤ k) :
    ∃ f tz', iterate (test (runtimeLib σ ops) (.binary n!"!=" (.member (.call (.name n!"peek") .nil) n!"id") (.qual [n!"token_id",
        n!"OBJE"])))
      (exec (runtimeLib σ ops) m ignoreObjectFunBody1) some n ⟨[[], []], w⟩ = some (f, ⟨[[], []], { w with tz := tz' }⟩) ∧
      ((f = .next ∧ ignoreObjLoop k w.tz = ignoreObjEnd tz') ∨
        ∃ c v, f = .ret (.int .i32 (v : Nat)) ∧ rcNumber c = some v ∧ ignoreObjLoop k w.tz = (c, tz')) := by
  induction n generalizing w k with
  | zero => omega
  | succ n ih =>
    obtain ⟨k, rfl⟩ : ∃ j, k = j + 1 := ⟨k - 1, by omega⟩
    rw [ignoreObjLoop]
    by_cases h : w.tz.cur.id = .obje
    · rw [if_pos h]
      exact ⟨_, w.tz, iterate_done (by cxx [h]), .inl ⟨rfl, rfl⟩⟩
    rw [if_neg h]
    have h1 : test (runtimeLib σ ops) (.binary n!"!=" (.member (.call (.name n!"peek") .nil) n!"id") (.qual [n!"token_id",
        n!"OBJE"])) ⟨[[], []], w⟩ = some (true, ⟨[[], []], w⟩) := by
      cxx [h]
    have herr : ∀ (tz : Tz) (c : ECode), tz.error c = (.error, (tz.error c).2) := fun tz c => by rw [← error_fst tz c]
    rcases w.tz.expect_cases .string (by decide) (by decide) with ⟨tz1, e1, hm1⟩ | e1
    · simp only [e1]
      rcases tz1.expect_cases .colon (by decide) (by decide) with ⟨tz2, e2, hm2⟩ | e2
      · simp only [e2]
        rw [ignoreValue_stable (b := enough tz2) (by omega) (by have := m_enough tz2; omega), ← skipValue]
        have hf := ignoreValue_fin (enough tz2) tz2 (by have := m_enough tz2; omega)
        rw [← skipValue] at hf
        rcases hs : skipValue tz2 with ⟨r, tz3⟩
        rw [hs] at hf
        cases r with
        | fuel => exact absurd rfl hf.1
        | error => exact ⟨_, tz3, iterate_ret h1 (by cxx [ignoreObjectFunBody1, e1, e2, hs]; rfl), .inr ⟨_, 1, rfl, rfl, rfl⟩⟩
        | nil => exact ⟨_, tz3, iterate_ret h1 (by cxx [ignoreObjectFunBody1, e1, e2, hs]; rfl), .inr ⟨_, 2, rfl, rfl, rfl⟩⟩
        | ok =>
          rcases tz3.expect_cases .comma (by decide) (by decide) with ⟨tz4, e4, hm4⟩ | e4
          · rw [iterate_next h1 (by cxx [ignoreObjectFunBody1, e1, e2, hs, e4]; rfl) rfl]
            have hf2 : tz3.m ≤ tz2.m := hf.2
            simp only [e4]
            exact ih k { w with tz := tz4 } (by show 2 * tz4.m + 2 ≤ n; omega) (by show 2 * tz4.m + 2 ≤ k; omega)
          · refine ⟨_, tz3, iterate_break h1 (by cxx [ignoreObjectFunBody1, e1, e2, hs, e4]), .inl ⟨rfl, ?_⟩⟩
            simp only [e4]
      · simp only [e2]
        exact ⟨_, _, iterate_ret h1 (by cxx [ignoreObjectFunBody1, e1, e2]), .inr ⟨_, 1, rfl, rfl, herr _ _⟩⟩
    · simp only [e1]
      exact ⟨_, _, iterate_ret h1 (by cxx [ignoreObjectFunBody1, e1]), .inr ⟨_, 1, rfl, rfl, herr _ _⟩⟩

/-- protogen.hh:557-575. -/
theorem ignoreObject_runs (n : Nat) (w : World) (hn : 2 * w.tz.inp.rest.length + 8 ≤ n) :
    ignoreObjectFun.run (runtimeLib σ ops) n [] w = (rcNumber (skipObject w.tz).1).map fun k : Nat =>
      (.int .i32 (k : Int), [], { w with tz := (skipObject w.tz).2 }) := by
  unfold skipObject
  by_cases h : w.tz.cur.id = .objs
  · have hm := w.tz.next_m_le
    have hm2 := m_enough w.tz
    have he : enough w.tz = 2 * w.tz.inp.rest.length + 8 := rfl
    have e : w.tz.expect .objs = (true, w.tz.next) := expect_pos h
    obtain ⟨f, tz', hl, hf⟩ := object_loop (σ := σ) (ops := ops) n n (enough w.tz) { w with tz := w.tz.next }
      (by show 2 * w.tz.next.m + 2 ≤ n; omega) (by show 2 * w.tz.next.m + 2 ≤ enough w.tz; omega)
    simp only [e]
    rcases hf with ⟨rfl, hf⟩ | ⟨c, v, rfl, hc, hf⟩
    · simp only at hf
      rw [hf]
      unfold ignoreObjEnd
      rcases hx : tz'.expect .obje with ⟨x, tz2⟩
      cases x with
      | true => cxx [ignoreObjectFun, e, hl, hx, rcNumber]
      | false => cxx [ignoreObjectFun, e, hl, hx, rcNumber, error_fst]
    · simp only at hf
      rw [hf]
      cxx [ignoreObjectFun, e, hl, hc]
  · have e : w.tz.expect .objs = (false, w.tz) := expect_neg h
    simp only [e]
    cxx [ignoreObjectFun, e, rcNumber, error_fst]

/-- protogen.hh:577-602. -/
theorem ignoreValue_runs (n : Nat) (w : World) :
    ignoreValueFun.run (runtimeLib σ ops) n [] w = (rcNumber (skipValue w.tz).1).map fun k : Nat =>
      (.int .i32 (k : Int), [], { w with tz := (skipValue w.tz).2 }) := by
  have hm := w.tz.next_m_le
  have hm2 := m_enough w.tz
  have he : enough w.tz = 2 * w.tz.inp.rest.length + 8 := rfl
  unfold skipValue
  rw [show enough w.tz = (2 * w.tz.inp.rest.length + 7) + 1 from rfl, ignoreValue]
  cases h : w.tz.cur.id with
  | none => cxx [ignoreValueFun, h, rcNumber, error_fst]
  | objs =>
    have e : skipObject w.tz = ignoreObjLoop (2 * w.tz.inp.rest.length + 7) w.tz.next := by
      unfold skipObject
      rw [expect_pos h]
      exact ignoreObjLoop_stable (by omega) (by omega)
    rw [← e]
    cases hr : rcNumber (skipObject w.tz).1 with
    | none => cxx [ignoreValueFun, h, returned, hr]
    | some v => cxx [ignoreValueFun, h, returned, hr]
  | arrs =>
    have e : skipArray w.tz = ignoreArrLoop (2 * w.tz.inp.rest.length + 7) w.tz.next := by
      unfold skipArray
      rw [expect_pos h]
      exact ignoreArrLoop_stable (by omega) (by omega)
    rw [← e]
    cases hr : rcNumber (skipArray w.tz).1 with
    | none => cxx [ignoreValueFun, h, returned, hr]
    | some v => cxx [ignoreValueFun, h, returned, hr]
  | eos | obje | colon | comma | arre => cxx [ignoreValueFun, h, rcNumber, error_fst]
  | string | number | nil | btrue | bfalse =>
    by_cases h2 : (w.tz.next.cur.id = .none || w.tz.next.cur.id = .eos) = true
    · simp only [h2, ↓reduceIte]
      simp only [Bool.or_eq_true, decide_eq_true_eq] at h2
      rcases h2 with h2 | h2 <;> cxx [ignoreValueFun, h, h2, rcNumber, error_fst]
    · simp only [h2, ↓reduceIte]
      simp only [Bool.or_eq_true, decide_eq_true_eq, not_or] at h2
      cxx [ignoreValueFun, h, h2.1, h2.2, rcNumber]
end PG.Cxx
