import Verif.Proofs.Near
import Verif.Props.Objects
/-
C74: the comparison of plain numbers.
-/
set_option autoImplicit false
namespace PG

/-- C74.  `json<T>::equal` of the plain arithmetic types, for every two values.  Integers and truth values are compared
exactly.  Two finite floating point values are equal iff no value of the type lies strictly between them; what is not a
number equals nothing; an infinity, as the first argument, equals the largest finite value of its sign and nothing else. -/
theorem C74_equal_iff (p : Prim) (a b : p.Den) : p.near a b = true ↔
    match p, a, b with
    | .int _, a, b => CInt.val a = CInt.val b
    | .bool, a, b => (a : Bool) = b
    | .flt k, a, b => NearOf k a.val b.val := by
  cases p with
  | int k => exact decide_eq_true_iff
  | bool => exact decide_eq_true_iff
  | flt k => exact near_iff k a b

/-- C74.  `json<T>::empty` of the plain floating point types: true exactly for the two zeros and for the two values next to
them. -/
theorem C74_empty_iff (k : FKind) (v : CFlt k) :
    Ty.empty (.raw (.flt k)) v = true ↔ ∃ neg m, v.val = .fin neg m ∧ ∀ n, RepMag k n → n = 0 ∨ m ≤ n := by
  have h0 : RepMag k 0 := RepMag_zero k
  constructor
  · intro h
    have hn := (near_iff k v (CFlt.zero k)).mp h
    obtain ⟨neg, m, hv, -⟩ := near_zero k v h
    rw [hv] at hn
    refine ⟨neg, m, hv, fun n hr => ?_⟩
    have hn : Adjacent k (withSign neg m) (withSign false 0) := hn
    have := hn neg n hr
    cases neg <;> simp only [withSign, Bool.false_eq_true, if_false, if_true] at this <;> omega
  · rintro ⟨neg, m, hv, h⟩
    refine (near_iff k v (CFlt.zero k)).mpr ?_
    rw [hv]
    show Adjacent k (withSign neg m) (withSign false 0)
    intro neg' n hr
    have := h n hr
    cases neg <;> cases neg' <;> simp only [withSign, Bool.false_eq_true, if_false, if_true] <;> omega

/-- C74, partial.  `json<T>::equal` should be an equivalence.  For the finite values it is reflexive and symmetric, and it
contains the built-in `==`; what is missing is in `C74_is_false`. -/
theorem C74_equivalence_partial (p : Prim) (a b : p.Den) (ha : p.Finite a) (hb : p.Finite b) :
    p.near a a = true ∧ p.near a b = p.near b a ∧ (p.ceq a b = true → p.near a b = true) := by
  cases p with
  | int k =>
    refine ⟨decide_eq_true rfl, ?_, id⟩
    show decide _ = decide _
    exact decide_eq_decide.mpr eq_comm
  | bool =>
    refine ⟨decide_eq_true rfl, ?_, id⟩
    show decide _ = decide _
    exact decide_eq_decide.mpr eq_comm
  | flt k =>
    have refl : ∀ x : Int, Adjacent k x x := fun x n m _ => ⟨fun h => by omega, fun h => by omega⟩
    have symm : ∀ x y : Int, Adjacent k x y → Adjacent k y x := fun x y h n m hm => (h n m hm).symm
    obtain ⟨n, m, h1⟩ := ha
    obtain ⟨n', m', h2⟩ := hb
    refine ⟨?_, ?_, ?_⟩
    · refine (near_iff k a a).mpr ?_
      rw [h1]
      exact refl _
    · rw [Bool.eq_iff_iff]
      refine (near_iff k a b).trans (Iff.trans ?_ (near_iff k b a).symm)
      rw [h1, h2]
      exact ⟨symm _ _, symm _ _⟩
    · intro h
      refine (near_iff k a b).mpr ?_
      have h : Flt.ceq a.val b.val = true := h
      rw [h1, h2] at h ⊢
      simp only [Flt.ceq, Bool.and_eq_true, beq_iff_eq, Bool.or_eq_true] at h
      show Adjacent k _ _
      have e : withSign n m = withSign n' m' := by
        obtain ⟨rfl, rfl | rfl⟩ := h
        · rfl
        · cases n <;> cases n' <;> rfl
      rw [e]
      exact refl _

/-- The smallest positive values, and the greatest finite one. -/
def tiny (k : FKind) (n : Nat) (h : RepMag k n) : (Prim.flt k).Den := (⟨.fin false n, h⟩ : CFlt k)
def greatest (k : FKind) : (Prim.flt k).Den := (⟨.fin false (maxMag k), max_rep k⟩ : CFlt k)
def infinite (k : FKind) (neg : Bool) : (Prim.flt k).Den := (⟨.inf neg, trivial⟩ : CFlt k)

/-- C74 as it should be is false: `json<double>::equal` is not transitive (zero equals the smallest positive value, which
equals the next one), an infinity does not equal itself, and equality with the greatest finite value holds in one
direction only. -/
theorem C74_is_false :
    ((Prim.flt .f64).near (tiny .f64 0 (by decide +kernel)) (tiny .f64 1 (by decide +kernel)) = true ∧
     (Prim.flt .f64).near (tiny .f64 1 (by decide +kernel)) (tiny .f64 2 (by decide +kernel)) = true ∧
     (Prim.flt .f64).near (tiny .f64 0 (by decide +kernel)) (tiny .f64 2 (by decide +kernel)) = false) ∧
    (∀ k neg, (Prim.flt k).near (infinite k neg) (infinite k neg) = false) ∧
    (∀ k, (Prim.flt k).near (infinite k false) (greatest k) = true ∧ (Prim.flt k).near (greatest k) (infinite k false) = false) := by
  refine ⟨by decide +kernel, ?_, ?_⟩
  · intro k neg
    rw [Bool.eq_false_iff]
    intro h
    exact ((near_iff k _ _).mp h).elim
  · intro k
    refine ⟨(near_iff k _ _).mpr ⟨rfl, fun _ h => rep_le_max h⟩, ?_⟩
    rw [Bool.eq_false_iff]
    intro h
    exact ((near_iff k _ _).mp h).elim

/-- Ordinary values are told apart: one and the next value above it are equal, one and the one after that are not. -/
theorem C74_example :
    let one := 2 ^ 1074
    let step := 2 ^ 1022
    (Prim.flt .f64).near (tiny .f64 one (by decide +kernel)) (tiny .f64 (one + step) (by decide +kernel)) = true ∧
    (Prim.flt .f64).near (tiny .f64 one (by decide +kernel)) (tiny .f64 (one + 2 * step) (by decide +kernel)) = false ∧
    (Prim.flt .f64).near (tiny .f64 one (by decide +kernel)) (tiny .f64 (one - step / 2) (by decide +kernel)) = true ∧
    (Prim.flt .f64).near (tiny .f64 one (by decide +kernel)) (tiny .f64 (one - step) (by decide +kernel)) = false ∧
    Ty.empty (.raw (.flt .f32)) (⟨.fin true (2 ^ 925), by decide +kernel⟩ : CFlt .f32) = true ∧
    Ty.empty (.raw (.flt .f32)) (⟨.fin true (2 ^ 926), by decide +kernel⟩ : CFlt .f32) = false := by decide +kernel

end PG
