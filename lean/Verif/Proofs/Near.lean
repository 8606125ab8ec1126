import Verif.Model.Near
import Verif.Spec.Near
import Verif.Proofs.FltRound
/-
Neighbours among the values of a floating point type.
-/
set_option autoImplicit false
namespace PG

theorem FKind.facts (k : FKind) : 1 ≤ k.prec ∧ k.qexp + k.prec < k.top ∧ (k.prec ≤ k.qexp + k.prec) := by cases k <;> decide

/-- Two multiples are at least the factor apart. -/
theorem mult_gap {a b q : Nat} (ha : ∃ r, a = r * q) (hb : ∃ r, b = r * q) (h : a < b) : a + q ≤ b := by
  obtain ⟨r, rfl⟩ := ha
  obtain ⟨s, rfl⟩ := hb
  have : r < s := Nat.lt_of_mul_lt_mul_right h
  have := Nat.mul_le_mul_right q (show r + 1 ≤ s from this)
  rw [Nat.add_mul, Nat.one_mul] at this
  exact this

theorem grid_up {k : FKind} {m c : Nat} (hm : Grid k m) (hc : Grid k c) (h : m < c) : magUp k m ≤ c :=
  mult_gap (hm.mul (Nat.le_refl _)) (hc.mul (ulpExp_mono k (Nat.le_of_lt h))) h

/-- A multiple of a power of two that is at least the local spacing is on the grid. -/
theorem grid_of_mult {k : FKind} {n e : Nat} (h : ∃ r, n = r * 2 ^ e) (he : ulpExp k n ≤ e) : Grid k n := by
  obtain ⟨r, hr⟩ := h
  refine Nat.mod_eq_zero_of_dvd (Nat.dvd_trans (Nat.pow_dvd_pow 2 he) ⟨r, ?_⟩)
  rw [Nat.mul_comm]
  exact hr

theorem grid_up_grid {k : FKind} {m : Nat} (hm : Grid k m) : Grid k (magUp k m) := by
  obtain ⟨r, hr⟩ := hm.mul (Nat.le_refl _)
  have hmul : ∃ r, magUp k m = r * 2 ^ ulpExp k m := ⟨r + 1, by
    unfold magUp
    rw [Nat.add_mul, Nat.one_mul]
    omega⟩
  have hlt := lt_pow_ulp k m
  by_cases h : magUp k m < 2 ^ (k.prec + ulpExp k m)
  · refine grid_of_mult hmul ?_
    have h0 : magUp k m ≠ 0 := by unfold magUp; have := Nat.two_pow_pos (ulpExp k m); omega
    have h1 := (Nat.log2_lt h0).mpr h
    have h2 : k.qexp ≤ ulpExp k m := by unfold ulpExp; omega
    show max _ _ ≤ _
    omega
  · -- the next power of two
    have h1 : magUp k m ≤ 2 ^ (k.prec + ulpExp k m) := by
      refine mult_gap ⟨r, hr⟩ ⟨2 ^ k.prec, ?_⟩ hlt
      rw [Nat.pow_add]
    have h2 : magUp k m = 2 ^ (k.prec + ulpExp k m) := by omega
    rw [h2]
    refine grid_of_mult (e := k.prec + ulpExp k m) ⟨1, by rw [Nat.one_mul]⟩ ?_
    have h3 : k.qexp ≤ ulpExp k m := by unfold ulpExp; omega
    have h4 := k.facts
    generalize ulpExp k m = e at h3
    unfold ulpExp
    rw [Nat.log2_two_pow]
    omega

theorem grid_down {k : FKind} {m : Nat} (hm : Grid k m) (h0 : 0 < m) :
    magDown k m < m ∧ Grid k (magDown k m) ∧ ∀ c, Grid k c → c < m → c ≤ magDown k m := by
  have hu : ulpExp k (m - 1) ≤ ulpExp k m := ulpExp_mono k (by omega)
  have hmm := hm.mul hu
  have hle : 2 ^ ulpExp k (m - 1) ≤ m := by
    have := mult_gap (a := 0) ⟨0, (Nat.zero_mul _).symm⟩ hmm h0
    omega
  have hp := Nat.two_pow_pos (ulpExp k (m - 1))
  have hdm : ∃ r, magDown k m = r * 2 ^ ulpExp k (m - 1) := by
    obtain ⟨r, hr⟩ := hmm
    refine ⟨r - 1, ?_⟩
    unfold magDown
    rw [Nat.sub_mul, Nat.one_mul, ← hr]
  refine ⟨by unfold magDown; omega, grid_of_mult hdm (ulpExp_mono k (by unfold magDown; omega)), ?_⟩
  intro c hc hlt
  apply Nat.le_of_not_lt
  intro hgt
  have hcu : ulpExp k c = ulpExp k (m - 1) := by
    refine Nat.le_antisymm (ulpExp_mono k (by omega)) ?_
    by_cases hq : ulpExp k (m - 1) = k.qexp
    · rw [hq]; unfold ulpExp; omega
    · have h1 : ulpExp k (m - 1) = (m - 1).log2 + 1 - k.prec := by unfold ulpExp at hq ⊢; omega
      have h2 : k.qexp < ulpExp k (m - 1) := by have : k.qexp ≤ ulpExp k (m - 1) := by { unfold ulpExp; omega }
                                                omega
      have hm1 : m - 1 ≠ 0 := by
        intro e
        rw [e] at h1 h2
        simp at h1
        have := k.facts
        omega
      have h3 : 2 ^ (m - 1).log2 ≤ m - 1 := Nat.log2_self_le hm1
      have h4 := k.facts
      have h5 : 2 ^ (m - 1).log2 + 2 ^ ulpExp k (m - 1) ≤ m := by
        refine mult_gap ⟨2 ^ ((m - 1).log2 - ulpExp k (m - 1)), ?_⟩ hmm (by omega)
        rw [← Nat.pow_add]
        congr 1
        omega
      have h6 : 2 ^ (m - 1).log2 ≤ c := by unfold magDown at hgt; omega
      have h7 := (Nat.le_log2 (by have := Nat.two_pow_pos ((m - 1).log2); omega)).mpr h6
      rw [h1]
      unfold ulpExp
      omega
  have hcm : ∃ r, c = r * 2 ^ ulpExp k (m - 1) := hc.mul (by omega)
  have := mult_gap hdm hcm hgt
  unfold magDown at this
  omega

theorem max_split (k : FKind) : maxMag k = (2 ^ k.prec - 1) * 2 ^ (k.top - k.prec) := by
  have := k.facts
  unfold maxMag
  rw [Nat.sub_mul, Nat.one_mul, ← Nat.pow_add]
  congr 2
  omega

theorem max_half (k : FKind) : 2 ^ (k.top - 1) ≤ maxMag k ∧ maxMag k < 2 ^ k.top := by
  have h := k.facts
  have h1 : 2 ^ k.top = 2 ^ (k.top - 1) + 2 ^ (k.top - 1) := by
    have : k.top = k.top - 1 + 1 := by omega
    rw [this, Nat.pow_succ]
    simp
    omega
  have h2 : 2 ^ (k.top - k.prec) ≤ 2 ^ (k.top - 1) := Nat.pow_le_pow_right (by decide) (by omega)
  have h3 := Nat.two_pow_pos (k.top - k.prec)
  unfold maxMag
  omega

theorem ulp_top {k : FKind} {m : Nat} (h1 : 2 ^ (k.top - 1) ≤ m) (h2 : m < 2 ^ k.top) : ulpExp k m = k.top - k.prec := by
  have h := k.facts
  refine ulpExp_of_range (by omega) ?_ ?_
  · rw [show k.prec - 1 + (k.top - k.prec) = k.top - 1 by omega]; exact h1
  · rw [show k.prec + (k.top - k.prec) = k.top by omega]; exact h2

theorem max_grid (k : FKind) : Grid k (maxMag k) := by
  have h := max_half k
  exact grid_of_mult ⟨_, max_split k⟩ (Nat.le_of_eq (ulp_top h.1 h.2))

theorem max_rep (k : FKind) : RepMag k (maxMag k) := ⟨(max_half k).2, max_grid k⟩

theorem rep_le_max {k : FKind} {m : Nat} (h : RepMag k m) : m ≤ maxMag k := by
  apply Nat.le_of_not_lt
  intro hlt
  have hh := max_half k
  have hf := k.facts
  have hu := ulp_top (k := k) (m := m) (by omega) h.1
  have hm : ∃ r, m = r * 2 ^ (k.top - k.prec) := Grid.mul (k := k) h.2 (by omega)
  have := mult_gap hm ⟨2 ^ k.prec, by rw [← Nat.pow_add]; congr 1; omega⟩ h.1
  unfold maxMag at hlt
  omega

theorem rep_up {k : FKind} {m : Nat} (h : RepMag k m) (hn : m ≠ maxMag k) : RepMag k (magUp k m) := by
  have h1 := rep_le_max h
  have h2 := grid_up h.2 (max_grid k) (by omega)
  exact ⟨Nat.lt_of_le_of_lt h2 (max_half k).2, grid_up_grid h.2⟩

theorem magUp_zero (k : FKind) : magUp k 0 = 2 ^ k.qexp := by
  have : ulpExp k 0 = k.qexp := by
    have := k.facts
    unfold ulpExp
    rw [show (0 : Nat).log2 = 0 from by decide]
    omega
  unfold magUp
  rw [this, Nat.zero_add]

theorem grid_zero (k : FKind) : Grid k 0 := Nat.zero_mod _

theorem withSign_neg (neg : Bool) (m : Nat) : withSign (!neg) m = - withSign neg m := by
  cases neg <;> simp [withSign]

/-- The step up: to the least greater value, if there is one. -/
theorem step_up {k : FKind} {neg : Bool} {m : Nat} (h : RepMag k m) :
    ∃ neg' m', stepTo k true (.fin neg m) = .fin neg' m' ∧ RepMag k m' ∧
      (∀ n c, RepMag k c → withSign neg m < withSign n c → withSign neg' m' ≤ withSign n c) ∧
      (withSign neg m < withSign neg' m' ∨ (withSign neg' m' = withSign neg m ∧ ∀ n c, RepMag k c → withSign n c ≤ withSign neg m)) := by
  have hmax := max_half k
  have hp := Nat.two_pow_pos (k.top - 1)
  by_cases h0 : m = 0
  · subst h0
    have h1 : RepMag k (2 ^ k.qexp) := by rw [← magUp_zero]; exact rep_up h (by omega)
    have h2 : 0 < 2 ^ k.qexp := Nat.two_pow_pos _
    have e : withSign neg 0 = 0 := by cases neg <;> rfl
    refine ⟨false, 2 ^ k.qexp, by simp [stepTo], h1, ?_, .inl ?_⟩
    · intro n c hc hlt
      rw [e] at hlt
      cases n with
      | true => simp only [withSign, if_true] at hlt; omega
      | false =>
        simp only [withSign, Bool.false_eq_true, if_false] at hlt ⊢
        have := grid_up (grid_zero k) hc.2 (by omega)
        rw [magUp_zero] at this
        omega
    · rw [e]
      simp only [withSign, Bool.false_eq_true, if_false]
      omega
  · cases neg with
    | true =>
      obtain ⟨d1, d2, d3⟩ := grid_down h.2 (by omega)
      refine ⟨true, magDown k m, by simp [stepTo, h0], ⟨Nat.lt_trans d1 h.1, d2⟩, ?_, .inl ?_⟩
      · intro n c hc hlt
        cases n with
        | true =>
          simp only [withSign, if_true] at hlt ⊢
          have := d3 c hc.2 (by omega)
          omega
        | false =>
          simp only [withSign, Bool.false_eq_true, if_false, if_true] at hlt ⊢
          omega
      · simp only [withSign, if_true]
        omega
    | false =>
      by_cases hx : m = maxMag k
      · refine ⟨false, m, by unfold stepTo; simp only; rw [if_neg h0, if_neg (by decide), if_pos hx], h, ?_, .inr ⟨rfl, ?_⟩⟩
        · intro n c hc hlt
          exact Int.le_of_lt hlt
        · intro n c hc
          have := rep_le_max hc
          cases n <;> simp only [withSign, Bool.false_eq_true, if_false, if_true] <;> omega
      · refine ⟨false, magUp k m, by simp [stepTo, h0, hx], rep_up h hx, ?_, .inl ?_⟩
        · intro n c hc hlt
          cases n with
          | true => simp only [withSign, Bool.false_eq_true, if_false, if_true] at hlt; omega
          | false =>
            simp only [withSign, Bool.false_eq_true, if_false] at hlt ⊢
            have := grid_up h.2 hc.2 (by omega)
            omega
        · have := Nat.two_pow_pos (ulpExp k m)
          simp only [withSign, Bool.false_eq_true, if_false]
          unfold magUp
          omega

/-- The step down is the mirror image. -/
theorem step_mirror (k : FKind) (neg : Bool) (m : Nat) : ∀ {neg' m'}, stepTo k true (.fin (!neg) m) = .fin neg' m' →
    stepTo k false (.fin neg m) = .fin (!neg') m' := by
  intro neg' m' h
  unfold stepTo at h ⊢
  simp only at h ⊢
  split
  · rename_i h0
    rw [if_pos h0] at h
    cases h
    rfl
  · rename_i h0
    rw [if_neg h0] at h
    cases neg with
    | false =>
      simp only [Bool.not_false, if_true] at h ⊢
      cases h
      rfl
    | true =>
      simp only [Bool.not_true, Bool.false_eq_true, Bool.true_eq_false, if_false] at h ⊢
      split
      · rename_i h1; rw [if_pos h1] at h; cases h; rfl
      · rename_i h1; rw [if_neg h1] at h; cases h; rfl

theorem step_down {k : FKind} {neg : Bool} {m : Nat} (h : RepMag k m) :
    ∃ neg' m', stepTo k false (.fin neg m) = .fin neg' m' ∧ RepMag k m' ∧
      (∀ n c, RepMag k c → withSign n c < withSign neg m → withSign n c ≤ withSign neg' m') ∧
      (withSign neg' m' < withSign neg m ∨ (withSign neg' m' = withSign neg m ∧ ∀ n c, RepMag k c → withSign neg m ≤ withSign n c)) := by
  obtain ⟨n', m', h1, h2, h3, h4⟩ := step_up (neg := !neg) h
  refine ⟨!n', m', step_mirror k neg m h1, h2, ?_, ?_⟩
  · intro n c hc hlt
    have := h3 (!n) c hc (by rw [withSign_neg, withSign_neg]; omega)
    rw [withSign_neg] at this
    rw [withSign_neg]
    omega
  · rw [withSign_neg] at h4
    rw [withSign_neg]
    refine h4.imp (fun h => by omega) (fun h => ⟨by omega, fun n c hc => ?_⟩)
    have := h.2 (!n) c hc
    rw [withSign_neg] at this
    omega

theorem le_fin (a b : Bool) (m n : Nat) : Flt.le (.fin a m) (.fin b n) = decide (withSign a m ≤ withSign b n) := rfl

/-- The comparison of plain numbers is `NearOf`. -/
theorem near_iff (k : FKind) (a b : CFlt k) : Prim.near (.flt k) a b = true ↔ NearOf k a.val b.val := by
  obtain ⟨a, ha⟩ := a
  obtain ⟨b, hb⟩ := b
  show (Flt.le (stepTo k false a) b && Flt.le b (stepTo k true a)) = true ↔ NearOf k a b
  rw [Bool.and_eq_true]
  cases a with
  | nan => cases b <;> simp [stepTo, Flt.le, NearOf]
  | inf neg =>
    cases b with
    | nan => simp [stepTo, Flt.le, NearOf]
    | inf neg' => cases neg' <;> simp [stepTo, Flt.le, NearOf]
    | fin neg' m' =>
      simp only [stepTo, le_fin, NearOf, decide_eq_true_eq]
      have hm := max_half k
      have hp := Nat.two_pow_pos (k.top - 1)
      have hle := rep_le_max (k := k) (m := m') hb
      constructor
      · rintro ⟨h1, h2⟩
        have e : withSign neg (maxMag k) = withSign neg' m' := Int.le_antisymm h1 h2
        have : neg' = neg ∧ m' = maxMag k := by
          cases neg <;> cases neg' <;> simp only [withSign, Bool.false_eq_true, if_false, if_true] at e <;>
            refine ⟨?_, ?_⟩ <;> first | rfl | omega
        exact ⟨this.1, fun m hm => by rw [this.2]; exact rep_le_max hm⟩
      · rintro ⟨rfl, h⟩
        have := h _ (max_rep k)
        have e : m' = maxMag k := by omega
        rw [e]
        exact ⟨Int.le_refl _, Int.le_refl _⟩
  | fin neg m =>
    obtain ⟨n1, m1, u1, u2, u3, u4⟩ := step_up (neg := neg) (show RepMag k m from ha)
    obtain ⟨n2, m2, d1, d2, d3, d4⟩ := step_down (neg := neg) (show RepMag k m from ha)
    rw [u1, d1]
    cases b with
    | nan => simp [Flt.le, NearOf]
    | inf neg' => cases neg' <;> simp [Flt.le, NearOf]
    | fin neg' m' =>
      simp only [le_fin, NearOf, decide_eq_true_eq]
      constructor
      · rintro ⟨h1, h2⟩ n c hc
        refine ⟨?_, ?_⟩
        · rintro ⟨h3, h4⟩
          have := u3 n c hc h3
          omega
        · rintro ⟨h3, h4⟩
          have := d3 n c hc h4
          omega
      · intro h
        constructor
        · apply Int.not_lt.mp
          intro hlt
          rcases d4 with d4 | ⟨d4, d5⟩
          · exact (h n2 m2 d2).2 ⟨hlt, d4⟩
          · have := d5 neg' m' hb
            omega
        · apply Int.not_lt.mp
          intro hlt
          rcases u4 with u4 | ⟨u4, u5⟩
          · exact (h n1 m1 u2).1 ⟨u4, hlt⟩
          · have := u5 neg' m' hb
            omega

/-- What is near zero: zero and the smallest values. -/
theorem near_zero (k : FKind) (a : CFlt k) (h : Prim.near (.flt k) a (CFlt.zero k) = true) :
    ∃ neg m, a.val = .fin neg m ∧ (m = 0 ∨ m = 2 ^ k.qexp) := by
  have hn := (near_iff k a (CFlt.zero k)).mp h
  obtain ⟨a, ha⟩ := a
  have hm := max_half k
  have hp := Nat.two_pow_pos (k.top - 1)
  cases a with
  | nan => exact hn.elim
  | inf neg =>
    have := hn.2 _ (max_rep k)
    omega
  | fin neg m =>
    refine ⟨neg, m, rfl, ?_⟩
    by_cases h0 : m = 0
    · exact .inl h0
    · refine .inr ?_
      have hr : RepMag k m := ha
      have h1 : RepMag k (2 ^ k.qexp) := by rw [← magUp_zero]; exact rep_up ⟨Nat.two_pow_pos _, grid_zero k⟩ (by omega)
      have h2 := grid_up (grid_zero k) hr.2 (by omega)
      rw [magUp_zero] at h2
      have h3 : 0 < 2 ^ k.qexp := Nat.two_pow_pos _
      have hn : Adjacent k (withSign neg m) (withSign false 0) := hn
      have := hn neg (2 ^ k.qexp) h1
      cases neg <;> simp only [withSign, Bool.false_eq_true, if_false, if_true] at this <;> omega

end PG
