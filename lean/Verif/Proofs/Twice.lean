import Verif.Proofs.Nearest
import Verif.Proofs.FltPrec
/-
Rounding twice: to double and then to float.
-/
set_option autoImplicit false
set_option exponentiation.threshold 3000
namespace PG

theorem grid_of_bounded {k : FKind} {r e : Nat} (he : k.qexp ≤ e) (hr : r ≤ 2 ^ k.prec) : Grid k (r * 2 ^ e) := by
  by_cases h0 : r = 0
  · subst h0; rw [Nat.zero_mul]; exact grid_zero k
  have hp := k.facts
  rcases Nat.lt_or_ge r (2 ^ k.prec) with hlt | hge
  · refine grid_of_mult ⟨r, rfl⟩ ?_
    have hm : r * 2 ^ e ≠ 0 := by
      have := Nat.two_pow_pos e
      intro h
      rcases Nat.mul_eq_zero.mp h with h | h <;> omega
    have hlog : (r * 2 ^ e).log2 < k.prec + e := by
      rw [Nat.log2_lt hm, Nat.pow_add]
      exact (Nat.mul_lt_mul_right (Nat.two_pow_pos e)).mpr hlt
    unfold ulpExp; omega
  · have hr' : r = 2 ^ k.prec := by omega
    rw [hr', ← Nat.pow_add]
    refine grid_of_mult (e := k.prec + e) ⟨1, by rw [Nat.one_mul]⟩ ?_
    unfold ulpExp
    rw [Nat.log2_two_pow]
    omega

theorem round_grid (k : FKind) (a b : Nat) : Grid k (roundMag k a b) :=
  grid_of_bounded (by unfold ulpExp; omega) (rhe_roundMag_le k a b)

theorem pow_half {e : Nat} (h : 0 < e) : 2 ^ e = 2 * 2 ^ (e - 1) := by
  rw [← Nat.pow_succ']; congr 1; omega

theorem ulp32_pos (n : Nat) : 925 ≤ ulpExp .f32 n := by unfold ulpExp FKind.qexp; simp only; omega

theorem grid64_below {n e : Nat} (h : ∃ r, n = r * 2 ^ e) (hn : n ≤ 2 ^ (25 + e)) : Grid .f64 n := by
  obtain ⟨r, rfl⟩ := h
  refine grid_of_bounded (k := .f64) (Nat.zero_le _) ?_
  rw [Nat.pow_add] at hn
  have := Nat.le_of_mul_le_mul_right hn (Nat.two_pow_pos e)
  exact Nat.le_trans this (by decide)

/-- The middle between a float and the next is a double. -/
theorem middle_up {n : Nat} (h : Grid .f32 n) : ∃ u, magUp .f32 n + n = 2 * u ∧ Grid .f64 u := by
  have he := ulp32_pos n
  obtain ⟨r, hr⟩ := h.mul (Nat.le_refl _)
  have hp := pow_half (show 0 < ulpExp .f32 n by omega)
  have hlt := lt_pow_ulp .f32 n
  unfold magUp
  generalize ulpExp .f32 n = e at *
  refine ⟨n + 2 ^ (e - 1), by omega, grid64_below (e := e - 1) ⟨2 * r + 1, ?_⟩ ?_⟩
  · rw [Nat.add_mul, Nat.one_mul, Nat.mul_comm 2 r, Nat.mul_assoc, ← hp, ← hr]
  · have h1 : 2 ^ (FKind.prec .f32 + e) = 2 ^ (25 + (e - 1)) := by
      congr 1; show 24 + e = _; omega
    rw [h1] at hlt
    have h2 : n + 2 ^ e ≤ 2 ^ (25 + (e - 1)) := by
      rw [← h1] at hlt ⊢
      exact mult_gap ⟨r, hr⟩ ⟨2 ^ FKind.prec .f32, by rw [Nat.pow_add]⟩ hlt
    omega

/-- The float before a float, and the middle. -/
theorem middle_down {n : Nat} (h : Grid .f32 n) (h0 : 0 < n) :
    ∃ p u, p < n ∧ Grid .f32 p ∧ (∀ c, Grid .f32 c → c < n → c ≤ p) ∧ n = magUp .f32 p ∧ p + n = 2 * u ∧ Grid .f64 u := by
  obtain ⟨h1, h2, h3⟩ := grid_down h h0
  have hle := grid_up h2 h h1
  have hge : n ≤ magUp .f32 (magDown .f32 n) := by
    apply Nat.le_of_not_lt
    intro hlt
    have := h3 _ (grid_up_grid h2) hlt
    unfold magUp at this
    have := Nat.two_pow_pos (ulpExp .f32 (magDown .f32 n))
    omega
  have e := Nat.le_antisymm hge hle
  obtain ⟨u, hu, hg⟩ := middle_up h2
  rw [← e] at hu
  exact ⟨_, u, h1, h2, h3, e, by omega, hg⟩

/-- Two neighbours do not both have an even significand. -/
theorem not_both_even {k : FKind} {n : Nat} (h1 : n % 2 ^ (ulpExp k n + 1) = 0)
    (h2 : magUp k n % 2 ^ (ulpExp k (magUp k n) + 1) = 0) : False := by
  have hm : ulpExp k n ≤ ulpExp k (magUp k n) := ulpExp_mono k (by unfold magUp; omega)
  have d1 := Nat.dvd_of_mod_eq_zero h1
  have d2 := Nat.dvd_trans (Nat.pow_dvd_pow 2 (Nat.succ_le_succ hm)) (Nat.dvd_of_mod_eq_zero h2)
  have d3 : 2 ^ (ulpExp k n + 1) ∣ 2 ^ ulpExp k n := by
    unfold magUp at d2
    exact (Nat.dvd_add_right d1).mp d2
  have := Nat.le_of_dvd (Nat.two_pow_pos _) d3
  rw [Nat.pow_succ] at this
  have := Nat.two_pow_pos (ulpExp k n)
  omega

theorem distTo_one (m c : Nat) : distTo m 1 c = if c ≤ m then m - c else c - m := by
  unfold distTo; rw [Nat.mul_one]

/-- When rounding to double first makes a difference: the double is the middle of two neighbouring floats, the number is on
one side of it, and the float with the even significand on the other. -/
theorem twice_iff {a b : Nat} (hb : 0 < b) :
    roundMag .f32 a b ≠ roundMag .f32 (roundMag .f64 a b) 1 ↔
      ∃ lo, Grid .f32 lo ∧ 2 * roundMag .f64 a b = lo + magUp .f32 lo ∧
        ((a < roundMag .f64 a b * b ∧ roundMag .f32 (roundMag .f64 a b) 1 = magUp .f32 lo) ∨
         (roundMag .f64 a b * b < a ∧ roundMag .f32 (roundMag .f64 a b) 1 = lo)) := by
  have hnd := fun c (hc : Grid .f64 c) => (round_nearest (a := a) hb hc).1
  have hnQ := fun c (hc : Grid .f32 c) => (round_nearest (a := a) hb hc).1
  have hgQ := round_grid .f32 a b
  generalize hm : roundMag .f64 a b = m at hnd ⊢
  have hnR := fun c (hc : Grid .f32 c) => (round_nearest (k := .f32) (a := m) Nat.one_pos hc).1
  have hgR := round_grid .f32 m 1
  simp only [distTo_one] at hnR
  constructor
  · intro hne
    have hQR := hnQ _ hgR
    have hRQ := hnR _ hgQ
    have hneq : a ≠ m * b := by
      intro e
      apply hne
      unfold roundMag
      rw [e, Nat.mul_div_cancel _ hb, Nat.div_one, Nat.one_mul, Nat.mul_comm b]
      have : rhe (m * b) (2 ^ ulpExp .f32 m * b) = rhe m (2 ^ ulpExp .f32 m) := by
        unfold rhe
        rw [Nat.mul_mod_mul_right, Nat.mul_div_mul_right _ _ hb, ← Nat.mul_assoc 2]
        simp only [Nat.mul_lt_mul_right hb]
      rw [this]
    generalize roundMag .f32 a b = Q at *
    generalize roundMag .f32 m 1 = R at *
    rcases Nat.lt_or_gt_of_ne hneq with hlt | hgt
    · -- the number lies below its double
      have hQlt : Q < R := by
        apply Nat.lt_of_not_le
        intro hle
        have hlt' : R < Q := by omega
        have e1 : 2 * m ≤ Q + R := by split at hRQ <;> split at hRQ <;> omega
        have e2 := Nat.mul_le_mul_right b e1
        have e3 := Nat.mul_lt_mul_of_pos_right hlt' hb
        rw [Nat.mul_assoc, Nat.add_mul] at e2
        unfold distTo at hQR
        split at hQR <;> split at hQR <;> omega
      obtain ⟨p, u, h1, h2, h3, h4, h5, h6⟩ := middle_down hgR (by omega)
      have hQp := h3 _ hgQ hQlt
      have hum : u ≤ m := by
        have := hnR p h2
        split at this <;> split at this <;> omega
      have hau : a ≤ u * b := by
        have e1 : Q + R ≤ 2 * u := by omega
        have e2 := Nat.mul_le_mul_right b e1
        have e3 := Nat.mul_lt_mul_of_pos_right hQlt hb
        rw [Nat.mul_assoc, Nat.add_mul] at e2
        unfold distTo at hQR
        split at hQR <;> split at hQR <;> omega
      have hmu : m = u := by
        have := hnd u h6
        have e3 := Nat.mul_le_mul_right b hum
        have : m * b ≤ u * b := by
          unfold distTo at this
          split at this <;> split at this <;> omega
        have := Nat.le_of_mul_le_mul_right this hb
        omega
      exact ⟨p, h2, by omega, .inl ⟨hlt, h4⟩⟩
    · have hQgt : R < Q := by
        apply Nat.lt_of_not_le
        intro hle
        have hlt' : Q < R := by omega
        have e1 : Q + R ≤ 2 * m := by split at hRQ <;> split at hRQ <;> omega
        have e2 := Nat.mul_le_mul_right b e1
        have e3 := Nat.mul_lt_mul_of_pos_right hlt' hb
        rw [Nat.mul_assoc, Nat.add_mul] at e2
        unfold distTo at hQR
        split at hQR <;> split at hQR <;> omega
      have hup := grid_up hgR hgQ hQgt
      obtain ⟨u, hu, hg⟩ := middle_up hgR
      have hpos : R < magUp .f32 R := by
        unfold magUp; have := Nat.two_pow_pos (ulpExp .f32 R); omega
      have hum : m ≤ u := by
        have := hnR _ (grid_up_grid hgR)
        split at this <;> split at this <;> omega
      have hau : u * b ≤ a := by
        have e1 : 2 * u ≤ Q + R := by omega
        have e2 := Nat.mul_le_mul_right b e1
        have e3 := Nat.mul_lt_mul_of_pos_right hQgt hb
        rw [Nat.mul_assoc, Nat.add_mul] at e2
        unfold distTo at hQR
        split at hQR <;> split at hQR <;> omega
      have hmu : m = u := by
        have := hnd u hg
        have e3 := Nat.mul_le_mul_right b hum
        have : u * b ≤ m * b := by
          unfold distTo at this
          rw [if_pos hau] at this
          split at this <;> omega
        have := Nat.le_of_mul_le_mul_right this hb
        omega
      exact ⟨R, hgR, by omega, .inr ⟨hgt, rfl⟩⟩
  · rintro ⟨lo, hlo, hmid, h⟩ heq
    rw [← heq] at h
    have hpos : lo < magUp .f32 lo := by
      unfold magUp; have := Nat.two_pow_pos (ulpExp .f32 lo); omega
    have e3 := Nat.mul_lt_mul_of_pos_right hpos hb
    have e2 := congrArg (· * b) hmid
    simp only [Nat.mul_assoc, Nat.add_mul] at e2
    rcases h with ⟨h1, h2⟩ | ⟨h1, h2⟩
    · have := hnQ lo hlo
      rw [h2] at this
      unfold distTo at this
      split at this <;> split at this <;> omega
    · have := hnQ _ (grid_up_grid hlo)
      rw [h2] at this
      unfold distTo at this
      split at this <;> split at this <;> omega

/-- The middle of two neighbours is rounded to the one with the even significand. -/
theorem round_middle {lo m : Nat} (hlo : Grid .f32 lo) (hmid : 2 * m = lo + magUp .f32 lo) :
    (roundMag .f32 m 1 = lo ↔ lo % 2 ^ (ulpExp .f32 lo + 1) = 0) ∧
    (roundMag .f32 m 1 = magUp .f32 lo ↔ magUp .f32 lo % 2 ^ (ulpExp .f32 (magUp .f32 lo) + 1) = 0) := by
  have hpos : lo < magUp .f32 lo := by
    unfold magUp; have := Nat.two_pow_pos (ulpExp .f32 lo); omega
  have hR := fun c (hc : Grid .f32 c) => round_nearest (k := .f32) (a := m) Nat.one_pos hc
  have hg := round_grid .f32 m 1
  simp only [distTo_one] at hR
  have h1 := hR lo hlo
  have h2 := hR _ (grid_up_grid hlo)
  have hor : roundMag .f32 m 1 = lo ∨ roundMag .f32 m 1 = magUp .f32 lo := by
    generalize roundMag .f32 m 1 = R at *
    rcases Nat.lt_trichotomy R lo with hl | hl | hl
    · have := h1.1
      split at this <;> split at this <;> omega
    · exact .inl hl
    · have := grid_up hlo hg hl
      have := h2.1
      split at this <;> split at this <;> omega
  have nb := not_both_even (k := .f32) (n := lo)
  rcases hor with e | e
  · have ev := h2.2 (by rw [e]; split <;> split <;> omega) (by rw [e]; omega)
    rw [e] at ev ⊢
    exact ⟨⟨fun _ => ev, fun _ => rfl⟩, ⟨fun h => by omega, fun h => absurd h fun h => nb ev h⟩⟩
  · have ev := h1.2 (by rw [e]; split <;> split <;> omega) (by rw [e]; omega)
    rw [e] at ev ⊢
    exact ⟨⟨fun h => by omega, fun h => absurd ev fun h' => nb h h'⟩, ⟨fun _ => ev, fun _ => rfl⟩⟩

end PG
