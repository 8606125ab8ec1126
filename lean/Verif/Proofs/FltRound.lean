import Verif.Proofs.FltText
/-
Rounding: nearest, exact on representable values, monotone.
-/
set_option autoImplicit false
namespace PG

theorem rhe_bound {a b : Nat} (hb : 0 < b) : 2 * (rhe a b * b) ≤ 2 * a + b ∧ 2 * a ≤ 2 * (rhe a b * b) + b := by
  have h1 := Nat.div_add_mod a b
  have h2 := Nat.mod_lt a hb
  rw [Nat.mul_comm] at h1
  have h3 : (a / b + 1) * b = a / b * b + b := by rw [Nat.add_mul, Nat.one_mul]
  unfold rhe
  split
  · omega
  · split
    · rw [h3]; omega
    · split
      · omega
      · rw [h3]; omega

theorem rhe_unique {a b n : Nat} (h1 : 2 * a < 2 * (n * b) + b) (h2 : 2 * (n * b) < 2 * a + b) : rhe a b = n := by
  have hb : 0 < b := by omega
  obtain ⟨h3, h4⟩ := rhe_bound (a := a) hb
  rcases Nat.lt_trichotomy (rhe a b) n with h | h | h
  · have := Nat.mul_le_mul_right b h
    rw [Nat.succ_mul] at this
    omega
  · exact h
  · have := Nat.mul_le_mul_right b h
    rw [Nat.succ_mul] at this
    omega

theorem rhe_exact {b n : Nat} (hb : 0 < b) : rhe (n * b) b = n := rhe_unique (by omega) (by omega)

theorem rhe_ge {a b n : Nat} (hb : 0 < b) (h : n * b ≤ a) : n ≤ rhe a b := by
  obtain ⟨h3, h4⟩ := rhe_bound (a := a) hb
  have hn : n ≤ a / b := by rw [Nat.le_div_iff_mul_le hb]; exact h
  unfold rhe
  split
  · exact hn
  · split
    · omega
    · split <;> omega

theorem rhe_le' {a b n : Nat} (hb : 0 < b) (h : a ≤ n * b) : rhe a b ≤ n := by
  obtain ⟨h3, h4⟩ := rhe_bound (a := a) hb
  rcases Nat.lt_or_ge n (rhe a b) with hlt | hge
  · exfalso
    by_cases he : a = n * b
    · rw [he, rhe_exact hb] at hlt; omega
    · have hd : a / b < n := by rw [Nat.div_lt_iff_lt_mul hb]; omega
      have := rhe_le a b
      omega
  · exact hge

theorem log2_mono {a b : Nat} (h : a ≤ b) : a.log2 ≤ b.log2 := by
  by_cases ha : a = 0
  · subst ha; simp
  · have hb : b ≠ 0 := by omega
    rw [Nat.le_log2 hb]
    exact Nat.le_trans (Nat.log2_self_le ha) h

theorem ulpExp_mono (k : FKind) {a b : Nat} (h : a ≤ b) : ulpExp k a ≤ ulpExp k b := by
  have := log2_mono h
  unfold ulpExp; omega

/-- `n` is on the grid of representable values (unbounded exponent). -/
def Grid (k : FKind) (n : Nat) : Prop := n % 2 ^ ulpExp k n = 0

theorem Grid.mul {k : FKind} {n : Nat} (h : Grid k n) {e : Nat} (he : e ≤ ulpExp k n) : ∃ r, n = r * 2 ^ e := by
  obtain ⟨r, hr⟩ := Nat.dvd_trans (Nat.pow_dvd_pow 2 he) (Nat.dvd_of_mod_eq_zero h)
  exact ⟨r, by rw [Nat.mul_comm]; exact hr⟩

theorem lt_pow_ulp (k : FKind) (n : Nat) : n < 2 ^ (k.prec + ulpExp k n) := by
  by_cases h0 : n = 0
  · rw [h0]; exact Nat.two_pow_pos _
  · rw [← Nat.log2_lt h0]; unfold ulpExp; omega

theorem round_ge {k : FKind} {a b n : Nat} (hb : 0 < b) (hn : Grid k n) (h : n * b ≤ a) : n ≤ roundMag k a b := by
  have hna : n ≤ a / b := by rw [Nat.le_div_iff_mul_le hb]; exact h
  have he := ulpExp_mono k hna
  unfold roundMag
  generalize hE : ulpExp k (a / b) = e at he
  have hpe : 0 < 2 ^ e := Nat.two_pow_pos e
  rcases Nat.lt_or_ge (ulpExp k n) e with hlt | hge
  · -- the grid is coarser at `a / b`
    have hq : k.qexp < e := by unfold ulpExp at hlt; omega
    have hlog : e = (a / b).log2 + 1 - k.prec := by unfold ulpExp at hE; omega
    have hp : 1 ≤ k.prec := by cases k <;> decide
    have hab : a / b ≠ 0 := by
      intro h0; rw [h0] at hlog; simp at hlog; omega
    have h1 : 2 ^ (k.prec - 1 + e) ≤ a / b := by
      rw [show k.prec - 1 + e = (a / b).log2 by omega]; exact Nat.log2_self_le hab
    have h2 : n < 2 ^ (k.prec - 1 + e) :=
      Nat.lt_of_lt_of_le (lt_pow_ulp k n) (Nat.pow_le_pow_right (by omega) (by omega))
    have h3 : 2 ^ (k.prec - 1) ≤ rhe a (b * 2 ^ e) := by
      apply rhe_ge (Nat.mul_pos hb hpe)
      rw [Nat.pow_add] at h1
      calc 2 ^ (k.prec - 1) * (b * 2 ^ e) = 2 ^ (k.prec - 1) * 2 ^ e * b := by
            rw [Nat.mul_assoc, Nat.mul_comm b]
        _ ≤ a / b * b := Nat.mul_le_mul_right b h1
        _ ≤ a := Nat.div_mul_le_self a b
    have h4 := Nat.mul_le_mul_right (2 ^ e) h3
    rw [← Nat.pow_add] at h4
    omega
  · obtain ⟨r, hr⟩ := hn.mul hge
    rw [hr]
    apply Nat.mul_le_mul_right
    apply rhe_ge (Nat.mul_pos hb hpe)
    rw [hr] at h
    calc r * (b * 2 ^ e) = r * 2 ^ e * b := by rw [Nat.mul_assoc, Nat.mul_comm b]
      _ ≤ a := h

theorem round_le {k : FKind} {a b n : Nat} (hb : 0 < b) (hn : Grid k n) (h : a ≤ n * b) : roundMag k a b ≤ n := by
  have hna : a / b ≤ n := by
    calc a / b ≤ n * b / b := Nat.div_le_div_right h
      _ = n := Nat.mul_div_cancel n hb
  have he := ulpExp_mono k hna
  unfold roundMag
  generalize ulpExp k (a / b) = e at he
  have hpe : 0 < 2 ^ e := Nat.two_pow_pos e
  obtain ⟨r, hr⟩ := hn.mul he
  rw [hr]
  apply Nat.mul_le_mul_right
  apply rhe_le' (Nat.mul_pos hb hpe)
  rw [hr] at h
  calc a ≤ r * 2 ^ e * b := h
    _ = r * (b * 2 ^ e) := by rw [Nat.mul_assoc, Nat.mul_comm b]

/-- Representable values are not changed by rounding. -/
theorem round_exact {k : FKind} {b n : Nat} (hb : 0 < b) (hn : Grid k n) : roundMag k (n * b) b = n :=
  Nat.le_antisymm (round_le hb hn (Nat.le_refl _)) (round_ge hb hn (Nat.le_refl _))

/-- Rounding moves a value by at most half a unit in the last place. -/
theorem round_bound (k : FKind) {a b : Nat} (hb : 0 < b) :
    2 * (roundMag k a b * b) ≤ 2 * a + b * 2 ^ ulpExp k (a / b) ∧
    2 * a ≤ 2 * (roundMag k a b * b) + b * 2 ^ ulpExp k (a / b) := by
  have h := rhe_bound (a := a) (Nat.mul_pos hb (Nat.two_pow_pos (ulpExp k (a / b))))
  unfold roundMag
  rw [show rhe a (b * 2 ^ ulpExp k (a / b)) * 2 ^ ulpExp k (a / b) * b =
    rhe a (b * 2 ^ ulpExp k (a / b)) * (b * 2 ^ ulpExp k (a / b)) by rw [Nat.mul_assoc, Nat.mul_comm b]]
  exact h

theorem ulpExp_of_range {k : FKind} {n e : Nat} (hq : k.qexp ≤ e) (h1 : 2 ^ (k.prec - 1 + e) ≤ n)
    (h2 : n < 2 ^ (k.prec + e)) : ulpExp k n = e := by
  have hp : 1 ≤ k.prec := by cases k <;> decide
  have h0 : n ≠ 0 := by have := Nat.two_pow_pos (k.prec - 1 + e); omega
  have := (Nat.log2_lt h0).mpr h2
  have := (Nat.le_log2 h0).mpr h1
  unfold ulpExp
  omega

/-- A value closer than half a unit to the representable value `n` (which is not a power of two, or is approached from
above) rounds to `n`. -/
theorem round_near {k : FKind} {a b n e : Nat} (hb : 0 < b) (hn : Grid k n) (hq : k.qexp ≤ e)
    (hr1 : 2 ^ (k.prec - 1 + e) ≤ n) (hr2 : n < 2 ^ (k.prec + e)) (h1 : 2 * a < 2 * (n * b) + b * 2 ^ e)
    (h2 : 2 * (n * b) < 2 * a + b * 2 ^ e) (hlow : n * b ≤ a ∨ 2 ^ (k.prec - 1 + e) < n) : roundMag k a b = n := by
  have heq : ulpExp k n = e := ulpExp_of_range hq hr1 hr2
  have hpe : 0 < 2 ^ e := Nat.two_pow_pos e
  obtain ⟨r, hr⟩ := hn.mul (Nat.le_of_eq heq.symm)
  have hp : 1 ≤ k.prec := by cases k <;> decide
  -- `a / b` has the same unit
  have hup : a / b < 2 ^ (k.prec + e) := by
    have hr' : r < 2 ^ k.prec := by
      rw [hr, Nat.pow_add] at hr2
      exact Nat.lt_of_mul_lt_mul_right hr2
    rw [Nat.div_lt_iff_lt_mul hb]
    have h3 : (r + 1) * 2 ^ e ≤ 2 ^ (k.prec + e) := by
      rw [Nat.pow_add]; exact Nat.mul_le_mul_right _ hr'
    have h4 : (r + 1) * 2 ^ e * b = n * b + b * 2 ^ e := by rw [hr, Nat.add_mul, Nat.one_mul, Nat.add_mul, Nat.mul_comm b]
    have h5 := Nat.mul_le_mul_right b h3
    omega
  have hdown : 2 ^ (k.prec - 1 + e) ≤ a / b := by
    rw [Nat.le_div_iff_mul_le hb]
    rcases hlow with h | h
    · exact Nat.le_trans (Nat.mul_le_mul_right b hr1) h
    · have hr' : 2 ^ (k.prec - 1) < r := by
        rw [hr, Nat.pow_add] at h
        exact Nat.lt_of_mul_lt_mul_right h
      have h3 : (2 ^ (k.prec - 1) + 1) * 2 ^ e ≤ n := by rw [hr]; exact Nat.mul_le_mul_right _ hr'
      have h5 := Nat.mul_le_mul_right b h3
      have h6 : (2 ^ (k.prec - 1) + 1) * 2 ^ e * b = 2 ^ (k.prec - 1 + e) * b + b * 2 ^ e := by
        rw [Nat.add_mul, Nat.one_mul, Nat.add_mul, Nat.mul_comm b, Nat.pow_add]
      omega
  unfold roundMag
  rw [ulpExp_of_range hq hdown hup]
  conv => rhs; rw [hr]
  congr 1
  have h7 : r * (b * 2 ^ e) = n * b := by rw [hr, Nat.mul_assoc, Nat.mul_comm b]
  apply rhe_unique
  · rw [h7]; exact h1
  · rw [h7]; exact h2

theorem roundFlt_eq {k : FKind} {neg : Bool} {a b n : Nat} (h : roundMag k a b = n) (hn : n < 2 ^ k.top) :
    roundFlt k neg a b = .fin neg n := by
  unfold roundFlt
  rw [h, if_pos hn]

end PG
