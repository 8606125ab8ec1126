import Verif.Spec.Decimal
import Verif.Proofs.Near
/-
Rounding delivers the nearest value.
-/
set_option autoImplicit false
namespace PG

/-- The multiple of the local spacing below `a / b` is the largest grid value there. -/
theorem grid_floor {k : FKind} {a b n : Nat} (hb : 0 < b) (hn : Grid k n) (h : n * b ≤ a) :
    n ≤ a / (b * 2 ^ ulpExp k (a / b)) * 2 ^ ulpExp k (a / b) := by
  have hna : n ≤ a / b := by rw [Nat.le_div_iff_mul_le hb]; exact h
  have he := ulpExp_mono k hna
  generalize hE : ulpExp k (a / b) = e at he
  have hpe : 0 < 2 ^ e := Nat.two_pow_pos e
  rcases Nat.lt_or_ge (ulpExp k n) e with hlt | hge
  · have hq : k.qexp < e := by unfold ulpExp at hlt; omega
    have hlog : e = (a / b).log2 + 1 - k.prec := by unfold ulpExp at hE; omega
    have hp : 1 ≤ k.prec := by cases k <;> decide
    have hab : a / b ≠ 0 := by
      intro h0; rw [h0] at hlog; simp at hlog; omega
    have h1 : 2 ^ (k.prec - 1 + e) ≤ a / b := by
      rw [show k.prec - 1 + e = (a / b).log2 by omega]; exact Nat.log2_self_le hab
    have h2 : n < 2 ^ (k.prec - 1 + e) :=
      Nat.lt_of_lt_of_le (lt_pow_ulp k n) (Nat.pow_le_pow_right (by omega) (by omega))
    have h3 : 2 ^ (k.prec - 1) ≤ a / (b * 2 ^ e) := by
      rw [Nat.le_div_iff_mul_le (Nat.mul_pos hb hpe)]
      rw [Nat.pow_add] at h1
      calc 2 ^ (k.prec - 1) * (b * 2 ^ e) = 2 ^ (k.prec - 1) * 2 ^ e * b := by
            rw [Nat.mul_assoc, Nat.mul_comm b]
        _ ≤ a / b * b := Nat.mul_le_mul_right b h1
        _ ≤ a := Nat.div_mul_le_self a b
    have h4 := Nat.mul_le_mul_right (2 ^ e) h3
    rw [← Nat.pow_add] at h4
    omega
  · obtain ⟨r, hr⟩ := hn.mul hge
    rw [hr]
    apply Nat.mul_le_mul_right
    rw [Nat.le_div_iff_mul_le (Nat.mul_pos hb hpe)]
    rw [hr] at h
    calc r * (b * 2 ^ e) = r * 2 ^ e * b := by rw [Nat.mul_assoc, Nat.mul_comm b]
      _ ≤ a := h

theorem FKind.two_le_prec (k : FKind) : 2 ≤ k.prec := by cases k <;> decide

/-- An even multiple of the spacing at `a / b` has an even significand. -/
theorem even_of_rhe {k : FKind} {a b : Nat} (h : rhe a (b * 2 ^ ulpExp k (a / b)) % 2 = 0) :
    roundMag k a b % 2 ^ (ulpExp k (roundMag k a b) + 1) = 0 := by
  have hle := rhe_roundMag_le k a b
  have hp := k.two_le_prec
  have hq : k.qexp ≤ ulpExp k (a / b) := by unfold ulpExp; omega
  unfold roundMag
  generalize rhe a (b * 2 ^ ulpExp k (a / b)) = r at h hle ⊢
  generalize ulpExp k (a / b) = e at hq ⊢
  rcases Nat.lt_or_ge r (2 ^ k.prec) with hlt | hge
  · have hu : ulpExp k (r * 2 ^ e) ≤ e := by
      by_cases h0 : r * 2 ^ e = 0
      · rw [h0]; unfold ulpExp; simp; omega
      · have : (r * 2 ^ e).log2 < k.prec + e := by
          rw [Nat.log2_lt h0, Nat.pow_add]
          exact (Nat.mul_lt_mul_right (Nat.two_pow_pos e)).mpr hlt
        unfold ulpExp; omega
    obtain ⟨s, hs⟩ := Nat.dvd_of_mod_eq_zero h
    refine Nat.mod_eq_zero_of_dvd (Nat.dvd_trans (Nat.pow_dvd_pow 2 (show _ ≤ e + 1 by omega)) ⟨s, ?_⟩)
    rw [hs, Nat.pow_succ, Nat.mul_comm (2 ^ e) 2, Nat.mul_right_comm]
  · have hr : r = 2 ^ k.prec := by omega
    have hu : ulpExp k (r * 2 ^ e) ≤ e + 1 := by
      rw [hr, ← Nat.pow_add]
      unfold ulpExp
      rw [Nat.log2_two_pow]
      omega
    refine Nat.mod_eq_zero_of_dvd (Nat.dvd_trans (Nat.pow_dvd_pow 2 (show _ ≤ k.prec + e by omega)) ?_)
    rw [hr, ← Nat.pow_add]
    exact Nat.dvd_refl _

/-- Rounding with unbounded exponent delivers the nearest value, the even one of two. -/
theorem round_nearest {k : FKind} {a b : Nat} (hb : 0 < b) {c : Nat} (hc : Grid k c) :
    distTo a b (roundMag k a b) ≤ distTo a b c ∧
      (distTo a b (roundMag k a b) = distTo a b c → c ≠ roundMag k a b →
        roundMag k a b % 2 ^ (ulpExp k (roundMag k a b) + 1) = 0) := by
  have hev := even_of_rhe (k := k) (a := a) (b := b)
  have hfl := fun h => grid_floor (k := k) (a := a) hb hc h
  have hup : a ≤ c * b → ∃ s, c = s * 2 ^ ulpExp k (a / b) := fun h => hc.mul (ulpExp_mono k (by
    calc a / b ≤ c * b / b := Nat.div_le_div_right h
      _ = c := Nat.mul_div_cancel c hb))
  have hR : roundMag k a b * b = rhe a (b * 2 ^ ulpExp k (a / b)) * (b * 2 ^ ulpExp k (a / b)) := by
    unfold roundMag; rw [Nat.mul_assoc, Nat.mul_comm b]
  -- all multiples of `b`
  have hcb : ∀ x y : Nat, x * b = y * b → x = y := fun x y h => Nat.eq_of_mul_eq_mul_right hb h
  have hL : c * b ≤ a → c * b ≤ a / (b * 2 ^ ulpExp k (a / b)) * (b * 2 ^ ulpExp k (a / b)) := by
    intro h
    have := Nat.mul_le_mul_right b (hfl h)
    rw [Nat.mul_assoc, Nat.mul_comm (2 ^ _) b] at this
    exact this
  have hU : a ≤ c * b → ∃ s, c * b = s * (b * 2 ^ ulpExp k (a / b)) := by
    intro h
    obtain ⟨s, hs⟩ := hup h
    exact ⟨s, by rw [hs, Nat.mul_assoc, Nat.mul_comm b]⟩
  have hD : 0 < b * 2 ^ ulpExp k (a / b) := Nat.mul_pos hb (Nat.two_pow_pos _)
  have hne : c ≠ roundMag k a b → c * b ≠ roundMag k a b * b := fun h e => h (hcb _ _ e)
  generalize roundMag k a b = r at hev hR hne ⊢
  generalize b * 2 ^ ulpExp k (a / b) = D at hev hR hL hU hD
  have h1 := Nat.div_add_mod a D
  have h2 := Nat.mod_lt a hD
  rw [Nat.mul_comm] at h1
  have h3 : (a / D + 1) * D = a / D * D + D := by rw [Nat.add_mul, Nat.one_mul]
  have hU' : a < c * b → a / D * D + D ≤ c * b := by
    intro h
    obtain ⟨s, hs⟩ := hU (Nat.le_of_lt h)
    rw [hs] at h ⊢
    rw [← h3]
    apply Nat.mul_le_mul_right
    apply Nat.lt_of_not_le
    intro hle
    have := Nat.mul_le_mul_right D hle
    omega
  unfold rhe at hev hR
  unfold distTo
  rw [hR] at hne
  rw [hR]
  generalize a / D = q at *
  generalize a % D = m at *
  by_cases t1 : 2 * m < D
  · rw [if_pos t1] at hev hne ⊢
    rw [if_pos (by omega)]
    split
    · rename_i hle
      have := hL hle
      exact ⟨by omega, fun he hn => absurd (hne hn) (by omega)⟩
    · rename_i hle
      have := hU' (by omega)
      exact ⟨by omega, fun he hn => by omega⟩
  · rw [if_neg t1] at hev hne ⊢
    by_cases t2 : D < 2 * m
    · rw [if_pos t2] at hev hne ⊢
      rw [h3] at hne ⊢
      rw [if_neg (by omega)]
      split
      · rename_i hle
        have := hL hle
        exact ⟨by omega, fun he hn => by omega⟩
      · rename_i hle
        have := hU' (by omega)
        exact ⟨by omega, fun he hn => absurd (hne hn) (by omega)⟩
    · rw [if_neg t2] at hev hne ⊢
      have hE : (if q % 2 = 0 then q else q + 1) % 2 = 0 := by split <;> omega
      refine ⟨?_, fun _ _ => hev hE⟩
      clear hev hne hR
      have hlow : distTo a b c ≥ m := by
        unfold distTo
        split
        · rename_i hle; have := hL hle; omega
        · have := hU' (by omega); omega
      unfold distTo at hlow
      by_cases hq : q % 2 = 0
      · rw [if_pos hq, if_pos (by omega)]
        omega
      · rw [if_neg hq, h3, if_neg (by omega)]
        omega

/-- The threshold of overflow, from the largest value. -/
theorem limit_eq (k : FKind) : 2 * k.limit = maxMag k + 2 ^ k.top := by cases k <;> decide +kernel

theorem max_odd (k : FKind) : maxMag k % 2 ^ (ulpExp k (maxMag k) + 1) ≠ 0 := by
  rw [ulp_top (max_half k).1 (max_half k).2]
  cases k <;> decide +kernel

theorem top_grid (k : FKind) : Grid k (2 ^ k.top) := by
  refine grid_of_mult (e := k.top) ⟨1, by rw [Nat.one_mul]⟩ ?_
  have := k.facts
  unfold ulpExp
  rw [Nat.log2_two_pow]
  omega

/-- The magnitude is rounded to a finite value exactly below the limit. -/
theorem round_finite {k : FKind} {a b : Nat} (hb : 0 < b) : roundMag k a b < 2 ^ k.top ↔ a < k.limit * b := by
  have hl := congrArg (· * b) (limit_eq k)
  simp only [Nat.add_mul, Nat.mul_assoc] at hl
  have hmt := Nat.mul_lt_mul_of_pos_right (max_half k).2 hb
  constructor
  · intro h
    have hr : roundMag k a b ≤ maxMag k :=
      rep_le_max ⟨h, (RepMag_of_mul k _ _ (by unfold ulpExp; omega) (rhe_roundMag_le k a b) h).2⟩
    obtain ⟨h1, h2⟩ := round_nearest (k := k) (a := a) hb (top_grid k)
    have hrb := Nat.mul_le_mul_right b hr
    apply Nat.lt_of_not_le
    intro hge
    have hne : 2 ^ k.top ≠ roundMag k a b := by omega
    unfold distTo at h1 h2
    rw [if_pos (by omega)] at h1 h2
    by_cases ht : 2 ^ k.top * b ≤ a
    · rw [if_pos ht] at h1
      omega
    · rw [if_neg ht] at h1 h2
      have h3 := h2 (by omega) hne
      have h4 : roundMag k a b * b = maxMag k * b := by omega
      rw [Nat.eq_of_mul_eq_mul_right hb h4] at h3
      exact max_odd k h3
  · intro h
    apply Nat.lt_of_not_le
    intro hge
    obtain ⟨h1, -⟩ := round_nearest (k := k) (a := a) hb (max_grid k)
    have hrb := Nat.mul_le_mul_right b hge
    unfold distTo at h1
    by_cases h3 : roundMag k a b * b ≤ a
    · rw [if_pos h3, if_pos (by omega)] at h1
      omega
    · rw [if_neg h3] at h1
      split at h1 <;> omega

/-- IEEE rounding delivers the nearest value. -/
theorem roundFlt_nearest (k : FKind) (neg : Bool) (a : Nat) {b : Nat} (hb : 0 < b) : Nearest k neg a b (roundFlt k neg a b) := by
  unfold Nearest
  by_cases h : a < k.limit * b
  · rw [if_pos h]
    have hf := (round_finite hb).mpr h
    refine ⟨roundMag k a b, roundFlt_eq rfl hf, RepMag_of_mul k _ _ (by unfold ulpExp; omega) (rhe_roundMag_le k a b) hf, ?_⟩
    intro c hc
    exact round_nearest hb hc.2
  · rw [if_neg h]
    unfold roundFlt
    rw [if_neg (fun hf => h ((round_finite hb).mp hf))]

/-- At most one value is the nearest. -/
theorem Nearest.unique {k : FKind} {neg : Bool} {a b : Nat} {x y : Flt} (hb : 0 < b) (hx : Nearest k neg a b x)
    (hy : Nearest k neg a b y) : x = y := by
  unfold Nearest at hx hy
  split at hx
  · rename_i h
    rw [if_pos h] at hy
    obtain ⟨r, rfl, hr, hr'⟩ := hx
    obtain ⟨s, rfl, hs, hs'⟩ := hy
    by_cases e : s = r
    · rw [e]
    · exfalso
      obtain ⟨h1, h2⟩ := hr' s hs
      obtain ⟨h3, h4⟩ := hs' r hr
      have he := Nat.le_antisymm h1 h3
      have h5 := h2 he e
      have h6 := h4 he.symm (fun e' => e e'.symm)
      -- two neighbours are not both even
      have key : ∀ {r s : Nat}, RepMag k r → RepMag k s → r < s → distTo a b r = distTo a b s →
          (∀ c, RepMag k c → distTo a b r ≤ distTo a b c) → r % 2 ^ (ulpExp k r + 1) = 0 → s % 2 ^ (ulpExp k s + 1) = 0 → False := by
        intro r s hr hs hlt he hmin e1 e2
        have hu := grid_up hr.2 hs.2 hlt
        have hg : RepMag k (magUp k r) := ⟨Nat.lt_of_le_of_lt hu hs.1, grid_up_grid hr.2⟩
        have hs2 : ∃ t, s = t * 2 ^ (ulpExp k r + 1) := by
          obtain ⟨t, ht⟩ := Nat.dvd_trans (Nat.pow_dvd_pow 2 (Nat.succ_le_succ (ulpExp_mono k (Nat.le_of_lt hlt)))) (Nat.dvd_of_mod_eq_zero e2)
          exact ⟨t, by rw [ht, Nat.mul_comm]⟩
        have hr2 : ∃ t, r = t * 2 ^ (ulpExp k r + 1) := by
          obtain ⟨t, ht⟩ := Nat.dvd_of_mod_eq_zero e1
          exact ⟨t, by rw [Nat.mul_comm]; exact ht⟩
        have hgap := mult_gap hr2 hs2 hlt
        rw [Nat.pow_succ] at hgap
        have hpos := Nat.two_pow_pos (ulpExp k r)
        have h7 := hmin _ hg
        have a1 : r < magUp k r := by unfold magUp; omega
        have a2 : magUp k r < s := by unfold magUp; omega
        have b1 := Nat.mul_lt_mul_of_pos_right a1 hb
        have b2 := Nat.mul_lt_mul_of_pos_right a2 hb
        unfold distTo at h7 he
        split at h7 <;> split at he <;> split at h7 <;> split at he <;> omega
      rcases Nat.lt_or_gt_of_ne e with hlt | hlt
      · exact key hs hr hlt he.symm (fun c hc => (hs' c hc).1) h6 h5
      · exact key hr hs hlt he (fun c hc => (hr' c hc).1) h5 h6
  · rename_i h
    rw [if_neg h] at hy
    rw [hx, hy]

end PG
