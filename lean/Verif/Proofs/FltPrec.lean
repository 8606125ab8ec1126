import Verif.Proofs.FltRound
import Verif.Spec.Encode
/-
What six decimals preserve.
-/
set_option autoImplicit false
set_option exponentiation.threshold 3000
namespace PG

/-- The number of smallest units (2^-1074) in 1.  Irreducible so that no tactic evaluates it. -/
@[irreducible] def unit : Nat := 2 ^ 1074

theorem unit_eq : unit = 2 ^ 1074 := by unfold unit; rfl
theorem unit_pos : 0 < unit := by rw [unit_eq]; exact Nat.two_pow_pos _

/-- The millionths printed for a magnitude. -/
def mil (m : Nat) : Nat := rhe (m * 1000000) unit

theorem printfF_fin (neg : Bool) (m : Nat) : printfF (.fin neg m) = if neg then c!"-" :: fixed6 (mil m) else fixed6 (mil m) := by
  unfold printfF mil; rw [unit_eq]

theorem decToFlt_mil (neg : Bool) (q : Nat) : decToFlt neg q (-6) = roundFlt .f64 neg (q * unit) 1000000 := by
  unfold decToFlt
  rw [if_neg (by decide), unit_eq]
  congr 1

theorem strtod_printfF (neg : Bool) (m : Nat) :
    strtod (printfF (.fin neg m)) = roundFlt .f64 neg (mil m * unit) 1000000 := by
  rw [printfF_fin, strtod_fixed6, decToFlt_mil]

/-- The text is within half a millionth of the value. -/
theorem mil_bound (m : Nat) : 2 * (mil m * unit) ≤ 2 * (m * 1000000) + unit ∧ 2 * (m * 1000000) ≤ 2 * (mil m * unit) + unit :=
  rhe_bound unit_pos

theorem Grid_of_mul {k : FKind} {r e : Nat} (he : k.qexp ≤ e) (hr : r < 2 ^ k.prec) : Grid k (r * 2 ^ e) := by
  unfold Grid
  by_cases h0 : r = 0
  · subst h0; simp
  have hm : r * 2 ^ e ≠ 0 := by
    have : 0 < 2 ^ e := Nat.two_pow_pos e
    intro h
    rcases Nat.mul_eq_zero.mp h with h | h <;> omega
  have hlog : (r * 2 ^ e).log2 < k.prec + e := by
    rw [Nat.log2_lt hm, Nat.pow_add]
    exact (Nat.mul_lt_mul_right (Nat.two_pow_pos e)).mpr hr
  have hu : ulpExp k (r * 2 ^ e) ≤ e := by unfold ulpExp; omega
  exact Nat.mod_eq_zero_of_dvd (Nat.dvd_trans (Nat.pow_dvd_pow 2 hu) (Nat.dvd_mul_left _ _))

/-- A float is a double. -/
theorem Grid.widen {n : Nat} (h : Grid .f32 n) : Grid .f64 n := by
  unfold Grid at h ⊢
  have : ulpExp .f64 n ≤ ulpExp .f32 n := by unfold ulpExp FKind.qexp FKind.prec; simp only; omega
  exact Nat.mod_eq_zero_of_dvd (Nat.dvd_trans (Nat.pow_dvd_pow 2 this) (Nat.dvd_of_mod_eq_zero h))

theorem mil_exact {m j : Nat} (h : m * 1000000 = j * unit) : mil m = j := by
  unfold mil; rw [h, rhe_exact unit_pos]

theorem read_exact {k : FKind} {m j : Nat} (hm : Grid k m) (h : m * 1000000 = j * unit) :
    roundMag k (mil m * unit) 1000000 = m := by
  rw [mil_exact h, ← h]
  exact round_exact (by omega) hm

theorem pow_split {a b : Nat} (h : b ≤ a) : 2 ^ a = 2 ^ (a - b) * 2 ^ b := by
  rw [← Nat.pow_add]; congr 1; omega

theorem unit_lt_ulp {e : Nat} (he : 1055 ≤ e) : unit ≤ 524288 * 2 ^ e := by
  rw [unit_eq, show (524288 : Nat) = 2 ^ 19 from rfl, ← Nat.pow_add]
  exact Nat.pow_le_pow_right (by omega) (by omega)

/-- Values whose unit in the last place is at least 2^-19: how a nearby power of two behaves. -/
theorem pow_mul_unit {j : Nat} (h : 1074 ≤ j) : ∃ i, 2 ^ j * 1000000 = i * unit :=
  ⟨2 ^ (j - 1074) * 1000000, by rw [unit_eq, pow_split h, Nat.mul_assoc, Nat.mul_assoc, Nat.mul_comm (2 ^ 1074)]⟩

theorem ulp_normal {k : FKind} {m e0 : Nat} (hk : k.qexp ≤ e0) (h : 2 ^ (k.prec - 1 + e0) ≤ m) :
    ∃ e, e0 ≤ e ∧ ulpExp k m = e ∧ 2 ^ (k.prec - 1 + e) ≤ m ∧ m < 2 ^ (k.prec + e) := by
  have hp : 1 ≤ k.prec := by cases k <;> decide
  have h0 : m ≠ 0 := by have := Nat.two_pow_pos (k.prec - 1 + e0); omega
  have hl := (Nat.le_log2 h0).mpr h
  refine ⟨m.log2 + 1 - k.prec, by omega, by unfold ulpExp; omega, ?_, ?_⟩
  · rw [show k.prec - 1 + (m.log2 + 1 - k.prec) = m.log2 by omega]; exact Nat.log2_self_le h0
  · rw [show k.prec + (m.log2 + 1 - k.prec) = m.log2 + 1 by omega]; exact Nat.lt_log2_self

/-- Doubles of magnitude at least 2^33 survive six decimals. -/
theorem read_big64 {m : Nat} (hm : Grid .f64 m) (h : 2 ^ 33 * unit ≤ m) : roundMag .f64 (mil m * unit) 1000000 = m := by
  obtain ⟨e, he, -, h1, h2⟩ := ulp_normal (k := .f64) (m := m) (e0 := 1055) (by decide)
    (by rw [unit_eq, ← Nat.pow_add] at h; exact h)
  by_cases hb : 2 ^ (FKind.f64.prec - 1 + e) < m
  · have hu := unit_lt_ulp he
    have hpe : 0 < 2 ^ e := Nat.two_pow_pos e
    have := mil_bound m
    exact round_near (by omega) hm (by simp [FKind.qexp]) h1 h2 (by omega) (by omega) (.inr hb)
  · have heq : m = 2 ^ (FKind.f64.prec - 1 + e) := by omega
    obtain ⟨i, hi⟩ := pow_mul_unit (j := FKind.f64.prec - 1 + e) (by simp only [FKind.prec]; omega)
    rw [← heq] at hi
    exact read_exact hm hi

/-- Reading a float: rounding to double, then to float. -/
def round32 (a b : Nat) : Nat := roundMag .f32 (roundMag .f64 a b) 1

theorem read32_exact {m j : Nat} (hm : Grid .f32 m) (h : m * 1000000 = j * unit) : round32 (mil m * unit) 1000000 = m := by
  unfold round32
  rw [read_exact hm.widen h]
  have := round_exact (b := 1) (by omega) hm
  rwa [Nat.mul_one] at this

/-- The double next to a float of magnitude at least 16 that is not a power of two. -/
theorem read_mid {m e : Nat} (hm : Grid .f32 m) (he : 1055 ≤ e) (hu : ulpExp .f32 m = e) (h2 : m < 2 ^ (FKind.f32.prec + e)) :
    roundMag .f64 (mil m * unit) 1000000 ≤ m + 3 * 2 ^ (e - 3) ∧ m ≤ roundMag .f64 (mil m * unit) 1000000 + 3 * 2 ^ (e - 3) := by
  obtain ⟨r, hr⟩ := hm.mul (Nat.le_of_eq hu.symm)
  have hrl : r < 2 ^ 24 := by
    rw [hr, Nat.pow_add] at h2
    exact Nat.lt_of_mul_lt_mul_right h2
  have hs : 2 ^ e = 8 * 2 ^ (e - 3) := by rw [pow_split (a := e) (b := e - 3) (by omega), show e - (e - 3) = 3 by omega]
  have hU := unit_lt_ulp he
  have hB := mil_bound m
  rw [hs] at hU
  have hm8 : m = 8 * r * 2 ^ (e - 3) := by rw [hr, hs]; ac_rfl
  generalize hE : 2 ^ (e - 3) = E at *
  have hg : ∀ c, c < 2 ^ 53 → Grid .f64 (c * E) := fun c hc => by
    rw [← hE]; exact Grid_of_mul (by simp [FKind.qexp]) hc
  constructor
  · apply round_le (by omega)
    · have := hg (8 * r + 3) (by omega)
      rw [Nat.add_mul, ← hm8] at this
      exact this
    · omega
  · by_cases h3 : r = 0
    · subst h3; simp at hm8; omega
    · have h4 : m - 3 * E = (8 * r - 3) * E := by rw [Nat.sub_mul, ← hm8]
      have h5 : 3 * E ≤ m := by rw [hm8]; exact Nat.mul_le_mul_right E (by omega)
      have := round_ge (k := .f64) (a := mil m * unit) (b := 1000000) (n := m - 3 * E) (by omega)
        (by rw [h4]; exact hg _ (by omega)) (by omega)
      omega

/-- Floats of magnitude at least 16 survive six decimals. -/
theorem read_big32 {m : Nat} (hm : Grid .f32 m) (h : 2 ^ 4 * unit ≤ m) : round32 (mil m * unit) 1000000 = m := by
  obtain ⟨e, he, hu, h1, h2⟩ := ulp_normal (k := .f32) (m := m) (e0 := 1055) (by decide)
    (by rw [unit_eq, ← Nat.pow_add] at h; exact h)
  by_cases hb : 2 ^ (FKind.f32.prec - 1 + e) < m
  · obtain ⟨h3, h4⟩ := read_mid hm he hu h2
    have hs : 2 ^ e = 8 * 2 ^ (e - 3) := by rw [pow_split (a := e) (b := e - 3) (by omega), show e - (e - 3) = 3 by omega]
    have hp := Nat.two_pow_pos (e - 3)
    unfold round32
    exact round_near (by omega) hm (by simp only [FKind.qexp]; omega) h1 h2 (by omega) (by omega) (.inr hb)
  · have heq : m = 2 ^ (FKind.f32.prec - 1 + e) := by omega
    obtain ⟨i, hi⟩ := pow_mul_unit (j := FKind.f32.prec - 1 + e) (by simp only [FKind.prec]; omega)
    rw [← heq] at hi
    exact read32_exact hm hi

theorem Grid_pow_unit (k : FKind) (j : Nat) : Grid k (2 ^ j * unit) := by
  have h1 : Grid k (1 * 2 ^ (j + 1074)) := Grid_of_mul (by cases k <;> simp only [FKind.qexp] <;> omega) (by cases k <;> decide)
  rw [Nat.one_mul, Nat.pow_add, ← unit_eq] at h1
  exact h1

theorem ulpExp_lt_pow {k : FKind} {n j : Nat} (h : n < 2 ^ j) (hj : k.qexp ≤ j - k.prec) : ulpExp k n ≤ j - k.prec := by
  by_cases h0 : n = 0
  · subst h0; unfold ulpExp; have : 1 ≤ k.prec := by cases k <;> decide
    simp; omega
  · have := (Nat.log2_lt h0).mpr h
    unfold ulpExp; omega

theorem unit_gt (c e : Nat) (he : e ≤ 1054) (hc : c < 2 ^ 20) : c * 2 ^ e < unit := by
  have h1 : 2 ^ e ≤ 2 ^ 1054 := Nat.pow_le_pow_right (by omega) he
  have h2 : unit = 2 ^ 20 * 2 ^ 1054 := by rw [unit_eq, ← Nat.pow_add]
  rw [h2]
  exact Nat.lt_of_le_of_lt (Nat.mul_le_mul_left c h1) ((Nat.mul_lt_mul_right (Nat.two_pow_pos _)).mpr hc)

/-- Printing what was read from printed text prints the same digits (double). -/
theorem mil_round64 {m : Nat} (hm : Grid .f64 m) : mil (roundMag .f64 (mil m * unit) 1000000) = mil m := by
  by_cases hq : mil m < 2 ^ 33 * 1000000
  · have hdiv : mil m * unit / 1000000 < 2 ^ (33 + 1074) := by
      rw [Nat.div_lt_iff_lt_mul (by omega), Nat.pow_add, ← unit_eq]
      have := (Nat.mul_lt_mul_right unit_pos).mpr hq
      rw [Nat.mul_right_comm] at this
      exact this
    have hu := ulpExp_lt_pow (k := .f64) hdiv (by decide)
    simp only [FKind.prec] at hu
    have hb := round_bound .f64 (a := mil m * unit) (b := 1000000) (by omega)
    have hc := unit_gt 1000000 _ hu (by decide)
    have : mil (roundMag .f64 (mil m * unit) 1000000) = rhe (roundMag .f64 (mil m * unit) 1000000 * 1000000) unit := rfl
    rw [this]
    exact rhe_unique (by omega) (by omega)
  · by_cases hbig : 2 ^ 33 * unit ≤ m
    · rw [read_big64 hm hbig]
    · have hle : mil m ≤ 2 ^ 33 * 1000000 := by
        apply rhe_le' unit_pos
        rw [Nat.mul_right_comm]
        exact Nat.mul_le_mul_right _ (by omega)
      have heq : mil m = 2 ^ 33 * 1000000 := by omega
      have h1 : roundMag .f64 (mil m * unit) 1000000 = 2 ^ 33 * unit := by
        rw [heq, Nat.mul_right_comm]; exact round_exact (by omega) (Grid_pow_unit _ _)
      rw [h1, heq]
      exact mil_exact (by rw [Nat.mul_right_comm])

/-- Printing what was read from printed text prints the same digits (float). -/
theorem mil_round32 {m : Nat} (hm : Grid .f32 m) : mil (round32 (mil m * unit) 1000000) = mil m := by
  by_cases hq : mil m < 2 ^ 4 * 1000000
  · have hlt : mil m * unit < 2 ^ 4 * unit * 1000000 := by
      have := (Nat.mul_lt_mul_right unit_pos).mpr hq
      rw [Nat.mul_right_comm] at this
      exact this
    have hdiv : mil m * unit / 1000000 < 2 ^ (4 + 1074) := by
      rw [Nat.div_lt_iff_lt_mul (by omega), Nat.pow_add, ← unit_eq]; exact hlt
    have hu := ulpExp_lt_pow (k := .f64) hdiv (by decide)
    simp only [FKind.prec] at hu
    have hb := round_bound .f64 (a := mil m * unit) (b := 1000000) (by omega)
    have hd : roundMag .f64 (mil m * unit) 1000000 ≤ 2 ^ 4 * unit :=
      round_le (by omega) (Grid_pow_unit _ _) (by omega)
    have hpow : (2 : Nat) ^ 1054 = 2 ^ 29 * 2 ^ 1025 := by rw [← Nat.pow_add]
    have hu' : 2 ^ ulpExp .f64 (mil m * unit / 1000000) ≤ 2 ^ 1025 := Nat.pow_le_pow_right (by omega) hu
    have hU : unit = 2 ^ 20 * 2 ^ 1054 := by rw [unit_eq, ← Nat.pow_add]
    have key : 2 * (round32 (mil m * unit) 1000000) ≤ 2 * roundMag .f64 (mil m * unit) 1000000 + 2 ^ 1054 ∧
        2 * roundMag .f64 (mil m * unit) 1000000 ≤ 2 * (round32 (mil m * unit) 1000000) + 2 ^ 1054 := by
      unfold round32
      generalize roundMag .f64 (mil m * unit) 1000000 = d at hd
      rcases Nat.lt_or_ge d (2 ^ 4 * unit) with hlt' | hge
      · have hd' : d / 1 < 2 ^ (4 + 1074) := by rw [Nat.div_one, Nat.pow_add, ← unit_eq]; exact hlt'
        have hu2 := ulpExp_lt_pow (k := .f32) hd' (by decide)
        simp only [FKind.prec] at hu2
        have hb2 := round_bound .f32 (a := d) (b := 1) (by omega)
        have hu3 : 2 ^ ulpExp .f32 (d / 1) ≤ 2 ^ 1054 := Nat.pow_le_pow_right (by omega) hu2
        generalize 2 ^ 1054 = A at *
        omega
      · have hd' : d = 2 ^ 4 * unit := by omega
        have := round_exact (k := .f32) (b := 1) (n := d) (by omega) (hd' ▸ Grid_pow_unit _ _)
        rw [Nat.mul_one] at this
        rw [this]
        generalize 2 ^ 1054 = A
        omega
    have : mil (round32 (mil m * unit) 1000000) = rhe (round32 (mil m * unit) 1000000 * 1000000) unit := rfl
    rw [this]
    have hpos : 0 < 2 ^ 1025 := Nat.two_pow_pos _
    generalize 2 ^ ulpExp .f64 (mil m * unit / 1000000) = u at *
    generalize hA : 2 ^ 1054 = A at *
    generalize 2 ^ 1025 = B at *
    exact rhe_unique (by omega) (by omega)
  · by_cases hbig : 2 ^ 4 * unit ≤ m
    · rw [read_big32 hm hbig]
    · have hle : mil m ≤ 2 ^ 4 * 1000000 := by
        apply rhe_le' unit_pos
        rw [Nat.mul_right_comm]
        exact Nat.mul_le_mul_right _ (by omega)
      have heq : mil m = 2 ^ 4 * 1000000 := by omega
      have h1 : round32 (mil m * unit) 1000000 = 2 ^ 4 * unit := by
        unfold round32
        rw [heq, Nat.mul_right_comm, round_exact (by omega) (Grid_pow_unit _ _)]
        have := round_exact (k := .f32) (b := 1) (n := 2 ^ 4 * unit) (by omega) (Grid_pow_unit _ _)
        rw [Nat.mul_one] at this
        exact this
      rw [h1, heq]
      exact mil_exact (by rw [Nat.mul_right_comm])

/-- The magnitude read back from the text of a magnitude. -/
def readMag : FKind → Nat → Nat
  | .f64, m => roundMag .f64 (mil m * unit) 1000000
  | .f32, m => round32 (mil m * unit) 1000000

theorem mil_le {m j : Nat} (h : m ≤ 2 ^ j * unit) : mil m ≤ 2 ^ j * 1000000 := by
  apply rhe_le' unit_pos
  rw [Nat.mul_right_comm]
  exact Nat.mul_le_mul_right _ h

theorem round_mil_le {m j : Nat} (h : m ≤ 2 ^ j * unit) : roundMag .f64 (mil m * unit) 1000000 ≤ 2 ^ j * unit := by
  apply round_le (by omega) (Grid_pow_unit _ _)
  rw [Nat.mul_right_comm]
  exact Nat.mul_le_mul_right _ (mil_le h)

theorem round32_mil_le {m j : Nat} (h : m ≤ 2 ^ j * unit) : round32 (mil m * unit) 1000000 ≤ 2 ^ j * unit := by
  unfold round32
  apply round_le (by omega) (Grid_pow_unit _ _)
  rw [Nat.mul_one]
  exact round_mil_le h

theorem pow_unit_lt {j t : Nat} (h : j + 1074 < t) : 2 ^ j * unit < 2 ^ t := by
  rw [unit_eq, ← Nat.pow_add]
  exact Nat.pow_lt_pow_right (by omega) h

theorem readMag_big {k : FKind} {m : Nat} (hm : Grid k m) (h : 2 ^ 33 * unit ≤ m) : readMag k m = m := by
  cases k with
  | f64 => exact read_big64 hm h
  | f32 => exact read_big32 hm (Nat.le_trans (Nat.mul_le_mul_right _ (by decide)) h)

theorem readMag_lt {k : FKind} {m : Nat} (hm : RepMag k m) : readMag k m < 2 ^ k.top := by
  by_cases hb : 2 ^ 33 * unit ≤ m
  · rw [readMag_big hm.2 hb]; exact hm.1
  · cases k with
    | f64 => exact Nat.lt_of_le_of_lt (round_mil_le (j := 33) (by omega)) (pow_unit_lt (by decide))
    | f32 => exact Nat.lt_of_le_of_lt (round32_mil_le (j := 33) (by omega)) (pow_unit_lt (by decide))

/-- Reading back the text of a finite value. -/
theorem fltOfText_printfF {k : FKind} (neg : Bool) {m : Nat} (hm : RepMag k m) :
    (fltOfText k (printfF (.fin neg m))).val = .fin neg (readMag k m) := by
  have hlt := readMag_lt hm
  cases k with
  | f64 =>
    show strtod (printfF (.fin neg m)) = _
    rw [strtod_printfF]
    exact roundFlt_eq rfl hlt
  | f32 =>
    have hd : roundMag .f64 (mil m * unit) 1000000 < 2 ^ FKind.f64.top := by
      have h1 := hm.1
      have h2 : m ≤ 2 ^ 128 * unit := by rw [unit_eq, ← Nat.pow_add]; exact Nat.le_of_lt h1
      exact Nat.lt_of_le_of_lt (round_mil_le h2) (pow_unit_lt (by decide))
    show fltCast .f32 (strtod (printfF (.fin neg m))) = _
    rw [strtod_printfF, roundFlt_eq rfl hd]
    exact roundFlt_eq rfl hlt

theorem CFlt.ext {k : FKind} {a b : CFlt k} (h : a.val = b.val) : a = b := Subtype.ext h

/-- A finite value survives when its magnitude is read back exactly. -/
theorem norm_flt_eq {k : FKind} {neg : Bool} {m : Nat} {v : CFlt k} (hv : v.val = .fin neg m) (h : readMag k m = m) :
    Prim.norm (.flt k) v = v := by
  have hr : RepMag k m := by have := v.property; rw [hv] at this; exact this
  apply CFlt.ext
  show (fltOfText k (printfF v.val)).val = v.val
  rw [hv, fltOfText_printfF neg hr, h]

/-- The text of what was read is the text it was read from. -/
theorem printfF_norm {k : FKind} {v : CFlt k} (hf : Prim.Finite (.flt k) v) :
    Prim.Finite (.flt k) (Prim.norm (.flt k) v) ∧ printfF ((Prim.norm (.flt k) v : CFlt k).val) = printfF v.val := by
  obtain ⟨neg, m, hv⟩ := hf
  have hr : RepMag k m := by have := v.property; rw [hv] at this; exact this
  have h1 : (Prim.norm (.flt k) v : CFlt k).val = .fin neg (readMag k m) := by
    show (fltOfText k (printfF v.val)).val = _
    rw [hv, fltOfText_printfF neg hr]
  refine ⟨⟨neg, _, h1⟩, ?_⟩
  rw [h1, hv, printfF_fin, printfF_fin]
  have : mil (readMag k m) = mil m := by
    cases k with
    | f64 => exact mil_round64 hr.2
    | f32 => exact mil_round32 hr.2
  rw [this]

end PG
