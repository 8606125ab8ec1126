import Verif.Proofs.Nearest
import Verif.Proofs.Twice
import Verif.Props.Numbers
/-
C75: numerals are read as the nearest floating point number.
-/
set_option autoImplicit false
set_option exponentiation.threshold 3000
namespace PG

namespace Numeral

/-- The text of the exponent. -/
def expoText (n : Numeral) : Bytes :=
  match n.expo with
  | none => []
  | some (e, s, ds) => e :: (s ++ ds)

theorem digitsVal_append (acc : Nat) (xs ys : Bytes) : digitsVal acc (xs ++ ys) = digitsVal (digitsVal acc xs) ys := by
  simp [digitsVal]

theorem isDigit_false {b : Byte} (h : ¬ (48 ≤ b ∧ b ≤ 57)) : isDigit b = false := by
  rw [← isDigit_iff] at h
  simpa using h

theorem tail_stops {n : Numeral} {tail : Bytes} (h : n.Stops tail) : ∀ b, tail.head? = some b → isDigit b = false :=
  fun b hb => isDigit_false (h b hb).1

/-- What follows the mantissa does not begin with a digit. -/
theorem expo_stops {n : Numeral} {tail : Bytes} (hw : n.Wf) (h : n.Stops tail) :
    ∀ b, (n.expoText ++ tail).head? = some b → isDigit b = false ∧ (n.point = false → b ≠ c!".") := by
  intro b hb
  unfold expoText at hb
  unfold Wf at hw
  unfold Stops at h
  cases he : n.expo with
  | none =>
    simp only [he, List.nil_append] at hb h
    have := h b hb
    exact ⟨isDigit_false this.1, this.2.2.2⟩
  | some x =>
    obtain ⟨e, s, ds⟩ := x
    simp only [he, List.cons_append, List.head?_cons, Option.some.injEq] at hb hw
    subst hb
    rcases hw.2.2.2.2.1 with rfl | rfl <;> exact ⟨by decide, fun _ => by decide⟩

theorem scanExp_expo {n : Numeral} {tail : Bytes} (hw : n.Wf) (h : n.Stops tail) :
    scanExp (n.expoText ++ tail) = n.power + n.frac.length := by
  have hst := h
  unfold expoText power
  unfold Wf at hw
  unfold Stops at h
  cases he : n.expo with
  | none =>
    simp only [he, List.nil_append] at h ⊢
    cases tail with
    | nil => simp [scanExp]; omega
    | cons b t =>
      obtain ⟨-, h1, h2, -⟩ := h b rfl
      simp [scanExp, h1, h2]; omega
  | some x =>
    obtain ⟨e, s, ds⟩ := x
    simp only [he] at hw h ⊢
    obtain ⟨-, -, -, -, he', hs, hd⟩ := hw
    have hd' : ∀ b ∈ ds, isDigit b = true := fun b hb => (isDigit_iff b).mpr (hd b hb)
    have hrun := digitRun_run hd' (tail_stops hst) 0
    have hee : (e = c!"e" || e = c!"E") = true := by rcases he' with rfl | rfl <;> decide
    simp only [List.cons_append, scanExp, hee, if_true, List.append_assoc]
    rcases hs with rfl | rfl | rfl
    · have : scanSign ([] ++ (ds ++ tail)) = (false, ds ++ tail) := by
        rw [List.nil_append]
        cases ds with
        | cons b t =>
          have := digit_not_sign (hd' b (by simp))
          simp [scanSign, this.1, this.2]
        | nil =>
          cases tail with
          | nil => rfl
          | cons b t =>
            obtain ⟨h1, h2⟩ := (h b rfl).2 rfl rfl
            simp [scanSign, h1, h2]
      rw [this]
      simp only [hrun]
      simp
    · have : scanSign (b!"+" ++ (ds ++ tail)) = (false, ds ++ tail) := rfl
      rw [this]
      simp only [hrun]
      simp
    · have : scanSign (b!"-" ++ (ds ++ tail)) = (true, ds ++ tail) := rfl
      rw [this]
      simp only [hrun]
      simp

/-- `strtod` finds the digits and the power of the numeral at the beginning of the text. -/
theorem strtod_text {n : Numeral} {tail : Bytes} (hw : n.Wf) (h : n.Stops tail) :
    strtod (n.text ++ tail) = decToFlt n.neg n.digits n.power := by
  have hexp := scanExp_expo hw h
  have hes := expo_stops hw h
  have htext : n.text ++ tail = (if n.neg then b!"-" else []) ++
      (n.whole ++ ((if n.point then c!"." :: n.frac else []) ++ (n.expoText ++ tail))) := by
    unfold text expoText
    cases n.expo <;> simp only [List.append_assoc]
  obtain ⟨hd1, hd2, hp, hne, -⟩ := hw
  have hw1 : ∀ b ∈ n.whole, isDigit b = true := fun b hb => (isDigit_iff b).mpr (hd1 b hb)
  have hw2 : ∀ b ∈ n.frac, isDigit b = true := fun b hb => (isDigit_iff b).mpr (hd2 b hb)
  generalize n.expoText ++ tail = R at hexp hes htext
  have hR : ∀ b, ((if n.point then c!"." :: n.frac else []) ++ R).head? = some b → isDigit b = false := by
    intro b hb
    cases hpt : n.point with
    | true =>
      rw [hpt] at hb
      simp at hb
      subst hb
      decide
    | false =>
      rw [hpt] at hb
      exact (hes b hb).1
  have hsign : scanSign (n.text ++ tail) = (n.neg, n.whole ++ ((if n.point then c!"." :: n.frac else []) ++ R)) := by
    rw [htext]
    cases n.neg with
    | true => rfl
    | false =>
      simp only [Bool.false_eq_true, if_false, List.nil_append]
      cases hwh : n.whole with
      | cons b t =>
        have := digit_not_sign (hw1 b (by rw [hwh]; simp))
        simp [scanSign, this.1, this.2]
      | nil =>
        have : n.point = true := by
          cases hpt : n.point with
          | true => rfl
          | false => rw [hwh, hp hpt] at hne; simp at hne
        simp [scanSign, this]
  have hrun := digitRun_run hw1 hR 0
  have hfrac : scanFrac (digitsVal 0 n.whole) ((if n.point then c!"." :: n.frac else []) ++ R) =
      (n.digits, n.frac.length, R) := by
    unfold digits
    rw [digitsVal_append]
    cases hpt : n.point with
    | true =>
      have := digitRun_run hw2 (fun b hb => (hes b hb).1) (digitsVal 0 n.whole)
      simp only [if_true, List.cons_append, scanFrac, this]
      simp
    | false =>
      rw [hp hpt]
      simp only [Bool.false_eq_true, if_false, List.nil_append]
      cases R with
      | nil => rfl
      | cons b t =>
        have := (hes b rfl).2 hpt
        simp [scanFrac, this, digitsVal]
  unfold strtod
  simp only [hsign, hrun, hfrac]
  rw [if_neg, hexp]
  · congr 1; omega
  · simp only [List.length_append]
    intro h0
    apply hne
    have h1 : n.whole.length = 0 := by omega
    have h2 : n.frac.length = 0 := by omega
    rw [List.length_eq_zero_iff] at h1 h2
    rw [h1, h2]; rfl

theorem den_pos (n : Numeral) : 0 < n.den := Nat.pow_pos (by decide)

theorem decToFlt_eq (n : Numeral) : decToFlt n.neg n.digits n.power = roundFlt .f64 n.neg n.num n.den := by
  unfold decToFlt num den
  split
  · rename_i h
    rw [show (-n.power).toNat = 0 by omega, Nat.pow_zero]
  · rename_i h
    rw [show n.power.toNat = 0 by omega, Nat.pow_zero, Nat.mul_one]

end Numeral

/-- C75.  A field of type `double` whose text begins with a numeral (and continues with something that is not part of it,
which is ignored) gets the double nearest to the numeral: no double is closer; of two equally close ones it is the one with
the even significand; beyond the largest double it is the infinity of the same sign.  No other datum is the nearest. -/
theorem C75_nearest (n : Numeral) (tail : Bytes) (hw : n.Wf) (h : n.Stops tail) :
    Nearest .f64 n.neg n.num n.den (fltOfText .f64 (n.text ++ tail)).val ∧
      ∀ x, Nearest .f64 n.neg n.num n.den x → x = (fltOfText .f64 (n.text ++ tail)).val := by
  have key : Nearest .f64 n.neg n.num n.den (fltOfText .f64 (n.text ++ tail)).val := by
    show Nearest .f64 n.neg n.num n.den (strtod (n.text ++ tail))
    rw [Numeral.strtod_text hw h, Numeral.decToFlt_eq]
    exact roundFlt_nearest .f64 n.neg n.num n.den_pos
  exact ⟨key, fun x hx => hx.unique n.den_pos key⟩

/-- C75, the part that is true of `float`: the numeral is rounded to the nearest double, and this to the nearest float.
The full statement, `Nearest .f32 n.neg n.num n.den (fltOfText .f32 (n.text ++ tail)).val`, is refuted by
`C75_is_false_for_float`; it holds when the numeral is a double. -/
theorem C75_float_partial (n : Numeral) (tail : Bytes) (hw : n.Wf) (h : n.Stops tail) :
    (n.num < FKind.limit .f64 * n.den → ∃ m, Nearest .f64 n.neg n.num n.den (.fin n.neg m) ∧
      Nearest .f32 n.neg m 1 (fltOfText .f32 (n.text ++ tail)).val) ∧
    (¬ n.num < FKind.limit .f64 * n.den → (fltOfText .f32 (n.text ++ tail)).val = .inf n.neg) ∧
    (∀ m, RepMag .f64 m → n.num = m * n.den → Nearest .f32 n.neg n.num n.den (fltOfText .f32 (n.text ++ tail)).val) := by
  obtain ⟨h1, h2⟩ := C75_nearest n tail hw h
  have hv : (fltOfText .f32 (n.text ++ tail)).val = fltCast .f32 (fltOfText .f64 (n.text ++ tail)).val := rfl
  rw [hv]
  refine ⟨fun hl => ?_, fun hl => ?_, fun m hm he => ?_⟩
  · have h3 := h1
    unfold Nearest at h3
    rw [if_pos hl] at h3
    obtain ⟨r, hr, -⟩ := h3
    rw [hr] at h1 ⊢
    exact ⟨r, h1, roundFlt_nearest .f32 n.neg r Nat.one_pos⟩
  · unfold Nearest at h1
    rw [if_neg hl] at h1
    rw [h1]; rfl
  · have hx : (fltOfText .f64 (n.text ++ tail)).val = .fin n.neg m := by
      symm
      apply h2
      have := roundFlt_nearest .f64 n.neg (m * n.den) n.den_pos
      rw [roundFlt_eq (round_exact n.den_pos hm.2) hm.1] at this
      rw [he]
      exact this
    rw [hx, he]
    show Nearest .f32 n.neg _ _ (roundFlt .f32 n.neg m 1)
    have e : roundFlt .f32 n.neg m 1 = roundFlt .f32 n.neg (m * n.den) n.den := by
      unfold roundFlt roundMag
      rw [Nat.mul_div_cancel _ n.den_pos, Nat.div_one, Nat.one_mul, Nat.mul_comm n.den]
      have : rhe (m * n.den) (2 ^ ulpExp .f32 m * n.den) = rhe m (2 ^ ulpExp .f32 m) := by
        unfold rhe
        rw [Nat.mul_mod_mul_right, Nat.mul_div_mul_right _ _ n.den_pos, ← Nat.mul_assoc 2]
        simp only [Nat.mul_lt_mul_right n.den_pos]
      rw [this]
    rw [e]
    exact roundFlt_nearest .f32 n.neg (m * n.den) n.den_pos

/-- 1.0000000596046447754, just above the middle of 1 and the next float. -/
def aboveMiddle : Numeral := ⟨false, b!"1", true, b!"0000000596046447754", none⟩

/-- C75 fails for `float`: this numeral lies above the middle between 1 and the next float; it is read as 1. -/
theorem C75_is_false_for_float : ∃ (n : Numeral), n.Wf ∧ n.Stops [] ∧
    ¬ Nearest .f32 n.neg n.num n.den (fltOfText .f32 (n.text ++ [])).val := by
  refine ⟨aboveMiddle, ?_, ?_, ?_⟩
  · unfold Numeral.Wf aboveMiddle
    refine ⟨by decide, by decide, by decide, by decide, trivial⟩
  · intro b hb; simp at hb
  · have hx : (fltOfText .f32 (aboveMiddle.text ++ [])).val = .fin false (2 ^ 1074) := by decide +kernel
    rw [hx]
    unfold Nearest
    rw [if_pos (by decide +kernel)]
    rintro ⟨r, hr, -, h⟩
    cases hr
    have := (h (2 ^ 1074 + 2 ^ 1051) (by decide +kernel)).1
    revert this
    decide +kernel

/-- `lo` and `hi` are neighbours among the floats; 2^128 (in units of 2^-1074) counts as the one after the last. -/
def Neighbours (lo hi : Nat) : Prop :=
  RepMag .f32 lo ∧ (RepMag .f32 hi ∨ hi = 2 ^ 1202) ∧ lo < hi ∧ ∀ c, RepMag .f32 c → c ≤ lo ∨ hi ≤ c

/-- The significand is even. -/
def EvenMag (n : Nat) : Prop := n % 2 ^ (ulpExp .f32 n + 1) = 0

theorem neighbours_iff {lo hi : Nat} : Neighbours lo hi ↔ RepMag .f32 lo ∧ hi = magUp .f32 lo := by
  have hpos : ∀ n, n < magUp .f32 n := fun n => by
    unfold magUp; have := Nat.two_pow_pos (ulpExp .f32 n); omega
  have htop : FKind.top .f32 = 1202 := rfl
  constructor
  · rintro ⟨h1, h2, h3, h4⟩
    refine ⟨h1, ?_⟩
    have hg : Grid .f32 hi := by
      rcases h2 with h | h
      · exact h.2
      · rw [h]; exact top_grid .f32
    have hle := grid_up h1.2 hg h3
    have hp := hpos lo
    rcases Nat.lt_or_ge (magUp .f32 lo) (2 ^ 1202) with hl | hl
    · rcases h4 _ ⟨hl, grid_up_grid h1.2⟩ with h | h <;> omega
    · rcases h2 with h | h
      · have := h.1; rw [htop] at this; omega
      · omega
  · rintro ⟨h1, rfl⟩
    have hle := grid_up h1.2 (top_grid .f32) h1.1
    refine ⟨h1, ?_, hpos lo, fun c hc => ?_⟩
    · rcases Nat.lt_or_ge (magUp .f32 lo) (2 ^ 1202) with hl | hl
      · exact .inl ⟨hl, grid_up_grid h1.2⟩
      · rw [htop] at hle; exact .inr (Nat.le_antisymm hle hl)
    · rcases Nat.lt_or_ge lo c with h | h
      · exact .inr (grid_up h1.2 hc.2 h)
      · exact .inl h

/-- C75 for `float`, exactly: the field gets the float nearest to the numeral, unless the double nearest to it is the middle
of two neighbouring floats and the numeral lies on the side of the one with the odd significand. -/
theorem C75_float_iff (n : Numeral) (tail : Bytes) (hw : n.Wf) (h : n.Stops tail) :
    ¬ Nearest .f32 n.neg n.num n.den (fltOfText .f32 (n.text ++ tail)).val ↔
      ∃ m lo hi, Nearest .f64 n.neg n.num n.den (.fin n.neg m) ∧ Neighbours lo hi ∧ 2 * m = lo + hi ∧
        ((n.num < m * n.den ∧ EvenMag hi) ∨ (m * n.den < n.num ∧ EvenMag lo)) := by
  have hb := n.den_pos
  have h2 : strtod (n.text ++ tail) = roundFlt .f64 n.neg n.num n.den := by
    rw [Numeral.strtod_text hw h, Numeral.decToFlt_eq]
  have hv : (fltOfText .f32 (n.text ++ tail)).val = fltCast .f32 (roundFlt .f64 n.neg n.num n.den) := by
    rw [← h2]; rfl
  rw [hv]
  have hn32 := roundFlt_nearest .f32 n.neg n.num hb
  have hn64 := roundFlt_nearest .f64 n.neg n.num hb
  have hlim : FKind.limit .f32 ≤ FKind.limit .f64 := by decide +kernel
  have htop : FKind.top .f32 = 1202 := rfl
  by_cases hl : n.num < FKind.limit .f64 * n.den
  · -- the double is finite
    have hfin := (round_finite (k := .f64) hb).mpr hl
    have hd : roundFlt .f64 n.neg n.num n.den = .fin n.neg (roundMag .f64 n.num n.den) := roundFlt_eq rfl hfin
    have hcast : fltCast .f32 (roundFlt .f64 n.neg n.num n.den) = roundFlt .f32 n.neg (roundMag .f64 n.num n.den) 1 := by
      rw [hd]; rfl
    have hiff : ¬ Nearest .f32 n.neg n.num n.den (fltCast .f32 (roundFlt .f64 n.neg n.num n.den)) ↔
        roundMag .f32 n.num n.den ≠ roundMag .f32 (roundMag .f64 n.num n.den) 1 ∧
          (roundMag .f32 n.num n.den < 2 ^ 1202 ∨ roundMag .f32 (roundMag .f64 n.num n.den) 1 < 2 ^ 1202) := by
      have : Nearest .f32 n.neg n.num n.den (fltCast .f32 (roundFlt .f64 n.neg n.num n.den)) ↔
          roundFlt .f32 n.neg n.num n.den = roundFlt .f32 n.neg (roundMag .f64 n.num n.den) 1 := by
        rw [hcast]
        exact ⟨fun h => hn32.unique hb h, fun h => h ▸ hn32⟩
      rw [this]
      unfold roundFlt
      rw [htop]
      generalize roundMag .f32 n.num n.den = Q
      generalize roundMag .f32 (roundMag .f64 n.num n.den) 1 = R
      by_cases hQ : Q < 2 ^ 1202 <;> by_cases hR : R < 2 ^ 1202 <;> simp only [hQ, hR, if_true, if_false]
      · simp
      · simp; omega
      · simp; omega
      · simp
    rw [hiff, twice_iff hb]
    have huniq : ∀ m, Nearest .f64 n.neg n.num n.den (.fin n.neg m) → m = roundMag .f64 n.num n.den := by
      intro m hm
      have := hm.unique hb hn64
      rw [hd] at this
      injection this
    have hn64' : Nearest .f64 n.neg n.num n.den (.fin n.neg (roundMag .f64 n.num n.den)) := hd ▸ hn64
    have hnd := fun c (hc : Grid .f64 c) => (round_nearest (a := n.num) hb hc).1
    have hlimQ := round_finite (k := .f32) (a := n.num) hb
    rw [htop] at hlimQ
    generalize roundMag .f64 n.num n.den = m at *
    have hlimR := round_finite (k := .f32) (a := m) Nat.one_pos
    rw [htop, Nat.mul_one] at hlimR
    constructor
    · rintro ⟨⟨lo, hlo, hmid, hc⟩, hfl⟩
      obtain ⟨r1, r2⟩ := round_middle hlo hmid
      have hpos : lo < magUp .f32 lo := by
        unfold magUp; have := Nat.two_pow_pos (ulpExp .f32 lo); omega
      have hlo' : lo < 2 ^ 1202 := by
        apply Nat.lt_of_not_le
        intro hge
        -- then the middle is beyond the limit, and so is the numeral
        have hmge : 2 ^ 1202 < m := by omega
        have hR : ¬ roundMag .f32 m 1 < 2 ^ 1202 := by
          rw [hlimR]
          have : FKind.limit .f32 ≤ 2 ^ 1202 := by decide +kernel
          omega
        have hQ : n.num < FKind.limit .f32 * n.den := by
          rcases hfl with h | h
          · exact hlimQ.mp h
          · exact absurd h hR
        have hd2 := hnd (2 ^ 1202) (by
          have := (top_grid .f32).widen
          rwa [htop] at this)
        have e1 : FKind.limit .f32 * n.den ≤ 2 ^ 1202 * n.den := Nat.mul_le_mul_right _ (by decide +kernel)
        have e2 := Nat.mul_lt_mul_of_pos_right hmge hb
        unfold distTo at hd2
        rw [if_neg (by omega), if_neg (by omega)] at hd2
        omega
      refine ⟨m, lo, magUp .f32 lo, hn64', neighbours_iff.mpr ⟨⟨hlo', hlo⟩, rfl⟩, hmid, ?_⟩
      rcases hc with ⟨h1, h2⟩ | ⟨h1, h2⟩
      · exact .inl ⟨h1, r2.mp h2⟩
      · exact .inr ⟨h1, r1.mp h2⟩
    · rintro ⟨m', lo, hi, hm', hnb, hmid, hc⟩
      rw [huniq _ hm'] at hmid hc
      obtain ⟨hlo, rfl⟩ := neighbours_iff.mp hnb
      obtain ⟨r1, r2⟩ := round_middle hlo.2 hmid
      have hlt : lo < 2 ^ 1202 := hlo.1
      have hle := grid_up hlo.2 (top_grid .f32) hlo.1
      rw [htop] at hle
      rcases hc with ⟨h1, h2⟩ | ⟨h1, h2⟩
      · refine ⟨⟨lo, hlo.2, hmid, .inl ⟨h1, r2.mpr h2⟩⟩, .inl ?_⟩
        rw [hlimQ]
        have hmax := rep_le_max hlo
        have hl2 := limit_eq .f32
        rw [htop] at hl2
        have : m ≤ FKind.limit .f32 := by omega
        have := Nat.mul_le_mul_right n.den this
        omega
      · exact ⟨⟨lo, hlo.2, hmid, .inr ⟨h1, r1.mpr h2⟩⟩, .inr (by rw [r1.mpr h2]; exact hlt)⟩
  · -- beyond the doubles
    have hinf : roundFlt .f64 n.neg n.num n.den = .inf n.neg := by
      unfold Nearest at hn64
      rwa [if_neg hl] at hn64
    rw [hinf]
    constructor
    · intro hx
      exfalso
      apply hx
      show Nearest .f32 _ _ _ (.inf n.neg)
      unfold Nearest
      have := Nat.mul_le_mul_right n.den hlim
      rw [if_neg (by omega)]
    · rintro ⟨m, lo, hi, hm, -⟩
      unfold Nearest at hm
      rw [if_neg hl] at hm
      cases hm

/-- The numeral of `C75_is_false_for_float`: its double is 1 + 2^-24, the middle of 1, which is even, and 1 + 2^-23. -/
example : 2 * (2 ^ 1074 + 2 ^ 1050) = 2 ^ 1074 + magUp .f32 (2 ^ 1074) ∧ EvenMag (2 ^ 1074) ∧
    (2 ^ 1074 + 2 ^ 1050) * aboveMiddle.den < aboveMiddle.num := by
  unfold EvenMag
  decide +kernel

/-- C75, texts without a digit before the exponent: the value is 0. -/
theorem C75_no_digits (k : FKind) (l t : Bytes) (hl : l = c!"-" :: t ∧ (∀ b, t.head? = some b → ¬ (48 ≤ b ∧ b ≤ 57) ∧ b ≠ c!".") ∨
    l = c!"-" :: c!"." :: t ∧ ∀ b, t.head? = some b → ¬ (48 ≤ b ∧ b ≤ 57)) : (fltOfText k l).val = .fin false 0 := by
  have hs : strtod l = .fin false 0 := by
    rcases hl with ⟨rfl, h⟩ | ⟨rfl, h⟩
    · cases t with
      | nil => decide
      | cons b t =>
        obtain ⟨h1, h2⟩ := h b rfl
        have h1 := Numeral.isDigit_false h1
        simp [strtod, scanSign, digitRun, h1, scanFrac, h2]
    · have hd : isDigit c!"." = false := by decide
      have hr : digitRun t 0 = (0, t) := by
        cases t with
        | nil => rfl
        | cons b t => simp [digitRun, Numeral.isDigit_false (h b rfl)]
      simp [strtod, scanSign, digitRun, hd, scanFrac, hr]
  cases k with
  | f64 => exact hs
  | f32 =>
    show fltCast .f32 (strtod l) = _
    rw [hs]
    decide +kernel

/-- A text is a run of digits followed by something that does not begin with one. -/
theorem digit_split (l : Bytes) : ∃ ds t, l = ds ++ t ∧ (∀ b ∈ ds, 48 ≤ b ∧ b ≤ 57) ∧ ∀ b, t.head? = some b → ¬ (48 ≤ b ∧ b ≤ 57) := by
  refine ⟨l.takeWhile isDigit, l.dropWhile isDigit, List.takeWhile_append_dropWhile.symm, ?_, ?_⟩
  · intro x hx
    exact (isDigit_iff x).mp (List.all_eq_true.mp (List.all_takeWhile (l := l) (p := isDigit)) x hx)
  · intro x hx
    have := List.head?_dropWhile_not isDigit l
    rw [hx] at this
    rw [← isDigit_iff]
    simpa using this

/-- Every text beginning with a digit, or with a point and a digit, begins with a numeral. -/
theorem numeral_split (neg : Bool) (l : Bytes) (h : (∃ b t, l = b :: t ∧ 48 ≤ b ∧ b ≤ 57) ∨
    ∃ b t, l = c!"." :: b :: t ∧ 48 ≤ b ∧ b ≤ 57) :
    ∃ (n : Numeral) (tail : Bytes), n.neg = neg ∧ (if neg then b!"-" else []) ++ l = n.text ++ tail ∧ n.Wf ∧ n.Stops tail := by
  -- the exponent
  have hexpo : ∀ s : Bytes, (∀ b, s.head? = some b → ¬ (48 ≤ b ∧ b ≤ 57)) →
      ∃ (expo : Option (Byte × Bytes × Bytes)) (tail : Bytes),
        s = (match (motive := Option (Byte × Bytes × Bytes) → Bytes) expo with | none => [] | some (e, g, ds) => e :: (g ++ ds)) ++ tail ∧
        (match (motive := Option (Byte × Bytes × Bytes) → Prop) expo with
          | none => tail = s
          | some (e, g, ds) => (e = c!"e" ∨ e = c!"E") ∧ (g = [] ∨ g = b!"+" ∨ g = b!"-") ∧ ∀ b ∈ ds, 48 ≤ b ∧ b ≤ 57) ∧
        ∀ b, tail.head? = some b → ¬ (48 ≤ b ∧ b ≤ 57) ∧
          match (motive := Option (Byte × Bytes × Bytes) → Prop) expo with
          | none => b ≠ c!"e" ∧ b ≠ c!"E"
          | some (_, s, ds) => s = [] → ds = [] → b ≠ c!"+" ∧ b ≠ c!"-" := by
    intro s hs
    cases s with
    | nil => exact ⟨none, [], rfl, rfl, fun b hb => by simp at hb⟩
    | cons e t =>
      by_cases he : e = c!"e" ∨ e = c!"E"
      · have hsg : ∃ g u, t = g ++ u ∧ (g = [] ∨ g = b!"+" ∨ g = b!"-") ∧ (g = [] → ∀ b, u.head? = some b → b ≠ c!"+" ∧ b ≠ c!"-") := by
          cases t with
          | nil => exact ⟨[], [], rfl, .inl rfl, fun _ b hb => by simp at hb⟩
          | cons c t =>
            by_cases h1 : c = c!"+"
            · subst h1; exact ⟨b!"+", t, rfl, .inr (.inl rfl), fun h => by simp at h⟩
            · by_cases h2 : c = c!"-"
              · subst h2; exact ⟨b!"-", t, rfl, .inr (.inr rfl), fun h => by simp at h⟩
              · refine ⟨[], c :: t, rfl, .inl rfl, fun _ b hb => ?_⟩
                simp at hb
                subst hb
                exact ⟨h1, h2⟩
        obtain ⟨g, u, rfl, hg, hgu⟩ := hsg
        obtain ⟨ds, v, rfl, hd, hv⟩ := digit_split u
        refine ⟨some (e, g, ds), v, by simp, ⟨he, hg, hd⟩, fun b hb => ⟨hv b hb, fun h1 h2 => ?_⟩⟩
        subst h2
        exact hgu h1 b hb
      · refine ⟨none, e :: t, rfl, rfl, fun b hb => ?_⟩
        have := hs b hb
        simp at hb
        subst hb
        exact ⟨this, fun h => he (.inl h), fun h => he (.inr h)⟩
  obtain ⟨whole, r, rfl, hwh, hr⟩ := digit_split l
  have build : ∀ (point : Bool) (frac s : Bytes), r = (if point then c!"." :: frac else []) ++ s → (∀ b ∈ frac, 48 ≤ b ∧ b ≤ 57) →
      (point = false → frac = []) → whole ++ frac ≠ [] → (∀ b, s.head? = some b → ¬ (48 ≤ b ∧ b ≤ 57)) →
      (point = false → ∀ b, s.head? = some b → b ≠ c!".") →
      ∃ (n : Numeral) (tail : Bytes), n.neg = neg ∧ (if neg then b!"-" else []) ++ (whole ++ r) = n.text ++ tail ∧ n.Wf ∧ n.Stops tail := by
    intro point frac s hrs hf hp hne hs hsp
    obtain ⟨expo, tail, h1, h2, h3⟩ := hexpo s hs
    refine ⟨⟨neg, whole, point, frac, expo⟩, tail, rfl, ?_, ⟨hwh, hf, hp, hne, ?_⟩, ?_⟩
    · subst hrs
      unfold Numeral.text
      rw [h1]
      cases expo <;> simp
    · cases expo with
      | none => trivial
      | some x => exact h2
    · intro b hb
      obtain ⟨h4, h5⟩ := h3 b hb
      refine ⟨h4, ?_⟩
      cases expo with
      | none =>
        refine ⟨h5.1, h5.2, fun hpt => ?_⟩
        subst h2
        exact hsp hpt b hb
      | some x => exact h5
  cases r with
  | nil =>
    refine build false [] [] rfl (by simp) (fun _ => rfl) ?_ (by simp) (by simp)
    intro e
    simp at e
    subst e
    rcases h with ⟨b, t, h, -⟩ | ⟨b, t, h, -⟩ <;> simp at h
  | cons b r =>
    by_cases hb : b = c!"."
    · subst hb
      obtain ⟨frac, s, rfl, hf, hs⟩ := digit_split r
      refine build true frac s rfl hf (by simp) ?_ hs (by simp)
      intro e
      simp at e
      obtain ⟨rfl, rfl⟩ := e
      rcases h with ⟨b, t, h, h1⟩ | ⟨b, t, h, h1⟩
      · simp at h
        rw [← h.1] at h1
        revert h1; decide
      · simp at h
        exact hs b (by rw [h]; rfl) h1
    · refine build false [] (b :: r) rfl (by simp) (fun _ => rfl) ?_ hr (fun _ c hc => ?_)
      · intro e
        simp at e
        subst e
        rcases h with ⟨c, t, h, h1⟩ | ⟨c, t, h, h1⟩
        · simp at h
          exact hr b rfl (h.1 ▸ h1)
        · simp at h
          exact hb h.1
      · simp at hc
        subst hc
        exact hb

/-- Every number token falls under `C75_nearest` or `C75_no_digits`. -/
theorem C75_covers {l : Bytes} (h : SloppyNum l) :
    (∃ (n : Numeral) (tail : Bytes), l = n.text ++ tail ∧ n.Wf ∧ n.Stops tail) ∨
    ∃ t, l = c!"-" :: t ∧ (∀ b, t.head? = some b → ¬ (48 ≤ b ∧ b ≤ 57) ∧ b ≠ c!".") ∨
      l = c!"-" :: c!"." :: t ∧ ∀ b, t.head? = some b → ¬ (48 ≤ b ∧ b ≤ 57) := by
  obtain ⟨⟨b, t, rfl, hb⟩, -⟩ := h
  rcases hb with rfl | hb
  · by_cases h1 : (∃ b u, t = b :: u ∧ 48 ≤ b ∧ b ≤ 57) ∨ ∃ b u, t = c!"." :: b :: u ∧ 48 ≤ b ∧ b ≤ 57
    · obtain ⟨n, tail, hn, h2, h3⟩ := numeral_split true t h1
      exact .inl ⟨n, tail, h2, h3⟩
    · right
      cases t with
      | nil => exact ⟨[], .inl ⟨rfl, by simp⟩⟩
      | cons b u =>
        by_cases hp : b = c!"."
        · subst hp
          refine ⟨u, .inr ⟨rfl, fun c hc => fun hd => h1 (.inr ?_)⟩⟩
          cases u with
          | nil => simp at hc
          | cons d u => simp at hc; subst hc; exact ⟨d, u, rfl, hd⟩
        · refine ⟨b :: u, .inl ⟨rfl, fun c hc => ?_⟩⟩
          simp at hc
          subst hc
          exact ⟨fun hd => h1 (.inl ⟨b, u, rfl, hd⟩), hp⟩
  · obtain ⟨n, tail, hn, h2, h3⟩ := numeral_split false (b :: t) (.inl ⟨b, t, rfl, hb⟩)
    exact .inl ⟨n, tail, h2, h3⟩

/-- C75, the reader: at a number the field gets the value of the whole token. -/
theorem C75_read (k : FKind) (l rest : Bytes) (e : ErrInfo) (w : CFlt k) (hl : SloppyNum l) (hr : Delim rest) :
    ∃ tz', Prim.read (.flt k) (Tz.open' (IStream.open' (l ++ rest)) e) w = (.ok, tz', fltOfText k l) := by
  have hj : JVal wide (.num l) l := ⟨rfl, hl⟩
  have := Prim.read_refines (.flt k) (.num l) w hj (hr.endOk _) (At.open _ e)
  unfold Refines at this
  obtain ⟨tz', h, -⟩ := this
  exact ⟨tz', h⟩

/-- "-12.50e+1" with nothing after it, and "1.5e-" followed by "x": numerals; -125 is a double, and so is 1.5. -/
theorem C75_example :
    (⟨true, b!"12", true, b!"50", some (c!"e", b!"+", b!"1")⟩ : Numeral).Wf ∧
    (⟨false, b!"1", true, b!"5", some (c!"e", b!"-", [])⟩ : Numeral).Stops b!"x" ∧
    (fltOfText .f64 b!"-12.50e+1").val = .fin true (125 * 2 ^ 1074) ∧ (fltOfText .f64 b!"1.5e-x").val = .fin false (3 * 2 ^ 1073) ∧
    (fltOfText .f64 b!"1e309").val = .inf false ∧ (fltOfText .f64 b!"9007199254740993").val = .fin false (2 ^ 53 * 2 ^ 1074) := by
  refine ⟨?_, ?_, by decide +kernel⟩
  · unfold Numeral.Wf
    exact ⟨by decide, by decide, by decide, by decide, by decide⟩
  · intro b hb
    simp at hb
    subst hb
    exact ⟨by decide, fun h => by simp at h⟩

end PG
