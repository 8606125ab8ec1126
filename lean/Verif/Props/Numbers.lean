import Verif.Proofs.FltPrec
import Verif.Proofs.Refine
/-
C05, C06, C07, C08: numbers and their numerals.
-/
set_option autoImplicit false
set_option exponentiation.threshold 3000
namespace PG

/-- `text` is the decimal numeral of `i`: a minus sign exactly for negative values, no superfluous zeros, and the digits
have the value. -/
def DecimalNumeral (i : Int) (text : Bytes) : Prop :=
  ∃ ds, text = (if i < 0 then c!"-" :: ds else ds) ∧ RfcInt ds ∧ digitsVal 0 ds = i.natAbs

/-- C05.  The integer types hold exactly the values of their range. -/
theorem C05_ranges (k : IKind) (n : Int) :
    (∃ v : CInt k, v.val = n) ↔
    match k with
    | .i32 => -2147483648 ≤ n ∧ n ≤ 2147483647
    | .i64 => -9223372036854775808 ≤ n ∧ n ≤ 9223372036854775807
    | .u32 => 0 ≤ n ∧ n ≤ 4294967295
    | .u64 => 0 ≤ n ∧ n ≤ 18446744073709551615
    | .u8 => 0 ≤ n ∧ n ≤ 255 := by
  have key : (∃ v : CInt k, v.val = n) ↔ k.lo ≤ n ∧ n ≤ k.hi :=
    ⟨fun ⟨v, h⟩ => h ▸ ⟨v.lo_le, v.le_hi⟩, fun ⟨h1, h2⟩ => ⟨⟨n, h1, h2⟩, rfl⟩⟩
  rw [key]
  cases k <;> exact Iff.rfl

/-- C05.  Every value of every integer type is written as its decimal numeral, and the reader at that numeral delivers
exactly the value. -/
theorem C05_integer_round_trip (k : IKind) (v : CInt k) :
    DecimalNumeral v.val (textOfInt v) ∧ intOfText k (textOfInt v) = v ∧
      ∀ (rest : Bytes) (e : ErrInfo) (w : CInt k), Delim rest →
        ∃ tz', Prim.read (.int k) (Tz.open' (IStream.open' (textOfInt v ++ rest)) e) w = (.ok, tz', v) := by
  refine ⟨⟨decNat v.val.natAbs, ?_, decNat_rfcInt _, decNat_val _⟩, intOfText_textOfInt v, ?_⟩
  · unfold textOfInt decInt; rfl
  · intro rest e w hr
    have hj : JVal wide (.num (textOfInt v)) (textOfInt v) := ⟨rfl, (decInt_rfcNum _).sloppy⟩
    have := Prim.read_refines (.int k) (.num (textOfInt v)) w hj (hr.endOk _) (At.open _ e)
    unfold Refines at this
    obtain ⟨tz', h, -⟩ := this
    refine ⟨tz', ?_⟩
    rw [h]
    exact congrArg (fun x => (RC.ok, tz', x)) (intOfText_textOfInt v)

/-- 2^64 - 1 does not fit the 53 bits of a double. -/
example : textOfInt (CInt.cast .u64 18446744073709551615) = b!"18446744073709551615" ∧
    textOfInt (CInt.cast .i64 (-9223372036854775808)) = b!"-9223372036854775808" := by decide +kernel

/-- A sign. -/
def signText (neg : Bool) : Bytes := if neg then b!"-" else []

theorem strtolScan_lexeme (neg : Bool) {ds tail : Bytes} (hd : Digits ds) (ht : ∀ b, tail.head? = some b → isDigit b = false) :
    strtolScan (signText neg ++ ds ++ tail) = some (neg, digitsVal 0 ds, tail) := by
  obtain ⟨hne, hd⟩ := hd
  have hd' : ∀ b ∈ ds, isDigit b = true := fun b hb => (isDigit_iff b).mpr (hd b hb)
  have hrun := digitRun_run hd' ht 0
  cases ds with
  | nil => exact absurd rfl hne
  | cons b t =>
    have hb := hd' b (by simp)
    have h1 := digit_not_space hb
    have h2 := digit_not_sign hb
    cases neg
    · simp only [signText, Bool.false_eq_true, if_false, List.nil_append, strtolScan]
      rw [List.cons_append, List.dropWhile_cons_of_neg (by simp [h1])]
      simp only [h2.1, h2.2, if_false, hb, if_true]
      rw [← List.cons_append, hrun]
    · simp only [signText, if_true, strtolScan, List.cons_append, List.nil_append]
      rw [List.dropWhile_cons_of_neg (by decide)]
      simp only [if_true, hb]
      rw [← List.cons_append, hrun]

/-- The integer whose magnitude and sign were read. -/
def signed (neg : Bool) (n : Nat) : Int := if neg then -(n : Int) else n

/-- The value C06 prescribes: clamped to the range of `long` for signed types; for unsigned types the magnitude is
limited to the range of `unsigned long` (a numeral beyond it gives the largest value, whatever its sign). -/
def clamp64 (sgn : Bool) (neg : Bool) (n : Nat) : Int :=
  if sgn then max (-(2 ^ 63)) (min (2 ^ 63 - 1) (signed neg n))
  else if n < 2 ^ 64 then signed neg n else 2 ^ 64 - 1

theorem cast_emod (k : IKind) (x y : Int) (h : (x - y) % 2 ^ k.bits = 0) : CInt.cast k x = CInt.cast k y := by
  unfold CInt.cast
  congr 2
  have : x - k.lo = (y - k.lo) + (x - y) := by omega
  rw [this, Int.add_emod, h, Int.add_zero, Int.emod_emod_of_dvd _ (Int.dvd_refl _)]

/-- C06.  Every lexeme that starts with an (optionally negative) run of digits is converted to the value obtained by
clamping that integer to 64 bits and reducing it modulo 2^n; the rest of the lexeme is ignored. -/
theorem C06_integer_conversion (k : IKind) (neg : Bool) (ds tail : Bytes) (hd : Digits ds)
    (ht : ∀ b, tail.head? = some b → ¬ (48 ≤ b ∧ b ≤ 57)) :
    (∃ z : Int, (intOfText k (signText neg ++ ds ++ tail)).val = clamp64 k.signed neg (digitsVal 0 ds) + z * 2 ^ k.bits) ∧
      k.lo ≤ (intOfText k (signText neg ++ ds ++ tail)).val ∧ (intOfText k (signText neg ++ ds ++ tail)).val ≤ k.hi := by
  refine ⟨?_, (intOfText k _).lo_le, (intOfText k _).le_hi⟩
  have ht' : ∀ b, tail.head? = some b → isDigit b = false := by
    intro b hb
    have := ht b hb
    rw [← isDigit_iff] at this
    simpa using this
  have hs := strtolScan_lexeme neg hd ht'
  have key : intOfText k (signText neg ++ ds ++ tail) = CInt.cast k (clamp64 k.signed neg (digitsVal 0 ds)) := by
    unfold intOfText strtol strtoul clamp64 signed
    rw [hs]
    simp only
    cases hk : k.signed with
    | true =>
      simp only [if_true]
      congr 1
      cases neg
      · simp only [Bool.false_eq_true, if_false]; omega
      · simp only [if_true]; omega
    | false =>
      simp only [Bool.false_eq_true, if_false]
      by_cases hb : digitsVal 0 ds < 2 ^ 64
      · rw [if_neg (by omega), if_pos hb]
        cases neg
        · simp
        · simp only [if_true]
          apply cast_emod
          have hdvd : ((2 : Int) ^ k.bits) ∣ 18446744073709551616 := by
            clear hs
            revert hk
            cases k <;> decide
          have h1 := Int.dvd_self_sub_emod (x := -((digitsVal 0 ds : Nat) : Int)) (m := 18446744073709551616)
          have h2 := Int.dvd_trans hdvd h1
          rw [← Int.neg_sub] 
          exact Int.emod_eq_zero_of_dvd ((Int.dvd_neg).mpr h2)
      · rw [if_pos (by omega), if_neg hb]; rfl
  rw [key]
  generalize clamp64 k.signed neg (digitsVal 0 ds) = x
  refine ⟨-((x - k.lo) / 2 ^ k.bits), ?_⟩
  show (x - k.lo) % 2 ^ k.bits + k.lo = _
  have := Int.emod_add_mul_ediv (x - k.lo) (2 ^ k.bits)
  rw [Int.neg_mul, Int.mul_comm ((x - k.lo) / 2 ^ k.bits)]
  omega

/-- C06, the remaining lexemes: without a digit after the optional sign the value is 0. -/
theorem C06_no_digits (k : IKind) (l : Bytes) (h : l = [] ∨ l = b!"-" ∨ ∃ b t, l = c!"-" :: b :: t ∧ ¬ (48 ≤ b ∧ b ≤ 57)) :
    (intOfText k l).val = 0 := by
  have hz : (CInt.cast k 0).val = 0 := by cases k <;> decide
  have : strtolScan l = none := by
    rcases h with rfl | rfl | ⟨b, t, rfl, hb⟩
    · decide
    · decide
    · rw [← isDigit_iff] at hb
      unfold strtolScan
      rw [List.dropWhile_cons_of_neg (by decide)]
      simp [hb]
  unfold intOfText strtol strtoul
  rw [this]
  split <;> exact hz

/-- Every number token falls under one of the two theorems above. -/
theorem C06_covers {l : Bytes} (h : SloppyNum l) :
    (∃ neg ds tail, l = signText neg ++ ds ++ tail ∧ Digits ds ∧ ∀ b, tail.head? = some b → ¬ (48 ≤ b ∧ b ≤ 57)) ∨
      (l = [] ∨ l = b!"-" ∨ ∃ b t, l = c!"-" :: b :: t ∧ ¬ (48 ≤ b ∧ b ≤ 57)) := by
  have run : ∀ (b : Byte) (t : Bytes), (48 ≤ b ∧ b ≤ 57) → ∃ ds tail, b :: t = ds ++ tail ∧ Digits ds ∧
      ∀ b, tail.head? = some b → ¬ (48 ≤ b ∧ b ≤ 57) := by
    intro b t hb
    refine ⟨(b :: t).takeWhile isDigit, (b :: t).dropWhile isDigit, List.takeWhile_append_dropWhile.symm, ⟨?_, ?_⟩, ?_⟩
    · rw [List.takeWhile_cons_of_pos ((isDigit_iff b).mpr hb)]; simp
    · intro x hx
      exact (isDigit_iff x).mp (List.all_eq_true.mp (List.all_takeWhile (l := b :: t) (p := isDigit)) x hx)
    · intro x hx
      have := List.head?_dropWhile_not isDigit (b :: t)
      rw [hx] at this
      rw [← isDigit_iff]
      simpa using this
  obtain ⟨⟨b, t, rfl, hb⟩, -⟩ := h
  rcases hb with rfl | hb
  · cases t with
    | nil => right; right; left; rfl
    | cons b t =>
      by_cases hb : 48 ≤ b ∧ b ≤ 57
      · left
        obtain ⟨ds, tail, h1, h2, h3⟩ := run b t hb
        exact ⟨true, ds, tail, by rw [h1]; rfl, h2, h3⟩
      · right; right; right; exact ⟨b, t, rfl, hb⟩
  · left
    obtain ⟨ds, tail, h1, h2, h3⟩ := run b t hb
    exact ⟨false, ds, tail, by rw [h1]; rfl, h2, h3⟩

/-- 2^31 wraps to -2^31 in an int32, 10^20 is clamped first, "1.9e3" is cut at the point, -1 becomes 2^32-1. -/
example : (intOfText .i32 b!"2147483648").val = -2147483648 ∧ (intOfText .i64 b!"100000000000000000000").val = 2 ^ 63 - 1 ∧
    (intOfText .i32 b!"1.9e3").val = 1 ∧ (intOfText .u32 b!"-1").val = 4294967295 := by decide +kernel

/-- C07, writing.  A finite value (sign, magnitude `m` in units of 2^-1074) is written as a sign, an integer part without
superfluous zeros, a point and six digits; the numeral read as an integer number of millionths is within half a
millionth of the value. -/
theorem C07_written_precision {k : FKind} (v : CFlt k) (neg : Bool) (m : Nat) (hv : v.val = .fin neg m) :
    ∃ ip fp, textOfFlt v = signText neg ++ ip ++ c!"." :: fp ∧ RfcInt ip ∧ Digits fp ∧ fp.length = 6 ∧
      2 * (digitsVal 0 (ip ++ fp) * 2 ^ 1074) ≤ 2 * (m * 10 ^ 6) + 2 ^ 1074 ∧
      2 * (m * 10 ^ 6) ≤ 2 * (digitsVal 0 (ip ++ fp) * 2 ^ 1074) + 2 ^ 1074 := by
  obtain ⟨x, hx⟩ := v
  simp only at hv
  subst hv
  refine ⟨decNat (mil m / 1000000), dec6 (mil m % 1000000), ?_, decNat_rfcInt _, ?_, dec6_length _, ?_⟩
  · rw [textOfFlt_fin, printfF_fin]
    cases neg
    · simp [signText, fixed6]
    · simp [signText, fixed6]
  · exact ⟨by simp [dec6], fun b hb => (isDigit_iff b).mp (dec6_digits _ b hb)⟩
  · have hval : digitsVal 0 (decNat (mil m / 1000000) ++ dec6 (mil m % 1000000)) = mil m := by
      unfold digitsVal
      rw [List.foldl_append]
      have h1 := decNat_val (mil m / 1000000)
      have h2 := dec6_val (digitsVal 0 (decNat (mil m / 1000000))) (q := mil m % 1000000) (by omega)
      unfold digitsVal at h1 h2
      rw [h2, h1]
      omega
    rw [hval]
    have := mil_bound m
    rw [unit_eq] at this
    exact this

theorem textOfFlt_norm {k : FKind} {neg : Bool} {m : Nat} {v : CFlt k} (hv : v.val = .fin neg m) :
    fltOfText k (textOfFlt v) = Prim.norm (.flt k) v := by
  obtain ⟨x, hx⟩ := v
  simp only at hv
  subst hv
  rw [textOfFlt_fin]
  rfl

/-- C07, exact multiples of a millionth are read back exactly. -/
theorem C07_millionths_exact {k : FKind} (v : CFlt k) (neg : Bool) (m j : Nat) (hv : v.val = .fin neg m)
    (hj : m * 10 ^ 6 = j * 2 ^ 1074) : fltOfText k (textOfFlt v) = v := by
  have hr : RepMag k m := by have := v.property; rw [hv] at this; exact this
  rw [textOfFlt_norm hv]
  apply norm_flt_eq hv
  rw [← unit_eq] at hj
  cases k with
  | f64 => exact read_exact hr.2 hj
  | f32 => exact read32_exact hr.2 hj

/-- C07, doubles of magnitude at least 2^33 are read back exactly. -/
theorem C07_big_exact (v : CFlt .f64) (neg : Bool) (m : Nat) (hv : v.val = .fin neg m) (hm : 2 ^ 33 * 2 ^ 1074 ≤ m) :
    fltOfText .f64 (textOfFlt v) = v := by
  have hr : RepMag .f64 m := by have := v.property; rw [hv] at this; exact this
  rw [textOfFlt_norm hv]
  apply norm_flt_eq hv
  rw [← unit_eq] at hm
  exact read_big64 hr.2 hm

/-- C07 for `float`: magnitudes of at least 16 are read back exactly. -/
theorem C07_float_exact (v : CFlt .f32) (neg : Bool) (m : Nat) (hv : v.val = .fin neg m) (hm : 2 ^ 4 * 2 ^ 1074 ≤ m) :
    fltOfText .f32 (textOfFlt v) = v := by
  have hr : RepMag .f32 m := by have := v.property; rw [hv] at this; exact this
  rw [textOfFlt_norm hv]
  apply norm_flt_eq hv
  rw [← unit_eq] at hm
  exact read_big32 hr.2 hm

/-- 1.5 is a multiple of a millionth; 2^53 is big; 2^-24 is neither, and is read back as 0. -/
example : textOfFlt (fltOfText .f64 b!"1.5") = b!"1.500000" ∧
    textOfFlt (fltOfText .f64 b!"9007199254740992") = b!"9007199254740992.000000" ∧
    textOfFlt (⟨.fin false (2 ^ 1050), by decide +kernel⟩ : CFlt .f64) = b!"0.000000" := by decide +kernel

/-- C08.  The buffer holds 319 characters and a terminator; the numeral of a finite value has at most 317, so that the
stored text is the whole numeral. -/
theorem C08_buffer_suffices {k : FKind} (v : CFlt k) (neg : Bool) (m : Nat) (hv : v.val = .fin neg m) :
    (printfF v.val).length ≤ 317 ∧ textOfFlt v = printfF v.val := by
  obtain ⟨x, hx⟩ := v
  simp only at hv
  subst hv
  exact ⟨printfF_length k neg m hx.1, textOfFlt_fin hx⟩

/-- The bound is attained by the most negative double. -/
example : (printfF (.fin true ((2 ^ 53 - 1) * 2 ^ 2045))).length = 317 ∧
    (Flt.fin true ((2 ^ 53 - 1) * 2 ^ 2045)).Rep .f64 := by decide +kernel

end PG
