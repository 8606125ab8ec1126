import Verif.Proofs.NumText
import Verif.Model.Flt
/-
The text of floating point values: shape, length, and what `strtod` makes of it.
-/
set_option autoImplicit false
set_option exponentiation.threshold 3000
namespace PG

theorem decNat_length {n k : Nat} (hk : 1 ≤ k) (h : n < 10 ^ k) : (decNat n).length ≤ k := by
  induction k generalizing n with
  | zero => omega
  | succ k ih =>
    by_cases h1 : n < 10
    · rw [decNat_lt h1]; simp
    · rw [decNat_ge (by omega)]
      have : 1 ≤ k := by
        cases k with
        | zero => simp at h; omega
        | succ k => omega
      have := ih (n := n / 10) this (by rw [Nat.div_lt_iff_lt_mul (by omega)]; rw [Nat.pow_succ] at h; exact h)
      simp; omega

theorem dec6_length (q : Nat) : (dec6 q).length = 6 := rfl

theorem dec6_digits (q : Nat) : ∀ b ∈ dec6 q, isDigit b = true := by
  intro b hb
  simp only [dec6, List.mem_cons, List.not_mem_nil, or_false] at hb
  rcases hb with rfl | rfl | rfl | rfl | rfl | rfl <;> exact isDigit_byte (by omega)

theorem dec6_val (acc : Nat) {q : Nat} (h : q < 1000000) : digitsVal acc (dec6 q) = acc * 1000000 + q := by
  simp only [digitsVal, dec6, List.foldl]
  repeat rw [byte_toNat (by omega)]
  omega

theorem fixed6_rfcNum (neg : Bool) (q : Nat) : RfcNum (if neg then c!"-" :: fixed6 q else fixed6 q) := by
  have hf : Digits (dec6 (q % 1000000)) := ⟨by simp [dec6], fun b hb => (isDigit_iff b).mp (dec6_digits _ b hb)⟩
  cases neg
  · exact ⟨[], decNat (q / 1000000), c!"." :: dec6 (q % 1000000), [], by simp [fixed6], .inl rfl, decNat_rfcInt _,
      .inr ⟨_, hf, rfl⟩, .inl rfl⟩
  · exact ⟨b!"-", decNat (q / 1000000), c!"." :: dec6 (q % 1000000), [], by simp [fixed6], .inr rfl, decNat_rfcInt _,
      .inr ⟨_, hf, rfl⟩, .inl rfl⟩

/-- `strtod` reads back exactly the number of millionths that was printed. -/
theorem strtod_fixed6 (neg : Bool) (q : Nat) :
    strtod (if neg then c!"-" :: fixed6 q else fixed6 q) = decToFlt neg q (-6) := by
  have hd := decNat_digits (q / 1000000)
  have hv := decNat_val (q / 1000000)
  obtain ⟨b, t, hbt⟩ := List.exists_cons_of_ne_nil (decNat_ne_nil (q / 1000000))
  have hb : isDigit b = true := hd b (by rw [hbt]; simp)
  have hs := digit_not_sign hb
  have hsign : scanSign (if neg then c!"-" :: fixed6 q else fixed6 q) = (neg, fixed6 q) := by
    cases neg
    · simp only [Bool.false_eq_true, if_false]
      unfold fixed6
      rw [hbt]
      simp [scanSign, hs.1, hs.2]
    · simp [scanSign]
  have hrun : digitRun (fixed6 q) 0 = (q / 1000000, c!"." :: dec6 (q % 1000000)) := by
    unfold fixed6
    rw [digitRun_run hd (by intro x hx; simp at hx; subst hx; decide), hv]
  have hrun2 := digitRun_run (rest := []) (dec6_digits (q % 1000000)) (by simp) (q / 1000000)
  rw [List.append_nil, dec6_val _ (by omega)] at hrun2
  have hl := dec6_length (q % 1000000)
  unfold strtod
  simp only [hsign, hrun, scanFrac, if_true, hrun2, hl, List.length_nil, scanExp]
  rw [if_neg (by omega)]
  congr 1
  omega

theorem signed_length (neg : Bool) {q : Nat} (h : q / 1000000 < 10 ^ 309) :
    (if neg then c!"-" :: fixed6 q else fixed6 q).length ≤ 317 := by
  have h4 := decNat_length (k := 309) (Nat.le_add_left 1 308) h
  have h5 : (fixed6 q).length ≤ 316 := by
    unfold fixed6
    rw [List.length_append, List.length_cons, dec6_length]
    exact Nat.add_le_add_right h4 7
  split
  · exact Nat.succ_le_succ h5
  · exact Nat.le_succ_of_le h5

/-- Finite values fit in the conversion buffer of json-number.hh:77-80. -/
theorem printfF_length (k : FKind) (neg : Bool) (m : Nat) (h : m < 2 ^ k.top) : (printfF (.fin neg m)).length ≤ 317 := by
  have ht : k.top ≤ 2098 := by cases k <;> decide
  have hm : m < 2 ^ 2098 := Nat.lt_of_lt_of_le h (Nat.pow_le_pow_right Nat.two_pos ht)
  have h1 : m * 1000000 / 2 ^ 1074 < 2 ^ 1024 * 1000000 := by
    rw [Nat.div_lt_iff_lt_mul (Nat.two_pow_pos _)]
    calc m * 1000000 < 2 ^ 2098 * 1000000 := Nat.mul_lt_mul_of_pos_right hm (by omega)
      _ = 2 ^ 1024 * 1000000 * 2 ^ 1074 := by decide +kernel
  have h2 := rhe_le (m * 1000000) (2 ^ 1074)
  have h3 : rhe (m * 1000000) (2 ^ 1074) / 1000000 < 10 ^ 309 := by
    rw [Nat.div_lt_iff_lt_mul (by omega)]
    have : 2 ^ 1024 * 1000000 < 10 ^ 309 * 1000000 := by decide +kernel
    omega
  have h4 := signed_length neg h3
  unfold printfF
  exact h4

theorem textOfFlt_fin {k : FKind} {neg : Bool} {m : Nat} (h : (Flt.fin neg m).Rep k) :
    textOfFlt (⟨.fin neg m, h⟩ : CFlt k) = printfF (.fin neg m) := by
  show (printfF (.fin neg m)).take 318 = _
  rw [List.take_of_length_le]
  have := printfF_length k neg m h.1
  omega

end PG
