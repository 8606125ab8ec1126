import Verif.Model.Num
import Verif.Spec.Json
/-
Decimal numerals: what `to_string` writes, `strtol`/`strtoul` read back.
-/
namespace PG

theorem byte_toNat {n : Nat} (h : n < 256) : (byte n).toNat = n := by
  unfold byte
  rw [UInt8.toNat_ofNat_of_lt' (by simpa using h)]

theorem isDigit_byte {d : Nat} (h : d < 10) : isDigit (byte (48 + d)) = true := by
  unfold isDigit
  simp only [Bool.and_eq_true, decide_eq_true_eq, UInt8.le_iff_toNat_le, byte_toNat (show 48 + d < 256 by omega)]
  have e1 : (48 : UInt8).toNat = 48 := rfl
  have e2 : (57 : UInt8).toNat = 57 := rfl
  omega

/-- Value of a digit sequence appended to `acc`. -/
def digitsVal (acc : Nat) (ds : Bytes) : Nat := ds.foldl (fun a b => a * 10 + (b.toNat - 48)) acc

theorem digitsVal_snoc (acc : Nat) (ds : Bytes) (b : Byte) :
    digitsVal acc (ds ++ [b]) = digitsVal acc ds * 10 + (b.toNat - 48) := by
  simp [digitsVal]

theorem decNat_lt {n : Nat} (h : n < 10) : decNat n = [byte (48 + n)] := by
  rw [decNat, if_pos h]

theorem decNat_ge {n : Nat} (h : 10 ≤ n) : decNat n = decNat (n / 10) ++ [byte (48 + n % 10)] := by
  rw [decNat, if_neg (by omega)]

theorem decNat_val (n : Nat) : digitsVal 0 (decNat n) = n := by
  induction n using Nat.strongRecOn with
  | ind n ih =>
    by_cases h : n < 10
    · rw [decNat_lt h]; simp [digitsVal, byte_toNat (show 48 + n < 256 by omega)]
    · rw [decNat_ge (by omega), digitsVal_snoc, ih (n / 10) (by omega), byte_toNat (by omega)]; omega

theorem decNat_digits (n : Nat) : ∀ b ∈ decNat n, isDigit b = true := by
  induction n using Nat.strongRecOn with
  | ind n ih =>
    by_cases h : n < 10
    · rw [decNat_lt h]; simp [isDigit_byte h]
    · rw [decNat_ge (by omega)]
      intro b hb
      rw [List.mem_append] at hb
      rcases hb with hb | hb
      · exact ih (n / 10) (by omega) b hb
      · rw [List.mem_singleton] at hb; subst hb; exact isDigit_byte (by omega)

theorem decNat_ne_nil (n : Nat) : decNat n ≠ [] := by
  by_cases h : n < 10
  · rw [decNat_lt h]; simp
  · rw [decNat_ge (by omega)]; simp

/-- No leading zero. -/
theorem decNat_head (n : Nat) (h : 0 < n) : ∃ d t, decNat n = d :: t ∧ isDigit d = true ∧ d ≠ 48 := by
  induction n using Nat.strongRecOn with
  | ind n ih =>
    by_cases h1 : n < 10
    · refine ⟨_, [], decNat_lt h1, isDigit_byte h1, ?_⟩
      intro he
      have := congrArg UInt8.toNat he
      rw [byte_toNat (by omega)] at this
      have e1 : (48 : UInt8).toNat = 48 := rfl
      omega
    · obtain ⟨d, t, h2, h3, h4⟩ := ih (n / 10) (by omega) (by omega)
      exact ⟨d, t ++ [byte (48 + n % 10)], by rw [decNat_ge (by omega), h2]; rfl, h3, h4⟩

theorem decNat_zero : decNat 0 = [48] := by rw [decNat_lt (by omega)]; rfl

theorem digitRun_run {ds rest : Bytes} (hd : ∀ b ∈ ds, isDigit b = true) (hr : ∀ b, rest.head? = some b → isDigit b = false)
    (acc : Nat) : digitRun (ds ++ rest) acc = (digitsVal acc ds, rest) := by
  induction ds generalizing acc with
  | nil =>
    cases rest with
    | nil => rfl
    | cons b t =>
      simp only [List.nil_append, digitRun, hr b rfl, digitsVal]
      rfl
  | cons b ds ih =>
    simp only [List.cons_append, digitRun, hd b (by simp), if_true]
    rw [ih (fun x hx => hd x (by simp [hx]))]
    rfl

theorem digit_toNat {b : Byte} (h : isDigit b = true) : 48 ≤ b.toNat ∧ b.toNat ≤ 57 := by
  unfold isDigit at h
  simp only [Bool.and_eq_true, decide_eq_true_eq, UInt8.le_iff_toNat_le] at h
  have e1 : (48 : UInt8).toNat = 48 := rfl
  have e2 : (57 : UInt8).toNat = 57 := rfl
  omega

theorem digit_not_space {b : Byte} (h : isDigit b = true) : isSpace b = false := by
  obtain ⟨h1, h2⟩ := digit_toNat h
  unfold isSpace
  have e1 : b ≠ 32 := by intro h; subst h; exact absurd h1 (by decide)
  have e2 : ¬ (b ≤ 13) := by rw [UInt8.le_iff_toNat_le]; have : (13 : UInt8).toNat = 13 := rfl; omega
  simp [e1, e2]

theorem digit_not_sign {b : Byte} (h : isDigit b = true) : b ≠ c!"-" ∧ b ≠ c!"+" := by
  obtain ⟨h1, h2⟩ := digit_toNat h
  constructor <;> (intro h; subst h; exact absurd h1 (by decide))

/-- `strtol`'s scan on a written integer. -/
theorem strtolScan_decInt (i : Int) : strtolScan (decInt i) = some (decide (i < 0), i.natAbs, []) := by
  have hd := decNat_digits i.natAbs
  have hv := decNat_val i.natAbs
  have hrun := digitRun_run (rest := []) hd (by simp) 0
  rw [List.append_nil, hv] at hrun
  obtain ⟨b, t, hbt⟩ := List.exists_cons_of_ne_nil (decNat_ne_nil i.natAbs)
  have hb : isDigit b = true := hd b (by rw [hbt]; simp)
  unfold strtolScan decInt
  by_cases hi : i < 0
  · rw [if_pos hi]
    have : List.dropWhile isSpace (c!"-" :: decNat i.natAbs) = c!"-" :: decNat i.natAbs := by
      rw [List.dropWhile_cons]; rfl
    rw [hbt] at hrun this
    simp only [hbt, this, if_true, hb, hrun, hi, decide_true]
  · rw [if_neg hi]
    have : List.dropWhile isSpace (decNat i.natAbs) = decNat i.natAbs := by
      rw [hbt, List.dropWhile_cons, digit_not_space hb]; rfl
    have hs := digit_not_sign hb
    rw [hbt] at hrun this
    simp only [hbt, this, hs.1, hs.2, if_false, hb, if_true, hrun, hi, decide_false]

theorem CInt.cast_val {k : IKind} (v : CInt k) : CInt.cast k v.val = v := by
  obtain ⟨x, h1, h2⟩ := v
  unfold CInt.cast
  congr 1
  unfold IKind.hi at h2
  show (x - k.lo) % 2 ^ k.bits + k.lo = x
  rw [Int.emod_eq_of_lt (by omega) (by omega)]
  omega

/-- Integers survive: reading what `to_string` wrote gives the value back. -/
theorem intOfText_textOfInt {k : IKind} (v : CInt k) : intOfText k (textOfInt v) = v := by
  have hv := CInt.cast_val v
  have h1 := v.lo_le
  have h2 := v.le_hi
  unfold intOfText textOfInt strtol strtoul
  rw [strtolScan_decInt]
  cases k <;> simp only [IKind.signed, if_true, IKind.lo, IKind.hi, IKind.bits] at h1 h2 ⊢
  · conv => rhs; rw [← hv]
    congr 1
    by_cases hneg : v.val < 0
    · simp only [hneg, decide_true, if_true]; omega
    · simp only [hneg, decide_false]; simp; omega
  · conv => rhs; rw [← hv]
    congr 1
    by_cases hneg : v.val < 0
    · simp only [hneg, decide_true, if_true]; omega
    · simp only [hneg, decide_false]; simp; omega
  all_goals
    conv => rhs; rw [← hv]
    simp only [Bool.false_eq_true, if_false]
    congr 1
    have hneg : ¬ v.val < 0 := by simp at h1; omega
    simp only [hneg, decide_false]
    simp at h2
    rw [if_neg (by omega)]
    simp; omega

theorem isDigit_iff (b : Byte) : isDigit b = true ↔ 48 ≤ b ∧ b ≤ 57 := by simp [isDigit]

theorem decNat_rfcInt (n : Nat) : RfcInt (decNat n) := by
  by_cases h : n = 0
  · subst h; left; exact decNat_zero
  · right
    refine ⟨⟨decNat_ne_nil n, fun b hb => (isDigit_iff b).mp (decNat_digits n b hb)⟩, ?_⟩
    obtain ⟨d, t, h1, h2, h3⟩ := decNat_head n (by omega)
    rw [h1]; simpa using h3

theorem decInt_rfcNum (i : Int) : RfcNum (decInt i) := by
  unfold decInt
  split
  · exact ⟨b!"-", decNat i.natAbs, [], [], by simp, .inr rfl, decNat_rfcInt _, .inl rfl, .inl rfl⟩
  · exact ⟨[], decNat i.natAbs, [], [], by simp, .inl rfl, decNat_rfcInt _, .inl rfl, .inl rfl⟩

theorem numByte_digit {b : Byte} (h : 48 ≤ b ∧ b ≤ 57) : numByte b = true := by
  unfold numByte; simp [h.1, h.2]

/-- RFC numbers are accepted by the wide grammar. -/
theorem RfcNum.sloppy {l : Bytes} (h : RfcNum l) : SloppyNum l := by
  obtain ⟨sign, int, frac, exp, rfl, hs, hi, hf, he⟩ := h
  have hint : int ≠ [] ∧ ∀ b ∈ int, 48 ≤ b ∧ b ≤ 57 := by
    rcases hi with rfl | ⟨h, -⟩
    · decide
    · exact h
  constructor
  · rcases hs with rfl | rfl
    · obtain ⟨b, t, rfl⟩ := List.exists_cons_of_ne_nil hint.1
      exact ⟨b, t ++ frac ++ exp, by simp, .inr (hint.2 b (by simp))⟩
    · exact ⟨c!"-", int ++ frac ++ exp, by simp, .inl rfl⟩
  · intro b hb
    simp only [List.mem_append] at hb
    rcases hb with ((hb | hb) | hb) | hb
    · rcases hs with rfl | rfl
      · simp at hb
      · simp at hb; subst hb; decide
    · exact numByte_digit (hint.2 b hb)
    · rcases hf with rfl | ⟨ds, hd, rfl⟩
      · simp at hb
      · simp at hb
        rcases hb with rfl | hb
        · decide
        · exact numByte_digit (hd.2 b hb)
    · rcases he with rfl | ⟨e, s, ds, h1, h2, h3, rfl⟩
      · simp at hb
      · simp at hb
        rcases hb with rfl | hb | hb
        · rcases h1 with rfl | rfl <;> decide
        · rcases h2 with rfl | rfl | rfl <;> simp at hb <;> subst hb <;> decide
        · exact numByte_digit (h3.2 b hb)

end PG
