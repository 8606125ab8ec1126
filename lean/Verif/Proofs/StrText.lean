import Verif.Model.JStr
import Verif.Spec.Utf8
import Verif.Proofs.NumText
/-
What the string writer emits is a string of the JSON grammar with the written bytes as its content.
-/
namespace PG

/-- The bytes `write` replaces by a two-character escape. -/
def hasShort (b : Byte) : Bool := b == c!"\"" || b == c!"\\" || b == c!"/" || b == 8 || b == 12 || b == 13 || b == 10 || b == 9

theorem escByte_chars {raw : Byte → Prop} {uni : Nat → Prop} (b : Byte) (hb : hasShort b = false → raw b) {t c : Bytes}
    (h : StrChars raw uni t c) : StrChars raw uni (escByte b ++ t) (b :: c) := by
  unfold escByte
  split
  · subst_vars; exact .esc (by decide) h
  split
  · subst_vars; exact .esc (by decide) h
  split
  · subst_vars; exact .esc (by decide) h
  split
  · subst_vars; exact .esc (by decide) h
  split
  · subst_vars; exact .esc (by decide) h
  split
  · subst_vars; exact .esc (by decide) h
  split
  · subst_vars; exact .esc (by decide) h
  split
  · subst_vars; exact .esc (by decide) h
  · refine .raw (hb ?_) h
    simp [hasShort, *]

theorem strBody_raw {raw : Byte → Prop} {uni : Nat → Prop} (s : Bytes) (hs : ∀ b ∈ s, hasShort b = false → raw b) :
    (strBody false s).2 = true ∧ StrChars raw uni (strBody false s).1 s := by
  induction s with
  | nil => simp [strBody]; exact .nil
  | cons b t ih =>
    have ih := ih (fun x hx => hs x (by simp [hx]))
    have hb := hs b (by simp)
    by_cases h : b ≤ 0x7F
    · rw [strBody.eq_def]
      simp only [h, if_true]
      exact ⟨ih.1, escByte_chars b hb ih.2⟩
    · rw [strBody.eq_def]
      simp only [h, if_false, Bool.not_false, if_true]
      refine ⟨ih.1, .raw (hb ?_) ih.2⟩
      have h' : ¬ b.toNat ≤ 127 := by rw [UInt8.le_iff_toNat_le] at h; exact h
      simp only [hasShort, Bool.or_eq_false_iff, beq_eq_false_iff_ne, ne_eq]
      refine ⟨⟨⟨⟨⟨⟨⟨?_, ?_⟩, ?_⟩, ?_⟩, ?_⟩, ?_⟩, ?_⟩, ?_⟩ <;> (intro he; subst he; exact h' (by decide))

theorem hexDigit_low {d : Nat} (h : d < 16) : HexDigit (hexLow d) d := by
  unfold hexLow HexDigit
  split
  · left
    rw [UInt8.le_iff_toNat_le, UInt8.le_iff_toNat_le, byte_toNat (by omega)]
    have e1 : (48 : UInt8).toNat = 48 := rfl
    have e2 : (57 : UInt8).toNat = 57 := rfl
    omega
  · right; right
    rw [UInt8.le_iff_toNat_le, UInt8.le_iff_toNat_le, byte_toNat (by omega)]
    have e1 : (97 : UInt8).toNat = 97 := rfl
    have e2 : (102 : UInt8).toNat = 102 := rfl
    omega

theorem hex04_eq {n : Nat} (h : n < 65536) :
    hex04 n = [hexLow (n / 4096), hexLow (n / 256 % 16), hexLow (n / 16 % 16), hexLow (n % 16)] := by
  have h0 : (48 : UInt8) = hexLow 0 := rfl
  unfold hex04
  rw [hexNat]
  by_cases h1 : n < 16
  · rw [if_pos h1]
    rw [show n / 4096 = 0 by omega, show n / 256 % 16 = 0 by omega, show n / 16 % 16 = 0 by omega,
      show n % 16 = n by omega]
    rfl
  · rw [if_neg h1, hexNat]
    by_cases h2 : n / 16 < 16
    · rw [if_pos h2]
      rw [show n / 4096 = 0 by omega, show n / 256 % 16 = 0 by omega, show n / 16 % 16 = n / 16 by omega]
      rfl
    · rw [if_neg h2, hexNat]
      by_cases h3 : n / 16 / 16 < 16
      · rw [if_pos h3]
        rw [show n / 4096 = 0 by omega, show n / 256 % 16 = n / 16 / 16 by omega]
        rfl
      · rw [if_neg h3, hexNat, if_pos (by omega)]
        rw [show n / 4096 = n / 16 / 16 / 16 by omega, show n / 256 % 16 = n / 16 / 16 % 16 by omega]
        rfl

theorem hex04_hex4 {n : Nat} (h : n < 65536) : Hex4 (hex04 n) n := by
  rw [hex04_eq h]
  exact ⟨_, _, _, _, _, _, _, _, rfl, hexDigit_low (by omega), hexDigit_low (by omega), hexDigit_low (by omega),
    hexDigit_low (by omega), by omega⟩

theorem escU_eq {n : Nat} (h : n < 65536) : escU n = c!"\\" :: c!"u" :: hex04 n := by
  unfold escU
  rw [hex04_eq h]
  rfl

theorem or_shl {x y k : Nat} (h : y < 2 ^ k) : (x <<< k) ||| y = x * 2 ^ k + y := by
  rw [Nat.shiftLeft_eq, Nat.mul_comm]; exact (Nat.two_pow_add_eq_or_of_lt h x).symm

theorem cont_byte {y : Nat} (h : y < 64) : isCont (byte (0x80 + y)) = true ∧ (byte (0x80 + y)).toNat &&& 0x3F = y := by
  unfold isCont
  rw [byte_toNat (by omega)]
  revert y; decide

theorem not_le_of {b : Byte} {n : Nat} (m : Nat) (hb : b.toNat = n) (h : m < n) (hm : m < 256) : ¬ b ≤ UInt8.ofNat m := by
  rw [UInt8.le_iff_toNat_le, hb, UInt8.toNat_ofNat_of_lt' (by simpa using hm)]; omega

/-- The escaped form of a scalar value. -/
def escScalar (cp : Nat) : Bytes :=
  if cp < 0x80 then escByte (byte cp)
  else if cp < 0x10000 then escU cp
  else escU (0xD800 + (cp - 0x10000) / 0x400) ++ escU (0xDC00 + cp % 0x400)

theorem strBody_scalar {cp : Nat} (h : Scalar cp) (t : Bytes) :
    strBody true (utf8 cp ++ t) = (escScalar cp ++ (strBody true t).1, (strBody true t).2) := by
  unfold utf8 escScalar
  by_cases h1 : cp < 0x80
  · rw [if_pos h1, if_pos h1]
    simp only [List.cons_append, List.nil_append]
    rw [strBody.eq_def]
    simp only
    rw [if_pos]
    · rfl
    · have : (UInt8.ofNat cp).toNat = cp := byte_toNat (by omega)
      rw [UInt8.le_iff_toNat_le, this]
      have : (127 : UInt8).toNat = 127 := rfl
      omega
  rw [if_neg h1, if_neg h1]
  have ge {b : Byte} {n : Nat} (m : Nat) (hb : b.toNat = n) (h : m ≤ n) (hm : m < 256) : decide (UInt8.ofNat m ≤ b) = true := by
    rw [decide_eq_true_eq, UInt8.le_iff_toNat_le, hb, UInt8.toNat_ofNat_of_lt' (by simpa using hm)]; exact h
  have le {b : Byte} {n : Nat} (m : Nat) (hb : b.toNat = n) (h : n ≤ m) (hm : m < 256) : decide (b ≤ UInt8.ofNat m) = true := by
    rw [decide_eq_true_eq, UInt8.le_iff_toNat_le, hb, UInt8.toNat_ofNat_of_lt' (by simpa using hm)]; exact h
  by_cases h2 : cp < 0x800
  · rw [if_pos h2, if_pos (by omega)]
    simp only [List.cons_append, List.nil_append]
    have hb1 : (UInt8.ofNat (0xC0 + cp / 64)).toNat = 0xC0 + cp / 64 := byte_toNat (by omega)
    obtain ⟨c1, c2⟩ := cont_byte (y := cp % 64) (by omega)
    rw [strBody.eq_def]
    simp only
    have e0 : ¬ _ ≤ (0x7F : UInt8) := not_le_of 0x7F hb1 (by omega) (by omega)
    rw [if_neg e0]
    simp only [Bool.not_true, Bool.false_eq_true, if_false]
    have e1 : decide ((192 : UInt8) ≤ UInt8.ofNat (0xC0 + cp / 64)) = true := ge 192 hb1 (by omega) (by omega)
    have e2 : decide (UInt8.ofNat (0xC0 + cp / 64) ≤ (0xDF : UInt8)) = true := le 0xDF hb1 (by omega) (by omega)
    have e3 : isCont (UInt8.ofNat (128 + cp % 64)) = true := c1
    have e4 : (UInt8.ofNat (128 + cp % 64)).toNat &&& 0x3F = cp % 64 := c2
    have e5 : (0xC0 + cp / 64) &&& 0x1F = cp / 64 := by
      rw [show (0x1F : Nat) = 2 ^ 5 - 1 from rfl, Nat.and_two_pow_sub_one_eq_mod]; omega
    rw [if_pos (by rw [e1, e2, e3]; rfl), hb1, e5, e4, or_shl (by omega)]
    rw [show cp / 64 * 2 ^ 6 + cp % 64 = cp by omega]
  rw [if_neg h2]
  by_cases h3 : cp < 0x10000
  · rw [if_pos h3, if_pos h3]
    simp only [List.cons_append, List.nil_append]
    have hb1 : (UInt8.ofNat (0xE0 + cp / 4096)).toNat = 0xE0 + cp / 4096 := byte_toNat (by omega)
    obtain ⟨c1, c2⟩ := cont_byte (y := cp % 64) (by omega)
    obtain ⟨c3, c4⟩ := cont_byte (y := cp / 64 % 64) (by omega)
    have e2 : decide (UInt8.ofNat (0xE0 + cp / 4096) ≤ (0xDF : UInt8)) = false := by
      simpa using not_le_of 0xDF hb1 (by omega) (by omega)
    have e1 : decide ((0xE0 : UInt8) ≤ UInt8.ofNat (0xE0 + cp / 4096)) = true := ge 0xE0 hb1 (by omega) (by omega)
    have e1' : decide (UInt8.ofNat (0xE0 + cp / 4096) ≤ (0xEF : UInt8)) = true := le 0xEF hb1 (by omega) (by omega)
    have e3 : isCont (UInt8.ofNat (128 + cp % 64)) = true := c1
    have e3' : isCont (UInt8.ofNat (128 + cp / 64 % 64)) = true := c3
    have e4 : (UInt8.ofNat (128 + cp % 64)).toNat &&& 0x3F = cp % 64 := c2
    have e4' : (UInt8.ofNat (128 + cp / 64 % 64)).toNat &&& 0x3F = cp / 64 % 64 := c4
    have e5 : (0xE0 + cp / 4096) &&& 0x0F = cp / 4096 := by
      rw [show (0x0F : Nat) = 2 ^ 4 - 1 from rfl, Nat.and_two_pow_sub_one_eq_mod]; omega
    rw [strBody.eq_def]
    simp only
    have e0 : ¬ _ ≤ (0x7F : UInt8) := not_le_of 0x7F hb1 (by omega) (by omega)
    rw [if_neg e0]
    simp only [Bool.not_true, Bool.false_eq_true, if_false]
    rw [if_neg (by rw [e2]; simp), if_pos (by rw [e1, e1', e3, e3']; rfl), hb1, e5, e4, e4']
    rw [Nat.or_assoc, or_shl (k := 6) (by omega), or_shl (k := 12) (by omega)]
    rw [show cp / 4096 * 2 ^ 12 + (cp / 64 % 64 * 2 ^ 6 + cp % 64) = cp by omega]
  · have h4 : cp ≤ 0x10FFFF := by unfold Scalar at h; omega
    rw [if_neg h3, if_neg h3]
    simp only [List.cons_append, List.nil_append]
    have hb1 : (UInt8.ofNat (0xF0 + cp / 262144)).toNat = 0xF0 + cp / 262144 := byte_toNat (by omega)
    obtain ⟨c1, c2⟩ := cont_byte (y := cp % 64) (by omega)
    obtain ⟨c3, c4⟩ := cont_byte (y := cp / 64 % 64) (by omega)
    obtain ⟨c5, c6⟩ := cont_byte (y := cp / 4096 % 64) (by omega)
    have e2 : decide (UInt8.ofNat (0xF0 + cp / 262144) ≤ (0xDF : UInt8)) = false := by
      simpa using not_le_of 0xDF hb1 (by omega) (by omega)
    have e2' : decide (UInt8.ofNat (0xF0 + cp / 262144) ≤ (0xEF : UInt8)) = false := by
      simpa using not_le_of 0xEF hb1 (by omega) (by omega)
    have e1 : decide ((0xF0 : UInt8) ≤ UInt8.ofNat (0xF0 + cp / 262144)) = true := ge 0xF0 hb1 (by omega) (by omega)
    have e1' : decide (UInt8.ofNat (0xF0 + cp / 262144) ≤ (0xF4 : UInt8)) = true := le 0xF4 hb1 (by omega) (by omega)
    have e3 : isCont (UInt8.ofNat (128 + cp % 64)) = true := c1
    have e3' : isCont (UInt8.ofNat (128 + cp / 64 % 64)) = true := c3
    have e3'' : isCont (UInt8.ofNat (128 + cp / 4096 % 64)) = true := c5
    have e4 : (UInt8.ofNat (128 + cp % 64)).toNat &&& 0x3F = cp % 64 := c2
    have e4' : (UInt8.ofNat (128 + cp / 64 % 64)).toNat &&& 0x3F = cp / 64 % 64 := c4
    have e4'' : (UInt8.ofNat (128 + cp / 4096 % 64)).toNat &&& 0x3F = cp / 4096 % 64 := c6
    have e5 : (0xF0 + cp / 262144) &&& 0x07 = cp / 262144 := by
      rw [show (0x07 : Nat) = 2 ^ 3 - 1 from rfl, Nat.and_two_pow_sub_one_eq_mod]; omega
    rw [strBody.eq_def]
    simp only
    have e0 : ¬ _ ≤ (0x7F : UInt8) := not_le_of 0x7F hb1 (by omega) (by omega)
    rw [if_neg e0]
    simp only [Bool.not_true, Bool.false_eq_true, if_false]
    rw [if_neg (by rw [e2]; simp), if_neg (by rw [e2']; simp), if_pos (by rw [e1, e1', e3, e3', e3'']; rfl), hb1, e5, e4,
      e4', e4'']
    rw [Nat.or_assoc, Nat.or_assoc, or_shl (k := 6) (by omega), or_shl (k := 12) (by omega), or_shl (k := 18) (by omega)]
    rw [show cp / 262144 * 2 ^ 18 + (cp / 4096 % 64 * 2 ^ 12 + (cp / 64 % 64 * 2 ^ 6 + cp % 64)) = cp by omega]
    have e6 : cp &&& 0x3FF = cp % 0x400 := Nat.and_two_pow_sub_one_eq_mod cp 10
    rw [e6, Nat.shiftRight_eq_div_pow, Nat.shiftRight_eq_div_pow]
    rw [show 0xD800 - 0x10000 / 2 ^ 10 + cp / 2 ^ 10 = 0xD800 + (cp - 0x10000) / 0x400 by omega]

theorem surrogates {cp hi lo : Nat} (h : 0x10000 ≤ cp) (h4 : cp ≤ 0x10FFFF) (ehi : hi = 0xD800 + (cp - 0x10000) / 0x400)
    (elo : lo = 0xDC00 + cp % 0x400) : 0xD800 ≤ hi ∧ hi ≤ 0xDBFF ∧ 0xDC00 ≤ lo ∧ lo ≤ 0xDFFF ∧ 
    0x10000 + (hi - 0xD800) * 0x400 + (lo - 0xDC00) = cp := by omega

theorem pair_chars {raw : Byte → Prop} {uni : Nat → Prop} {cp : Nat} (h : 0x10000 ≤ cp) (h4 : cp ≤ 0x10FFFF) {t c : Bytes}
    (ht : StrChars raw uni t c) :
    StrChars raw uni (c!"\\" :: c!"u" :: (hex04 (0xD800 + (cp - 0x10000) / 0x400) ++
      c!"\\" :: c!"u" :: (hex04 (0xDC00 + cp % 0x400) ++ t))) (utf8 cp ++ c) := by
  generalize ehi : 0xD800 + (cp - 0x10000) / 0x400 = hi
  generalize elo : 0xDC00 + cp % 0x400 = lo
  obtain ⟨a1, a2, a3, a4, a5⟩ := surrogates h h4 ehi.symm elo.symm
  have := StrChars.pair (raw := raw) (uni := uni) (hex04_hex4 (n := hi) (by omega)) (hex04_hex4 (n := lo) (by omega)) a1 a2 a3
    a4 ht
  rw [a5] at this
  exact this

theorem pair_text {cp : Nat} (h : 0x10000 ≤ cp) (h4 : cp ≤ 0x10FFFF) (t : Bytes) :
    escScalar cp ++ t = c!"\\" :: c!"u" :: (hex04 (0xD800 + (cp - 0x10000) / 0x400) ++
      c!"\\" :: c!"u" :: (hex04 (0xDC00 + cp % 0x400) ++ t)) := by
  have b1 : ¬ cp < 0x80 := by omega
  have b2 : ¬ cp < 0x10000 := by omega
  have b3 : 0xD800 + (cp - 0x10000) / 0x400 < 65536 := by omega
  have b4 : 0xDC00 + cp % 0x400 < 65536 := by omega
  unfold escScalar
  rw [if_neg b1, if_neg b2, escU_eq b3, escU_eq b4, List.append_assoc, List.cons_append, List.cons_append, List.cons_append, List.cons_append]

theorem escScalar_chars {raw : Byte → Prop} {uni : Nat → Prop} {cp : Nat} (hs : Scalar cp)
    (hraw : cp < 0x80 → hasShort (byte cp) = false → raw (byte cp))
    (huni : 0x80 ≤ cp → cp < 0x10000 → uni cp) {t c : Bytes} (ht : StrChars raw uni t c) :
    StrChars raw uni (escScalar cp ++ t) (utf8 cp ++ c) := by
  by_cases h1 : cp < 0x80
  · have : utf8 cp = [byte cp] := by unfold utf8; rw [if_pos h1]; rfl
    rw [this]
    unfold escScalar
    rw [if_pos h1]
    exact escByte_chars _ (hraw h1) ht
  by_cases h2 : cp < 0x10000
  · unfold escScalar
    rw [if_neg h1, if_pos h2, escU_eq (by omega)]
    exact .uni (hex04_hex4 (by omega)) (by unfold Scalar at hs; omega) (huni (by omega) h2) ht
  · have h4 : cp ≤ 0x10FFFF := by unfold Scalar at hs; omega
    rw [pair_text (by omega) h4]
    exact pair_chars (by omega) h4 ht

/-- Strings written with `ensure_ascii`. -/
theorem strBody_ascii {raw : Byte → Prop} {uni : Nat → Prop} (cps : List Nat) (hc : ∀ cp ∈ cps, Scalar cp)
    (hraw : ∀ cp ∈ cps, cp < 0x80 → hasShort (byte cp) = false → raw (byte cp))
    (huni : ∀ cp ∈ cps, 0x80 ≤ cp → cp < 0x10000 → uni cp) :
    (strBody true (utf8All cps)).2 = true ∧ StrChars raw uni (strBody true (utf8All cps)).1 (utf8All cps) := by
  induction cps with
  | nil => simp [utf8All, strBody]; exact .nil
  | cons cp t ih =>
    obtain ⟨ih1, ih2⟩ := ih (fun x hx => hc x (by simp [hx])) (fun x hx => hraw x (by simp [hx]))
      (fun x hx => huni x (by simp [hx]))
    have hs := hc cp (by simp)
    have e : utf8All (cp :: t) = utf8 cp ++ utf8All t := by simp [utf8All]
    rw [e, strBody_scalar hs]
    exact ⟨ih1, escScalar_chars hs (hraw cp (by simp)) (huni cp (by simp)) ih2⟩

theorem hexLow_ascii {d : Nat} (h : d < 16) : hexLow d < 0x80 := by
  rw [UInt8.lt_iff_toNat_lt]
  have : (128 : UInt8).toNat = 128 := rfl
  unfold hexLow; split <;> rw [byte_toNat (by omega)] <;> omega

end PG
