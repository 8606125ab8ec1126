import Verif.Model.JStr
import Verif.Spec.Base64
import Verif.Spec.Json
import Verif.Proofs.StrText
/-
The base64 writer conforms to RFC 4648 and the reader inverts it.
-/
set_option autoImplicit false
namespace PG

theorem b64Sym_char {n : Nat} (h : n < 64) : b64Sym n = b64Char n := by revert n; decide

theorem b64Int_sym {n : Nat} (h : n < 64) : b64Int (b64Sym n) = n ∧ b64Sym n ≠ 0 := by revert n; decide +kernel

theorem b64_and {x k : Nat} : x &&& (2 ^ k - 1) = x % 2 ^ k := Nat.and_two_pow_sub_one_eq_mod x k

theorem b64_a (a : Byte) : (a.toNat &&& 0xFF) >>> 2 = a.toNat / 4 := by
  have := a.toNat_lt
  rw [show (0xFF : Nat) = 2 ^ 8 - 1 from rfl, b64_and, Nat.shiftRight_eq_div_pow]
  omega

theorem b64_hi4 (b : Byte) : (b.toNat &&& 0xF0) >>> 4 = b.toNat / 16 := by
  have : ∀ x < 256, (x &&& 0xF0) >>> 4 = x / 16 := by decide +kernel
  exact this _ b.toNat_lt

theorem b64_hi2 (b : Byte) : (b.toNat &&& 0xC0) >>> 6 = b.toNat / 64 := by
  have : ∀ x < 256, (x &&& 0xC0) >>> 6 = x / 64 := by decide +kernel
  exact this _ b.toNat_lt

theorem b64_ab (a b : Byte) : ((a.toNat &&& 0x03) <<< 4) ||| ((b.toNat &&& 0xF0) >>> 4) = a.toNat % 4 * 16 + b.toNat / 16 := by
  have := b.toNat_lt
  rw [b64_hi4, or_shl (by omega), show (0x03 : Nat) = 2 ^ 2 - 1 from rfl, b64_and]

theorem b64_bc (b c : Byte) : ((b.toNat &&& 0x0F) <<< 2) ||| ((c.toNat &&& 0xC0) >>> 6) = b.toNat % 16 * 4 + c.toNat / 64 := by
  have := c.toNat_lt
  rw [b64_hi2, or_shl (by omega), show (0x0F : Nat) = 2 ^ 4 - 1 from rfl, b64_and]

theorem b64_c (c : Byte) : c.toNat &&& 0x3F = c.toNat % 64 := by
  rw [show (0x3F : Nat) = 2 ^ 6 - 1 from rfl, b64_and]

theorem b64_a0 (a : Byte) : (a.toNat &&& 0x03) <<< 4 = a.toNat % 4 * 16 := by
  rw [show (0x03 : Nat) = 2 ^ 2 - 1 from rfl, b64_and, Nat.shiftLeft_eq]

theorem b64_b0 (a : Byte) : (a.toNat &&& 0x0F) <<< 2 = a.toNat % 16 * 4 := by
  rw [show (0x0F : Nat) = 2 ^ 4 - 1 from rfl, b64_and, Nat.shiftLeft_eq]

/-- The writer's text is the RFC 4648 encoding. -/
theorem b64Enc_eq : (v : Bytes) → b64Enc v = base64 v
  | [] => rfl
  | [a] => by
    have := a.toNat_lt
    simp only [b64Enc, base64]
    rw [b64_a, b64_a0, b64Sym_char (by omega), b64Sym_char (by omega)]
    rw [show a.toNat * 65536 / 262144 = a.toNat / 4 by omega, show a.toNat * 65536 / 4096 % 64 = a.toNat % 4 * 16 by omega]
  | [a, b] => by
    have := a.toNat_lt
    have := b.toNat_lt
    simp only [b64Enc, base64]
    rw [b64_a, b64_ab, b64_b0, b64Sym_char (by omega), b64Sym_char (by omega), b64Sym_char (by omega)]
    rw [show (a.toNat * 65536 + b.toNat * 256) / 262144 = a.toNat / 4 by omega,
      show (a.toNat * 65536 + b.toNat * 256) / 4096 % 64 = a.toNat % 4 * 16 + b.toNat / 16 by omega,
      show (a.toNat * 65536 + b.toNat * 256) / 64 % 64 = b.toNat % 16 * 4 by omega]
  | a :: b :: c :: t => by
    have := a.toNat_lt
    have := b.toNat_lt
    have := c.toNat_lt
    simp only [b64Enc, base64]
    rw [b64_a, b64_ab, b64_bc, b64_c, b64Sym_char (by omega), b64Sym_char (by omega), b64Sym_char (by omega),
      b64Sym_char (by omega), b64Enc_eq t]
    rw [show (a.toNat * 65536 + b.toNat * 256 + c.toNat) / 262144 = a.toNat / 4 by omega,
      show (a.toNat * 65536 + b.toNat * 256 + c.toNat) / 4096 % 64 = a.toNat % 4 * 16 + b.toNat / 16 by omega,
      show (a.toNat * 65536 + b.toNat * 256 + c.toNat) / 64 % 64 = b.toNat % 16 * 4 + c.toNat / 64 by omega,
      show (a.toNat * 65536 + b.toNat * 256 + c.toNat) % 64 = c.toNat % 64 by omega]

theorem b64_d1 (x y : Nat) (hx : x < 64) (hy : y < 64) :
    ((x &&& 0xFF) <<< 2) ||| ((y &&& 0x30) >>> 4) = x * 4 + y / 16 := by
  have e : ∀ z < 64, (z &&& 0x30) >>> 4 = z / 16 := by decide +kernel
  rw [e y hy, or_shl (by omega), show (0xFF : Nat) = 2 ^ 8 - 1 from rfl, b64_and]
  omega

theorem b64_d2 (x y : Nat) (hy : y < 64) :
    ((x &&& 0x0F) <<< 4) ||| ((y &&& 0x3C) >>> 2) = x % 16 * 16 + y / 4 := by
  have e : ∀ z < 64, (z &&& 0x3C) >>> 2 = z / 4 := by decide +kernel
  rw [e y hy, or_shl (by omega), show (0x0F : Nat) = 2 ^ 4 - 1 from rfl, b64_and]

theorem b64_d3 (x y : Nat) (hy : y < 64) : ((x &&& 0x03) <<< 6) ||| y = x % 4 * 64 + y := by
  rw [or_shl (by omega), show (0x03 : Nat) = 2 ^ 2 - 1 from rfl, b64_and]

theorem byte_of_toNat (a : Byte) {n : Nat} (h : n = a.toNat) : byte n = a := by
  subst h; exact UInt8.ofNat_toNat

theorem b64Dec_step {w x y z : Byte} {t : Bytes} (hw : w ≠ 0) (hx : x ≠ 0) (hy : y ≠ 0) (hz : z ≠ 0) :
    b64Dec (w :: x :: y :: z :: t) =
      (b64Group (b64Int w) (b64Int x) (b64Int y) (b64Int z) ++ (b64Dec t).1, (b64Dec t).2) := by
  rw [b64Dec]; simp [hw, hx, hy, hz]

/-- The reader inverts the writer. -/
theorem b64Dec_enc : (v : Bytes) → b64Dec (b64Enc v) = (v, false)
  | [] => rfl
  | [a] => by
    have := a.toNat_lt
    have h1 : a.toNat / 4 < 64 := by omega
    have h2 : a.toNat % 4 * 16 < 64 := by omega
    have e : b64Int 61 = 64 := rfl
    simp only [b64Enc, b64_a, b64_a0]
    rw [b64Dec_step (b64Int_sym h1).2 (b64Int_sym h2).2 (by decide) (by decide), (b64Int_sym h1).1, (b64Int_sym h2).1, e,
      b64Group, if_neg (by omega), b64_d1 _ _ h1 h2, byte_of_toNat a (by omega)]
    rfl
  | [a, b] => by
    have := a.toNat_lt
    have := b.toNat_lt
    have h1 : a.toNat / 4 < 64 := by omega
    have h2 : a.toNat % 4 * 16 + b.toNat / 16 < 64 := by omega
    have h3 : b.toNat % 16 * 4 < 64 := by omega
    have e : b64Int 61 = 64 := rfl
    simp only [b64Enc, b64_a, b64_ab, b64_b0]
    rw [b64Dec_step (b64Int_sym h1).2 (b64Int_sym h2).2 (b64Int_sym h3).2 (by decide), (b64Int_sym h1).1, (b64Int_sym h2).1,
      (b64Int_sym h3).1, e, b64Group, if_pos (by omega), if_neg (by omega), b64_d1 _ _ h1 h2, b64_d2 _ _ h3,
      byte_of_toNat a (by omega), byte_of_toNat b (by omega)]
    rfl
  | a :: b :: c :: t => by
    have := a.toNat_lt
    have := b.toNat_lt
    have := c.toNat_lt
    have h1 : a.toNat / 4 < 64 := by omega
    have h2 : a.toNat % 4 * 16 + b.toNat / 16 < 64 := by omega
    have h3 : b.toNat % 16 * 4 + c.toNat / 64 < 64 := by omega
    have h4 : c.toNat % 64 < 64 := by omega
    simp only [b64Enc, b64_a, b64_ab, b64_bc, b64_c, List.cons_append, List.nil_append]
    rw [b64Dec_step (b64Int_sym h1).2 (b64Int_sym h2).2 (b64Int_sym h3).2 (b64Int_sym h4).2, (b64Int_sym h1).1,
      (b64Int_sym h2).1, (b64Int_sym h3).1, (b64Int_sym h4).1, b64Group, if_pos (by omega), if_pos (by omega),
      b64_d1 _ _ h1 h2, b64_d2 _ _ h3, b64_d3 _ _ h4, byte_of_toNat a (by omega), byte_of_toNat b (by omega),
      byte_of_toNat c (by omega), b64Dec_enc t]
    rfl

theorem b64Int_digit (c : Byte) : b64Int c % 64 = b64Digit c ∧ b64Int c ≤ 64 ∧ (b64Int c = 64 ↔ c = 61) := by
  have h : ∀ n : Fin 256, b64Int (UInt8.ofNat n.val) % 64 = b64Digit (UInt8.ofNat n.val) ∧
      b64Int (UInt8.ofNat n.val) ≤ 64 ∧ (b64Int (UInt8.ofNat n.val) = 64 ↔ UInt8.ofNat n.val = 61) := by decide +kernel
  have := h ⟨c.toNat, c.toNat_lt⟩
  simpa only [UInt8.ofNat_toNat] using this

theorem byte_mod {m n : Nat} (h : m % 256 = n % 256) : byte m = UInt8.ofNat n := by
  show UInt8.ofNat m = _
  apply UInt8.toNat_inj.mp
  simp only [UInt8.toNat_ofNat']
  omega

/-- One group, whatever the characters are. -/
theorem b64Group_eq (a b c d : Byte) : b64Group (b64Int a) (b64Int b) (b64Int c) (b64Int d) =
    ([UInt8.ofNat ((b64Digit a * 262144 + b64Digit b * 4096 + b64Digit c * 64 + b64Digit d) / 65536),
      UInt8.ofNat ((b64Digit a * 262144 + b64Digit b * 4096 + b64Digit c * 64 + b64Digit d) / 256),
      UInt8.ofNat (b64Digit a * 262144 + b64Digit b * 4096 + b64Digit c * 64 + b64Digit d)] : Bytes).take
      (if c = 61 then 1 else if d = 61 then 2 else 3) := by
  obtain ⟨a1, a2, -⟩ := b64Int_digit a
  obtain ⟨b1, b2, -⟩ := b64Int_digit b
  obtain ⟨c1, c2, c3⟩ := b64Int_digit c
  obtain ⟨d1, d2, d3⟩ := b64Int_digit d
  generalize b64Int a = x at *
  generalize b64Int b = y at *
  generalize b64Int c = z at *
  generalize b64Int d = w at *
  have e1 : ∀ z ≤ 64, (z &&& 0x30) >>> 4 = z % 64 / 16 := by decide +kernel
  have e2 : ∀ z ≤ 64, (z &&& 0x3C) >>> 2 = z % 64 / 4 := by decide +kernel
  have e3 : ((x &&& 0xFF) <<< 2) ||| ((y &&& 0x30) >>> 4) = x * 4 + y % 64 / 16 := by
    rw [e1 y b2, or_shl (by omega), show (0xFF : Nat) = 2 ^ 8 - 1 from rfl, b64_and]
    omega
  have e4 : ((y &&& 0x0F) <<< 4) ||| ((z &&& 0x3C) >>> 2) = y % 16 * 16 + z % 64 / 4 := by
    rw [e2 z c2, or_shl (by omega), show (0x0F : Nat) = 2 ^ 4 - 1 from rfl, b64_and]
  have p1 : byte (((x &&& 0xFF) <<< 2) ||| ((y &&& 0x30) >>> 4)) =
      UInt8.ofNat ((b64Digit a * 262144 + b64Digit b * 4096 + b64Digit c * 64 + b64Digit d) / 65536) := by
    rw [e3]
    exact byte_mod (by omega)
  have p2 : byte (((y &&& 0x0F) <<< 4) ||| ((z &&& 0x3C) >>> 2)) =
      UInt8.ofNat ((b64Digit a * 262144 + b64Digit b * 4096 + b64Digit c * 64 + b64Digit d) / 256) := by
    rw [e4]
    exact byte_mod (by omega)
  unfold b64Group
  rw [p1, p2]
  by_cases hc : c = 61
  · rw [if_neg (by simp [c3.mpr hc]), if_pos hc]
    rfl
  · have hz : z ≠ 64 := fun e => hc (c3.mp e)
    rw [if_pos hz, if_neg hc]
    by_cases hd : d = 61
    · rw [if_neg (by simp [d3.mpr hd]), if_pos hd]
      rfl
    · have hw : w ≠ 64 := fun e => hd (d3.mp e)
      rw [if_pos hw, if_neg hd, b64_d3 _ _ (by omega)]
      have p3 : byte (z % 4 * 64 + w) =
          UInt8.ofNat (b64Digit a * 262144 + b64Digit b * 4096 + b64Digit c * 64 + b64Digit d) := byte_mod (by omega)
      rw [p3]
      rfl

/-- The reader, on any text: what comes before the first NUL is decoded leniently, and an incomplete group is noted. -/
theorem b64Dec_eq : (s : Bytes) →
    b64Dec s = (unbase64 (s.takeWhile (· != 0)), decide ((s.takeWhile (· != 0)).length % 4 ≠ 0))
  | [] => rfl
  | [a] => by by_cases ha : a = 0 <;> simp [b64Dec, ha, unbase64]
  | [a, b] => by
    by_cases ha : a = 0 <;> by_cases hb : b = 0 <;> simp [b64Dec, ha, hb, unbase64]
  | [a, b, c] => by
    by_cases ha : a = 0 <;> by_cases hb : b = 0 <;> by_cases hc : c = 0 <;> simp [b64Dec, ha, hb, hc, unbase64]
  | a :: b :: c :: d :: t => by
    have ih := b64Dec_eq t
    rw [b64Dec]
    by_cases ha : a = 0
    · simp [ha, unbase64]
    by_cases hb : b = 0
    · simp [ha, hb, unbase64]
    by_cases hc : c = 0
    · simp [ha, hb, hc, unbase64]
    by_cases hd : d = 0
    · simp [ha, hb, hc, hd, unbase64]
    simp only [ha, hb, hc, hd, if_false, decide_false, Bool.or_self, Bool.false_eq_true]
    rw [ih, b64Group_eq]
    have e : (a :: b :: c :: d :: t).takeWhile (· != 0) = a :: b :: c :: d :: t.takeWhile (· != 0) := by
      simp [ha, hb, hc, hd]
    rw [e, unbase64]
    simp only [List.length_cons, Prod.mk.injEq, true_and, decide_eq_decide]
    omega

/-- The encoded text needs no escaping. -/
theorem b64Char_raw (n : Nat) : rfcRaw (b64Char n) ∧ b64Char n < 0x80 := by
  by_cases h : n < 64
  · revert n
    have : ∀ n < 64, (32 ≤ b64Char n ∧ b64Char n ≠ c!"\"" ∧ b64Char n ≠ c!"\\") ∧ b64Char n < 0x80 := by decide +kernel
    exact this
  · have : b64Char n = c!"/" := by
      unfold b64Char
      rw [if_neg (by omega), if_neg (by omega), if_neg (by omega), if_neg (by omega)]
    rw [this]
    unfold rfcRaw; decide

theorem base64_raw : (v : Bytes) → ∀ b ∈ base64 v, rfcRaw b ∧ b < 0x80
  | [] => by simp [base64]
  | [a] => by
    have e : rfcRaw 61 ∧ (61 : UInt8) < 0x80 := by unfold rfcRaw; decide
    intro b hb
    simp only [base64, List.mem_cons, List.not_mem_nil, or_false] at hb
    rcases hb with rfl | rfl | rfl | rfl
    · exact b64Char_raw _
    · exact b64Char_raw _
    · exact e
    · exact e
  | [a, b] => by
    have e : rfcRaw 61 ∧ (61 : UInt8) < 0x80 := by unfold rfcRaw; decide
    intro b hb
    simp only [base64, List.mem_cons, List.not_mem_nil, or_false] at hb
    rcases hb with rfl | rfl | rfl | rfl
    · exact b64Char_raw _
    · exact b64Char_raw _
    · exact b64Char_raw _
    · exact e
  | a :: b :: c :: t => by
    intro b hb
    simp only [base64, List.mem_append, List.mem_cons, List.not_mem_nil, or_false] at hb
    rcases hb with (rfl | rfl | rfl | rfl) | hb
    · exact b64Char_raw _
    · exact b64Char_raw _
    · exact b64Char_raw _
    · exact b64Char_raw _
    · exact base64_raw t b hb

theorem chars_raw {raw : Byte → Prop} {uni : Nat → Prop} (s : Bytes) (h : ∀ b ∈ s, raw b) : StrChars raw uni s s := by
  induction s with
  | nil => exact .nil
  | cons b t ih => exact .raw (h b (by simp)) (ih (fun x hx => h x (by simp [hx])))

end PG
