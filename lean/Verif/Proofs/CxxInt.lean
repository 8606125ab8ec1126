import Verif.Proofs.CxxEval
/-
Arithmetic on values that are not negative.
-/
set_option autoImplicit false
namespace PG.Cxx

/-- The greatest value for certain. -/
def IT.top : IT → Nat
  | .char => 127
  | .u8 => 255
  | .i32 => 2147483647
  | .u32 => 4294967295
  | .i64 => 9223372036854775807
  | .u64 => 18446744073709551615

theorem top_char : IT.top .char = 127 := (rfl)
theorem top_u8 : IT.top .u8 = 255 := (rfl)
theorem top_i32 : IT.top .i32 = 2147483647 := (rfl)
theorem top_u32 : IT.top .u32 = 4294967295 := (rfl)
theorem top_i64 : IT.top .i64 = 9223372036854775807 := (rfl)
theorem top_u64 : IT.top .u64 = 18446744073709551615 := (rfl)
theorem bits_i32 : IT.bits .i32 = 32 := (rfl)
theorem bits_u32 : IT.bits .u32 = 32 := (rfl)
theorem bits_u64 : IT.bits .u64 = 64 := (rfl)

variable {D S : Type} {L : Lib D S} {s : S} {σ : Bool}

theorem wrap_nat {t : IT} {x : Nat} (h : x ≤ t.top) : IT.wrap σ t (x : Int) = x := by
  cases t with
  | char =>
    unfold IT.wrap IT.ofByte IT.toByte
    simp only [IT.top] at h ⊢
    rw [UInt8.toNat_ofNat', if_neg (by omega)]
    omega
  | _ => unfold IT.wrap; simp only [IT.top] at h ⊢; omega

theorem convert_nat {t : IT} (u : IT) {x : Nat} (h : x ≤ t.top) : IT.convert σ t u (x : Int) = x := by
  unfold IT.convert
  split
  · rfl
  · exact wrap_nat h

theorem convert_lit {t : IT} (u : IT) {n : Nat} (h : n ≤ t.top) :
    IT.convert σ t u (no_index (OfNat.ofNat n : Int)) = OfNat.ofNat n := convert_nat u h
theorem binop_band (t u : IT) (x y : Int) : binop L n!"&" (.int t x) (.int u y) s =
    (IT.arith n!"&" (IT.common t u) (IT.convert L.signed (IT.common t u) t x) (IT.convert L.signed (IT.common t u) u y)).map
      fun v => (.int (IT.common t u) v, s) := binop_bits _ (.inl rfl) t u x y
theorem binop_bor (t u : IT) (x y : Int) : binop L n!"|" (.int t x) (.int u y) s =
    (IT.arith n!"|" (IT.common t u) (IT.convert L.signed (IT.common t u) t x) (IT.convert L.signed (IT.common t u) u y)).map
      fun v => (.int (IT.common t u) v, s) := binop_bits _ (.inr (.inl rfl)) t u x y
theorem binop_xor (t u : IT) (x y : Int) : binop L n!"^" (.int t x) (.int u y) s =
    (IT.arith n!"^" (IT.common t u) (IT.convert L.signed (IT.common t u) t x) (IT.convert L.signed (IT.common t u) u y)).map
      fun v => (.int (IT.common t u) v, s) := binop_bits _ (.inr (.inr rfl)) t u x y
theorem binop_mod (t u : IT) (x y : Int) : binop L n!"%" (.int t x) (.int u y) s =
    (IT.arith n!"%" (IT.common t u) (IT.convert L.signed (IT.common t u) t x) (IT.convert L.signed (IT.common t u) u y)).map
      fun v => (.int (IT.common t u) v, s) := by
  rw [binop_int _ _ _ _ _ (by decide)]; rfl

theorem arith_and (t : IT) {x y : Int} (hx : 0 ≤ x) (hy : 0 ≤ y) :
    IT.arith n!"&" t x y = some ((x.toNat &&& y.toNat : Nat) : Int) := by
  unfold IT.arith
  rw [if_neg (by decide), if_neg (by decide), if_neg (by decide), if_neg (by decide), if_neg (fun h => absurd h.2.1 (by omega)),
    if_neg (by omega)]
  rfl
theorem arith_or (t : IT) {x y : Int} (hx : 0 ≤ x) (hy : 0 ≤ y) :
    IT.arith n!"|" t x y = some ((x.toNat ||| y.toNat : Nat) : Int) := by
  unfold IT.arith
  rw [if_neg (by decide), if_neg (by decide), if_neg (by decide), if_neg (by decide), if_neg (fun h => absurd h.2.1 (by omega)),
    if_neg (by omega)]
  rfl
theorem arith_xor (t : IT) {x y : Int} (hx : 0 ≤ x) (hy : 0 ≤ y) :
    IT.arith n!"^" t x y = some ((x.toNat ^^^ y.toNat : Nat) : Int) := by
  unfold IT.arith
  rw [if_neg (by decide), if_neg (by decide), if_neg (by decide), if_neg (by decide), if_neg (fun h => absurd h.2.1 (by omega)),
    if_neg (by omega)]
  rfl
theorem arith_mod (t : IT) {x y : Nat} (hy : y ≠ 0) : IT.arith n!"%" t (x : Int) (y : Int) = some ((x % y : Nat) : Int) := by
  show (if (y : Int) = 0 then none else _ : Option Int) = _
  rw [if_neg (by omega)]; rfl
theorem shift_left (t : IT) {x y : Int} (hx : 0 ≤ x) (hy : 0 ≤ y) (hy2 : y < t.bits) :
    IT.shift n!"<<" t x y = IT.fit t ((x.toNat <<< y.toNat : Nat) : Int) := by
  unfold IT.shift
  rw [if_neg (by omega)]; rfl
theorem shift_right (t : IT) {x y : Int} (hx : 0 ≤ x) (hy : 0 ≤ y) (hy2 : y < t.bits) :
    IT.shift n!">>" t x y = some ((x.toNat >>> y.toNat : Nat) : Int) := by
  unfold IT.shift
  rw [if_neg (by omega)]; rfl

theorem fit_nat {t : IT} {x : Nat} (ht : t.promote = t) (h : x ≤ t.top) : IT.fit t (x : Int) = some (x : Int) := by
  cases t with
  | char => exact absurd ht (by decide)
  | u8 => exact absurd ht (by decide)
  | i32 => exact if_pos (by simp only [IT.top] at h; omega)
  | i64 => exact if_pos (by simp only [IT.top] at h; omega)
  | u32 => simp only [IT.fit, IT.top] at h ⊢; congr 1; omega
  | u64 => simp only [IT.fit, IT.top] at h ⊢; congr 1; omega

theorem fit_i32Lit {n : Nat} (h : n ≤ 2147483647) :
    IT.fit .i32 (no_index (OfNat.ofNat n : Int)) = some (OfNat.ofNat n) := fit_nat (t := .i32) (x := n) rfl h
theorem fit_u32Lit {n : Nat} (h : n ≤ 4294967295) :
    IT.fit .u32 (no_index (OfNat.ofNat n : Int)) = some (OfNat.ofNat n) := fit_nat (t := .u32) (x := n) rfl h
theorem fit_u64Lit {n : Nat} (h : n ≤ 18446744073709551615) :
    IT.fit .u64 (no_index (OfNat.ofNat n : Int)) = some (OfNat.ofNat n) := fit_nat (t := .u64) (x := n) rfl h

theorem convert_u8_char (b : Byte) : IT.convert σ .u8 .char (IT.ofByte σ b) = (b.toNat : Int) := by
  have := b.toNat_lt
  unfold IT.convert IT.ofByte
  rw [if_neg (by decide)]
  unfold IT.wrap
  simp only
  split <;> omega

theorem not_neg (k : Nat) : ((k : Int) < 0) = False := by simp

attribute [cxx] not_neg Int.natCast_nonneg Int.toNat_natCast arith_and arith_or arith_xor arith_mod shift_left shift_right top_char top_u8 top_i32 top_u32 top_i64 top_u64 bits_i32 bits_u32 bits_u64 convert_lit fit_i32Lit fit_u32Lit fit_u64Lit binop_band binop_bor binop_xor binop_mod

end PG.Cxx
