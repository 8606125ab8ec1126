import Verif.Proofs.CxxArray
/-
Writing of strings: json-string.hh:40-45, 59-147.
-/
set_option autoImplicit false
namespace PG.Cxx
variable {V F : Type} {σ : Bool} {ops : Ops V F}

theorem hexLow_ne_zero {n : Nat} (h : n < 16) : hexLow n ≠ 0 := by
  have : ∀ k < 16, hexLow k ≠ 0 := by decide
  exact this n h

theorem hexNat_ne_zero (n : Nat) : ∀ b ∈ hexNat n, b ≠ 0 := by
  induction n using Nat.strongRecOn with
  | ind n ih =>
    unfold hexNat
    split
    · intro b hb
      simp only [List.mem_singleton] at hb
      subst hb
      exact hexLow_ne_zero (by assumption)
    · intro b hb
      rcases List.mem_append.mp hb with h | h
      · exact ih (n / 16) (by omega) b h
      · simp only [List.mem_singleton] at h
        subst h
        exact hexLow_ne_zero (by omega)

theorem hex04_length (n : Nat) : 4 ≤ (hex04 n).length := by
  unfold hex04
  rw [List.length_append, List.length_replicate]
  omega

theorem escU_length (n : Nat) : (escU n).length = 6 := by
  have := hex04_length n
  unfold escU
  rw [List.length_take, List.length_append]
  exact Nat.min_eq_left (by show 6 ≤ 2 + _; omega)

theorem escU_ne_zero (n : Nat) : ∀ b ∈ escU n, b ≠ 0 := by
  intro b hb
  rcases List.mem_append.mp (List.mem_of_mem_take hb) with h | h
  · have : ∀ b ∈ b!"\\u", b ≠ 0 := by decide
    exact this b h
  · rcases List.mem_append.mp h with h | h
    · rw [(List.mem_replicate.mp h).2]; decide
    · exact hexNat_ne_zero n b h

theorem characters_bytes (s : Bytes) (h : ∀ b ∈ s, b ≠ 0) (l : List (Val (Dom V F))) :
    characters (s.map (fun b => .int .char (IT.ofByte σ b)) ++ .int .char 0 :: l) = some s := by
  induction s with
  | nil => rfl
  | cons b s ih =>
    rw [List.map_cons, List.cons_append, characters, if_neg (by rw [ofByte_eq_zero]; exact h b List.mem_cons_self),
      ih (fun c hc => h c (List.mem_cons_of_mem _ hc)), toByte_ofByte]
    rfl

section
variable (w : World)
theorem function_snprintf (cp : Int) :
    (runtimeLib σ ops).function [n!"snprintf"] w [.arr (List.replicate 7 (.undef (some .char))), .int .u64 7,
      .str [92, 117, 37, 48, 52, 120], .int .u32 cp] =
    some (.void, [some (.arr ((escU cp.toNat).map (fun b => .int .char (IT.ofByte σ b)) ++ [.int .char 0]))], w) := by
  have h : (runtimeLib σ ops).function [n!"snprintf"] w [.arr (List.replicate 7 (.undef (some .char))), .int .u64 7,
      .str [92, 117, 37, 48, 52, 120], .int .u32 cp] =
    some (.void, [some (.arr ((escU cp.toNat).map (fun b => .int .char (IT.ofByte σ b)) ++ .int .char 0 ::
      List.drop ((escU cp.toNat).length + 1) (List.replicate 7 (.undef (some .char)))))], w) := (rfl)
  rw [h, escU_length]
  rfl
theorem os_arr (l : List (Val (Dom V F))) : (runtimeLib σ ops).binary n!"<<" (.dom .os) (.arr l) w =
    (characters l).map fun s => (.dom .os, { w with out := w.out ++ s }) := (rfl)
attribute [cxx] os_arr
end

/-- json-string.hh:40-45. -/
theorem escape_runs (n cp : Nat) (w : World) :
    escapeFun.run (runtimeLib σ ops) n [.dom .osPtr, .int .u32 (cp : Int)] w =
      some (.void, [.dom .osPtr, .int .u32 (cp : Int)], { w with out := w.out ++ escU cp }) := by
  have h := characters_bytes (V := V) (F := F) (σ := σ) (escU cp) (escU_ne_zero cp) []
  cxxi [escapeFun, function_snprintf, h, List.length_replicate]

section
variable (w : World)
theorem function_escape (cp : Int) : (runtimeLib σ ops).function [n!"write_escaped_utf8"] w [.dom .osPtr, .int .u32 cp] =
    some (.void, [], { w with out := w.out ++ escU cp.toNat }) := (rfl)
theorem function_setError (k : Int) (m : Bytes) : (runtimeLib σ ops).function [n!"set_error"] w [.dom .error, .int .i32 k, .str m] =
    (ecodeOf k m).map fun c => (.int .i32 1, [], { w with tz := { w.tz with err := (setError w.tz.err c).2 } }) := (rfl)
attribute [cxx] function_escape function_setError
end

/-- The state in the loop. -/
local macro "ws(" s:term ", " i:term ", " w:term ")" : term =>
  `((St.mk [[(n!"i", Val.int IT.u64 (($i : Nat) : Int))], [(n!"size", Val.int IT.u64 ((List.length $s : Nat) : Int))],
    [(n!"ctx", Val.dom Dom.ctx), (n!"value", Val.str $s)]] $w))

theorem nat_eq_ofByte (b c : Byte) (hc : c < 128) : ((b.toNat : Int) = IT.ofByte σ c) = (b = c) := by
  have hc : c.toNat < 128 := hc
  have e : IT.ofByte σ c = c.toNat := by unfold IT.ofByte; rw [if_neg (by omega)]
  rw [e]
  exact propext ⟨fun h => UInt8.toNat_inj.mp (by omega), fun h => by rw [h]⟩

theorem toByte_u8 (b : Byte) : IT.toByte (IT.convert σ .char .u8 (b.toNat : Int)) = b := by
  have : IT.convert σ .char .u8 (b.toNat : Int) = IT.ofByte σ (IT.toByte b.toNat) := rfl
  rw [this, toByte_ofByte]
  unfold IT.toByte
  apply UInt8.toNat_inj.mp
  have := b.toNat_lt
  rw [UInt8.toNat_ofNat']
  omega

theorem index_facts {s pre rest : Bytes} {b : Byte} (hs : s = pre ++ b :: rest) (hl : s.length < 2 ^ 64) :
    (pre.length : Int) < (s.length : Int) ∧ pre.length < s.length ∧ s.getD pre.length 0 = b ∧ 
    IT.fit .u64 ((pre.length : Int) + 1) = some ((pre.length + 1 : Nat) : Int) ∧
    IT.convert σ .i32 .u8 (b.toNat : Int) = b.toNat := by
  have hlt : pre.length < s.length := by rw [hs, List.length_append, List.length_cons]; omega
  exact ⟨by omega, hlt, by rw [hs]; simp, fit_nat (x := pre.length + 1) rfl (by simp only [IT.top]; omega),
    convert_nat _ (by have := b.toNat_lt; simp only [IT.top]; omega)⟩

theorem body_plain (n : Nat) (s pre rest : Bytes) (b : Byte) (w : World) (hs : s = pre ++ b :: rest) (hl : s.length < 2 ^ 64) (hb : b ≤ 0x7F) :
    exec (runtimeLib σ ops) n writeStringFunBody1 ws(s, pre.length, w) = some (.next, ws(s, pre.length + 1, { w with out := w.out ++ escByte b })) := by
  obtain ⟨h1, h2, h3, h4, h5⟩ := index_facts (σ := σ) hs hl
  have g : (b.toNat : Int) ≤ 127 := by have : b.toNat ≤ 127 := hb; omega
  unfold escByte
  by_cases e34 : b = 34
  · subst e34
    cxxi [writeStringFunBody1, h1, h2, h3, h4, h5, not_neg, convert_u8_char, g, nat_eq_ofByte, UInt8.reduceLT]
  by_cases e92 : b = 92
  · subst e92
    cxxi [writeStringFunBody1, h1, h2, h3, h4, h5, not_neg, convert_u8_char, g, nat_eq_ofByte, UInt8.reduceLT]
  by_cases e47 : b = 47
  · subst e47
    cxxi [writeStringFunBody1, h1, h2, h3, h4, h5, not_neg, convert_u8_char, g, nat_eq_ofByte, UInt8.reduceLT]
  by_cases e8 : b = 8
  · subst e8
    cxxi [writeStringFunBody1, h1, h2, h3, h4, h5, not_neg, convert_u8_char, g, nat_eq_ofByte, UInt8.reduceLT]
  by_cases e12 : b = 12
  · subst e12
    cxxi [writeStringFunBody1, h1, h2, h3, h4, h5, not_neg, convert_u8_char, g, nat_eq_ofByte, UInt8.reduceLT]
  by_cases e13 : b = 13
  · subst e13
    cxxi [writeStringFunBody1, h1, h2, h3, h4, h5, not_neg, convert_u8_char, g, nat_eq_ofByte, UInt8.reduceLT]
  by_cases e10 : b = 10
  · subst e10
    cxxi [writeStringFunBody1, h1, h2, h3, h4, h5, not_neg, convert_u8_char, g, nat_eq_ofByte, UInt8.reduceLT]
  by_cases e9 : b = 9
  · subst e9
    cxxi [writeStringFunBody1, h1, h2, h3, h4, h5, not_neg, convert_u8_char, g, nat_eq_ofByte, UInt8.reduceLT]
  cxxi [writeStringFunBody1, h1, h2, h3, h4, h5, not_neg, convert_u8_char, g, nat_eq_ofByte, UInt8.reduceLT, toByte_u8, e34, e92, e47, e8, e12, e13, e10, e9]


theorem body_raw (n : Nat) (s pre rest : Bytes) (b : Byte) (w : World) (hs : s = pre ++ b :: rest) (hl : s.length < 2 ^ 64) (hb : ¬ b ≤ 0x7F)
    (ha : w.ascii = false) :
    exec (runtimeLib σ ops) n writeStringFunBody1 ws(s, pre.length, w) = some (.continue, ws(s, pre.length + 1, { w with out := w.out ++ [b] })) := by
  obtain ⟨h1, h2, h3, h4, h5⟩ := index_facts (σ := σ) hs hl
  have g : ¬ (b.toNat : Int) ≤ 127 := by intro h; exact hb (show b.toNat ≤ 127 by omega)
  cxxi [writeStringFunBody1, h1, h2, h3, h4, h5, not_neg, convert_u8_char, g, toByte_u8, ha]

theorem body_end1 (n : Nat) (s pre : Bytes) (b : Byte) (w : World) (hs : s = pre ++ [b]) (hl : s.length < 2 ^ 64) (hb : ¬ b ≤ 0x7F)
    (ha : w.ascii = true) :
    exec (runtimeLib σ ops) n writeStringFunBody1 ws(s, pre.length, w) = some (.ret (.int .i32 1),
      ws(s, pre.length, { w with tz := { w.tz with err := (setError w.tz.err .invalidUtf8).2 } })) := by
  obtain ⟨h1, h2, h3, h4, h5⟩ := index_facts (σ := σ) hs hl
  have g : ¬ (b.toNat : Int) ≤ 127 := by intro h; exact hb (show b.toNat ≤ 127 by omega)
  have k : (s.length : Int) ≤ ((pre.length + 1 : Nat) : Int) := by rw [hs, List.length_append]; exact Int.le_refl _
  cxxi [writeStringFunBody1, h1, h2, h3, h4, h5, not_neg, convert_u8_char, g, ha, k]

theorem cont_eq (b : Byte) : decide (((b.toNat &&& 192 : Nat) : Int) = 128) = isCont b := by
  unfold isCont
  rw [Bool.eq_iff_iff, decide_eq_true_eq, beq_iff_eq]
  omega

theorem le_eq (b c : Byte) : decide ((c.toNat : Int) ≤ (b.toNat : Int)) = decide (c ≤ b) := by
  rw [Bool.eq_iff_iff, decide_eq_true_eq, decide_eq_true_eq, UInt8.le_iff_toNat_le]
  omega

theorem cond2_eq (b b2 : Byte) : (decide (192 ≤ (b.toNat : Int)) && decide ((b.toNat : Int) ≤ 223) &&
    decide (((b2.toNat &&& 192 : Nat) : Int) = 128)) = (0xC0 ≤ b && b ≤ 0xDF && isCont b2) := by
  rw [cont_eq, ← le_eq b 0xC0, ← le_eq 0xDF b]; rfl

theorem and_bound (b : Byte) (m : Nat) (k : Nat) (h : m < 2 ^ k) : b.toNat &&& m < 2 ^ k :=
  Nat.lt_of_le_of_lt Nat.and_le_right h

theorem u8_int (b : Byte) : IT.convert σ .i32 .u8 (b.toNat : Int) = b.toNat := convert_nat _ (by have := b.toNat_lt; simp only [IT.top]; omega)

theorem or_bound {x y : Nat} (k : Nat) (hx : x < 2 ^ k) (hy : y < 2 ^ k) : x ||| y < 2 ^ k := Nat.or_lt_two_pow hx hy
theorem shl_bound {x : Nat} (k j : Nat) (hx : x < 2 ^ k) : x <<< j < 2 ^ (k + j) := by
  rw [Nat.shiftLeft_eq, Nat.pow_add]
  exact Nat.mul_lt_mul_of_pos_right hx (Nat.pow_pos (by omega))

theorem cp2_bound (b b2 : Byte) : ((b.toNat &&& 31) <<< 6) ||| (b2.toNat &&& 63) < 2 ^ 11 :=
  or_bound 11 (shl_bound 5 6 (and_bound b 31 5 (by decide))) (Nat.lt_trans (and_bound b2 63 6 (by decide)) (by decide))

theorem body_two (n : Nat) (s pre rest : Bytes) (b b2 : Byte) (w : World) (hs : s = pre ++ b :: b2 :: rest) (hl : s.length < 2 ^ 64) (hb : ¬ b ≤ 0x7F)
    (ha : w.ascii = true) (hc : (decide (0xC0 ≤ b) && decide (b ≤ 0xDF) && isCont b2) = true) :
    exec (runtimeLib σ ops) n writeStringFunBody1 ws(s, pre.length, w) = some (.continue,
      ws(s, pre.length + 2, { w with out := w.out ++ escU (((b.toNat &&& 0x1F) <<< 6) ||| (b2.toNat &&& 0x3F)) })) := by
  obtain ⟨h1, h2, h3, h4, h5⟩ := index_facts (σ := σ) hs hl
  have g : ¬ (b.toNat : Int) ≤ 127 := by intro h; exact hb (show b.toNat ≤ 127 by omega)
  have k : ¬ (s.length : Int) ≤ ((pre.length + 1 : Nat) : Int) := by rw [hs, List.length_append, List.length_cons, List.length_cons]; omega
  have h6 : pre.length + 1 < s.length := by omega
  have h7 : s.getD (pre.length + 1) 0 = b2 := by rw [hs]; simp
  have h8 : IT.fit .u64 ((pre.length : Int) + 2) = some ((pre.length + 2 : Nat) : Int) := fit_nat (x := pre.length + 2) rfl (by simp only [IT.top]; omega)
  have h9 : IT.fit .i32 (((b.toNat &&& 31) <<< 6 : Nat) : Int) = some (((b.toNat &&& 31) <<< 6 : Nat) : Int) :=
    fit_nat rfl (by have := shl_bound 5 6 (and_bound b 31 5 (by decide)); simp only [IT.top]; omega)
  have h10 : IT.convert σ .u32 .i32 ((((b.toNat &&& 31) <<< 6) ||| (b2.toNat &&& 63) : Nat) : Int) =
      ((((b.toNat &&& 31) <<< 6) ||| (b2.toNat &&& 63) : Nat) : Int) :=
    convert_nat _ (by have := cp2_bound b b2; simp only [IT.top]; omega)
  cxxi [writeStringFunBody1, h1, h2, h3, h4, u8_int, not_neg, convert_u8_char, g, ha, k, h6, h7, h8, h9, h10, cond2_eq, hc]

theorem body_end2 (n : Nat) (s pre : Bytes) (b b2 : Byte) (w : World) (hs : s = pre ++ [b, b2]) (hl : s.length < 2 ^ 64) (hb : ¬ b ≤ 0x7F)
    (ha : w.ascii = true) (hc : (decide (0xC0 ≤ b) && decide (b ≤ 0xDF) && isCont b2) = false) :
    exec (runtimeLib σ ops) n writeStringFunBody1 ws(s, pre.length, w) = some (.ret (.int .i32 1),
      ws(s, pre.length, { w with tz := { w.tz with err := (setError w.tz.err .invalidUtf8).2 } })) := by
  obtain ⟨h1, h2, h3, h4, h5⟩ := index_facts (σ := σ) hs hl
  have g : ¬ (b.toNat : Int) ≤ 127 := by intro h; exact hb (show b.toNat ≤ 127 by omega)
  have hsl : s.length = pre.length + 2 := by rw [hs, List.length_append]; rfl
  have k : ¬ (s.length : Int) ≤ ((pre.length + 1 : Nat) : Int) := by omega
  have k2 : (s.length : Int) ≤ ((pre.length + 2 : Nat) : Int) := by omega
  have h6 : pre.length + 1 < s.length := by omega
  have h7 : s.getD (pre.length + 1) 0 = b2 := by rw [hs]; simp
  have h8 : IT.fit .u64 ((pre.length : Int) + 2) = some ((pre.length + 2 : Nat) : Int) := fit_nat (x := pre.length + 2) rfl (by simp only [IT.top]; omega)
  cxxi [writeStringFunBody1, h1, h2, h3, h4, u8_int, not_neg, convert_u8_char, g, ha, k, k2, h6, h7, h8, cond2_eq, hc]

theorem cond3_eq (b b2 b3 : Byte) : (decide (224 ≤ (b.toNat : Int)) && decide ((b.toNat : Int) ≤ 239) &&
    decide (((b2.toNat &&& 192 : Nat) : Int) = 128) && decide (((b3.toNat &&& 192 : Nat) : Int) = 128)) =
    (0xE0 ≤ b && b ≤ 0xEF && isCont b2 && isCont b3) := by
  rw [cont_eq, cont_eq, ← le_eq b 0xE0, ← le_eq 0xEF b]; rfl

theorem cond4_eq (b b2 b3 b4 : Byte) : (decide (240 ≤ (b.toNat : Int)) && decide ((b.toNat : Int) ≤ 244) &&
    decide (((b2.toNat &&& 192 : Nat) : Int) = 128) && decide (((b3.toNat &&& 192 : Nat) : Int) = 128) &&
    decide (((b4.toNat &&& 192 : Nat) : Int) = 128)) =
    (0xF0 ≤ b && b ≤ 0xF4 && isCont b2 && isCont b3 && isCont b4) := by
  rw [cont_eq, cont_eq, cont_eq, ← le_eq b 0xF0, ← le_eq 0xF4 b]; rfl

theorem cp3_bound (b b2 b3 : Byte) : ((b.toNat &&& 15) <<< 12) ||| ((b2.toNat &&& 63) <<< 6) ||| (b3.toNat &&& 63) < 2 ^ 16 :=
  or_bound 16 (or_bound 16 (shl_bound 4 12 (and_bound b 15 4 (by decide)))
    (Nat.lt_trans (shl_bound 6 6 (and_bound b2 63 6 (by decide))) (by decide))) (Nat.lt_trans (and_bound b3 63 6 (by decide)) (by decide))

theorem cp4_bound (b b2 b3 b4 : Byte) :
    ((b.toNat &&& 7) <<< 18) ||| ((b2.toNat &&& 63) <<< 12) ||| ((b3.toNat &&& 63) <<< 6) ||| (b4.toNat &&& 63) < 2 ^ 21 :=
  or_bound 21 (or_bound 21 (or_bound 21 (shl_bound 3 18 (and_bound b 7 3 (by decide)))
    (Nat.lt_trans (shl_bound 6 12 (and_bound b2 63 6 (by decide))) (by decide)))
    (Nat.lt_trans (shl_bound 6 6 (and_bound b3 63 6 (by decide))) (by decide))) (Nat.lt_trans (and_bound b4 63 6 (by decide)) (by decide))

theorem body_three (n : Nat) (s pre rest : Bytes) (b b2 b3 : Byte) (w : World) (hs : s = pre ++ b :: b2 :: b3 :: rest) (hl : s.length < 2 ^ 64)
    (hb : ¬ b ≤ 0x7F) (ha : w.ascii = true) (hc : (decide (0xC0 ≤ b) && decide (b ≤ 0xDF) && isCont b2) = false)
    (hc3 : (decide (0xE0 ≤ b) && decide (b ≤ 0xEF) && isCont b2 && isCont b3) = true) :
    exec (runtimeLib σ ops) n writeStringFunBody1 ws(s, pre.length, w) = some (.continue,
      ws(s, pre.length + 3, { w with out := w.out ++ escU (((b.toNat &&& 0x0F) <<< 12) ||| ((b2.toNat &&& 0x3F) <<< 6) ||| (b3.toNat &&& 0x3F)) })) := by
  obtain ⟨h1, h2, h3, h4, h5⟩ := index_facts (σ := σ) hs hl
  have g : ¬ (b.toNat : Int) ≤ 127 := by intro h; exact hb (show b.toNat ≤ 127 by omega)
  have hsl : s.length = pre.length + 3 + rest.length := by rw [hs]; simp only [List.length_append, List.length_cons]; omega
  have k : ¬ (s.length : Int) ≤ ((pre.length + 1 : Nat) : Int) := by omega
  have k2 : ¬ (s.length : Int) ≤ ((pre.length + 2 : Nat) : Int) := by omega
  have k3 : ((pre.length + 2 : Nat) : Int) < (s.length : Int) := by omega
  have h6 : pre.length + 1 < s.length := by omega
  have h6' : pre.length + 2 < s.length := by omega
  have h7 : s.getD (pre.length + 1) 0 = b2 := by rw [hs]; simp
  have h7' : s.getD (pre.length + 2) 0 = b3 := by rw [hs]; simp
  have h8 : IT.fit .u64 ((pre.length : Int) + 2) = some ((pre.length + 2 : Nat) : Int) := fit_nat (x := pre.length + 2) rfl (by simp only [IT.top]; omega)
  have h8' : IT.fit .u64 ((pre.length : Int) + 3) = some ((pre.length + 3 : Nat) : Int) := fit_nat (x := pre.length + 3) rfl (by simp only [IT.top]; omega)
  have h9 : IT.fit .i32 (((b.toNat &&& 15) <<< 12 : Nat) : Int) = some (((b.toNat &&& 15) <<< 12 : Nat) : Int) :=
    fit_nat rfl (by have := shl_bound 4 12 (and_bound b 15 4 (by decide)); simp only [IT.top]; omega)
  have h9' : IT.fit .i32 (((b2.toNat &&& 63) <<< 6 : Nat) : Int) = some (((b2.toNat &&& 63) <<< 6 : Nat) : Int) :=
    fit_nat rfl (by have := shl_bound 6 6 (and_bound b2 63 6 (by decide)); simp only [IT.top]; omega)
  have h10 : IT.convert σ .u32 .i32 ((((b.toNat &&& 15) <<< 12) ||| ((b2.toNat &&& 63) <<< 6) ||| (b3.toNat &&& 63) : Nat) : Int) =
      ((((b.toNat &&& 15) <<< 12) ||| ((b2.toNat &&& 63) <<< 6) ||| (b3.toNat &&& 63) : Nat) : Int) :=
    convert_nat _ (by have := cp3_bound b b2 b3; simp only [IT.top]; omega)
  cxxi [writeStringFunBody1, h1, h2, h3, h4, u8_int, not_neg, convert_u8_char, g, ha, k, k2, k3, h6, h6', h7, h7', h8, h8', h9, h9', h10, cond2_eq, hc,
    cond3_eq, hc3, Bool.and_true]

theorem body_end3 (n : Nat) (s pre : Bytes) (b b2 b3 : Byte) (w : World) (hs : s = pre ++ [b, b2, b3]) (hl : s.length < 2 ^ 64)
    (hb : ¬ b ≤ 0x7F) (ha : w.ascii = true) (hc : (decide (0xC0 ≤ b) && decide (b ≤ 0xDF) && isCont b2) = false)
    (hc3 : (decide (0xE0 ≤ b) && decide (b ≤ 0xEF) && isCont b2 && isCont b3) = false) :
    exec (runtimeLib σ ops) n writeStringFunBody1 ws(s, pre.length, w) = some (.ret (.int .i32 1),
      ws(s, pre.length, { w with tz := { w.tz with err := (setError w.tz.err .invalidUtf8).2 } })) := by
  obtain ⟨h1, h2, h3, h4, h5⟩ := index_facts (σ := σ) hs hl
  have g : ¬ (b.toNat : Int) ≤ 127 := by intro h; exact hb (show b.toNat ≤ 127 by omega)
  have hsl : s.length = pre.length + 3 := by rw [hs, List.length_append]; rfl
  have k : ¬ (s.length : Int) ≤ ((pre.length + 1 : Nat) : Int) := by omega
  have k2 : ¬ (s.length : Int) ≤ ((pre.length + 2 : Nat) : Int) := by omega
  have k3 : ((pre.length + 2 : Nat) : Int) < (s.length : Int) := by omega
  have k4 : (s.length : Int) ≤ ((pre.length + 3 : Nat) : Int) := by omega
  have h6 : pre.length + 1 < s.length := by omega
  have h6' : pre.length + 2 < s.length := by omega
  have h7 : s.getD (pre.length + 1) 0 = b2 := by rw [hs]; simp
  have h7' : s.getD (pre.length + 2) 0 = b3 := by rw [hs]; simp
  have h8 : IT.fit .u64 ((pre.length : Int) + 2) = some ((pre.length + 2 : Nat) : Int) := fit_nat (x := pre.length + 2) rfl (by simp only [IT.top]; omega)
  have h8' : IT.fit .u64 ((pre.length : Int) + 3) = some ((pre.length + 3 : Nat) : Int) := fit_nat (x := pre.length + 3) rfl (by simp only [IT.top]; omega)
  cxxi [writeStringFunBody1, h1, h2, h3, h4, u8_int, not_neg, convert_u8_char, g, ha, k, k2, k3, k4, h6, h6', h7, h7', h8, h8', cond2_eq, hc,
    cond3_eq, hc3, Bool.and_true]

theorem body_four (n : Nat) (s pre rest : Bytes) (b b2 b3 b4 : Byte) (w : World) (hs : s = pre ++ b :: b2 :: b3 :: b4 :: rest) (hl : s.length < 2 ^ 64)
    (hb : ¬ b ≤ 0x7F) (ha : w.ascii = true) (hc : (decide (0xC0 ≤ b) && decide (b ≤ 0xDF) && isCont b2) = false)
    (hc3 : (decide (0xE0 ≤ b) && decide (b ≤ 0xEF) && isCont b2 && isCont b3) = false)
    (cp : Nat) (hcp : ((b.toNat &&& 7) <<< 18) ||| ((b2.toNat &&& 63) <<< 12) ||| ((b3.toNat &&& 63) <<< 6) ||| (b4.toNat &&& 63) = cp) :
    exec (runtimeLib σ ops) n writeStringFunBody1 ws(s, pre.length, w) =
      if (decide (0xF0 ≤ b) && decide (b ≤ 0xF4) && isCont b2 && isCont b3 && isCont b4) = true then
        some (.continue, ws(s, pre.length + 4, { w with out := w.out ++ escU (0xD800 - (0x10000 >>> 10) + (cp >>> 10)) ++ escU (0xDC00 + (cp &&& 0x3FF)) }))
      else some (.ret (.int .i32 1),
        ws(s, pre.length, { w with tz := { w.tz with err := (setError w.tz.err .invalidUtf8).2 } })) := by
  obtain ⟨h1, h2, h3, h4, h5⟩ := index_facts (σ := σ) hs hl
  have g : ¬ (b.toNat : Int) ≤ 127 := by intro h; exact hb (show b.toNat ≤ 127 by omega)
  have hsl : s.length = pre.length + 4 + rest.length := by rw [hs]; simp only [List.length_append, List.length_cons]; omega
  have k : ¬ (s.length : Int) ≤ ((pre.length + 1 : Nat) : Int) := by omega
  have k2 : ¬ (s.length : Int) ≤ ((pre.length + 2 : Nat) : Int) := by omega
  have k3 : ((pre.length + 2 : Nat) : Int) < (s.length : Int) := by omega
  have k4 : ¬ (s.length : Int) ≤ ((pre.length + 3 : Nat) : Int) := by omega
  have k5 : ((pre.length + 3 : Nat) : Int) < (s.length : Int) := by omega
  have h6 : pre.length + 1 < s.length := by omega
  have h6' : pre.length + 2 < s.length := by omega
  have h6'' : pre.length + 3 < s.length := by omega
  have h7 : s.getD (pre.length + 1) 0 = b2 := by rw [hs]; simp
  have h7' : s.getD (pre.length + 2) 0 = b3 := by rw [hs]; simp
  have h7'' : s.getD (pre.length + 3) 0 = b4 := by rw [hs]; simp
  have h8 : IT.fit .u64 ((pre.length : Int) + 2) = some ((pre.length + 2 : Nat) : Int) := fit_nat (x := pre.length + 2) rfl (by simp only [IT.top]; omega)
  have h8' : IT.fit .u64 ((pre.length : Int) + 3) = some ((pre.length + 3 : Nat) : Int) := fit_nat (x := pre.length + 3) rfl (by simp only [IT.top]; omega)
  have h8'' : IT.fit .u64 ((pre.length : Int) + 4) = some ((pre.length + 4 : Nat) : Int) := fit_nat (x := pre.length + 4) rfl (by simp only [IT.top]; omega)
  have h9 : IT.fit .i32 (((b.toNat &&& 7) <<< 18 : Nat) : Int) = some (((b.toNat &&& 7) <<< 18 : Nat) : Int) :=
    fit_nat rfl (by have := shl_bound 3 18 (and_bound b 7 3 (by decide)); simp only [IT.top]; omega)
  have h9' : IT.fit .i32 (((b2.toNat &&& 63) <<< 12 : Nat) : Int) = some (((b2.toNat &&& 63) <<< 12 : Nat) : Int) :=
    fit_nat rfl (by have := shl_bound 6 12 (and_bound b2 63 6 (by decide)); simp only [IT.top]; omega)
  have h9'' : IT.fit .i32 (((b3.toNat &&& 63) <<< 6 : Nat) : Int) = some (((b3.toNat &&& 63) <<< 6 : Nat) : Int) :=
    fit_nat rfl (by have := shl_bound 6 6 (and_bound b3 63 6 (by decide)); simp only [IT.top]; omega)
  have hb4 := cp4_bound b b2 b3 b4
  rw [hcp] at hb4
  have h10 : IT.convert σ .u32 .i32 (cp : Int) = cp := convert_nat _ (by simp only [IT.top]; omega)
  have h11 : IT.fit .i32 ((55296 : Int) - ((65536 >>> 10 : Nat) : Int)) = some 55232 := rfl
  have hsr : cp >>> 10 < 2 ^ 11 := by rw [Nat.shiftRight_eq_div_pow]; omega
  have h12 : IT.fit .u32 ((55232 : Int) + ((cp >>> 10 : Nat) : Int)) = some ((55232 + cp >>> 10 : Nat) : Int) :=
    fit_nat (x := 55232 + cp >>> 10) rfl (by simp only [IT.top]; omega)
  have hand : cp &&& 1023 < 1024 := Nat.lt_of_le_of_lt Nat.and_le_right (by decide)
  have h13 : IT.fit .u32 ((56320 : Int) + ((cp &&& 1023 : Nat) : Int)) = some ((56320 + (cp &&& 1023) : Nat) : Int) :=
    fit_nat (x := 56320 + (cp &&& 1023)) rfl (by simp only [IT.top]; omega)
  cases hc4 : (decide (0xF0 ≤ b) && decide (b ≤ 0xF4) && isCont b2 && isCont b3 && isCont b4) with
  | false =>
    cxxi [writeStringFunBody1, h1, h2, h3, h4, u8_int, not_neg, convert_u8_char, g, ha, k, k2, k3, k4, k5, h6, h6', h6'', h7, h7', h7'',
      h8, h8', h8'', cond2_eq, hc, cond3_eq, hc3, cond4_eq, hc4, Bool.and_true]
  | true =>
    cxxi [writeStringFunBody1, h1, h2, h3, h4, u8_int, not_neg, convert_u8_char, g, ha, k, k2, k3, k4, k5, h6, h6', h6'', h7, h7', h7'',
      h8, h8', h8'', h9, h9', h9'', hcp, h10, h11, h12, h13, cond2_eq, hc, cond3_eq, hc3, cond4_eq, hc4, Bool.and_true]
    rfl

/-- The loop. -/
theorem writeString_loop (m n : Nat) (s pre rest : Bytes) (w : World) (hs : s = pre ++ rest) (hl : s.length < 2 ^ 64) (hn : rest.length < n) :
    ∃ j : Nat, iterate (test (runtimeLib σ ops) (.binary n!"<" (.name n!"i") (.name n!"size"))) (exec (runtimeLib σ ops) m writeStringFunBody1)
      (perform (runtimeLib σ ops) (.int .i32 0)) n ws(s, pre.length, w) = some (if (strBody w.ascii rest).2 = true then
        (.next, ws(s, j, { w with out := w.out ++ (strBody w.ascii rest).1 }))
        else (.ret (.int .i32 1), ws(s, j, { w with tz := { w.tz with err := (setError w.tz.err .invalidUtf8).2 }, out := w.out ++ (strBody w.ascii rest).1 }))) := by
  induction n generalizing pre rest w with
  | zero => omega
  | succ n ih =>
    cases rest with
    | nil =>
      have e : pre = s := by rw [hs, List.append_nil]
      subst e
      rw [iterate_done (by cxxi [Int.lt_irrefl]; rfl)]
      exact ⟨pre.length, by simp only [strBody, List.append_nil, ↓reduceIte]⟩
    | cons b rest =>
      have hlen : s.length = pre.length + (rest.length + 1) := by rw [hs, List.length_append, List.length_cons]
      have hlt : (pre.length : Int) < (s.length : Int) := by omega
      rw [List.length_cons] at hn
      have go : ∀ {f : Flow (Dom V F)} {k : Nat} {out : Bytes} (t rest' : Bytes), f = .next ∨ f = .continue → s = (pre ++ t) ++ rest' → t.length = k → rest'.length < n →
          exec (runtimeLib σ ops) m writeStringFunBody1 ws(s, pre.length, w) = some (f, ws(s, pre.length + k, { w with out := w.out ++ out })) →
          (strBody w.ascii (b :: rest)).1 = out ++ (strBody w.ascii rest').1 → (strBody w.ascii (b :: rest)).2 = (strBody w.ascii rest').2 →
          ∃ j : Nat, iterate (test (runtimeLib σ ops) (.binary n!"<" (.name n!"i") (.name n!"size"))) (exec (runtimeLib σ ops) m writeStringFunBody1)
            (perform (runtimeLib σ ops) (.int .i32 0)) (n + 1) ws(s, pre.length, w) = some (if (strBody w.ascii (b :: rest)).2 = true then
              (.next, ws(s, j, { w with out := w.out ++ (strBody w.ascii (b :: rest)).1 }))
              else (.ret (.int .i32 1), ws(s, j, { w with tz := { w.tz with err := (setError w.tz.err .invalidUtf8).2 }, out := w.out ++ (strBody w.ascii (b :: rest)).1 }))) := by
        intro f k out t rest' hf hs' hk hr he h1 h2
        obtain ⟨j, hj⟩ := ih (pre ++ t) rest' { w with out := w.out ++ out } hs' hr
        refine ⟨j, ?_⟩
        rw [h1, h2]
        rw [List.length_append, hk] at hj
        simp only [List.append_assoc] at hj
        rcases hf with rfl | rfl
        · rw [iterate_next (by cxxi [hlt]) he (by cxxi []; rfl), hj]
        · rw [iterate_continue (by cxxi [hlt]) he (by cxxi []; rfl), hj]
      have stop : (strBody w.ascii (b :: rest)).2 = false → (strBody w.ascii (b :: rest)).1 = [] →
          exec (runtimeLib σ ops) m writeStringFunBody1 ws(s, pre.length, w) = some (.ret (.int .i32 1), ws(s, pre.length, { w with tz := { w.tz with err := (setError w.tz.err .invalidUtf8).2 } })) →
          ∃ j : Nat, iterate (test (runtimeLib σ ops) (.binary n!"<" (.name n!"i") (.name n!"size"))) (exec (runtimeLib σ ops) m writeStringFunBody1)
            (perform (runtimeLib σ ops) (.int .i32 0)) (n + 1) ws(s, pre.length, w) = some (if (strBody w.ascii (b :: rest)).2 = true then
              (.next, ws(s, j, { w with out := w.out ++ (strBody w.ascii (b :: rest)).1 }))
              else (.ret (.int .i32 1), ws(s, j, { w with tz := { w.tz with err := (setError w.tz.err .invalidUtf8).2 }, out := w.out ++ (strBody w.ascii (b :: rest)).1 }))) := by
        intro h1 h2 he
        refine ⟨pre.length, ?_⟩
        rw [h1, h2, iterate_ret (by cxxi [hlt]) he, List.append_nil]
        rfl
      by_cases hb : b ≤ 0x7F
      · exact go [b] rest (.inl rfl) (by rw [hs, List.append_assoc]; rfl) rfl (by omega) (body_plain m s pre rest b w hs hl hb)
          (by rw [strBody.eq_def]; simp only [hb, ↓reduceIte]) (by rw [strBody.eq_def]; simp only [hb, ↓reduceIte])
      rcases Bool.eq_false_or_eq_true w.ascii with ha | ha
      rotate_left
      · exact go [b] rest (.inr rfl) (by rw [hs, List.append_assoc]; rfl) rfl (by omega) (body_raw m s pre rest b w hs hl hb ha)
          (by rw [strBody.eq_def]; simp only [ha, hb, ↓reduceIte, Bool.not_false, List.cons_append, List.nil_append])
          (by rw [strBody.eq_def]; simp only [ha, hb, ↓reduceIte, Bool.not_false])
      · cases rest with
        | nil =>
          exact stop (by rw [strBody.eq_def]; simp only [ha, hb, ↓reduceIte, Bool.not_true, Bool.false_eq_true])
            (by rw [strBody.eq_def]; simp only [ha, hb, ↓reduceIte, Bool.not_true, Bool.false_eq_true]) (body_end1 m s pre b w hs hl hb ha)
        | cons b2 rest =>
          cases hc : (decide (0xC0 ≤ b) && decide (b ≤ 0xDF) && isCont b2) with
          | true =>
            exact go [b, b2] rest (.inr rfl) (by rw [hs, List.append_assoc]; rfl) rfl (by rw [List.length_cons] at hn; omega)
              (body_two m s pre rest b b2 w hs hl hb ha hc)
              (by rw [strBody.eq_def]; simp only [ha, hb, ↓reduceIte, Bool.not_true, Bool.false_eq_true, hc])
              (by rw [strBody.eq_def]; simp only [ha, hb, ↓reduceIte, Bool.not_true, Bool.false_eq_true, hc])
          | false =>
            cases rest with
            | nil =>
              exact stop (by rw [strBody.eq_def]; simp only [ha, hb, ↓reduceIte, Bool.not_true, Bool.false_eq_true, hc])
                (by rw [strBody.eq_def]; simp only [ha, hb, ↓reduceIte, Bool.not_true, Bool.false_eq_true, hc]) (body_end2 m s pre b b2 w hs hl hb ha hc)
            | cons b3 rest =>
              cases hc3 : (decide (0xE0 ≤ b) && decide (b ≤ 0xEF) && isCont b2 && isCont b3) with
              | true =>
                exact go [b, b2, b3] rest (.inr rfl) (by rw [hs, List.append_assoc]; rfl) rfl (by simp only [List.length_cons] at hn; omega)
                  (body_three m s pre rest b b2 b3 w hs hl hb ha hc hc3)
                  (by rw [strBody.eq_def]; simp only [ha, hb, ↓reduceIte, Bool.not_true, Bool.false_eq_true, hc, hc3])
                  (by rw [strBody.eq_def]; simp only [ha, hb, ↓reduceIte, Bool.not_true, Bool.false_eq_true, hc, hc3])
              | false =>
                cases rest with
                | nil =>
                  exact stop (by rw [strBody.eq_def]; simp only [ha, hb, ↓reduceIte, Bool.not_true, Bool.false_eq_true, hc, hc3])
                    (by rw [strBody.eq_def]; simp only [ha, hb, ↓reduceIte, Bool.not_true, Bool.false_eq_true, hc, hc3])
                    (body_end3 m s pre b b2 b3 w hs hl hb ha hc hc3)
                | cons b4 rest =>
                  have h4 := body_four (σ := σ) (ops := ops) m s pre rest b b2 b3 b4 w hs hl hb ha hc hc3 _ rfl
                  cases hc4 : (decide (0xF0 ≤ b) && decide (b ≤ 0xF4) && isCont b2 && isCont b3 && isCont b4) with
                  | true =>
                    rw [hc4, if_pos rfl, List.append_assoc] at h4
                    exact go [b, b2, b3, b4] rest (.inr rfl) (by rw [hs, List.append_assoc]; rfl) rfl
                      (by simp only [List.length_cons] at hn; omega) h4
                      (by rw [strBody.eq_def]; simp only [ha, hb, ↓reduceIte, Bool.not_true, Bool.false_eq_true, hc, hc3, hc4])
                      (by rw [strBody.eq_def]; simp only [ha, hb, ↓reduceIte, Bool.not_true, Bool.false_eq_true, hc, hc3, hc4])
                  | false =>
                    rw [hc4, if_neg (by decide)] at h4
                    exact stop (by rw [strBody.eq_def]; simp only [ha, hb, ↓reduceIte, Bool.not_true, Bool.false_eq_true, hc, hc3, hc4])
                      (by rw [strBody.eq_def]; simp only [ha, hb, ↓reduceIte, Bool.not_true, Bool.false_eq_true, hc, hc3, hc4]) h4

/-- json-string.hh:59-147. -/
theorem writeString_runs (n : Nat) (s : Bytes) (w : World) (hl : s.length < 2 ^ 64) (hn : s.length < n) :
    writeStringFun.run (runtimeLib σ ops) n [.dom .ctx, .str s] w = wroteAs (stringWrite w.ascii s w.tz.err) (.str s) w := by
  obtain ⟨j, hj⟩ := writeString_loop (σ := σ) (ops := ops) n n s [] s { w with out := w.out ++ [c!"\""] } rfl hl hn
  rw [List.length_nil, show ((0 : Nat) : Int) = 0 from rfl] at hj
  unfold stringWrite
  cxxi [writeStringFun]
  rw [hj]
  cases hr : (strBody w.ascii s).2 with
  | true => cxxi [wroteAs, rcNumber, show writeStringFun.type = n!"static int" from rfl, hr, List.append_assoc, List.cons_append, List.nil_append]
  | false => 
    have : (setError w.tz.err .invalidUtf8).1 = .error := by unfold setError; split <;> rfl
    cxxi [wroteAs, rcNumber, show writeStringFun.type = n!"static int" from rfl, hr, List.append_assoc, List.cons_append, List.nil_append, this]

end PG.Cxx
