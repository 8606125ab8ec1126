import Verif.Proofs.CxxRuntime
import Verif.Proofs.CxxInt
/-
`rol` and `reveal` (protogen.hh:611-625) are `rol8` and `reveal`.
-/
set_option autoImplicit false
namespace PG.Cxx
variable {V F : Type} {σ : Bool} {ops : Ops V F}
theorem cast_T (v : Int) (t : IT) : (runtimeLib σ ops).cast n!"T" (.int t v) = toInt σ .u8 (.int t v) := (rfl)
theorem size_T : (runtimeLib σ ops).size n!"T" = some 1 := (rfl)
theorem get_T (w : World) : (runtimeLib σ ops).get n!"T" w = none := (rfl)

/-- protogen.hh:611-615 for `uint8_t`. -/
theorem rol_runs (n : Nat) (v c : Nat) (hv : v < 256) (hc : c < 8) (w : World) :
    rolFun.run (runtimeLib σ ops) n [.int .u8 v, .int .i32 c] w = some (.int .u8 (rol8 v c), [.int .u8 v, .int .i32 c], w) := by
  have h1 : IT.convert σ .i32 .u8 v = v := convert_nat _ (by simp only [IT.top]; omega)
  have h2 : v <<< c ≤ 32640 := by
    rw [Nat.shiftLeft_eq]
    have : 2 ^ c ≤ 2 ^ 7 := Nat.pow_le_pow_right (by decide) (by omega)
    calc v * 2 ^ c ≤ 255 * 2 ^ 7 := Nat.mul_le_mul (by omega) this
      _ = 32640 := by decide
  have h3 : IT.fit .i32 ((v <<< c : Nat) : Int) = some ((v <<< c : Nat) : Int) :=
    fit_nat rfl (by simp only [IT.top]; omega)
  have h4 : IT.shift n!"<<" .i32 (v : Int) (c : Int) = some ((v <<< c : Nat) : Int) := by
    rw [shift_left _ (by omega) (by omega) (by simp only [IT.bits]; omega), Int.toNat_natCast, Int.toNat_natCast, h3]
  have h5 : IT.fit .i32 (-(c : Int)) = some (-(c : Int)) := fit_i32 (by omega)
  have h6 : IT.arith n!"&" .u64 (IT.convert σ .u64 .i32 (-(c : Int))) 7 = some ((((8 - c) % 8 : Nat)) : Int) := by
    have : c = 0 ∨ c = 1 ∨ c = 2 ∨ c = 3 ∨ c = 4 ∨ c = 5 ∨ c = 6 ∨ c = 7 := by omega
    rcases this with rfl | rfl | rfl | rfl | rfl | rfl | rfl | rfl <;> cases σ <;> decide
  have h7 : IT.shift n!">>" .i32 (v : Int) (((8 - c) % 8 : Nat) : Int) = some ((v >>> ((8 - c) % 8) : Nat) : Int) := by
    rw [shift_right _ (by omega) (by omega) (by simp only [IT.bits]; omega), Int.toNat_natCast, Int.toNat_natCast]
  cxxi [rolFun, h1, h4, h5, h6, h7, cast_T, size_T]
  rfl

theorem inst_rol (v c : Int) (w : World) : (runtimeLib σ ops).inst n!"rol" n!"uint8_t" w [.int .u32 v, .int .u64 c] =
    some (.int .u8 (rol8 v.toNat c.toNat), [], w) := (rfl)

/-- The loop of `reveal`. -/
theorem reveal_loop (m : Nat) (mask : Nat) (hm : mask ≤ 255) (w : World) (s pre rest acc : Bytes) (hs : s = pre ++ rest)
    (hl : s.length < 2 ^ 64) (n : Nat) (hn : rest.length < n) :
    iterate (test (runtimeLib σ ops) (.binary n!"<" (.name n!"i") (.call (.member (.name n!"value") n!"length") .nil)))
      (exec (runtimeLib σ ops) m revealFunBody1) (perform (runtimeLib σ ops) (.incr n!"++" true (.name n!"i"))) n
      ⟨[[(n!"i", .int .u64 pre.length)], [(n!"result", .str acc), (n!"mask", .int .u8 mask)], [(n!"value", .str s)]], w⟩ =
      some (.next, ⟨[[(n!"i", .int .u64 s.length)], [(n!"result", .str (acc ++ rest.map (· ^^^ byte mask))), (n!"mask", .int .u8 mask)],
        [(n!"value", .str s)]], w⟩) := by
  induction n generalizing pre rest acc with
  | zero => omega
  | succ n ih =>
    cases rest with
    | nil =>
      have e : s = pre := by rw [hs, List.append_nil]
      subst e
      rw [List.map_nil, List.append_nil]
      exact iterate_done (by cxxi [Int.lt_irrefl])
    | cons b rest =>
      have hlt : pre.length < s.length := by rw [hs, List.length_append, List.length_cons]; omega
      have hlt' : (pre.length : Int) < (s.length : Int) := by omega
      have hb : s.getD pre.length 0 = b := by rw [hs]; simp
      have h2 : IT.convert σ .i32 .u8 (b.toNat : Int) = b.toNat := convert_nat _ (by have := b.toNat_lt; simp only [IT.top]; omega)
      have h3 : IT.convert σ .i32 .u8 (mask : Int) = mask := convert_nat _ (by simp only [IT.top]; omega)
      have h4 : IT.fit .u64 ((pre.length : Int) + 1) = some ((pre ++ [b]).length : Int) := by
        rw [List.length_append]
        exact fit_nat (x := pre.length + 1) rfl (by simp only [IT.top]; omega)
      have h5 : byte (b.toNat ^^^ mask) = b ^^^ byte mask := by
        apply UInt8.toNat_inj.mp
        have hx := Nat.xor_lt_two_pow (x := b.toNat) (y := mask) (n := 8) b.toNat_lt (by omega)
        rw [UInt8.toNat_xor]
        show (UInt8.ofNat _).toNat = _ ^^^ (UInt8.ofNat _).toNat
        rw [UInt8.toNat_ofNat', UInt8.toNat_ofNat', Nat.mod_eq_of_lt hx, Nat.mod_eq_of_lt (by omega)]
      rw [iterate_next (by cxxi [hlt']; rfl) (by cxxi [revealFunBody1, not_neg, hlt, hb, convert_u8_char, h2, h3, toByte_byte, h5]; rfl)
        (by cxxi [h4]; rfl), ih (pre ++ [b]) rest _ (by rw [hs]; simp) (by rw [List.length_cons] at hn; omega)]
      rw [List.map_cons, List.append_assoc]
      rfl

/-- protogen.hh:617-625. -/
theorem reveal_runs (n : Nat) (s : Bytes) (w : World) (hn : s.length < n) (hs : s.length < 2 ^ 64) :
    revealFun.run (runtimeLib σ ops) n [.str s] w = some (.str (reveal s), [.str s], w) := by
  have h1 : IT.arith n!"%" .u64 (s.length : Int) 8 = some ((s.length % 8 : Nat) : Int) := arith_mod _ (y := 8) (by decide)
  have hm : rol8 147 (s.length % 8) ≤ 255 := by unfold rol8; omega
  have h2 := reveal_loop (σ := σ) (ops := ops) n _ hm w s [] s [] rfl hs n hn
  cxxi [revealFun, h1, inst_rol]
  rw [show (0 : Int) = (([] : Bytes).length : Int) from rfl, h2]
  cxxi [show revealFun.type = n!"static inline std :: string" from rfl]
  rfl
end PG.Cxx
