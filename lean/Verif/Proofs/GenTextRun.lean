import Verif.Proofs.GenWholeRun
import Verif.Proofs.CxxReveal
/-!
`rol`, `obfuscate` and `Printer::print`: what running the C++ does is what the model says.
-/
set_option autoImplicit false
namespace PG.Cxx

/-- `rol` of the generator (cppgen.cc:207-212), for `uint8_t`. -/
theorem genRol_runs {V F : Type} {σ : Bool} {ops : Ops V F} (n : Nat) (v c : Nat) (hv : v < 256) (hc : c < 8) (w : World) :
    Maker.rolFun.run (runtimeLib σ ops) n [.int .u8 v, .int .i32 c] w = some (.int .u8 (rol8 v c), [.int .u8 v, .int .i32 c], w) := by
  have h1 : IT.convert σ .i32 .u8 v = v := convert_nat _ (by simp only [IT.top]; omega)
  have h2 : v <<< c ≤ 32640 := by
    rw [Nat.shiftLeft_eq]
    have : 2 ^ c ≤ 2 ^ 7 := Nat.pow_le_pow_right (by decide) (by omega)
    calc v * 2 ^ c ≤ 255 * 2 ^ 7 := Nat.mul_le_mul (by omega) this
      _ = 32640 := by decide
  have h3 : IT.fit .i32 ((v <<< c : Nat) : Int) = some ((v <<< c : Nat) : Int) :=
    fit_nat rfl (by simp only [IT.top]; omega)
  have h4 : IT.shift n!"<<" .i32 (v : Int) (c : Int) = some ((v <<< c : Nat) : Int) := by
    rw [shift_left _ (by omega) (by omega) (by simp only [IT.bits]; omega), Int.toNat_natCast, Int.toNat_natCast, h3]
  have h5 : IT.fit .i32 (-(c : Int)) = some (-(c : Int)) := fit_i32 (by omega)
  have h6 : IT.arith n!"&" .i32 (-(c : Int)) 7 = some ((((8 - c) % 8 : Nat)) : Int) := by
    have : c = 0 ∨ c = 1 ∨ c = 2 ∨ c = 3 ∨ c = 4 ∨ c = 5 ∨ c = 6 ∨ c = 7 := by omega
    rcases this with rfl | rfl | rfl | rfl | rfl | rfl | rfl | rfl <;> decide
  have h7 : IT.shift n!">>" .i32 (v : Int) (((8 - c) % 8 : Nat) : Int) = some ((v >>> ((8 - c) % 8) : Nat) : Int) := by
    rw [shift_right _ (by omega) (by omega) (by simp only [IT.bits]; omega), Int.toNat_natCast, Int.toNat_natCast]
  cxxi [Maker.rolFun, h1, h4, h5, h6, h7, cast_T, size_T]
  rfl

end PG.Cxx
namespace PG.Cxx.Throw
open PG.Gen PG.Proto PG.Cxx.Maker
variable {s : Bool}

section
local notation "X" => hexLib s
theorem hex_signed : (X).base.signed = s := (rfl)
theorem hex_get (n : Name) (u : Bytes × Bool) : (X).base.get n u = none := (rfl)
theorem hex_hex : (X).base.constant [n!"std", n!"hex"] = some (.dom .hex) := (rfl)
theorem hex_init (u : Bytes × Bool) : (X).base.init n!"std :: stringstream" none u = some (.dom .stream) := by
  simp [hexLib]
theorem initial_stream {D S : Type} {L : Lib D S} (v : Option (Val D)) (u : S) :
    initial L n!"std :: stringstream" v u = L.init n!"std :: stringstream" v u := (rfl)
theorem hex_str (x : Bytes) (u : Bytes × Bool) : (X).base.binary n!"<<" (.dom .stream) (.str x) u = some (.dom .stream, (u.1 ++ x, u.2)) := (rfl)
theorem hex_mode (u : Bytes × Bool) : (X).base.binary n!"<<" (.dom .stream) (.dom .hex) u = some (.dom .stream, (u.1, true)) := (rfl)
theorem hex_int (v : Nat) (a : Bytes) (h : v < 256) : (X).base.binary n!"<<" (.dom .stream) (.int .i32 v) (a, true) =
    some (.dom .stream, (a ++ hexText v, true)) := by
  have : (v : Int) < 256 := by omega
  simp [hexLib, this]
theorem hex_rol (v c : Int) (u : Bytes × Bool) : (X).function [n!"rol", n!"uint8_t"] u [.int .u32 v, .int .u64 c] =
    .ok (.int .u8 (rol8 v.toNat c.toNat), [], u) := (rfl)
theorem hex_text (u : Bytes × Bool) : (X).method n!"str" u [.dom .stream] = .ok (.str u.1, [], u) := (rfl)
theorem hex_b_str : builtin n!"str" (.dom HexVal.stream) [] = none := (rfl)
end
attribute [cxt] initial_stream hex_signed hex_get hex_hex hex_init hex_str hex_mode hex_rol hex_text hex_b_str

/-- The variables of `obfuscate` in its loop. -/
def obfuscateVars (x : Bytes) (m : Nat) (j : Nat) (a : Bytes × Bool) : St HexVal (Bytes × Bool) :=
  ⟨[[(n!"t", .int .u64 x.length), (n!"i", .int .u64 j)], [(n!"result", .dom .stream), (n!"mask", .int .u8 m)], [(n!"value", .str x)]], a⟩

theorem obfuscate_runs (n : Nat) (x : Bytes) (hn : x.length < n) (hl : x.length < 18446744073709551616) :
    ((run (hexLib s) n Maker.obfuscateFun [.str x] ([], false)).bind fun r => .ok r.1) = .ok (.str (obfuscateText x)) := by
  have h1 : IT.arith n!"%" .u64 (x.length : Int) 8 = some ((x.length % 8 : Nat) : Int) := arith_mod _ (y := 8) (by decide)
  have hm : rol8 147 (x.length % 8) ≤ 255 := by unfold rol8; omega
  have hi : ∀ u, initial (hexLib s).base n!"uint8_t" (some (.int .u8 (rol8 147 (x.length % 8)))) u = some (.int .u8 (rol8 147 (x.length % 8))) := by
    intro u
    rw [initial_u8]
    show some (Val.int IT.u8 (IT.convert s .u8 .u8 _)) = _
    rw [convert_self]
  cxg [Maker.obfuscateFun, h1, Int.toNat_natCast, show (147 : Int).toNat = 147 from rfl, hi]
  change ((iterate _ _ _ n (obfuscateVars x (rol8 147 (x.length % 8)) 0 ([], false))).bind _) = _
  unfold obfuscateText
  have hb : ∀ c : Byte, (c.toNat ^^^ rol8 147 (x.length % 8)) = (c ^^^ obfMask x.length).toNat := by
    intro c
    rw [UInt8.toNat_xor, obfMask]
    show _ = _ ^^^ (UInt8.ofNat _).toNat
    rw [UInt8.toNat_ofNat', Nat.mod_eq_of_lt (a := rol8 147 _) (by omega)]
  generalize rol8 147 (x.length % 8) = m at *
  refine iterate_upto (β := Val HexVal) x (obfuscateVars x m)
    (fun a c => .ok (.next, (a.1 ++ b!"\\x" ++ hexText (c ^^^ obfMask x.length).toNat, true))) (fun _ _ => True)
    (fun r a => .ok (.str (a.1 ++ r.flatMap fun c => b!"\\x" ++ hexText (c ^^^ obfMask x.length).toNat))) _ ?_ ?_ ?_ ?_ ?_ ?_ n _ trivial hn
  · intro j a hj
    cxg [obfuscateVars]
    rw [show decide ((j : Int) < x.length) = decide (¬ (j : Int) = x.length) from by simp only [decide_eq_decide]; omega]
  · intro pre c xs a hp _
    have hlt : pre.length < x.length := by rw [hp, List.length_append, List.length_cons]; omega
    have hg : x.getD pre.length 0 = c := by rw [hp]; simp
    have h2 : IT.convert s .i32 .u8 (c.toNat : Int) = c.toNat := convert_nat _ (by have := c.toNat_lt; simp only [IT.top]; omega)
    have h3 : IT.convert s .i32 .u8 (m : Int) = m := convert_nat _ (by simp only [IT.top]; omega)
    have h4 := hex_int (s := s) (c ^^^ obfMask x.length).toNat (a.1 ++ b!"\\x") (UInt8.toNat_lt _)
    cxg [obfuscateVars, Maker.obfuscateFunBody1, not_neg, hlt, hg, convert_u8_char, h2, h3, hb, h4, arith_xor]
  · intro j a hj
    cxg [obfuscateVars, fit_index j (by omega), convert_self]
  · intros; trivial
  · intro a _
    cxg [obfuscateVars, Maker.obfuscateFun, List.flatMap_nil, List.append_nil]
  · intro j c xs a _
    cxg [after, List.flatMap_cons, List.append_assoc]

end PG.Cxx.Throw
