import Verif.Proofs.ThrowEval
import Verif.Proofs.ProtoAst
/-
The functions of `InputStream` (proto3.cc:180-258), executed.
-/
set_option autoImplicit false
namespace PG.Cxx.Throw
open PG.Proto Schema
variable {σ : Bool}

theorem lit_32 : IT.ofByte σ 32 = 32 := by cases σ <;> rfl
theorem lit_9 : IT.ofByte σ 9 = 9 := by cases σ <;> rfl
theorem lit_10 : IT.ofByte σ 10 = 10 := by cases σ <;> rfl
theorem lit_13 : IT.ofByte σ 13 = 13 := by cases σ <;> rfl
theorem lit_65 : IT.ofByte σ 65 = 65 := by cases σ <;> rfl
theorem lit_90 : IT.ofByte σ 90 = 90 := by cases σ <;> rfl
theorem lit_97 : IT.ofByte σ 97 = 97 := by cases σ <;> rfl
theorem lit_122 : IT.ofByte σ 122 = 122 := by cases σ <;> rfl
theorem lit_95 : IT.ofByte σ 95 = 95 := by cases σ <;> rfl
theorem lit_48 : IT.ofByte σ 48 = 48 := by cases σ <;> rfl
theorem lit_57 : IT.ofByte σ 57 = 57 := by cases σ <;> rfl
theorem lit_47 : IT.ofByte σ 47 = 47 := by cases σ <;> rfl
theorem lit_34 : IT.ofByte σ 34 = 34 := by cases σ <;> rfl
theorem lit_61 : IT.ofByte σ 61 = 61 := by cases σ <;> rfl
theorem lit_123 : IT.ofByte σ 123 = 123 := by cases σ <;> rfl
theorem lit_125 : IT.ofByte σ 125 = 125 := by cases σ <;> rfl
theorem lit_59 : IT.ofByte σ 59 = 59 := by cases σ <;> rfl
theorem lit_44 : IT.ofByte σ 44 = 44 := by cases σ <;> rfl
theorem lit_60 : IT.ofByte σ 60 = 60 := by cases σ <;> rfl
theorem lit_62 : IT.ofByte σ 62 = 62 := by cases σ <;> rfl
theorem lit_91 : IT.ofByte σ 91 = 91 := by cases σ <;> rfl
theorem lit_93 : IT.ofByte σ 93 = 93 := by cases σ <;> rfl
theorem lit_42 : IT.ofByte σ 42 = 42 := by cases σ <;> rfl
theorem lit_46 : IT.ofByte σ 46 = 46 := by cases σ <;> rfl
attribute [cxt] lit_32 lit_9 lit_10 lit_13 lit_65 lit_90 lit_97 lit_122 lit_95 lit_48 lit_57 lit_47 lit_34 lit_61 lit_123 lit_125 lit_59 lit_44 lit_60 lit_62 lit_91 lit_93 lit_42 lit_46
theorem conv_32 : IT.convert σ .i32 .char 32 = 32 := by cases σ <;> rfl
theorem conv_9 : IT.convert σ .i32 .char 9 = 9 := by cases σ <;> rfl
theorem conv_10 : IT.convert σ .i32 .char 10 = 10 := by cases σ <;> rfl
theorem conv_13 : IT.convert σ .i32 .char 13 = 13 := by cases σ <;> rfl
theorem conv_65 : IT.convert σ .i32 .char 65 = 65 := by cases σ <;> rfl
theorem conv_90 : IT.convert σ .i32 .char 90 = 90 := by cases σ <;> rfl
theorem conv_97 : IT.convert σ .i32 .char 97 = 97 := by cases σ <;> rfl
theorem conv_122 : IT.convert σ .i32 .char 122 = 122 := by cases σ <;> rfl
theorem conv_95 : IT.convert σ .i32 .char 95 = 95 := by cases σ <;> rfl
theorem conv_48 : IT.convert σ .i32 .char 48 = 48 := by cases σ <;> rfl
theorem conv_57 : IT.convert σ .i32 .char 57 = 57 := by cases σ <;> rfl
theorem conv_47 : IT.convert σ .i32 .char 47 = 47 := by cases σ <;> rfl
theorem conv_34 : IT.convert σ .i32 .char 34 = 34 := by cases σ <;> rfl
theorem conv_61 : IT.convert σ .i32 .char 61 = 61 := by cases σ <;> rfl
theorem conv_123 : IT.convert σ .i32 .char 123 = 123 := by cases σ <;> rfl
theorem conv_125 : IT.convert σ .i32 .char 125 = 125 := by cases σ <;> rfl
theorem conv_59 : IT.convert σ .i32 .char 59 = 59 := by cases σ <;> rfl
theorem conv_44 : IT.convert σ .i32 .char 44 = 44 := by cases σ <;> rfl
theorem conv_60 : IT.convert σ .i32 .char 60 = 60 := by cases σ <;> rfl
theorem conv_62 : IT.convert σ .i32 .char 62 = 62 := by cases σ <;> rfl
theorem conv_91 : IT.convert σ .i32 .char 91 = 91 := by cases σ <;> rfl
theorem conv_93 : IT.convert σ .i32 .char 93 = 93 := by cases σ <;> rfl
theorem conv_42 : IT.convert σ .i32 .char 42 = 42 := by cases σ <;> rfl
theorem conv_46 : IT.convert σ .i32 .char 46 = 46 := by cases σ <;> rfl
attribute [cxt] conv_32 conv_9 conv_10 conv_13 conv_65 conv_90 conv_97 conv_122 conv_95 conv_48 conv_57 conv_47 conv_34 conv_61 conv_123 conv_125 conv_59 conv_44 conv_60 conv_62 conv_91 conv_93 conv_42 conv_46
theorem fit_m1 : IT.fit .i32 (-1) = some (-1) := rfl
theorem fit_m2 : IT.fit .i32 (-2) = some (-2) := rfl
attribute [cxt] fit_m1 fit_m2 Int.reduceNeg

/-- `*cur_ & 0xFF`. -/
theorem mask_byte (c : Byte) : IT.arith n!"&" .i32 (IT.ofByte σ c) 255 = some (c.toNat : Int) := by
  have h : (List.range 256).all (fun k => decide (IT.arith n!"&" .i32 (IT.ofByte σ (UInt8.ofNat k)) 255 = some (k : Int))) = true := by
    cases σ <;> decide +kernel
  have h := List.all_eq_true.mp h c.toNat (List.mem_range.mpr c.toNat_lt)
  rw [decide_eq_true_eq, UInt8.ofNat_toNat] at h
  exact h

section
variable (s t : In) (c : Byte) (r : Bytes) (k : Int) (b : Bool)
theorem in_base : (inputLib σ).base = inputBase σ := (rfl)
theorem in_signed : (inputBase σ).signed = σ := (rfl)
theorem in_true : (inputBase σ).constant [n!"true"] = some (.bool true) := (rfl)
theorem in_false : (inputBase σ).constant [n!"false"] = some (.bool false) := (rfl)
theorem in_nTrue : (inputBase σ).get n!"true" s = none := (rfl)
theorem in_nFalse : (inputBase σ).get n!"false" s = none := (rfl)
theorem in_this : (inputBase σ).get n!"this" s = some (.dom (.self s)) := (rfl)
theorem in_cur : (inputBase σ).get n!"cur_" s = some (.dom (.pos s.rest)) := (rfl)
theorem in_end : (inputBase σ).get n!"end_" s = some (.dom .theEnd) := (rfl)
theorem in_last : (inputBase σ).get n!"last_" s = some (.int .i32 s.last) := (rfl)
theorem in_line : (inputBase σ).get n!"line_" s = some (.int .i32 s.line) := (rfl)
theorem in_col : (inputBase σ).get n!"column_" s = some (.int .i32 s.col) := (rfl)
theorem in_ungot : (inputBase σ).get n!"ungot_" s = some (.bool s.ungot) := (rfl)
theorem in_setCur : (inputBase σ).set n!"cur_" (.dom (.pos r)) s = some { s with rest := r } := (rfl)
theorem in_setLast : (inputBase σ).set n!"last_" (.int .i32 k) s = some { s with last := k } := (rfl)
theorem in_setLine : (inputBase σ).set n!"line_" (.int .i32 k) s = some { s with line := k.toNat } := (rfl)
theorem in_setCol : (inputBase σ).set n!"column_" (.int .i32 k) s = some { s with col := k.toNat } := (rfl)
theorem in_setUngot : (inputBase σ).set n!"ungot_" (.bool b) s = some { s with ungot := b } := (rfl)
theorem in_star : (inputBase σ).unary n!"*" (.dom (.pos (c :: r))) s = some (.int .char (IT.ofByte σ c)) := (rfl)
theorem in_inc : (inputBase σ).unary n!"++" (.dom (.pos (c :: r))) s = some (.dom (.pos r)) := (rfl)
theorem in_eq : (inputBase σ).binary n!"==" (.dom (.pos r)) (.dom .theEnd) s = some (.bool r.isEmpty, s) := (rfl)
theorem in_get : (inputLib σ).function [n!"get"] s [] = .ok (.int .i32 s.get.1, [], s.get.2) := (rfl)
theorem in_unget : (inputLib σ).function [n!"unget"] s [] = (ranOf s.unget).bind fun s => .ok (.void, [], s) := (rfl)
theorem in_error (x : Bytes) : (inputLib σ).function [n!"std", n!"runtime_error"] s [.str x] = .ok (.dom (.exc (.runtime x)), [], s) := (rfl)
theorem in_throw (e : Thrown) : (inputLib σ).function [n!"throw"] s [.dom (.exc e)] = .thrown e := (rfl)
end
attribute [cxt] in_base in_signed in_true in_false in_nTrue in_nFalse in_this in_cur in_end in_last in_line in_col in_ungot in_setCur
  in_setLast in_setLine in_setCol in_setUngot in_star in_inc in_eq in_get in_unget in_error in_throw

theorem eof_runs (n : Nat) (s : In) : run (inputLib σ) n inEofFun [] s = .ok (.bool (decide (s.last = -2)), [], s) := by
  cxt [inEofFun]

theorem line_runs (n : Nat) (s : In) : run (inputLib σ) n inLineFun [] s = .ok (.int .i32 s.line, [], s) := by
  cxt [inLineFun]

theorem col_runs (n : Nat) (s : In) : run (inputLib σ) n inColFun [] s = .ok (.int .i32 s.col, [], s) := by
  cxt [inColFun]

theorem binop_mask {D S : Type} {L : Lib D S} {s : S} (c : Byte) :
    binop L n!"&" (.int .char (IT.ofByte L.signed c)) (.int .i32 255) s = some (.int .i32 (c.toNat : Int), s) := by
  rw [binop_bits _ (.inl rfl)]
  cxx [convert_byte, convert_self, mask_byte]
theorem in_mask (s : In) (c : Byte) :
    binop (inputBase σ) n!"&" (.int .char (IT.ofByte σ c)) (.int .i32 255) s = some (.int .i32 (c.toNat : Int), s) := binop_mask (L := inputBase σ) c

theorem get_runs (n : Nat) (s : In) (h1 : s.line < 2147483647) (h2 : s.col < 2147483647) :
    run (inputLib σ) n inGetFun [] s = .ok (.int .i32 s.get.1, [], s.get.2) := by
  obtain ⟨rest, last, line, col, ungot⟩ := s
  have e1 : IT.fit .i32 ((line : Int) + 1) = some ((line : Int) + 1) := fit_i32 (by simp only at h1; omega)
  have e2 : IT.fit .i32 ((col : Int) + 1) = some ((col : Int) + 1) := fit_i32 (by simp only at h2; omega)
  have e3 : IT.fit .i32 (0 + 1) = some (0 + 1) := rfl
  cases ungot
  · by_cases hn : last = 10 <;> cases rest <;>
      cxt [inGetFun, hn, e1, e2, e3, in_mask, Int.toNat_natCast_add_one, Int.toNat_zero, List.isEmpty_nil, List.isEmpty_cons] <;>
      simp [In.get, In.newline, hn]
  · cxt [inGetFun]
    rfl

/-- A counter overflows. -/
theorem get_overflows (n : Nat) (s : In) (hu : s.ungot = false)
    (h : (s.last = 10 ∧ s.line = 2147483647) ∨ (s.last ≠ 10 ∧ s.rest ≠ [] ∧ s.col = 2147483647)) :
    run (inputLib σ) n inGetFun [] s = .undef := by
  obtain ⟨rest, last, line, col, ungot⟩ := s
  simp only at hu h
  subst hu
  have e1 : IT.fit .i32 (2147483647 + 1) = none := rfl
  rcases h with ⟨hn, rfl⟩ | ⟨hn, hr, rfl⟩
  · cxt [inGetFun, hn, e1, Option.map_none, Option.bind_none]
  · cases rest with
    | nil => exact absurd rfl hr
    | cons c r => cxt [inGetFun, hn, e1, in_mask, Int.toNat_natCast_add_one, Int.toNat_zero, List.isEmpty_nil, List.isEmpty_cons, Option.map_none, Option.bind_none]

theorem unget_runs (n : Nat) (s : In) :
    run (inputLib σ) n inUngetFun [] s = (ranOf s.unget).bind fun s => .ok (.void, [], s) := by
  obtain ⟨rest, last, line, col, ungot⟩ := s
  by_cases hl : 0 ≤ last <;> cases ungot <;> cxt [inUngetFun, hl] <;> simp [In.unget, hl, ranOf, Ran.bind]

theorem skip_test (n : Nat) (s : St InVal In) : test (inputLib σ) (.int .i32 1) s = .ok (true, s) := rfl

theorem ws_eq (x : Int) : (((decide (x = 32) || decide (x = 9)) || decide (x = 10)) || decide (x = 13)) = In.isWs x := by
  unfold In.isWs
  rfl

theorem skip_loop (f n : Nat) (s : In) :
    iterate (test (inputLib σ) (.int .i32 1)) (exec (inputLib σ) f inSkipFunBody1) .ok n ⟨[[], []], s⟩ =
      (ranOf (In.skipws n s)).bind fun s => .ok (.next, ⟨[[], []], s⟩) := by
  induction n generalizing s with
  | zero => rfl
  | succ n ih =>
    cases hw : In.isWs s.get.1
    · have hm : In.skipws (n + 1) s = s.get.2.unget := by rw [In.skipws, hw]; rfl
      rw [hm]
      cases hu : s.get.2.unget with
      | ok t =>
        rw [iterate_break rfl (s2 := ⟨[[], []], t⟩)]
        · rfl
        · cxt [inSkipFunBody1, ws_eq, hw, hu, ranOf]
      | exc e => rw [iterate_throw rfl]; · rfl
                 · cxt [inSkipFunBody1, ws_eq, hw, hu, ranOf]
      | runtime => rw [iterate_throw rfl]; · rfl
                   · cxt [inSkipFunBody1, ws_eq, hw, hu, ranOf]
      | fuel => rw [iterate_fuel rfl]; · rfl
                · cxt [inSkipFunBody1, ws_eq, hw, hu, ranOf]
    · have hm : In.skipws (n + 1) s = In.skipws n s.get.2 := by rw [In.skipws, hw]; rfl
      rw [hm, ← ih, iterate_next rfl]
      · cxt [inSkipFunBody1, ws_eq, hw]
        rfl
      · rfl

theorem skipws_runs (n : Nat) (s : In) :
    run (inputLib σ) n inSkipFun [] s = (ranOf (In.skipws n s)).bind fun s => .ok (.void, [], s) := by
  cxt [inSkipFun, skip_loop]
  cases In.skipws n s <;> rfl

theorem expect_runs (n : Nat) (s : In) (e : Int) :
    run (inputLib σ) n inExpectFun [.int .i32 e] s = (ranOf (s.expect e)).bind fun r => .ok (.bool r.1, [.int .i32 e], r.2) := by
  by_cases h : s.get.1 = e
  · cxt [inExpectFun, h]
    simp [In.expect, h, ranOf, Ran.bind]
  · have hm : s.expect e = s.get.2.unget.bind fun s => .ok (false, s) := by simp [In.expect, h]
    rw [hm]
    cxt [inExpectFun, h]
    cases s.get.2.unget <;> rfl

section
variable (s t : In) (r : Bytes) (k : Int) (b : Bool)
theorem in_mCur : (inputBase σ).member (.dom (.self t)) n!"cur_" s = some (.dom (.pos t.rest)) := (rfl)
theorem in_mEnd : (inputBase σ).member (.dom (.self t)) n!"end_" s = some (.dom .theEnd) := (rfl)
theorem in_mLast : (inputBase σ).member (.dom (.self t)) n!"last_" s = some (.int .i32 t.last) := (rfl)
theorem in_mLine : (inputBase σ).member (.dom (.self t)) n!"line_" s = some (.int .i32 t.line) := (rfl)
theorem in_mCol : (inputBase σ).member (.dom (.self t)) n!"column_" s = some (.int .i32 t.col) := (rfl)
theorem in_mUngot : (inputBase σ).member (.dom (.self t)) n!"ungot_" s = some (.bool t.ungot) := (rfl)
theorem in_uCur : (inputBase σ).update (.dom (.self t)) n!"cur_" (.dom (.pos r)) = some (.dom (.self { t with rest := r })) := (rfl)
theorem in_uEnd : (inputBase σ).update (.dom (.self t)) n!"end_" (.dom .theEnd) = some (.dom (.self t)) := (rfl)
theorem in_uLast : (inputBase σ).update (.dom (.self t)) n!"last_" (.int .i32 k) = some (.dom (.self { t with last := k })) := (rfl)
theorem in_uLine : (inputBase σ).update (.dom (.self t)) n!"line_" (.int .i32 k) = some (.dom (.self { t with line := k.toNat })) := (rfl)
theorem in_uCol : (inputBase σ).update (.dom (.self t)) n!"column_" (.int .i32 k) = some (.dom (.self { t with col := k.toNat })) := (rfl)
theorem in_uUngot : (inputBase σ).update (.dom (.self t)) n!"ungot_" (.bool b) = some (.dom (.self { t with ungot := b })) := (rfl)
theorem in_setThis : (inputBase σ).set n!"this" (.dom (.self t)) s = some t := (rfl)
theorem in_assign (v : Val InVal) (d : InVal) : (inputBase σ).assign v (.dom d) = some (.dom d) := (rfl)
end
attribute [cxt] in_mCur in_mEnd in_mLast in_mLine in_mCol in_mUngot in_uCur in_uEnd in_uLast in_uLine in_uCol in_uUngot in_setThis in_assign

/-- The constructor initializes all members. -/
theorem new_runs (n : Nat) (s : In) (text : Bytes) :
    run (inputLib σ) n inNewFun [.dom (.pos text), .dom .theEnd] s = .ok (.void, [.dom (.pos text), .dom .theEnd], In.open text) := by
  cxt [inNewFun]
  rfl

/-- `cur` may not be called at the end. -/
theorem cur_runs (n : Nat) (s : In) :
    run (inputLib σ) n inCurFun [] s =
      match s.rest with
      | [] => .undef
      | c :: _ => .ok (.int .i32 (IT.ofByte σ c), [], s) := by
  obtain ⟨rest, last, line, col, ungot⟩ := s
  cases rest
  · have : (inputBase σ).unary n!"*" (.dom (.pos [])) ⟨[], last, line, col, ungot⟩ = none := rfl
    cxt [inCurFun, this, Option.map_none]
  · cxt [inCurFun]

/-! The counters in a file that is not too long. -/

/-- The counters are below a limit, and stay there until the end. -/
def Below (limit : Nat) (s : In) : Prop :=
  s.line + s.rest.length + (if s.last = 10 then 1 else 0) ≤ limit ∧ s.col + s.rest.length ≤ limit

theorem below_open (text : Bytes) : Below (text.length + 1) (In.open text) := by
  simp [Below, In.open]
  omega

theorem below_get {limit : Nat} {s : In} (h : Below limit s) : Below limit s.get.2 := by
  obtain ⟨rest, last, line, col, ungot⟩ := s
  cases ungot
  · by_cases hn : last = 10 <;> cases rest <;> simp [Below, In.get, In.newline, hn] at h ⊢ <;> (repeat' split) <;> omega
  · simpa [Below, In.get] using h

theorem below_unget {limit : Nat} {s t : In} (h : Below limit s) (ht : s.unget = .ok t) : Below limit t := by
  obtain ⟨rest, last, line, col, ungot⟩ := s
  cases ungot
  · by_cases hl : 0 ≤ last <;> simp [In.unget, hl] at ht <;> subst ht
    · simpa [Below] using h
    · simpa [Below] using h
  · by_cases hl : 0 ≤ last <;> simp [In.unget, hl] at ht
    subst ht
    exact h

theorem below_counters {limit : Nat} {s : In} (h : Below limit s) : s.line ≤ limit ∧ s.col ≤ limit := by
  unfold Below at h
  omega

end PG.Cxx.Throw
