import Verif.Proofs.CxxTok
/-
`parse_escaped_utf8` (protogen.hh:451-510) is `lexHex` and `putCodeUnit`.
-/
set_option autoImplicit false
namespace PG.Cxx
variable {V F : Type} {σ : Bool} {ops : Ops V F}

theorem hexValue_snoc (ds : Bytes) (b : Byte) : hexValue (ds ++ [b]) = (hexValue ds).bind fun v => (hexVal b).map (v * 16 + ·) := by
  unfold hexValue
  rw [List.foldlM_append]
  cases List.foldlM (fun v c => Option.map (fun d => v * 16 + d) (hexVal c)) 0 ds with
  | none => rfl
  | some v =>
    show List.foldlM (fun v c => Option.map (fun d => v * 16 + d) (hexVal c)) v [b] = Option.map (v * 16 + ·) (hexVal b)
    simp only [List.foldlM_cons, List.foldlM_nil]
    cases hexVal b <;> rfl

theorem hexVal_ne {b : Byte} {d : Nat} (h : hexVal b = some d) : b ≠ 0 ∧ d < 16 := by
  have h3 := b.toNat_lt
  unfold hexVal at h
  simp only [Bool.and_eq_true, decide_eq_true_eq, UInt8.le_iff_toNat_le] at h
  have e0 : (48 : UInt8).toNat = 48 := rfl
  have e1 : (57 : UInt8).toNat = 57 := rfl
  have e2 : (65 : UInt8).toNat = 65 := rfl
  have e3 : (70 : UInt8).toNat = 70 := rfl
  have e4 : (97 : UInt8).toNat = 97 := rfl
  have e5 : (102 : UInt8).toNat = 102 := rfl
  rw [e0, e1, e2, e3, e4, e5] at h
  have e : b = 0 → b.toNat = 0 := fun h => by rw [h]; rfl
  split at h
  · injection h with h; exact ⟨fun hb => by have := e hb; omega, by omega⟩
  · split at h
    · injection h with h; exact ⟨fun hb => by have := e hb; omega, by omega⟩
    · split at h
      · injection h with h; exact ⟨fun hb => by have := e hb; omega, by omega⟩
      · cases h

theorem characters_chars {D : Type} (ds : Bytes) (h : ∀ b ∈ ds, b ≠ 0) (r : List (Val D)) :
    characters (ds.map (fun b => .int .char (IT.ofByte σ b)) ++ .int .char 0 :: r) = some ds := by
  induction ds with
  | nil => rfl
  | cons b ds ih =>
    have h0 : IT.ofByte σ b ≠ 0 := by
      intro h1
      rw [← ofByte_zero (σ := σ), ofByte_inj] at h1
      exact h b (List.mem_cons_self ..) h1
    show (if IT.ofByte σ b = 0 then _ else _) = _
    rw [if_neg h0]
    have h1 := ih fun b hb => h b (List.mem_cons_of_mem _ hb)
    show Option.map _ (characters (ds.map (fun b => .int .char (IT.ofByte σ b)) ++ .int .char 0 :: r)) = _
    rw [h1, toByte_ofByte]
    rfl

/-- What is written to `temp`. -/
abbrev temps (σ : Bool) (ds : Bytes) : Val (Dom V F) :=
  .arr (ds.map (fun b => .int .char (IT.ofByte σ b)) ++ List.replicate (5 - ds.length) (.int .char 0))

/-- The loop that reads four digits. -/
theorem utf8_loop (m : Nat) (value lead : Val (Dom V F)) (j : Nat) (ds : Bytes) (v : Nat) (w : World) (n : Nat)
    (hj : ds.length + j = 4) (hv : hexValue ds = some v) (h0 : ∀ b ∈ ds, b ≠ 0) (hl : v < 16 ^ ds.length) (hn : j < n) :
    let r := iterate (test (runtimeLib σ ops) (.binary n!"<" (.name n!"i") (.int .i32 4)))
      (exec (runtimeLib σ ops) m utf8FunBody1) (perform (runtimeLib σ ops) (.incr n!"++" true (.name n!"i"))) n
      ⟨[[(n!"i", .int .i32 ds.length)], [(n!"temp", temps σ ds)], [(n!"value", value), (n!"lead", lead)]], w⟩
    match (lexHex j v w.tz.inp).1 with
    | none => ∃ k l, r = some (.ret (.bool false), ⟨[[(n!"i", .int .i32 k)], [(n!"temp", .arr l)],
        [(n!"value", value), (n!"lead", lead)]], { w with tz := { w.tz with inp := (lexHex j v w.tz.inp).2 } }⟩)
    | some cp => ∃ ds', cp < 65536 ∧ hexValue ds' = some cp ∧ (∀ b ∈ ds', b ≠ 0) ∧
        r = some (.next, ⟨[[(n!"i", .int .i32 4)], [(n!"temp", .arr (ds'.map (fun b => .int .char (IT.ofByte σ b)) ++ [.int .char 0]))],
        [(n!"value", value), (n!"lead", lead)]], { w with tz := { w.tz with inp := (lexHex j v w.tz.inp).2 } }⟩) := by
  induction j generalizing ds v w n with
  | zero =>
    obtain ⟨n, rfl⟩ : ∃ k, n = k + 1 := ⟨n - 1, by omega⟩
    have hd : ds.length = 4 := by omega
    refine ⟨ds, by rw [hd] at hl; exact hl, hv, h0, ?_⟩
    rw [iterate_done (by cxx [hd, Int.reduceLT]; rfl)]
    cxx [temps, hd]
    rfl
  | succ j ih =>
    obtain ⟨n, rfl⟩ : ∃ k, n = k + 1 := ⟨n - 1, by omega⟩
    have hd : ((ds.length : Int) < 4) := by omega
    have hget : (ds.map (fun b => Val.int (D := Dom V F) .char (IT.ofByte σ b)) ++
        List.replicate (5 - ds.length) (.int .char 0))[ds.length]? = some (.int .char 0) := by
      rw [List.getElem?_append_right (by rw [List.length_map]; exact Nat.le_refl _), List.length_map, Nat.sub_self,
        List.getElem?_replicate, if_pos (by omega)]
    have h1 : test (runtimeLib σ ops) (.binary n!"<" (.name n!"i") (.int .i32 4))
        ⟨[[(n!"i", .int .i32 ds.length)], [(n!"temp", temps σ ds)], [(n!"value", value), (n!"lead", lead)]], w⟩ =
        some (true, ⟨[[(n!"i", .int .i32 ds.length)], [(n!"temp", temps σ ds)], [(n!"value", value), (n!"lead", lead)]], w⟩) := by
      cxx [hd]
    have h2 := utf8_digit (σ := σ) (ops := ops) m w value lead _ ds.length 0 hget
    rw [lexHex]
    simp only
    cases hx : hexVal w.tz.inp.next.peek with
    | none =>
      rw [hx] at h2
      simp only
      exact ⟨_, _, iterate_ret h1 h2⟩
    | some d =>
      rw [hx] at h2
      have h3 : (ds.map (fun b => Val.int (D := Dom V F) .char (IT.ofByte σ b)) ++
          List.replicate (5 - ds.length) (Val.int .char 0)).set ds.length (Val.int .char (IT.ofByte σ w.tz.inp.next.peek)) =
          (ds ++ [w.tz.inp.next.peek]).map (fun b => Val.int (D := Dom V F) .char (IT.ofByte σ b)) ++
          List.replicate (5 - (ds ++ [w.tz.inp.next.peek]).length) (.int .char 0) := by
        have : 5 - ds.length = (5 - (ds.length + 1)) + 1 := by omega
        rw [List.set_append_right _ _ (by rw [List.length_map]; exact Nat.le_refl _), List.length_map, Nat.sub_self, this,
          List.replicate_succ, List.set_cons_zero, List.map_append, List.append_assoc, List.length_append]
        rfl
      rw [h3] at h2
      have hx2 := hexVal_ne hx
      have h4 : perform (runtimeLib σ ops) (.incr n!"++" true (.name n!"i"))
          ⟨[[(n!"i", .int .i32 ds.length)], [(n!"temp", temps σ (ds ++ [w.tz.inp.next.peek]))],
            [(n!"value", value), (n!"lead", lead)]], { w with tz := { w.tz with inp := w.tz.inp.next } }⟩ =
          some ⟨[[(n!"i", .int .i32 (ds ++ [w.tz.inp.next.peek]).length)], [(n!"temp", temps σ (ds ++ [w.tz.inp.next.peek]))],
            [(n!"value", value), (n!"lead", lead)]], { w with tz := { w.tz with inp := w.tz.inp.next } }⟩ := by
        have hf : IT.fit .i32 ((ds.length : Int) + 1) = some ((ds.length : Int) + 1) := fit_i32 (by omega)
        have hg : ((ds ++ [w.tz.inp.next.peek]).length : Int) = (ds.length : Int) + 1 := by
          rw [List.length_append]; rfl
        cxx [hf, hg]
      have h5 := ih (ds ++ [w.tz.inp.next.peek]) (v * 16 + d) { w with tz := { w.tz with inp := w.tz.inp.next } } n
        (by simp; omega) (by rw [hexValue_snoc, hv, hx]; rfl)
        (fun b hb => by
          rcases List.mem_append.mp hb with hb | hb
          · exact h0 b hb
          · rw [List.mem_singleton.mp hb]; exact hx2.1)
        (by rw [List.length_append]; show _ < 16 ^ (ds.length + 1); rw [Nat.pow_succ]; omega) (by omega)
      rw [iterate_next h1 h2 h4]
      exact h5

theorem function_strtol (w : World) (l : List (Val (Dom V F))) :
    (runtimeLib σ ops).function [n!"strtol"] w [.arr l, .void, .int .i32 16] =
      (characters l).bind fun s => (hexValue s).map fun v : Nat => (.int .i64 (v : Int), [], w) := (rfl)

/-- protogen.hh:451-510. -/
theorem utf8_runs (n : Nat) (value : Bytes) (lead : Nat) (w : World) (hn : 4 < n)
    (hl : lead = 0 ∨ 0xD800 ≤ lead ∧ lead ≤ 0xDBFF) :
    utf8Fun.run (runtimeLib σ ops) n [.str value, .int .i32 lead] w =
      match (lexHex 4 0 w.tz.inp).1 with
      | none => some (.bool false, [.str value, .int .i32 lead], { w with tz := { w.tz with inp := (lexHex 4 0 w.tz.inp).2 } })
      | some cp =>
        match putCodeUnit value lead cp with
        | none => some (.bool false, [.str value, .int .i32 lead], { w with tz := { w.tz with inp := (lexHex 4 0 w.tz.inp).2 } })
        | some q => some (.bool true, [.str q.1, .int .i32 q.2], { w with tz := { w.tz with inp := (lexHex 4 0 w.tz.inp).2 } }) := by
  have h := utf8_loop (σ := σ) (ops := ops) n (.str value) (.int .i32 lead) 4 [] 0 w n rfl rfl (by simp) (by decide) hn
  have hi : IT.convert σ .char .i32 0 = 0 := by cases σ <;> decide
  have h0 : temps (V := V) (F := F) σ [] = .arr [.int .char 0, .int .char 0, .int .char 0, .int .char 0, .int .char 0] := rfl
  have hi2 : List.mapM (toInt σ .char) [Val.int (D := Dom V F) .i32 0] = some [.int .char 0] := by
    show some [Val.int .char (IT.convert σ .char .i32 0)] = _
    rw [hi]
  have hr2 : [Val.int (D := Dom V F) .char 0] ++ List.replicate (Int.toNat 5 - (0 + 1)) (Val.int IT.char 0) =
    [.int .char 0, .int .char 0, .int .char 0, .int .char 0, .int .char 0] := rfl
  have hr3 : [Val.int (D := Dom V F) .char 0] ++ List.replicate (5 - (0 + 1)) (Val.int IT.char 0) =
    [.int .char 0, .int .char 0, .int .char 0, .int .char 0, .int .char 0] := rfl
  have hr : List.replicate 5 (Val.int (D := Dom V F) .char 0) = [.int .char 0, .int .char 0, .int .char 0, .int .char 0, .int .char 0] := rfl
  cases hx : (lexHex 4 0 w.tz.inp).1 with
  | none =>
    rw [hx] at h
    obtain ⟨k, l, h⟩ := h
    rw [h0] at h
    have hz : (([] : Bytes).length : Int) = 0 := rfl
    rw [hz] at h
    cxx [utf8Fun, hi, hi2, hr2, h]
  | some cp =>
    rw [hx] at h
    obtain ⟨ds, hcp, hd, hz0, h⟩ := h
    rw [h0] at h
    have hz : (([] : Bytes).length : Int) = 0 := rfl
    rw [hz] at h
    have hc : characters (ds.map (fun b => Val.int (D := Dom V F) .char (IT.ofByte σ b)) ++ [.int .char 0]) = some ds :=
      characters_chars ds hz0 []
    have hv1 : IT.convert σ .i32 .i64 (cp : Int) = cp := by
      unfold IT.convert
      rw [if_neg (by decide), wrap_i32 (by omega)]
    simp only
    unfold putCodeUnit
    by_cases c1 : 0xD800 ≤ cp ∧ cp ≤ 0xDBFF
    · have c1a : (55296 : Int) ≤ cp := by omega
      have c1b : (cp : Int) ≤ 56319 := by omega
      rw [if_pos (by simpa using c1)]
      cxx [utf8Fun, hi, hi2, hr2, hr3, h, function_strtol, hc, hd, hv1, c1a, c1b]
    · have c1x : (decide (55296 ≤ (cp : Int)) && decide ((cp : Int) ≤ 56319)) = false := by
        rw [Bool.and_eq_false_iff, decide_eq_false_iff_not, decide_eq_false_iff_not]; omega
      rw [if_neg (by simpa using c1)]
      by_cases c2 : 0xDC00 ≤ cp ∧ cp ≤ 0xDFFF
      · have c2a : (56320 : Int) ≤ cp := by omega
        have c2b : (cp : Int) ≤ 57343 := by omega
        rw [if_pos (by simpa using c2)]
        by_cases hl0 : lead = 0
        · rw [if_pos hl0]
          subst hl0
          rw [Int.natCast_zero] at h
          cxx [utf8Fun, hi, hi2, hr2, hr3, h, function_strtol, hc, hd, hv1, c1x, c2a, c2b, Int.natCast_zero]
        · rw [if_neg hl0]
          have hl1 : (lead : Int) ≠ 0 := by omega
          have hl2 : IT.fit .i32 ((lead <<< 10 : Nat) : Int) = some ((lead <<< 10 : Nat) : Int) := by
            rw [Nat.shiftLeft_eq]; exact fit_i32 (by omega)
          have hl3 : IT.fit .i32 (((lead <<< 10 : Nat) : Int) + cp) = some (((lead <<< 10 : Nat) : Int) + cp) := by
            rw [Nat.shiftLeft_eq]; exact fit_i32 (by omega)
          have hl4 : IT.fit .i32 (((lead <<< 10 : Nat) : Int) + cp + -56613888) =
              some (((((lead <<< 10 : Nat) : Int) + cp + (0x10000 - 0x3600000 - 0xDC00)).toNat : Nat) : Int) := by
            rw [Nat.shiftLeft_eq, fit_i32 (by omega), Int.toNat_of_nonneg (by omega)]
            rfl
          have hs : IT.fit .i32 (((55296 <<< 10 : Nat) : Int)) = some 56623104 := by decide +kernel
          have hs1 : IT.fit .i32 (65536 - 56623104) = some (-56557568) := by decide +kernel
          have hs2 : IT.fit .i32 (-56557568 - 56320) = some (-56613888) := by decide +kernel
          cxx [utf8Fun, hi, hi2, hr2, hr3, h, function_strtol, hc, hd, hv1, c1x, c2a, c2b, hl1, shift_shl, shift_shr, binop_and,
            binop_or, Int.natCast_nonneg, Int.toNat_natCast, Int.reduceLE, Int.reduceToNat, Int.reduceLT, hl2, hl3, hl4, hs, hs1, hs2,
            toByte_byte]
          simp only [List.append_assoc, List.singleton_append, List.cons_append, List.nil_append]
          done
      · have c2x : (decide (56320 ≤ (cp : Int)) && decide ((cp : Int) ≤ 57343)) = false := by
          rw [Bool.and_eq_false_iff, decide_eq_false_iff_not, decide_eq_false_iff_not]; omega
        rw [if_neg (by simpa using c2)]
        by_cases c3 : 0x80 ≤ cp ∧ cp ≤ 0x7FF
        · have c3a : (128 : Int) ≤ cp := by omega
          have c3b : (cp : Int) ≤ 2047 := by omega
          rw [if_pos (by simpa using c3)]
          cxx [utf8Fun, hi, hi2, hr2, hr3, h, function_strtol, hc, hd, hv1, c1x, c2x, c3a, c3b, shift_shr, binop_and,
            binop_or, Int.natCast_nonneg, Int.toNat_natCast, Int.reduceLE, Int.reduceToNat, Int.reduceLT, toByte_byte]
          simp only [List.append_assoc, List.singleton_append, List.cons_append, List.nil_append]
          done
        · have c3x : (decide (128 ≤ (cp : Int)) && decide ((cp : Int) ≤ 2047)) = false := by
            rw [Bool.and_eq_false_iff, decide_eq_false_iff_not, decide_eq_false_iff_not]; omega
          rw [if_neg (by simpa using c3)]
          by_cases c4 : 0x800 ≤ cp ∧ cp ≤ 0xFFFF
          · have c4a : (2048 : Int) ≤ cp := by omega
            have c4b : (cp : Int) ≤ 65535 := by omega
            rw [if_pos (by simpa using c4)]
            cxx [utf8Fun, hi, hi2, hr2, hr3, h, function_strtol, hc, hd, hv1, c1x, c2x, c3x, c4a, c4b, shift_shr, binop_and,
              binop_or, Int.natCast_nonneg, Int.toNat_natCast, Int.reduceLE, Int.reduceToNat, Int.reduceLT, toByte_byte]
            simp only [List.append_assoc, List.singleton_append, List.cons_append, List.nil_append]
            done
          · have c4x : (decide (2048 ≤ (cp : Int)) && decide ((cp : Int) ≤ 65535)) = false := by
              rw [Bool.and_eq_false_iff, decide_eq_false_iff_not, decide_eq_false_iff_not]; omega
            rw [if_neg (by simpa using c4)]
            cxx [utf8Fun, hi, hi2, hr2, hr3, h, function_strtol, hc, hd, hv1, c1x, c2x, c3x, c4x]
end PG.Cxx
