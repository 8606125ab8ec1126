import Verif.Proofs.CxxEscape
/-
Base64: json-base64.hh:14-101.
-/
set_option autoImplicit false
namespace PG.Cxx
variable {V F : Type} {σ : Bool} {ops : Ops V F}

theorem ofByte_small {b : Byte} (h : b.toNat < 128) : IT.ofByte σ b = b.toNat := by unfold IT.ofByte; rw [if_neg (by omega)]

/-- json-base64.hh:14-23; the argument is a character. -/
theorem b64Int_runs (n : Nat) (b : Byte) (w : World) :
    b64IntFun.run (runtimeLib σ ops) n [.int .i32 (IT.ofByte σ b)] w = some (.int .i32 (b64Int b : Nat), [.int .i32 (IT.ofByte σ b)], w) := by
  unfold b64Int
  by_cases h1 : b = 43
  · cxxi [b64IntFun, h1]
  by_cases h2 : b = 47
  · cxxi [b64IntFun, h1, h2]
  cases h3 : (decide (48 ≤ b) && decide (b ≤ 57)) with
  | true =>
    have hr : 48 ≤ b.toNat ∧ b.toNat ≤ 57 := by
      simp only [Bool.and_eq_true, decide_eq_true_eq, UInt8.le_iff_toNat_le] at h3; exact h3
    have e : IT.fit .i32 (IT.ofByte σ b + 4) = some ((b.toNat + 4 : Nat) : Int) := by
      rw [ofByte_small (by omega)]; exact fit_nat (t := .i32) (x := b.toNat + 4) rfl (by simp only [IT.top]; omega)
    cxxi [b64IntFun, h1, h2, h3, byte_range, UInt8.reduceLT, e]
  | false =>
  cases h4 : (decide (65 ≤ b) && decide (b ≤ 90)) with
  | true =>
    have hr : 65 ≤ b.toNat ∧ b.toNat ≤ 90 := by
      simp only [Bool.and_eq_true, decide_eq_true_eq, UInt8.le_iff_toNat_le] at h4; exact h4
    have e : IT.fit .i32 (IT.ofByte σ b - IT.ofByte σ 65) = some ((b.toNat - 65 : Nat) : Int) := by
      rw [ofByte_small (by omega), ofByte_small (by decide)]
      have : (b.toNat : Int) - ((65 : Byte).toNat : Int) = ((b.toNat - 65 : Nat) : Int) := by
        have : (65 : Byte).toNat = 65 := rfl
        omega
      rw [this]; exact fit_nat (t := .i32) rfl (by simp only [IT.top]; omega)
    cxxi [b64IntFun, h1, h2, h3, h4, byte_range, UInt8.reduceLT, e]
  | false =>
  cases h5 : (decide (97 ≤ b) && decide (b ≤ 122)) with
  | true =>
    have hr : 97 ≤ b.toNat ∧ b.toNat ≤ 122 := by
      simp only [Bool.and_eq_true, decide_eq_true_eq, UInt8.le_iff_toNat_le] at h5; exact h5
    have e : IT.fit .i32 (IT.ofByte σ b - IT.ofByte σ 97) = some ((b.toNat - 97 : Nat) : Int) := by
      rw [ofByte_small (by omega), ofByte_small (by decide)]
      have : (b.toNat : Int) - ((97 : Byte).toNat : Int) = ((b.toNat - 97 : Nat) : Int) := by
        have : (97 : Byte).toNat = 97 := rfl
        omega
      rw [this]; exact fit_nat (t := .i32) rfl (by simp only [IT.top]; omega)
    have e2 : IT.fit .i32 (((b.toNat - 97 : Nat) : Int) + 26) = some ((b.toNat - 97 + 26 : Nat) : Int) :=
      fit_nat (t := .i32) (x := b.toNat - 97 + 26) rfl (by simp only [IT.top]; omega)
    cxxi [b64IntFun, h1, h2, h3, h4, h5, byte_range, UInt8.reduceLT, e, e2]
  | false =>
  by_cases h6 : b = 61
  · subst h6
    cxxi [b64IntFun, h1, h2, h3, h4, h5, byte_range, UInt8.reduceLT]
  · cxxi [b64IntFun, h1, h2, h3, h4, h5, h6, byte_range, UInt8.reduceLT]

/-- The bytes of a vector. -/
def octets (s : Bytes) : List (Val (Dom V F)) := s.map fun b => .int .u8 (b.toNat : Int)

local macro "bs(" s:term ", " i:term ", " o:term ", " w:term ")" : term =>
  `((St.mk [[], [(n!"size", Val.int IT.u64 ((List.length $s : Nat) : Int)), (n!"i", Val.int IT.u64 (($i : Nat) : Int)), (n!"o", Val.arr $o),
      (n!"B64_SYMBOLS", Val.str b64Symbols)],
    [(n!"ctx", Val.dom Dom.ctx), (n!"value", Val.arr (octets $s))]] $w))

theorem octets_get {s : Bytes} {i : Nat} {b : Byte} (h : s[i]? = some b) :
    (octets s : List (Val (Dom V F)))[i]? = some (.int .u8 (b.toNat : Int)) := by
  unfold octets
  rw [List.getElem?_map, h]
  rfl

theorem sym_def (n : Nat) : List.getD b64Symbols n 0 = b64Sym n := rfl
theorem sym_length : List.length b64Symbols = 64 := rfl
theorem sym_ne_zero {n : Nat} (h : n < 64) : b64Sym n ≠ 0 := by
  have : ∀ k < 64, b64Sym k ≠ 0 := by decide +kernel
  exact this n h

theorem characters_four {b0 b1 b2 b3 : Byte} (h0 : b0 ≠ 0) (h1 : b1 ≠ 0) (h2 : b2 ≠ 0) (h3 : b3 ≠ 0) :
    characters ([.int .char (IT.ofByte σ b0), .int .char (IT.ofByte σ b1), .int .char (IT.ofByte σ b2), .int .char (IT.ofByte σ b3),
      .int .char 0] : List (Val (Dom V F))) = some [b0, b1, b2, b3] := by
  refine characters_bytes (σ := σ) [b0, b1, b2, b3] ?_ []
  intro b hb
  simp only [List.mem_cons, List.not_mem_nil, or_false] at hb
  rcases hb with rfl | rfl | rfl | rfl <;> assumption

theorem six0 (a : Byte) : (a.toNat &&& 255) >>> 2 < 64 := by
  have := a.toNat_lt
  have h : a.toNat &&& 255 ≤ 255 := Nat.and_le_right
  rw [Nat.shiftRight_eq_div_pow]; omega
theorem shr_bound (b : Byte) (m k j : Nat) (h : m < 2 ^ (k + j)) : (b.toNat &&& m) >>> j < 2 ^ k := by
  have h2 : b.toNat &&& m < 2 ^ (k + j) := Nat.lt_of_le_of_lt Nat.and_le_right h
  rw [Nat.shiftRight_eq_div_pow]
  rw [Nat.pow_add] at h2
  exact Nat.div_lt_of_lt_mul (by rw [Nat.mul_comm]; exact h2)
theorem six1' (a : Byte) : (a.toNat &&& 3) <<< 4 < 64 := shl_bound 2 4 (and_bound a 3 2 (by decide))
theorem six1 (a b : Byte) : ((a.toNat &&& 3) <<< 4) ||| ((b.toNat &&& 240) >>> 4) < 64 :=
  or_bound 6 (six1' a) (Nat.lt_trans (shr_bound b 240 4 4 (by decide)) (by decide))
theorem six2' (b : Byte) : (b.toNat &&& 15) <<< 2 < 64 := shl_bound 4 2 (and_bound b 15 4 (by decide))
theorem six2 (b c : Byte) : ((b.toNat &&& 15) <<< 2) ||| ((c.toNat &&& 192) >>> 6) < 64 :=
  or_bound 6 (six2' b) (Nat.lt_trans (shr_bound c 192 2 6 (by decide)) (by decide))
theorem six3 (c : Byte) : c.toNat &&& 63 < 64 := and_bound c 63 6 (by decide)

theorem fit_add {i k : Nat} {s : Bytes} (h : s.length < 2 ^ 64) (hi : i + k ≤ s.length) :
    IT.fit .u64 ((i : Int) + (k : Int)) = some ((i + k : Nat) : Int) := fit_nat (x := i + k) rfl (by simp only [IT.top]; omega)

theorem body_bytes (n : Nat) (s pre rest : Bytes) (a b c : Byte) (x0 x1 x2 x3 : Int) (w : World) (hs : s = pre ++ a :: b :: c :: rest)
   (hl : s.length < 2 ^ 64) :
    exec (runtimeLib σ ops) n writeBytesFunBody1 bs(s, pre.length, [.int .char x0, .int .char x1, .int .char x2, .int .char x3, .int .char 0], w) =
      some (.next, bs(s, pre.length,
        [.int .char (IT.ofByte σ (b64Sym ((a.toNat &&& 255) >>> 2))), .int .char (IT.ofByte σ (b64Sym (((a.toNat &&& 3) <<< 4) ||| ((b.toNat &&& 240) >>> 4)))),
         .int .char (IT.ofByte σ (b64Sym (((b.toNat &&& 15) <<< 2) ||| ((c.toNat &&& 192) >>> 6)))), .int .char (IT.ofByte σ (b64Sym (c.toNat &&& 63))),
         .int .char 0],
        { w with out := w.out ++ [b64Sym ((a.toNat &&& 255) >>> 2), b64Sym (((a.toNat &&& 3) <<< 4) ||| ((b.toNat &&& 240) >>> 4)),
          b64Sym (((b.toNat &&& 15) <<< 2) ||| ((c.toNat &&& 192) >>> 6)), b64Sym (c.toNat &&& 63)] })) := by
  have g0 : (octets s : List (Val (Dom V F)))[pre.length]? = some (.int .u8 (a.toNat : Int)) := octets_get (by rw [hs]; simp)
  have g1 : (octets s : List (Val (Dom V F)))[pre.length + 1]? = some (.int .u8 (b.toNat : Int)) := octets_get (by rw [hs]; simp)
  have g2 : (octets s : List (Val (Dom V F)))[pre.length + 2]? = some (.int .u8 (c.toNat : Int)) := octets_get (by rw [hs]; simp)
  have hsl : s.length = pre.length + 3 + rest.length := by rw [hs]; simp only [List.length_append, List.length_cons]; omega
  have f1 : IT.fit .u64 ((pre.length : Int) + 1) = some ((pre.length + 1 : Nat) : Int) := fit_add (k := 1) hl (by omega)
  have f2 : IT.fit .u64 ((pre.length : Int) + 2) = some ((pre.length + 2 : Nat) : Int) := fit_add (k := 2) hl (by omega)
  have f3 : IT.fit .i32 (((a.toNat &&& 3) <<< 4 : Nat) : Int) = some (((a.toNat &&& 3) <<< 4 : Nat) : Int) :=
    fit_nat rfl (by have := six1' a; simp only [IT.top]; omega)
  have f4 : IT.fit .i32 (((b.toNat &&& 15) <<< 2 : Nat) : Int) = some (((b.toNat &&& 15) <<< 2 : Nat) : Int) :=
    fit_nat rfl (by have := six2' b; simp only [IT.top]; omega)
  have h := characters_four (V := V) (F := F) (σ := σ) (sym_ne_zero (six0 a)) (sym_ne_zero (six1 a b)) (sym_ne_zero (six2 b c)) (sym_ne_zero (six3 c))
  cxxi [writeBytesFunBody1, g0, g1, g2, u8_int, f1, f2, f3, f4, sym_length, six0, six1, six2, six3, sym_def, h, List.getElem?_cons_zero, List.getElem?_cons_succ, List.set_cons_zero, List.set_cons_succ]

/-- The loop of the writer. -/
theorem writeBytes_loop (m n : Nat) (s pre rest : Bytes) (x0 x1 x2 x3 : Int) (w : World) (hs : s = pre ++ rest) (hl : s.length + 2 < 2 ^ 64)
    (hn : rest.length < n) :
    ∃ (pre' rest' g : Bytes) (y0 y1 y2 y3 : Int), s = pre' ++ rest' ∧ rest'.length < 3 ∧ b64Enc rest = g ++ b64Enc rest' ∧
      iterate (test (runtimeLib σ ops) (.binary n!"<" (.binary n!"+" (.name n!"i") (.int .i32 2)) (.name n!"size")))
        (exec (runtimeLib σ ops) m writeBytesFunBody1) (perform (runtimeLib σ ops) (.update n!"+" (.name n!"i") (.int .i32 3))) n
        bs(s, pre.length, [.int .char x0, .int .char x1, .int .char x2, .int .char x3, .int .char 0], w) =
      some (.next, bs(s, pre'.length, [.int .char y0, .int .char y1, .int .char y2, .int .char y3, .int .char 0],
        { w with out := w.out ++ g })) := by
  induction n generalizing pre rest x0 x1 x2 x3 w with
  | zero => omega
  | succ n ih =>
    have hsl : s.length = pre.length + rest.length := by rw [hs, List.length_append]
    have f2 : IT.fit .u64 ((pre.length : Int) + 2) = some ((pre.length + 2 : Nat) : Int) :=
      fit_nat (x := pre.length + 2) rfl (by simp only [IT.top]; omega)
    by_cases h3 : rest.length < 3
    · refine ⟨pre, rest, [], x0, x1, x2, x3, hs, h3, rfl, ?_⟩
      have hc : ¬ ((pre.length + 2 : Nat) : Int) < (s.length : Int) := by omega
      rw [iterate_done (by cxxi [f2, hc]; rfl), List.append_nil]
    · obtain ⟨a, b, c, t, rfl⟩ : ∃ a b c t, rest = a :: b :: c :: t := by
        match rest, h3 with
        | [], h => simp at h
        | [_], h => simp at h
        | [_, _], h => simp at h
        | a :: b :: c :: t, _ => exact ⟨a, b, c, t, rfl⟩
      simp only [List.length_cons] at hsl hn
      have hc : ((pre.length + 2 : Nat) : Int) < (s.length : Int) := by omega
      have f3 : IT.fit .u64 ((pre.length : Int) + 3) = some ((pre.length + 3 : Nat) : Int) :=
        fit_nat (x := pre.length + 3) rfl (by simp only [IT.top]; omega)
      obtain ⟨pre', rest', g, y0, y1, y2, y3, e1, e2, e3, e4⟩ := ih (pre ++ [a, b, c]) t
        (IT.ofByte σ (b64Sym ((a.toNat &&& 255) >>> 2))) (IT.ofByte σ (b64Sym (((a.toNat &&& 3) <<< 4) ||| ((b.toNat &&& 240) >>> 4))))
        (IT.ofByte σ (b64Sym (((b.toNat &&& 15) <<< 2) ||| ((c.toNat &&& 192) >>> 6)))) (IT.ofByte σ (b64Sym (c.toNat &&& 63)))
        { w with out := w.out ++ [b64Sym ((a.toNat &&& 255) >>> 2), b64Sym (((a.toNat &&& 3) <<< 4) ||| ((b.toNat &&& 240) >>> 4)),
          b64Sym (((b.toNat &&& 15) <<< 2) ||| ((c.toNat &&& 192) >>> 6)), b64Sym (c.toNat &&& 63)] }
        (by rw [hs]; simp) (by omega)
      refine ⟨pre', rest', [b64Sym ((a.toNat &&& 255) >>> 2), b64Sym (((a.toNat &&& 3) <<< 4) ||| ((b.toNat &&& 240) >>> 4)),
          b64Sym (((b.toNat &&& 15) <<< 2) ||| ((c.toNat &&& 192) >>> 6)), b64Sym (c.toNat &&& 63)] ++ g, y0, y1, y2, y3, e1, e2, ?_, ?_⟩
      rotate_left
      · rw [iterate_next (by cxxi [f2, hc]) (body_bytes m s pre t a b c x0 x1 x2 x3 w hs (by omega)) (by cxxi [f3]; rfl)]
        rw [List.length_append] at e4
        refine e4.trans ?_
        simp only [List.append_assoc]
      · rw [b64Enc, e3, List.append_assoc]

theorem eq_byte : (61 : Byte) ≠ 0 := by decide

/-- json-base64.hh:24-59. -/
theorem writeBytes_runs (n : Nat) (s : Bytes) (w : World) (hl : s.length + 2 < 2 ^ 64) (hn : s.length < n) :
    writeBytesFun.run (runtimeLib σ ops) n [.dom .ctx, .arr (octets s)] w =
      some (.int .i32 0, [.dom .ctx, .arr (octets s)], { w with out := w.out ++ (34 :: b64Enc s ++ [34]) }) := by
  have hlen : (octets s : List (Val (Dom V F))).length = s.length := by unfold octets; rw [List.length_map]
  obtain ⟨pre, rest, g, y0, y1, y2, y3, e1, e2, e3, e4⟩ := writeBytes_loop (V := V) (F := F) (σ := σ) (ops := ops) n n s [] s 0 0 0 0
     { w with out := w.out ++ [34] } rfl hl hn
  have hsl : s.length = pre.length + rest.length := by rw [e1, List.length_append]
  have hsym : ([65, 66, 67, 68, 69, 70, 71, 72, 73, 74, 75, 76, 77, 78, 79, 80, 81, 82, 83, 84, 85, 86, 87, 88, 89, 90, 97, 98, 99,
    100, 101, 102, 103, 104, 105, 106, 107, 108, 109, 110, 111, 112, 113, 114, 115, 116, 117, 118, 119, 120, 121, 122, 48, 49,
    50, 51, 52, 53, 54, 55, 56, 57, 43, 47] : Bytes) = b64Symbols := rfl
  have hm : List.mapM (toInt σ IT.char) [(Val.int IT.i32 0 : Val (Dom V F))] = some [.int .char 0] := by cases σ <;> rfl
  have e4' := e4
  simp only [List.length_nil, Int.natCast_zero] at e4'
  match rest, e2, e1, e3, hsl with
  | [], _, e1, e3, hsl =>
    have f : IT.fit .u64 ((s.length : Int) - (pre.length : Int)) = some ((0 : Nat) : Int) := by
      rw [hsl]; simp only [List.length_nil, Nat.add_zero, Int.sub_self]; rfl
    have e3' : b64Enc s = g := by rw [e3, b64Enc, List.append_nil]
    cxxi [writeBytesFun, hlen, hsym, hm, List.length_singleton, Int.reduceToNat, Nat.reduceSub, List.singleton_append, List.replicate_succ, List.replicate_zero, e4', f, e3', List.append_assoc, List.cons_append, List.nil_append]
  | [a], _, e1, e3, hsl =>
    have f : IT.fit .u64 ((s.length : Int) - (pre.length : Int)) = some ((1 : Nat) : Int) := by
      have e : (s.length : Int) - (pre.length : Int) = 1 := by simp only [List.length_cons, List.length_nil] at hsl; omega
      rw [e]; rfl
    have g0 : (octets s : List (Val (Dom V F)))[pre.length]? = some (.int .u8 (a.toNat : Int)) := octets_get (by rw [e1]; simp)
    have f3 : IT.fit .i32 (((a.toNat &&& 3) <<< 4 : Nat) : Int) = some (((a.toNat &&& 3) <<< 4 : Nat) : Int) :=
      fit_nat rfl (by have := six1' a; simp only [IT.top]; omega)
    have h := characters_four (V := V) (F := F) (σ := σ) (sym_ne_zero (six0 a)) (sym_ne_zero (six1' a)) eq_byte eq_byte
    cxxi [writeBytesFun, hlen, hsym, hm, List.length_singleton, Int.reduceToNat, Nat.reduceSub, List.singleton_append, List.replicate_succ, List.replicate_zero, e4', List.getElem?_cons_zero, List.getElem?_cons_succ, List.set_cons_zero, List.set_cons_succ, f, g0, f3, h, u8_int, sym_length, six0, six1', sym_def, e3, b64Enc, Int.reduceEq, not_false_eq_true, decide_true, decide_false, Bool.false_eq_true, if_true, if_false, List.append_assoc, List.cons_append, List.nil_append]


  | [a, b], _, e1, e3, hsl =>
    have f : IT.fit .u64 ((s.length : Int) - (pre.length : Int)) = some ((2 : Nat) : Int) := by
      have e : (s.length : Int) - (pre.length : Int) = 2 := by simp only [List.length_cons, List.length_nil] at hsl; omega
      rw [e]; rfl
    have g0 : (octets s : List (Val (Dom V F)))[pre.length]? = some (.int .u8 (a.toNat : Int)) := octets_get (by rw [e1]; simp)
    have g1 : (octets s : List (Val (Dom V F)))[pre.length + 1]? = some (.int .u8 (b.toNat : Int)) := octets_get (by rw [e1]; simp)
    have f1 : IT.fit .u64 ((pre.length : Int) + 1) = some ((pre.length + 1 : Nat) : Int) := fit_add (k := 1) (s := s) (by omega) (by rw [hsl]; simp)
    have f3 : IT.fit .i32 (((a.toNat &&& 3) <<< 4 : Nat) : Int) = some (((a.toNat &&& 3) <<< 4 : Nat) : Int) :=
      fit_nat rfl (by have := six1' a; simp only [IT.top]; omega)
    have f4 : IT.fit .i32 (((b.toNat &&& 15) <<< 2 : Nat) : Int) = some (((b.toNat &&& 15) <<< 2 : Nat) : Int) :=
      fit_nat rfl (by have := six2' b; simp only [IT.top]; omega)
    have h := characters_four (V := V) (F := F) (σ := σ) (sym_ne_zero (six0 a)) (sym_ne_zero (six1 a b)) (sym_ne_zero (six2' b)) eq_byte
    cxxi [writeBytesFun, hlen, hsym, hm, List.length_singleton, Int.reduceToNat, Nat.reduceSub, List.singleton_append, List.replicate_succ, List.replicate_zero, e4', List.getElem?_cons_zero, List.getElem?_cons_succ, List.set_cons_zero, List.set_cons_succ, f, g0, g1, f1, f3, f4, h, u8_int, sym_length, six0, six1, six1', six2', sym_def, e3, b64Enc, Int.reduceEq, not_false_eq_true, decide_true, decide_false, Bool.false_eq_true, if_true, if_false, List.append_assoc, List.cons_append, List.nil_append]


  | _ :: _ :: _ :: _, e2, _, _, _ => simp only [List.length_cons] at e2; omega

theorem function_b64Int (c : Int) (w : World) : (runtimeLib σ ops).function [n!"b64_int"] w [.int .i32 c] =
    some (.int .i32 (b64Int (IT.toByte c)), [], w) := (rfl)

theorem cast_u8 (x : Nat) : IT.convert σ .u8 .i32 (x : Int) = ((byte x).toNat : Int) := by
  unfold IT.convert
  rw [if_neg (by decide)]
  unfold byte
  rw [UInt8.toNat_ofNat']
  simp only [IT.wrap]
  omega

theorem and_small (x m k : Nat) (h : m < 2 ^ k) : x &&& m < 2 ^ k := Nat.lt_of_le_of_lt Nat.and_le_right h

/-- Where an `int` can be put. -/
def IntSlot (v : Val (Dom V F)) : Prop := v = .undef (some .i32) ∨ ∃ x, v = .int .i32 x

local macro "rs(" j:term ", " q:term ", " t:term ", " s:term ", " k:term ", " v:term ", " w:term ")" : term =>
  `((St.mk [[(n!"j", Val.int IT.u64 (($j : Nat) : Int))], [], [(n!"ptr", $q), (n!"text", Val.str $t), (n!"s", Val.arr $s), (n!"k", Val.int IT.u64 (($k : Nat) : Int))],
    [(n!"ctx", Val.dom Dom.ctx), (n!"value", Val.arr $v)]] $w))

/-- One character of a group. -/
theorem body_char (m j : Nat) (c : Byte) (r t : Bytes) (s v : List (Val (Dom V F))) (k : Nat) (w : World) (x : Val (Dom V F))
    (hx : s[j]? = some x) (hi : IntSlot x) (hc : c ≠ 0) :
    exec (runtimeLib σ ops) m readBytesFunBody1 rs(j, .ptr (c :: r), t, s, k, v, w) =
      some (.next, rs(j, .ptr r, t, s.set j (.int .i32 (b64Int c : Nat)), k, v, w)) := by
  rcases hi with rfl | ⟨y, rfl⟩
  · cxxi [readBytesFunBody1, hc, hx, function_b64Int]
  · cxxi [readBytesFunBody1, hc, hx, function_b64Int]

/-- The end of the text. -/
theorem body_end (m j : Nat) (r t : Bytes) (s v : List (Val (Dom V F))) (k : Nat) (w : World) (hr : r = [] ∨ ∃ r', r = 0 :: r') :
    ∃ q, exec (runtimeLib σ ops) m readBytesFunBody1 rs(j, .ptr r, t, s, k, v, w) =
      some (.ret (.int .i32 0), rs(j, q, t, s, k, v, { w with tz := if j = 0 then w.tz else (w.tz.error .invalidBase64).2 })) := by
  rcases hr with rfl | ⟨r', rfl⟩
  · by_cases hj : j = 0
    · subst hj
      exact ⟨_, by cxxi [readBytesFunBody1]; rfl⟩
    · have hj' : ¬ (j : Int) = 0 := by omega
      exact ⟨_, by cxxi [readBytesFunBody1, hj, hj']; rfl⟩
  · by_cases hj : j = 0
    · subst hj
      exact ⟨_, by cxxi [readBytesFunBody1]; rfl⟩
    · have hj' : ¬ (j : Int) = 0 := by omega
      exact ⟨_, by cxxi [readBytesFunBody1, hj, hj']; rfl⟩

theorem int_slot (x : Int) : IntSlot (V := V) (F := F) (.int .i32 x) := .inr ⟨x, rfl⟩

/-- Four characters. -/
theorem loop_chars (m n : Nat) (c0 c1 c2 c3 : Byte) (r t : Bytes) (x0 x1 x2 x3 : Val (Dom V F)) (v : List (Val (Dom V F))) (k : Nat) (w : World)
    (h0 : IntSlot x0) (h1 : IntSlot x1) (h2 : IntSlot x2) (h3 : IntSlot x3) (hc0 : c0 ≠ 0) (hc1 : c1 ≠ 0) (hc2 : c2 ≠ 0) (hc3 : c3 ≠ 0) :
    iterate (test (runtimeLib σ ops) (.binary n!"<" (.name n!"j") (.int .i32 4))) (exec (runtimeLib σ ops) m readBytesFunBody1)
      (perform (runtimeLib σ ops) (.incr n!"++" true (.name n!"j"))) (n + 5) rs(0, .ptr (c0 :: c1 :: c2 :: c3 :: r), t, [x0, x1, x2, x3], k, v, w) =
    some (.next, rs(4, .ptr r, t, [.int .i32 (b64Int c0 : Nat), .int .i32 (b64Int c1 : Nat), .int .i32 (b64Int c2 : Nat), .int .i32 (b64Int c3 : Nat)],
      k, v, w)) := by
  rw [iterate_next (by cxxi []; rfl) (body_char m 0 c0 _ t _ v k w x0 rfl h0 hc0) (s3 := rs(1, .ptr (c1 :: c2 :: c3 :: r), t, [.int .i32 (b64Int c0 : Nat), x1, x2, x3], k, v, w)) (by cxxi []; rfl)]
  rw [iterate_next (by cxxi []; rfl) (body_char m 1 c1 _ t _ v k w x1 rfl h1 hc1) (s3 := rs(2, .ptr (c2 :: c3 :: r), t, [.int .i32 (b64Int c0 : Nat), .int .i32 (b64Int c1 : Nat), x2, x3], k, v, w)) (by cxxi []; rfl)]
  rw [iterate_next (by cxxi []; rfl) (body_char m 2 c2 _ t _ v k w x2 rfl h2 hc2) (s3 := rs(3, .ptr (c3 :: r), t, [.int .i32 (b64Int c0 : Nat), .int .i32 (b64Int c1 : Nat), .int .i32 (b64Int c2 : Nat), x3], k, v, w)) (by cxxi []; rfl)]
  rw [iterate_next (by cxxi []; rfl) (body_char m 3 c3 _ t _ v k w x3 rfl h3 hc3) (s3 := rs(4, .ptr r, t, [.int .i32 (b64Int c0 : Nat), .int .i32 (b64Int c1 : Nat), .int .i32 (b64Int c2 : Nat), .int .i32 (b64Int c3 : Nat)], k, v, w)) (by cxxi []; rfl)]
  rw [iterate_done (by cxxi []; rfl)]
  rfl

local macro "gs(" q:term ", " t:term ", " s:term ", " k:term ", " v:term ", " w:term ")" : term =>
  `((St.mk [[(n!"ptr", $q), (n!"text", Val.str $t), (n!"s", Val.arr $s), (n!"k", Val.int IT.u64 (($k : Nat) : Int))],
    [(n!"ctx", Val.dom Dom.ctx), (n!"value", Val.arr $v)]] $w))

theorem fit_shl {x k j : Nat} (h : x < 2 ^ k) (hj : k + j < 31) : IT.fit .i32 ((x <<< j : Nat) : Int) = some ((x <<< j : Nat) : Int) := by
  have h1 := shl_bound k j h
  have h2 : 2 ^ (k + j) ≤ 2 ^ 30 := Nat.pow_le_pow_right (by decide) (by omega)
  exact fit_nat rfl (by simp only [IT.top]; omega)

theorem fit_count (k d : Nat) : ∃ k' : Nat, IT.fit .u64 ((k : Int) + (d : Int)) = some (k' : Int) :=
  ⟨(k + d) % 18446744073709551616, by simp only [IT.fit, Option.some.injEq]; omega⟩

/-- One group of four characters. -/
theorem body_group (m : Nat) (c0 c1 c2 c3 : Byte) (r t : Bytes) (x0 x1 x2 x3 : Val (Dom V F)) (v : Bytes) (k : Nat) (w : World)
    (h0 : IntSlot x0) (h1 : IntSlot x1) (h2 : IntSlot x2) (h3 : IntSlot x3) (hc0 : c0 ≠ 0) (hc1 : c1 ≠ 0) (hc2 : c2 ≠ 0) (hc3 : c3 ≠ 0) :
    ∃ k' : Nat, exec (runtimeLib σ ops) (m + 5) readBytesFunBody2 gs(.ptr (c0 :: c1 :: c2 :: c3 :: r), t, [x0, x1, x2, x3], k, octets v, w) =
    some (.next, gs(.ptr r, t, [.int .i32 (b64Int c0 : Nat), .int .i32 (b64Int c1 : Nat), .int .i32 (b64Int c2 : Nat), .int .i32 (b64Int c3 : Nat)],
      k', octets (v ++ b64Group (b64Int c0) (b64Int c1) (b64Int c2) (b64Int c3)), w)) := by
  have hl := loop_chars (σ := σ) (ops := ops) (m + 5) m c0 c1 c2 c3 r t x0 x1 x2 x3 (octets v) k w h0 h1 h2 h3 hc0 hc1 hc2 hc3
  simp only [Int.natCast_zero] at hl
  obtain ⟨k1, hk1⟩ := fit_count k 1
  obtain ⟨k2, hk2⟩ := fit_count k 2
  obtain ⟨k3, hk3⟩ := fit_count k 3
  simp only [Int.natCast_one, Int.cast_ofNat_Int] at hk1 hk2 hk3
  revert hl
  generalize b64Int c0 = y0, b64Int c1 = y1, b64Int c2 = y2, b64Int c3 = y3
  intro hl
  have fa := fit_shl (j := 2) (and_small y0 255 8 (by decide)) (by decide)
  have fb := fit_shl (j := 4) (and_small y1 15 4 (by decide)) (by decide)
  have fc := fit_shl (j := 6) (and_small y2 3 2 (by decide)) (by decide)
  unfold b64Group
  by_cases e2 : y2 = 64
  · subst e2
    refine ⟨k1, ?_⟩
    cxxi [readBytesFunBody2, hl, fa, fb, fc, cast_u8, hk1, List.getElem?_cons_zero, List.getElem?_cons_succ, Int.reduceEq, not_false_eq_true, not_true_eq_false, decide_true, decide_false, Bool.false_eq_true, if_true, if_false]
    simp only [octets, List.map_append, List.map_cons, List.map_nil, List.append_assoc, List.cons_append, List.nil_append]
  · have e2' : ¬ (y2 : Int) = 64 := by omega
    by_cases e3 : y3 = 64
    · subst e3
      refine ⟨k2, ?_⟩
      cxxi [readBytesFunBody2, hl, fa, fb, fc, cast_u8, hk2, e2, e2', List.getElem?_cons_zero, List.getElem?_cons_succ, Int.reduceEq, not_false_eq_true, not_true_eq_false, decide_true, decide_false, Bool.false_eq_true, if_true, if_false]
      simp only [octets, List.map_append, List.map_cons, List.map_nil, List.append_assoc, List.cons_append, List.nil_append]
    · have e3' : ¬ (y3 : Int) = 64 := by omega
      refine ⟨k3, ?_⟩
      cxxi [readBytesFunBody2, hl, fa, fb, fc, cast_u8, hk3, e2, e2', e3, e3', List.getElem?_cons_zero, List.getElem?_cons_succ, Int.reduceEq, not_false_eq_true, not_true_eq_false, decide_true, decide_false, Bool.false_eq_true, if_true, if_false]
      simp only [octets, List.map_append, List.map_cons, List.map_nil, List.append_assoc, List.cons_append, List.nil_append]

/-- The text ends within a group. -/
theorem loop_end (m n j : Nat) (cs e t : Bytes) (s v : List (Val (Dom V F))) (k : Nat) (w : World) (hs : s.length = 4) (hi : ∀ x ∈ s, IntSlot x)
    (hc : ∀ c ∈ cs, c ≠ 0) (he : e = [] ∨ ∃ r', e = 0 :: r') (hj : j + cs.length < 4) (hn : cs.length < n) :
    ∃ q s', iterate (test (runtimeLib σ ops) (.binary n!"<" (.name n!"j") (.int .i32 4))) (exec (runtimeLib σ ops) m readBytesFunBody1)
      (perform (runtimeLib σ ops) (.incr n!"++" true (.name n!"j"))) n rs(j, .ptr (cs ++ e), t, s, k, v, w) =
    some (.ret (.int .i32 0), rs(j + cs.length, q, t, s', k, v,
      { w with tz := if j + cs.length = 0 then w.tz else (w.tz.error .invalidBase64).2 })) := by
  induction cs generalizing j n s with
  | nil =>
    obtain ⟨n, rfl⟩ : ∃ k, n = k + 1 := ⟨n - 1, by simp only [List.length_nil] at hn; omega⟩
    have hj4 : (j : Int) < 4 := by simp only [List.length_nil] at hj; omega
    obtain ⟨q, hq⟩ := body_end (σ := σ) (ops := ops) m j e t s v k w he
    exact ⟨q, s, iterate_ret (by cxxi [hj4]; rfl) hq⟩
  | cons c cs ih =>
    obtain ⟨n, rfl⟩ : ∃ k, n = k + 1 := ⟨n - 1, by omega⟩
    simp only [List.length_cons] at hj hn
    have hj4 : (j : Int) < 4 := by omega
    have hlt : j < s.length := by omega
    have f : IT.fit .u64 ((j : Int) + 1) = some ((j + 1 : Nat) : Int) := fit_nat (x := j + 1) rfl (by simp only [IT.top]; omega)
    obtain ⟨q, s', h⟩ := ih n (j + 1) (s.set j (.int .i32 (b64Int c : Nat))) (by rw [List.length_set, hs])
      (fun x hx => by
        rcases List.mem_or_eq_of_mem_set hx with h | h
        · exact hi x h
        · exact .inr ⟨_, h⟩)
      (fun c hx => hc c (List.mem_cons_of_mem _ hx)) (by omega) (by omega)
    refine ⟨q, s', ?_⟩
    rw [List.cons_append, iterate_next (by cxxi [hj4]; rfl) (body_char m j c _ t s v k w s[j] (List.getElem?_eq_getElem hlt) (hi _ (List.getElem_mem hlt))
      (hc c (List.mem_cons_self))) (by cxxi [f]; rfl)]
    refine h.trans ?_
    have e : j + 1 + cs.length = j + (c :: cs).length := by rw [List.length_cons]; omega
    rw [e]

/-- The last, incomplete group. -/
theorem body_last (m : Nat) (cs e t : Bytes) (s : List (Val (Dom V F))) (v : Bytes) (k : Nat) (w : World) (hs : s.length = 4) (hi : ∀ x ∈ s, IntSlot x)
    (hc : ∀ c ∈ cs, c ≠ 0) (he : e = [] ∨ ∃ r', e = 0 :: r') (hj : cs.length < 4) :
    ∃ q s', exec (runtimeLib σ ops) (m + 5) readBytesFunBody2 gs(.ptr (cs ++ e), t, s, k, octets v, w) =
    some (.ret (.int .i32 0), gs(q, t, s', k, octets v, { w with tz := if cs.length = 0 then w.tz else (w.tz.error .invalidBase64).2 })) := by
  obtain ⟨q, s', h⟩ := loop_end (σ := σ) (ops := ops) (m + 5) (m + 5) 0 cs e t s (octets v) k w hs hi hc he (by omega) (by omega)
  simp only [Int.natCast_zero, Nat.zero_add] at h
  refine ⟨q, s', ?_⟩
  cxxi [readBytesFunBody2, h]

/-- The outer loop. -/
theorem readBytes_loop (m n : Nat) (r t : Bytes) (s : List (Val (Dom V F))) (v : Bytes) (k : Nat) (w : World) (hs : s.length = 4) (hi : ∀ x ∈ s, IntSlot x)
    (hn : r.length < n) :
    ∃ q s', ∃ k' : Nat, iterate (test (runtimeLib σ ops) (.name n!"true")) (exec (runtimeLib σ ops) (m + 5) readBytesFunBody2) some n
        gs(.ptr r, t, s, k, octets v, w) =
      some (.ret (.int .i32 0), gs(q, t, s', k', octets (v ++ (b64Dec r).1),
        { w with tz := if (b64Dec r).2 then (w.tz.error .invalidBase64).2 else w.tz })) := by
  induction n generalizing r s v k with
  | zero => omega
  | succ n ih =>
    have last : ∀ cs e : Bytes, r = cs ++ e → (∀ c ∈ cs, c ≠ 0) → (e = [] ∨ ∃ r', e = 0 :: r') → cs.length < 4 →
        b64Dec r = ([], decide (cs.length ≠ 0)) →
        ∃ q s', ∃ k' : Nat, iterate (test (runtimeLib σ ops) (.name n!"true")) (exec (runtimeLib σ ops) (m + 5) readBytesFunBody2) some (n + 1)
          gs(.ptr r, t, s, k, octets v, w) =
        some (.ret (.int .i32 0), gs(q, t, s', k', octets (v ++ (b64Dec r).1),
          { w with tz := if (b64Dec r).2 then (w.tz.error .invalidBase64).2 else w.tz })) := by
      intro cs e hr hc he hl hd
      obtain ⟨q, s', h⟩ := body_last (σ := σ) (ops := ops) m cs e t s v k w hs hi hc he hl
      refine ⟨q, s', k, ?_⟩
      rw [hr, iterate_ret (by cxxi []) h, ← hr, hd]
      by_cases hz : cs.length = 0
      · simp only [hz, List.append_nil, ne_eq, not_true_eq_false, decide_false, Bool.false_eq_true, if_true, if_false]
      · simp only [hz, List.append_nil, ne_eq, not_false_eq_true, decide_true, if_true, if_false]
    match r, hn with
    | [], _ => exact last [] [] rfl (by simp) (.inl rfl) (by simp) rfl
    | [a], _ =>
      by_cases ha : a = 0
      · subst ha; exact last [] [0] rfl (by simp) (.inr ⟨_, rfl⟩) (by simp) rfl
      · exact last [a] [] rfl (by simpa using ha) (.inl rfl) (by simp) (by simp [b64Dec, ha])
    | [a, b], _ =>
      by_cases ha : a = 0
      · subst ha; exact last [] _ rfl (by simp) (.inr ⟨_, rfl⟩) (by simp) rfl
      by_cases hb : b = 0
      · subst hb; exact last [a] [0] rfl (by simpa using ha) (.inr ⟨_, rfl⟩) (by simp) (by simp [b64Dec, ha])
      · exact last [a, b] [] rfl (by simp [ha, hb]) (.inl rfl) (by simp) (by simp [b64Dec, ha])
    | [a, b, c], _ =>
      by_cases ha : a = 0
      · subst ha; exact last [] _ rfl (by simp) (.inr ⟨_, rfl⟩) (by simp) rfl
      by_cases hb : b = 0
      · subst hb; exact last [a] _ rfl (by simpa using ha) (.inr ⟨_, rfl⟩) (by simp) (by simp [b64Dec, ha])
      by_cases hc : c = 0
      · subst hc; exact last [a, b] _ rfl (by simp [ha, hb]) (.inr ⟨_, rfl⟩) (by simp) (by simp [b64Dec, ha])
      · exact last [a, b, c] [] rfl (by simp [ha, hb, hc]) (.inl rfl) (by simp) (by simp [b64Dec, ha])
    | a :: b :: c :: d :: r, hn =>
      by_cases ha : a = 0
      · subst ha; exact last [] _ rfl (by simp) (.inr ⟨_, rfl⟩) (by simp) (by simp [b64Dec])
      by_cases hb : b = 0
      · subst hb; exact last [a] _ rfl (by simpa using ha) (.inr ⟨_, rfl⟩) (by simp) (by simp [b64Dec, ha])
      by_cases hc : c = 0
      · subst hc; exact last [a, b] _ rfl (by simp [ha, hb]) (.inr ⟨_, rfl⟩) (by simp) (by simp [b64Dec, ha])
      by_cases hd : d = 0
      · subst hd; exact last [a, b, c] _ rfl (by simp [ha, hb, hc]) (.inr ⟨_, rfl⟩) (by simp) (by simp [b64Dec, ha])
      obtain ⟨x0, x1, x2, x3, rfl⟩ : ∃ x0 x1 x2 x3, s = [x0, x1, x2, x3] := by
        match s, hs with
        | [x0, x1, x2, x3], _ => exact ⟨x0, x1, x2, x3, rfl⟩
      obtain ⟨k1, h1⟩ := body_group (σ := σ) (ops := ops) m a b c d r t x0 x1 x2 x3 v k w (hi _ (by simp)) (hi _ (by simp)) (hi _ (by simp))
        (hi _ (by simp)) ha hb hc hd
      simp only [List.length_cons] at hn
      obtain ⟨q, s', k2, h2⟩ := ih r [.int .i32 (b64Int a : Nat), .int .i32 (b64Int b : Nat), .int .i32 (b64Int c : Nat), .int .i32 (b64Int d : Nat)]
        (v ++ b64Group (b64Int a) (b64Int b) (b64Int c) (b64Int d)) k1 rfl
        (fun x hx => by
          simp only [List.mem_cons, List.not_mem_nil, or_false] at hx
          rcases hx with rfl | rfl | rfl | rfl <;> exact int_slot _)
        (by omega)
      refine ⟨q, s', k2, ?_⟩
      rw [iterate_next (by cxxi []) h1 rfl]
      refine h2.trans ?_
      simp only [b64Dec, ha, hb, hc, hd, if_false, decide_false, Bool.or_self, Bool.false_eq_true, List.append_assoc]

/-- json-base64.hh:60-101. -/
theorem readBytes_runs (n : Nat) (v : Bytes) (w : World) (hn : w.tz.cur.value.length + 5 ≤ n) :
    readBytesFun.run (runtimeLib σ ops) n [.dom .ctx, .arr (octets v)] w = readAs (bytesRead w.tz v) (fun v => .arr (octets v)) w := by
  unfold bytesRead
  by_cases h : w.tz.cur.id = .nil
  · cxxi [readBytesFun, h, readAs, rcNumber]
  by_cases h2 : w.tz.cur.id = .string
  · obtain ⟨m, rfl⟩ : ∃ m, n = m + 5 := ⟨n - 5, by omega⟩
    obtain ⟨q, s', k', e⟩ := readBytes_loop (σ := σ) (ops := ops) m (m + 5) w.tz.cur.value w.tz.cur.value
      [.undef (some .i32), .undef (some .i32), .undef (some .i32), .undef (some .i32)] v 0 { w with tz := w.tz.next } rfl
      (fun x hx => by
          simp only [List.mem_cons, List.not_mem_nil, or_false] at hx
          rcases hx with rfl | rfl | rfl | rfl <;> exact .inl rfl) (by omega)
    simp only [Int.natCast_zero] at e
    have h4 : (List.replicate 4 (.undef (some .i32)) : List (Val (Dom V F))) =
      [.undef (some .i32), .undef (some .i32), .undef (some .i32), .undef (some .i32)] := rfl
    cxxi [readBytesFun, h, h2, h4, e, readAs, rcNumber, show readBytesFun.type = n!"static int" from rfl]
  · cxxi [readBytesFun, h, h2, readAs, rcNumber, error_fst, ne_eq, not_false_eq_true, if_true]

end PG.Cxx
