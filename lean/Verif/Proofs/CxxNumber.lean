import Verif.Proofs.CxxEval
import Verif.Proofs.CxxNumberAst
import Verif.Spec.CxxNumber
import Verif.Proofs.Near
import Verif.Proofs.FltText
/-
The conversions between numbers and texts and the comparison of numbers (json-number.hh:32-112), executed.
-/
set_option autoImplicit false
namespace PG.Cxx
variable {σ : Bool}

/-! ### Rules -/

section
variable {c : Platform} {k : FKind} (cur l : Nat) (s : Bytes) (x y : Flt)
theorem flt_signed : (fltLib σ c k).signed = σ := (rfl)
theorem flt_mask : (fltLib σ c k).constant [n!"LC_NUMERIC_MASK"] = some (.int .i32 2) := (rfl)
theorem flt_null : (fltLib σ c k).constant [n!"nullptr"] = some .void := (rfl)
theorem flt_get (n : Name) : (fltLib σ c k).get n cur = none := (rfl)
theorem flt_new : (fltLib σ c k).function [n!"newlocale"] cur [.int .i32 2, .str [67], .int .i32 0] =
    some (if c.made then .dom (.locale 0) else .int .i32 0, [], cur) := (rfl)
theorem flt_use : (fltLib σ c k).function [n!"uselocale"] cur [.dom (.locale l)] = some (.dom (.locale cur), [], l) := (rfl)
theorem flt_strtod : (fltLib σ c k).function [n!"strtod"] cur [.ptr s, .void] =
    some (.dom (.flt (c.parse cur (s.takeWhile (· ≠ 0)))), [], cur) := (rfl)
theorem flt_strtodL : (fltLib σ c k).function [n!"strtod_l"] cur [.ptr s, .void, .dom (.locale l)] =
    some (.dom (.flt (c.parse l (s.takeWhile (· ≠ 0)))), [], cur) := (rfl)
theorem flt_printf (a : List (Val Ware)) (n : Int) (h : 0 < n ∧ n ≤ a.length) :
    (fltLib σ c k).function [n!"snprintf"] cur [.arr a, .int .u64 n, .str [37, 102], .dom (.flt x)] =
    some (.void, [some (.arr (printed σ a n.toNat (c.show cur x)))], cur) := by
  show (if 0 < n ∧ n ≤ a.length ∧ b!"%f" = b!"%f" then _ else none : Option (Val Ware × List (Option (Val Ware)) × Nat)) = _
  rw [if_pos ⟨h.1, h.2, rfl⟩]
theorem flt_lowest : (fltLib σ c k).function [n!"std", n!"numeric_limits", n!"lowest"] cur [] =
    some (.dom (.flt (.fin true (maxMag k))), [], cur) := (rfl)
theorem flt_max : (fltLib σ c k).function [n!"std", n!"numeric_limits", n!"max"] cur [] =
    some (.dom (.flt (.fin false (maxMag k))), [], cur) := (rfl)
theorem flt_after : (fltLib σ c k).function [n!"std", n!"nextafter"] cur [.dom (.flt x), .dom (.flt y)] =
    some (.dom (.flt (nextafter k x y)), [], cur) := (rfl)
theorem flt_static : (fltLib σ c k).inst n!"static_cast" n!"T" cur [.dom (.flt x)] = some (.dom (.flt (castTo k x)), [], cur) := (rfl)
theorem flt_eq : (fltLib σ c k).binary n!"==" (.dom (.locale l)) (.int .i32 0) cur = some (.bool false, cur) := (rfl)
theorem flt_le : (fltLib σ c k).binary n!"<=" (.dom (.flt x)) (.dom (.flt y)) cur = some (.bool (x.le y), cur) := (rfl)
theorem flt_ge : (fltLib σ c k).binary n!">=" (.dom (.flt x)) (.dom (.flt y)) cur = some (.bool (y.le x), cur) := (rfl)
theorem initial_double : initial (fltLib σ c k) n!"double" none cur = some (.undef none) := (rfl)
theorem initial_staticLoc (v : Val Ware) : initial (fltLib σ c k) n!"static locale_t" (some v) cur = some v := (rfl)
theorem initial_loc (v : Val Ware) : initial (fltLib σ c k) n!"locale_t" (some v) cur = some v := (rfl)
end
theorem result_staticT {D S : Type} {L : Lib D S} (v : Val D) : result L n!"static T" v = some v := (rfl)
attribute [cxx] flt_signed flt_mask flt_null flt_get flt_new flt_use flt_strtod flt_strtodL flt_lowest flt_max flt_after
  flt_static flt_eq flt_le flt_ge initial_double initial_staticLoc initial_loc result_staticT

section
variable {k : IKind} (s : Bytes) (t : IT) (v : Int) (u : Unit)
theorem integer_signed : (intLib σ k).signed = σ := (rfl)
theorem integer_null : (intLib σ k).constant [n!"nullptr"] = some .void := (rfl)
theorem integer_get (n : Name) : (intLib σ k).get n u = none := (rfl)
theorem integer_strtol : (intLib σ k).function [n!"strtol"] u [.ptr s, .void, .int .i32 10] =
    some (.int .i64 (PG.strtol (s.takeWhile (· ≠ 0))), [], u) := (rfl)
theorem integer_strtoul : (intLib σ k).function [n!"strtoul"] u [.ptr s, .void, .int .i32 10] =
    some (.int .u64 (PG.strtoul (s.takeWhile (· ≠ 0))), [], u) := (rfl)
theorem integer_show : (intLib σ k).function [n!"std", n!"to_string"] u [.int t v] = some (.str (decInt v), [], u) := (rfl)
theorem integer_static : (intLib σ k).inst n!"static_cast" n!"T" u [.int t v] =
    some (.int (itOf k) (IT.convert σ (itOf k) t v), [], u) := (rfl)
end
attribute [cxx] integer_signed integer_null integer_get integer_strtol integer_strtoul integer_show integer_static

/-! ### Texts without a zero -/

theorem takeWhile_all {s : Bytes} (h : (0 : Byte) ∉ s) : s.takeWhile (· ≠ 0) = s := by
  induction s with
  | nil => rfl
  | cons b s ih =>
    rw [List.mem_cons, not_or] at h
    rw [List.takeWhile_cons_of_pos (by simpa using fun e => h.1 e.symm), ih h.2]

theorem characters_map (t : Bytes) (h : (0 : Byte) ∉ t) (r : List (Val Ware)) :
    characters (t.map (fun b => .int .char (IT.ofByte σ b)) ++ .int .char 0 :: r) = some t := by
  induction t with
  | nil => rfl
  | cons b t ih =>
    rw [List.mem_cons, not_or] at h
    show (if IT.ofByte σ b = 0 then some [] else (characters (t.map (fun b => .int .char (IT.ofByte σ b)) ++ .int .char 0 :: r)).map (IT.toByte (IT.ofByte σ b) :: ·) : Option Bytes) = _
    rw [if_neg (by rw [ofByte_eq_zero]; exact fun e => h.1 e.symm), ih h.2, toByte_ofByte]
    rfl

/-- A number token has no zero. -/
theorem lexNumber_zero (s : IStream) (acc : Bytes) (h : (0 : Byte) ∉ acc) : (0 : Byte) ∉ (lexNumber s acc).1 := by
  fun_induction lexNumber s acc with
  | case1 s acc _ hc ih =>
    apply ih
    rw [List.mem_append, List.mem_singleton]
    rintro (e | e)
    · exact h e
    · rw [← e] at hc; exact absurd hc (by decide)
  | case2 => exact h
  | case3 => exact h

theorem lexNumber_ne (s : IStream) : (0 : Byte) ∉ (lexNumber s []).1 := lexNumber_zero s [] (by simp)

/-! ### Texts to numbers -/

theorem castTo_strtod (k : FKind) (s : Bytes) : castTo k (PG.strtod s) = (fltOfText k s).val := by cases k <;> rfl

theorem parseFlt_runs (c : Platform) (k : FKind) (n cur : Nat) (text : Bytes) (hc : c.made = true) (h : (0 : Byte) ∉ text) :
    parseFltFun.run (fltLib σ c k) n [.str text] cur = some (.dom (.flt (fltOfText k text).val), [.str text], cur) := by
  unfold parseFltFun
  cxx [hc, takeWhile_all h]
  rw [← castTo_strtod]
  rfl

theorem parseFltGnu_runs (c : Platform) (k : FKind) (n cur : Nat) (text : Bytes) (hc : c.made = true) (h : (0 : Byte) ∉ text) :
    parseFltGnuFun.run (fltLib σ c k) n [.str text] cur = some (.dom (.flt (fltOfText k text).val), [.str text], cur) := by
  unfold parseFltGnuFun
  cxx [hc, takeWhile_all h]
  rw [← castTo_strtod]
  rfl

/-- Without the locale the result is 0. -/
theorem parseFlt_fails (c : Platform) (k : FKind) (n cur : Nat) (text : Bytes) (hc : c.made = false) :
    parseFltFun.run (fltLib σ c k) n [.str text] cur = some (.int .i32 0, [.str text], cur) := by
  unfold parseFltFun
  cxx [hc]

theorem parseFltGnu_fails (c : Platform) (k : FKind) (n cur : Nat) (text : Bytes) (hc : c.made = false) :
    parseFltGnuFun.run (fltLib σ c k) n [.str text] cur = some (.int .i32 0, [.str text], cur) := by
  unfold parseFltGnuFun
  cxx [hc]

theorem lo_val (k : IKind) : k.lo = match k with
    | .i32 => -2147483648
    | .i64 => -9223372036854775808
    | .u32 => 0
    | .u64 => 0
    | .u8 => 0 := by cases k <;> rfl

theorem convert_cast (k : IKind) (t : IT) (v : Int) (h : t = itOf k → (CInt.cast k v).val = v) :
    IT.convert σ (itOf k) t v = (CInt.cast k v).val := by
  unfold IT.convert
  split
  · rename_i e; exact (h e.symm).symm
  · cases k <;> simp only [itOf, IT.wrap, CInt.cast, lo_val, IKind.bits] <;> omega

theorem parseSigned_runs (k : IKind) (hk : k.signed = true) (n : Nat) (text : Bytes) (h : (0 : Byte) ∉ text) :
    parseSignedFun.run (intLib σ k) n [.str text] () = some (.int (itOf k) (intOfText k text).val, [.str text], ()) := by
  unfold parseSignedFun
  cxx [takeWhile_all h]
  rw [convert_cast]
  · unfold intOfText; rw [if_pos hk]
  · intro e
    cases k <;> first | (exact absurd e (by decide)) | skip
    simp only [CInt.cast, lo_val, IKind.bits]
    unfold PG.strtol
    split <;> first | omega | (split <;> omega)

theorem parseUnsigned_runs (k : IKind) (hk : k.signed = false) (n : Nat) (text : Bytes) (h : (0 : Byte) ∉ text) :
    parseUnsignedFun.run (intLib σ k) n [.str text] () = some (.int (itOf k) (intOfText k text).val, [.str text], ()) := by
  unfold parseUnsignedFun
  cxx [takeWhile_all h]
  rw [convert_cast]
  · unfold intOfText; rw [hk]; rfl
  · intro e
    cases k <;> first | (exact absurd e (by decide)) | skip
    simp only [CInt.cast, lo_val, IKind.bits]
    unfold PG.strtoul
    split <;> first | omega | (split <;> first | omega | (split <;> omega))

/-! ### Numbers to texts -/

theorem showInt_runs (k : IKind) (n : Nat) (v : CInt k) :
    showIntFun.run (intLib σ k) n [.int (itOf k) v.val] () = some (.str (textOfInt v), [.int (itOf k) v.val], ()) := by
  unfold showIntFun
  cxx []
  rfl

theorem digits_ne {s : Bytes} (h : ∀ b ∈ s, isDigit b = true) : (0 : Byte) ∉ s := fun e => by
  have := h 0 e
  exact absurd this (by decide)

theorem fixed6_ne (q : Nat) : (0 : Byte) ∉ fixed6 q := by
  unfold fixed6
  rw [List.mem_append, List.mem_cons]
  rintro (h | h | h)
  · exact digits_ne (decNat_digits _) h
  · exact absurd h (by decide)
  · exact digits_ne (dec6_digits _) h

theorem printfF_ne (x : Flt) : (0 : Byte) ∉ printfF x := by
  unfold printfF
  split
  · decide
  · split <;> decide
  · simp only
    split
    · rw [List.mem_cons]
      rintro (h | h)
      · exact absurd h (by decide)
      · exact fixed6_ne _ h
    · exact fixed6_ne _

/-- What is stored and then ended at the last place. -/
theorem printed_text (l : List (Val Ware)) (t : Bytes) (n : Nat) (hn : n ≠ 0) (h : (0 : Byte) ∉ t) :
    characters ((printed σ l n t).set n (.int .char 0)) = some (t.take (n - 1)) := by
  unfold printed
  have hl : (t.take (n - 1)).length ≤ n - 1 := by rw [List.length_take]; omega
  obtain ⟨d, hd⟩ : ∃ d, n = ((t.take (n - 1)).map (fun b => (Val.int .char (IT.ofByte σ b) : Val Ware))).length + (d + 1) :=
    ⟨n - 1 - (t.take (n - 1)).length, by rw [List.length_map]; omega⟩
  generalize ht : t.take (n - 1) = u at hd hl ⊢
  rw [List.set_append_right _ _ (by rw [List.length_map] at hd ⊢; omega)]
  have : n - (u.map (fun b => (Val.int .char (IT.ofByte σ b) : Val Ware))).length = d + 1 := by rw [List.length_map] at hd ⊢; omega
  rw [this, List.set_cons_succ, characters_map]
  rw [← ht]
  exact fun e => h (List.mem_of_mem_take e)

theorem printed_length (l : List (Val Ware)) (t : Bytes) (n : Nat) (h : n < l.length) (hn : n ≠ 0) :
    (printed σ l n t).length = l.length := by
  unfold printed
  rw [List.length_append, List.length_map, List.length_cons, List.length_drop, List.length_take]
  omega

/-- `char tmp[320] = {0}`. -/
def blank : List (Val Ware) := List.replicate 320 (.int .char 0)

theorem zero_map : List.mapM (toInt σ IT.char) [(Val.int IT.i32 0 : Val Ware)] = some [.int .char 0] := by
  show some [Val.int .char (IT.ofByte σ (IT.toByte 0))] = _
  rw [show IT.toByte 0 = 0 from by decide, ofByte_zero]

theorem blank_eq : [Val.int .char 0] ++ List.replicate (Int.toNat 320 - (0 + 1)) (Val.int IT.char 0) = blank := rfl

theorem blank_size : (blank.length : Int) = 320 := by
  unfold blank; rw [List.length_replicate]; rfl

theorem printed_last (t : Bytes) : (printed σ blank 319 t)[319]? = some (.int .char 0) := by
  unfold printed
  have hl : (t.take (319 - 1)).length ≤ 318 := by rw [List.length_take]; omega
  generalize t.take (319 - 1) = u at hl
  rw [List.getElem?_append_right (by rw [List.length_map]; omega), List.length_map,
    show 319 - u.length = (318 - u.length) + 1 from by omega, List.getElem?_cons_succ, List.getElem?_drop,
    show u.length + 1 + (318 - u.length) = 319 from by omega]
  rfl

theorem showFlt_runs (c : Platform) (k : FKind) (n cur : Nat) (v : CFlt k) (hc : c.made = true) :
    showFltFun.run (fltLib σ c k) n [.dom (.flt v.val)] cur = some (.str (textOfFlt v), [.dom (.flt v.val)], cur) := by
  unfold showFltFun
  have e1 : IT.convert σ .u64 .i32 1 = 1 := rfl
  have e2 : IT.fit .u64 (320 - 1) = some 319 := rfl
  have e3 := fun t => printed_length (σ := σ) blank t 319 (by rw [show blank.length = 320 from List.length_replicate]; decide) (by decide)
  have e5 : IT.convert σ .char .i32 0 = 0 := by
    show IT.ofByte σ (IT.toByte 0) = 0
    rw [show IT.toByte 0 = 0 from by decide, ofByte_zero]
  have e6 := flt_printf (σ := σ) (c := c) (k := k) 0 v.val blank 319 (by rw [blank_size]; decide)
  have e7 := printed_last (σ := σ)
  cxx [hc, zero_map, blank_eq, blank_size, e1, e2, e3, e5, e6, e7,
    show ¬ ((319 : Int) < 0) from by decide, show Int.toNat 319 = 319 from rfl]
  rw [printed_text _ _ _ (by decide) (show (0 : Byte) ∉ c.show 0 v.val from printfF_ne _)]
  rfl

/-- Without the locale the text is `0`. -/
theorem showFlt_fails (c : Platform) (k : FKind) (n cur : Nat) (v : CFlt k) (hc : c.made = false) :
    showFltFun.run (fltLib σ c k) n [.dom (.flt v.val)] cur = some (.str b!"0", [.dom (.flt v.val)], cur) := by
  unfold showFltFun
  cxx [hc, zero_map, blank_eq]

/-! ### Comparison -/

theorem nearInt_runs (k : IKind) (n : Nat) (a b : CInt k) :
    nearIntFun.run (intLib σ k) n [.int (itOf k) a.val, .int (itOf k) b.val] () =
    some (.int .i32 (if (Prim.int k).near a b then 1 else 0), [.int (itOf k) a.val, .int (itOf k) b.val], ()) := by
  unfold nearIntFun
  have e8 (v : Int) (h0 : 0 ≤ v) (h1 : v ≤ 255) : IT.convert σ .i32 .u8 v = v := by
    unfold IT.convert
    rw [if_neg (by decide), wrap_i32 (by omega)]
  cases k
  case u8 =>
    cxx [itOf, e8 a.val a.lo_le a.le_hi, e8 b.val b.lo_le b.le_hi]
    rfl
  all_goals cxx [itOf]; rfl

theorem max_pos (k : FKind) : 0 < maxMag k := by cases k <;> decide +kernel

theorem nextafter_step {k : FKind} (up : Bool) {x : Flt} (h : x.Rep k) :
    nextafter k x (.fin (!up) (maxMag k)) = stepTo k up x := by
  have hp := max_pos k
  cases x with
  | nan => rfl
  | inf neg => cases neg <;> cases up <;> rfl
  | fin neg m =>
    have hm : m ≤ maxMag k := rep_le_max h
    have hc : (Flt.fin neg m).ceq (.fin (!up) (maxMag k)) = decide (m = maxMag k ∧ neg = !up) := by
      show (m == maxMag k && (neg == !up || m == 0)) = _
      rw [Bool.eq_iff_iff]
      simp only [Bool.and_eq_true, Bool.or_eq_true, beq_iff_eq, decide_eq_true_eq]
      exact ⟨fun ⟨a, b⟩ => ⟨a, b.resolve_right (by omega)⟩, fun ⟨a, b⟩ => ⟨a, .inl b⟩⟩
    have hl : ¬ (m = maxMag k ∧ neg = !up) → less (.fin neg m) (.fin (!up) (maxMag k)) = up := by
      intro hn
      show decide (signedMag neg m < signedMag (!up) (maxMag k)) = up
      unfold signedMag
      cases up <;> cases neg <;> simp at hn ⊢ <;> omega
    unfold nextafter
    rw [if_neg (by rintro (e | e) <;> cases e), hc]
    by_cases h1 : m = maxMag k ∧ neg = !up
    · rw [if_pos (by simpa using h1)]
      obtain ⟨rfl, rfl⟩ := h1
      show _ = if maxMag k = 0 then _ else _
      rw [if_neg (by omega), if_neg (by cases up <;> decide), if_pos rfl]
    · rw [if_neg (by simpa using h1), hl h1]
      by_cases h0 : m = 0
      · subst h0
        cases up <;> rfl
      · cases up <;> cases neg <;> simp [above, below, stepTo, h0] at h1 ⊢ <;> simp [h1]

theorem nearFlt_runs (c : Platform) (k : FKind) (n cur : Nat) (a b : CFlt k) :
    nearFltFun.run (fltLib σ c k) n [.dom (.flt a.val), .dom (.flt b.val)] cur =
    some (.int .i32 (if (Prim.flt k).near a b then 1 else 0), [.dom (.flt a.val), .dom (.flt b.val)], cur) := by
  unfold nearFltFun
  cxx []
  rw [show (Flt.fin true (maxMag k)) = .fin (!false) (maxMag k) from rfl, nextafter_step false a.property,
    show (Flt.fin false (maxMag k)) = .fin (!true) (maxMag k) from rfl, nextafter_step true a.property]
  rfl

end PG.Cxx
