import Verif.Proofs.GenTextRun
import Verif.Proofs.GenPrint
/-!
`Printer::print`: what running the C++ does is what the model says.
-/
set_option autoImplicit false
namespace PG.Cxx.Throw
open PG.Gen PG.Proto PG.Cxx.Maker
variable {s : Bool}

section
local notation "X" => printLib s
theorem prn_signed : (X).base.signed = s := (rfl)
theorem prn_get (n : Name) (u : Bytes) : (X).base.get n u = none := (rfl)
theorem prn_null : (X).base.constant [n!"nullptr"] = some (.dom .null) := (rfl)
theorem initial_charsNull {D S : Type} {L : Lib D S} (d : D) (u : S) :
    initial L n!"const char *" (some (.dom d)) u = L.init n!"const char *" (some (.dom d)) u := (rfl)
theorem initial_charPtr {D S : Type} {L : Lib D S} (v : Option (Val D)) (u : S) :
    initial L n!"char *" v u = L.init n!"char *" v u := (rfl)
theorem prn_init1 (u : Bytes) : (X).base.init n!"const char *" (some (.dom .null)) u = some (.dom .null) := by simp [printLib]
theorem prn_init2 (u : Bytes) : (X).base.init n!"char *" (some (.dom .null)) u = some (.dom .null) := by simp [printLib]
theorem prn_address (v : Val PrintVal) (u : Bytes) : (X).base.unary n!"&" v u = some (.dom .address) := (rfl)
theorem prn_add (c : Byte) (x : Bytes) (u : Bytes) : (X).base.binary n!"+" (.ptr (c :: x)) (.int .i32 1) u = some (.ptr x, u) := by
  have : (1 : Int) ≤ (x.length : Int) + 1 := by omega
  simp [printLib, this]
theorem prn_eqNull (x : Bytes) (u : Bytes) : (X).base.binary n!"==" (.ptr x) (.dom .null) u = some (.bool false, u) := (rfl)
theorem prn_nullNull (u : Bytes) : (X).base.binary n!"==" (.dom .null) (.dom .null) u = some (.bool true, u) := (rfl)
theorem prn_ne (x y : Bytes) (u : Bytes) : (X).base.binary n!"!=" (.ptr x) (.ptr y) u = some (.bool (decide (x.length ≠ y.length)), u) := (rfl)
theorem prn_str (x : Bytes) (u : Bytes) : (X).base.binary n!"<<" (.dom .out) (.str x) u = some (.dom .out, u ++ x) := (rfl)
theorem prn_chr (c : Int) (u : Bytes) : (X).base.binary n!"<<" (.dom .out) (.int .char c) u = some (.dom .out, u ++ [IT.toByte c]) := (rfl)
theorem prn_strtol (x : Bytes) (u : Bytes) : (X).function [n!"strtol"] u [.ptr x, .dom .address, .int .i32 10] =
    .ok (.int .i64 (strtol x), [none, some (.ptr (strtolEnd x))], u) := (rfl)
theorem fromDollar_dropWhile (x : Bytes) : x.dropWhile (· ≠ 36) = (fromDollar x).getD [] := by
  induction x with
  | nil => rfl
  | cons c x ih =>
    rw [fromDollar, List.dropWhile_cons]
    by_cases h : c = 36
    · simp [h]
    · rw [if_pos (by simp [h]), if_neg h, ih]
theorem fromDollar_cons {x y : Bytes} (h : fromDollar x = some y) : ∃ t, y = 36 :: t := by
  induction x with
  | nil => cases h
  | cons c x ih =>
    rw [fromDollar] at h
    split at h
    · rename_i hc
      injection h with h
      exact ⟨x, by rw [← h, hc]⟩
    · exact ih h
theorem prn_strchr (x : Bytes) (u : Bytes) : (X).function [n!"strchr"] u [.ptr x, .int .char (IT.ofByte s 36)] =
    .ok (match fromDollar x with | none => .dom .null | some y => .ptr y, [], u) := by
  have e := fromDollar_dropWhile x
  have e2 : IT.toByte (IT.ofByte s 36) = 36 := toByte_ofByte _
  show (match x.dropWhile (· ≠ IT.toByte (IT.ofByte s 36)) with | [] => _ | y => _) = _
  rw [e2, e]
  cases h : fromDollar x with
  | none => rfl
  | some y =>
    obtain ⟨t, rfl⟩ := fromDollar_cons h
    rfl
end
theorem binop_ptr {D S : Type} {L : Lib D S} (o : Name) (x : Bytes) (v : Val D) (u : S) : binop L o (.ptr x) v u = L.binary o (.ptr x) v u := by
  cases v <;> rfl
theorem unop_addr {D S : Type} {L : Lib D S} (v : Val D) (u : S) : unop L n!"&" v u = L.unary n!"&" v u := by
  unfold unop
  cases v <;> rfl
attribute [cxt] binop_ptr unop_addr prn_signed prn_get prn_null initial_charsNull initial_charPtr prn_init1 prn_init2 prn_address prn_add prn_eqNull prn_nullNull
  prn_ne prn_str prn_chr prn_strtol prn_strchr

/-! ### The two ends -/

theorem fromDollar_suffix {x y : Bytes} (h : fromDollar x = some y) : y <:+ x := by
  have := fromDollar_dropWhile x
  rw [h] at this
  rw [← show _ = y from this]
  exact List.dropWhile_suffix _

theorem strtolEnd_suffix (x : Bytes) : strtolEnd x <:+ x := by
  unfold strtolEnd
  split
  · exact List.suffix_refl _
  · rename_i neg m rest hs
    obtain ⟨ws, sign, ds, e1, -⟩ := scan_split hs
    exact ⟨_, e1.symm⟩

theorem ends_eq {x y : Bytes} (h : fromDollar x = some y) : ((strtolEnd x).length = y.length) = (strtolEnd x = y) := by
  refine propext ⟨fun e => ?_, fun e => by rw [e]⟩
  have h1 := strtolEnd_suffix x
  have h2 := fromDollar_suffix h
  rcases List.suffix_or_suffix_of_suffix h1 h2 with h | h
  · exact h.eq_of_length e
  · exact (h.eq_of_length e.symm).symm

/-! ### The loop -/

/-- The number between `$` and `$` less one is an `int`: what follows a `$` does not convert to the smallest one. -/
def Indexed (x : Bytes) : Prop := ∀ r, (36 :: r) <:+ x → (CInt.cast .i32 (strtol r)).val ≠ -2147483648

theorem Indexed.suffix {x y : Bytes} (h : Indexed x) (hy : y <:+ x) : Indexed y := fun r hr => h r (hr.trans hy)

/-- The variables of `print` in its loop. -/
def printVars (f : Bytes) (vars : List Bytes) (r a : Bytes) : St PrintVal Bytes :=
  ⟨[[(n!"ptr", .ptr r)], [(n!"out", .dom .out), (n!"format", .ptr f), (n!"vars", .arr (vars.map .str))]], a⟩

theorem chr_0 {c : Byte} : (IT.ofByte s c = 0) = (c = 0) := by rw [← ofByte_inj (σ := s)]; cases s <;> rfl
theorem chr_36 {c : Byte} : (IT.ofByte s c = 36) = (c = 36) := by rw [← ofByte_inj (σ := s)]; cases s <;> rfl
theorem chr_9 {c : Byte} : (IT.ofByte s c = 9) = (c = 9) := by rw [← ofByte_inj (σ := s)]; cases s <;> rfl
theorem chr_8 {c : Byte} : (IT.ofByte s c = 8) = (c = 8) := by rw [← ofByte_inj (σ := s)]; cases s <;> rfl

/-- The condition of the loop. -/
def printTest : Expr := .binary n!"!=" (.unary n!"*" (.name n!"ptr")) (.int .i32 0)

theorem print_test (f : Bytes) (vars : List Bytes) (r a : Bytes) (h0 : (0 : Byte) ∉ r) :
    test (printLib s) printTest (printVars f vars r a) = .ok (decide (r ≠ []), printVars f vars r a) := by
  cases r with
  | nil => cxg [printTest, printVars]
  | cons c r =>
    have : ¬ c = 0 := fun e => h0 (by rw [e]; exact List.mem_cons_self ..)
    cxg [printTest, printVars, chr_0, this]

theorem print_other (n : Nat) (f : Bytes) (vars : List Bytes) (c : Byte) (r a : Bytes) (h : c ≠ 36) :
    exec (printLib s) n Maker.printFunBody1 (printVars f vars (c :: r) a) =
      .ok (.next, printVars f vars r (a ++ if c = 9 then b!"    " else if c = 8 then [] else [c])) := by
  by_cases h9 : c = 9
  · cxg [Maker.printFunBody1, printVars, chr_36, chr_9, eq_false h, eq_true h9]
  · by_cases h8 : c = 8
    · cxg [Maker.printFunBody1, printVars, chr_36, chr_9, chr_8, eq_false h, eq_false h9, eq_true h8, List.append_nil]
    · cxg [Maker.printFunBody1, printVars, chr_36, chr_9, chr_8, eq_false h, eq_false h9, eq_false h8]

theorem print_single_runs (n : Nat) (f : Bytes) (vars : List Bytes) (r a : Bytes) (h : fromDollar r = none) :
    exec (printLib s) n Maker.printFunBody1 (printVars f vars (36 :: r) a) = .ok (.ret .void, printVars f vars (36 :: r) a) := by
  cxg [Maker.printFunBody1, printVars, h]

theorem index_range (r : Bytes) : -2147483648 ≤ (CInt.cast .i32 (strtol r)).val ∧ (CInt.cast .i32 (strtol r)).val ≤ 2147483647 := by
  have h1 := (CInt.cast .i32 (strtol r)).lo_le
  have h2 := (CInt.cast .i32 (strtol r)).le_hi
  exact ⟨h1, h2⟩
theorem convert_index (r : Bytes) : IT.convert s .i32 .i64 (strtol r) = (CInt.cast .i32 (strtol r)).val := by
  show (strtol r + 2147483648) % 4294967296 - 2147483648 = (strtol r - -2147483648) % 4294967296 + -2147483648
  omega
theorem fit_index32 (r : Bytes) (h : (CInt.cast .i32 (strtol r)).val ≠ -2147483648) :
    IT.fit .i32 ((CInt.cast .i32 (strtol r)).val - 1) = some ((CInt.cast .i32 (strtol r)).val - 1) := by
  have := index_range r
  exact fit_i32 (by omega)

theorem print_bad_runs (n : Nat) (f : Bytes) (vars : List Bytes) (r e a : Bytes) (h : fromDollar r = some e) (h2 : strtolEnd r ≠ e)
    (hx : Indexed (36 :: r)) :
    exec (printLib s) n Maker.printFunBody1 (printVars f vars (36 :: r) a) = .ok (.ret .void, printVars f vars (36 :: r) a) := by
  have hi := hx r (List.suffix_refl _)
  have hc : IT.convert s .i32 .i64 (strtol r) = (CInt.cast .i32 (strtol r)).val := convert_index r
  have hf : IT.fit .i32 ((CInt.cast .i32 (strtol r)).val - 1) = some ((CInt.cast .i32 (strtol r)).val - 1) := fit_index32 r hi
  cxg [Maker.printFunBody1, printVars, h, ends_eq h, h2, hc, hf]

theorem vars_size (vars : List Bytes) (h : vars.length < 2147483648) : IT.convert s .i32 .u64 (vars.length : Int) = vars.length :=
  convert_nat _ (by simp only [IT.top]; omega)

theorem print_hole_runs (n : Nat) (f : Bytes) (vars : List Bytes) (r q a : Bytes) (h : fromDollar r = some (36 :: q)) (h2 : strtolEnd r = 36 :: q)
    (hx : Indexed (36 :: r)) (hv : vars.length < 2147483648) :
    exec (printLib s) n Maker.printFunBody1 (printVars f vars (36 :: r) a) =
      .ok (.continue, printVars f vars q (a ++
        if (CInt.cast .i32 (strtol r)).val - 1 < 0 ∨ (vars.length : Int) ≤ (CInt.cast .i32 (strtol r)).val - 1 then []
        else (vars[((CInt.cast .i32 (strtol r)).val - 1).toNat]?).getD [])) := by
  have hi := hx r (List.suffix_refl _)
  have hc : IT.convert s .i32 .i64 (strtol r) = (CInt.cast .i32 (strtol r)).val := convert_index r
  have hf : IT.fit .i32 ((CInt.cast .i32 (strtol r)).val - 1) = some ((CInt.cast .i32 (strtol r)).val - 1) := fit_index32 r hi
  obtain ⟨k, hk⟩ : ∃ k, (CInt.cast .i32 (strtol r)).val - 1 = k := ⟨_, rfl⟩
  rw [hk] at hf ⊢
  have hs := vars_size (s := s) vars hv
  by_cases h3 : k < 0
  · cxg [Maker.printFunBody1, printVars, h, ends_eq h, h2, hc, hk, hf, h3, List.append_nil, true_or]
  · by_cases h4 : (vars.length : Int) ≤ k
    · cxg [Maker.printFunBody1, printVars, h, ends_eq h, h2, hc, hk, hf, h3, h4, List.append_nil, List.length_map, hs, or_true]
    · have h5 : vars[k.toNat]? = some vars[k.toNat] := by
        rw [List.getElem?_eq_getElem]
      cxg [Maker.printFunBody1, printVars, h, ends_eq h, h2, hc, hk, hf, h3, h4, List.length_map, hs, or_self, List.getElem?_map, h5]

theorem print_loop {β : Type} (m : Nat) (f : Bytes) (vars : List Bytes) (hv : vars.length < 2147483648) (K : Flow PrintVal × St PrintVal Bytes → Ran β)
    (G : Bytes → Ran β) (h1 : ∀ b, K (.next, printVars f vars [] b) = G b) (h2 : ∀ r b, K (.ret .void, printVars f vars r b) = G b)
    (n : Nat) (r a : Bytes) (hn : r.length < n) (hx : Indexed r) (h0 : (0 : Byte) ∉ r) :
    (iterate (test (printLib s) printTest) (exec (printLib s) m Maker.printFunBody1) Ran.ok n (printVars f vars r a)).bind K =
      G (a ++ print vars r) := by
  induction n generalizing r a with
  | zero => omega
  | succ n ih =>
    have ht := print_test (s := s) f vars r a h0
    cases r with
    | nil => rw [iterate_done ht, Ran.bind_ok, h1, print_nil, List.append_nil]
    | cons c r =>
      by_cases hc : c = 36
      · subst hc
        rw [print.eq_def]
        simp only [if_true]
        split
        · rename_i hd
          rw [iterate_ret ht (print_single_runs m f vars r a hd), Ran.bind_ok, h2, List.append_nil]
        · rename_i e hd
          by_cases hs : strtolEnd r = e
          · obtain ⟨q, rfl⟩ := fromDollar_cons hd
            have hq : (36 :: q) <:+ r := fromDollar_suffix hd
            have hq2 : q <:+ 36 :: r := ((List.suffix_cons 36 q).trans hq).trans (List.suffix_cons 36 r)
            rw [iterate_continue ht (print_hole_runs m f vars r q a hd hs hx hv) rfl, if_neg (not_not_intro hs)]
            rw [ih q _ (by have := hq.length_le; simp at this hn; omega) (hx.suffix hq2) (fun h => h0 (hq2.subset h)), List.append_assoc]
            congr 2
            by_cases hb : (CInt.cast .i32 (strtol r)).val - 1 < 0 ∨ (vars.length : Int) ≤ (CInt.cast .i32 (strtol r)).val - 1
            · simp only [hb, if_true, List.nil_append, List.tail_cons]
            · simp only [hb, if_false, List.tail_cons]
          · rw [iterate_ret ht (print_bad_runs m f vars r e a hd hs hx), Ran.bind_ok, h2, if_pos hs, List.append_nil]
      · rw [iterate_next ht (print_other m f vars c r a hc) rfl, print_lit vars hc]
        rw [ih r _ (by simp at hn; omega) (hx.suffix (List.suffix_cons _ _)) (fun h => h0 (List.mem_cons_of_mem _ h)), List.append_assoc]

@[cxt] theorem prn_result (v : Val PrintVal) : result (printLib s).base 614950726717745501545870614906026554 v = some v := by
  show result _ n!"void Printer ::" v = some v
  have h1 : intType n!"void Printer ::" = none := by decide +kernel
  have h2 : ¬(n!"void Printer ::" = n!"bool" ∨ n!"void Printer ::" = n!"static bool") := by decide +kernel
  have h3 : ¬n!"void Printer ::" = n!"std :: string" := by decide +kernel
  unfold result
  simp only [h1, h2, h3, if_false]

theorem print_runs (n : Nat) (x a : Bytes) (vars : List Bytes) (hn : x.length < n) (hv : vars.length < 2147483648) (hx : Indexed x)
    (h0 : (0 : Byte) ∉ x) :
    run (printLib s) n Maker.printFun [.dom .out, .ptr x, .arr (vars.map .str)] a =
      .ok (.void, [.dom .out, .ptr x, .arr (vars.map .str)], a ++ print vars x) := by
  cxg [Maker.printFun]
  refine print_loop n x vars hv _ (fun b => (Ran.ok ((Val.void : Val PrintVal), [Val.dom PrintVal.out, Val.ptr x, Val.arr (vars.map Val.str)], b))) ?_ ?_ n x a hn hx h0
  · intro b
    cxg [printVars, Maker.printFun]
  · intro r b
    cxg [printVars, Maker.printFun]

/-- A number that converts to the smallest `int`: undefined. -/
theorem print_undef : run (printLib s) 9 Maker.printFun [.dom .out, .ptr b!"$-2147483648$", .arr []] [] = .undef := by
  cases s <;> rfl

/-! ### The formats of the generator -/

/-- `Indexed`, computed. -/
def indexed : Bytes → Bool
  | [] => true
  | c :: r => (c != 36 || (CInt.cast .i32 (strtol r)).val != -2147483648) && indexed r

theorem indexed_iff (x : Bytes) (h : indexed x = true) : Indexed x := by
  induction x with
  | nil => intro r hr; exact absurd (List.IsSuffix.length_le hr) (by simp)
  | cons c x ih =>
    simp only [indexed, Bool.and_eq_true, Bool.or_eq_true, bne_iff_ne] at h
    intro r hr
    rcases List.suffix_cons_iff.mp hr with e | hr
    · cases e
      exact h.1.resolve_left (by simp)
    · exact ih h.2 r hr

theorem indexed_none (x : Bytes) (h : (36 : Byte) ∉ x) : Indexed x :=
  fun _ hr => absurd (hr.subset List.mem_cons_self) h

/-- The texts that `print` can be given: no zero byte, no number that converts to the smallest `int`. -/
def Printable (x : Bytes) : Prop := Indexed x ∧ (0 : Byte) ∉ x

theorem tpl_printable (rt : Runtime) (h : ∀ p, Printable (rt p)) (t : Tpl) : Printable (t.text rt) := by
  have key : (∃ p, t = .runtime p) ∨ (t.text rt = t.text (fun _ => []) ∧ indexed (t.text fun _ => []) = true ∧ (0 : Byte) ∉ t.text fun _ => []) := by
    cases t with
    | runtime p => exact .inl ⟨p, rfl⟩
    | _ => exact .inr ⟨rfl, by decide +kernel, by decide +kernel⟩
  rcases key with ⟨p, rfl⟩ | ⟨h1, h2, h3⟩
  · exact h p
  · rw [h1]
    exact ⟨indexed_iff _ h2, h3⟩

end PG.Cxx.Throw
