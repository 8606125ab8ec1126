import Verif.Spec.CxxStart
import Verif.Proofs.ToolRun
/-
What `main` of template.cc does.
-/
set_option autoImplicit false
namespace PG.Cxx.Throw
open PG.Gen PG.Cxx.Tools

section
variable {s : Bool}
local notation "X" => startLib s
theorem start_signed : (X).base.signed = s := (rfl)
theorem start_get (n : Name) (u : Started) : (X).base.get n u = none := (rfl)
theorem start_npos : (X).base.constant [n!"std", n!"string", n!"npos"] = some (.int .u64 npos) := (rfl)
theorem start_cout : (X).base.constant [n!"std", n!"cout"] = some (.dom .cout) := (rfl)
theorem start_endl : (X).base.constant [n!"std", n!"endl"] = some (.dom .endl) := (rfl)
theorem start_deref (k : Nat) (u : Started) : (X).base.unary n!"*" (.dom (.place k)) u = (u.shared[k]?).map fun c => .int .char (IT.ofByte s c) := (rfl)
theorem start_inc (k : Nat) (u : Started) : (X).base.unary n!"++" (.dom (.place k)) u = if k < u.shared.length then some (.dom (.place (k + 1))) else none := (rfl)
theorem start_write (x : Bytes) (u : Started) : (X).base.binary n!"<<" (.dom .cout) (.str x) u = some (.dom .cout, { u with told := u.told ++ x }) := (rfl)
theorem start_line (u : Started) : (X).base.binary n!"<<" (.dom .cout) (.dom .endl) u = some (.dom .cout, { u with told := u.told ++ b!"\n" }) := (rfl)
theorem start_ne (j k : Nat) (u : Started) : (X).base.binary n!"!=" (.dom (.place j)) (.dom (.place k)) u = some (.bool (decide (j ≠ k)), u) := (rfl)
theorem start_char (c : Int) (u : Started) : initial (X).base n!"const char" (some (.int .char c)) u = some (.int .char c) := by
  have h1 : intType n!"const char" = none := by decide +kernel
  unfold initial
  rw [h1]
  rfl
theorem start_auto (k : Nat) (u : Started) : initial (X).base n!"auto" (some (.dom (.place k))) u = some (.dom (.place k)) := (rfl)
@[cxt] theorem start_auto' (k : Nat) (u : Started) : (X).base.init n!"auto" (some (.dom (.place k))) u = some (.dom (.place k)) := (rfl)
theorem start_in (x : Bytes) (u : Started) : (X).function [n!"std :: ifstream"] u [.str x] = .ok (.dom .input, [], u) := (rfl)
theorem start_out (x : Bytes) (u : Started) : (X).function [n!"std :: ofstream"] u [.str x] = .ok (.dom .output, [], if u.writable then { u with out := some [] } else u) := (rfl)
theorem start_isalpha (c : Int) (u : Started) : (X).function [n!"isalpha"] u [.int .char c] = .of ((isAlpha? c).map fun b => (.bool b, [], u)) := (rfl)
theorem start_ends (x y : Bytes) (u : Started) : (X).function [n!"ends_with"] u [.str x, .str y] = .ok (.bool (endsWith x y), [], u) := (rfl)
theorem start_copy (t x y : Bytes) (w : Bool) : (X).function [n!"copy"] ⟨some t, w, x, y, some []⟩ [.dom .input, .dom .output, .dom .shared] =
    .ok (.void, [], ⟨some t, w, x, y, some (copyText y t)⟩) := (rfl)
theorem start_process (t x y : Bytes) (w : Bool) : (X).function [n!"process"] ⟨some t, w, x, y, some []⟩ [.dom .input, .dom .output, .dom .shared] =
    .ok (.void, [], ⟨some t, w, x, y, some (processText y t)⟩) := (rfl)
theorem start_good (u : Started) : (X).method n!"good" u [.dom .input] = .ok (.bool u.text.isSome, [], u) := (rfl)
theorem start_goodOut (u : Started) : (X).method n!"good" u [.dom .output] = .ok (.bool u.writable, [], u) := (rfl)
theorem start_rfind (x : Bytes) (c : Int) (u : Started) : (X).method n!"rfind" u [.str x, .int .char c] = .ok (.int .u64 (found (lastChar (IT.toByte c) x)), [], u) := (rfl)
theorem start_substr (x : Bytes) (k : Nat) (u : Started) (h : k ≤ x.length) : (X).method n!"substr" u [.str x, .int .u64 k] = .ok (.str (x.drop k), [], u) := by
  have : (0 : Int) ≤ k ∧ (k : Int) ≤ x.length := by omega
  simp [startLib, this]
theorem start_begin (x : Bytes) (u : Started) : (X).method n!"begin" u [.str x] = .ok (.dom (.place 0), [some (.dom .shared)], { u with shared := x }) := (rfl)
theorem start_end (u : Started) : (X).method n!"end" u [.dom .shared] = .ok (.dom (.place u.shared.length), [], u) := (rfl)
theorem start_store (k : Nat) (c : Int) (u : Started) : (X).store (.dom (.place k)) (.int .char c) u =
    if k < u.shared.length then some { u with shared := u.shared.set k (IT.toByte c) } else none := (rfl)
theorem start_b_good : builtin n!"good" (.dom StartVal.input) [] = none := (rfl)
theorem start_b_goodOut : builtin n!"good" (.dom StartVal.output) [] = none := (rfl)
theorem start_b_end : builtin n!"end" (.dom StartVal.shared) [] = none := (rfl)
theorem start_b_begin (x : Bytes) : builtin (D := StartVal) n!"begin" (.str x) [] = none := (rfl)
theorem start_b_rfind (x : Bytes) (c : Int) : builtin (D := StartVal) n!"rfind" (.str x) [.int .char c] = none := (rfl)
theorem start_b_substr (x : Bytes) (c : Int) : builtin (D := StartVal) n!"substr" (.str x) [.int .u64 c] = none := (rfl)
attribute [cxt] start_signed start_get start_npos start_cout start_endl start_deref start_inc start_write start_line start_ne start_char
  start_auto start_in start_out start_isalpha start_ends start_copy start_process start_good start_goodOut start_rfind start_begin start_end
  start_store start_b_good start_b_goodOut start_b_end start_b_begin start_b_rfind start_b_substr

/-! ### The name of the macro -/

theorem takeWhile_stop {α : Type} (p : α → Bool) (l m : List α) (h : ∃ a ∈ l, p a = false) : (l ++ m).takeWhile p = l.takeWhile p := by
  induction l with
  | nil => obtain ⟨a, ha, _⟩ := h; cases ha
  | cons b l ih =>
    rw [List.cons_append, List.takeWhile_cons, List.takeWhile_cons]
    cases hb : p b with
    | false => rfl
    | true =>
      obtain ⟨a, ha, hp⟩ := h
      rcases List.mem_cons.mp ha with rfl | ha
      · rw [hb] at hp; cases hp
      · rw [ih ⟨a, ha, hp⟩]

theorem last_slash (x : Bytes) : (match Tools.last [47] x with | none => x | some k => x.drop (k + 1)) = baseName x := by
  have h0 : ∀ x : Bytes, (Tools.last [47] x).isSome = decide (47 ∈ x) := by
    intro x
    induction x with
    | nil => rfl
    | cons c x ih =>
      rw [Tools.last]
      cases h : Tools.last [47] x with
      | some k => rw [h] at ih; simp_all
      | none =>
        rw [h] at ih
        by_cases hc : c = 47
        · subst hc; simp [List.isPrefixOf]
        · have : ¬ (47 : Byte) = c := fun h => hc h.symm
          simp_all [List.isPrefixOf]
  induction x with
  | nil => rfl
  | cons c x ih =>
    have h1 := h0 x
    rw [Tools.last]
    unfold baseName at ih ⊢
    rw [List.reverse_cons]
    cases h : Tools.last [47] x with
    | some k =>
      rw [h] at ih h1
      have h2 : (47 : Byte) ∈ x := by simpa using h1.symm
      rw [takeWhile_stop _ _ _ ⟨47, List.mem_reverse.mpr h2, by decide⟩, ← ih]
      rfl
    | none =>
      rw [h] at h1
      have h2 : ¬ (47 : Byte) ∈ x := by simpa using h1.symm
      rw [List.takeWhile_append_of_pos (by
        intro a ha
        have := List.mem_reverse.mp ha
        simp only [ne_eq, decide_eq_true_eq]
        rintro rfl; exact h2 this)]
      by_cases hc : c = 47
      · subst hc; simp [List.isPrefixOf]
      · have : ¬ (47 : Byte) = c := fun h => hc h.symm
        simp [List.isPrefixOf, hc, this]

/-- What a character becomes. -/
def nameChar (c : Byte) : Byte := if (c!"A" ≤ c ∧ c ≤ c!"Z") ∨ (c!"a" ≤ c ∧ c ≤ c!"z") then c else c!"_"

/-- The characters that `isalpha` may be called with. -/
def asked (s : Bool) (c : Byte) : Bool := !s || decide (c < 128) || decide (c = 255)

theorem isAlpha_asked (c : Byte) : isAlpha? (IT.ofByte s c) =
    if asked s c then some (decide ((c!"A" ≤ c ∧ c ≤ c!"Z") ∨ (c!"a" ≤ c ∧ c ≤ c!"z"))) else none := by
  obtain ⟨⟨k⟩⟩ := c
  revert k
  cases s <;> decide +kernel

/-- The variables in the loop. -/
def startVars (path o p : Bytes) (pos : Int) (k : Nat) (u : Started) : St StartVal Started :=
  ⟨[[(n!"it", .dom (.place k))],
    [(n!"pos", .int .u64 pos), (n!"DIR_SEPARATOR", .int .char 47), (n!"guard", .dom .shared), (n!"output", .dom .output), (n!"input", .dom .input)],
    [(n!"argc", .int .i32 3), (n!"argv", .arr [.str p, .str path, .str o])]], u⟩

theorem argv_1 {D : Type} (a b c : Val D) : [a, b, c][1]? = some b := rfl
theorem argv_2 {D : Type} (a b c : Val D) : [a, b, c][2]? = some c := rfl

theorem nameBody (n : Nat) (path o p : Bytes) (pos : Int) (d : Bytes) (c : Byte) (r : Bytes) (u : Started) (h : asked s c = true) :
    exec X n templateFunBody1 (startVars path o p pos d.length { u with shared := d ++ c :: r }) =
      .ok (.next, startVars path o p pos d.length { u with shared := d ++ nameChar c :: r }) := by
  have h1 : (d ++ c :: r)[d.length]? = some c := by simp
  have h2 := isAlpha_asked (s := s) c
  rw [h, if_pos rfl] at h2
  have h3 : d.length < (d ++ c :: r).length := by simp
  have h4 : (d ++ c :: r).set d.length 95 = d ++ 95 :: r := by simp
  unfold nameChar
  by_cases hc : (c!"A" ≤ c ∧ c ≤ c!"Z") ∨ (c!"a" ≤ c ∧ c ≤ c!"z")
  · simp only [hc, decide_true] at h2
    cxg [templateFunBody1, startVars, h1, h2, hc]
  · simp only [hc, decide_false] at h2
    cxg [templateFunBody1, startVars, h1, h2, h3, h4, hc, toByte_ofByte]

theorem nameBody_undef (n : Nat) (path o p : Bytes) (pos : Int) (d : Bytes) (c : Byte) (r : Bytes) (u : Started) (h : asked s c = false) :
    exec X n templateFunBody1 (startVars path o p pos d.length { u with shared := d ++ c :: r }) = .undef := by
  have h1 : (d ++ c :: r)[d.length]? = some c := by simp
  have h2 := isAlpha_asked (s := s) c
  rw [h, if_neg (by decide)] at h2
  cxg [templateFunBody1, startVars, h1, h2]

/-- The condition and the step of the loop. -/
def nameTest : Expr := .binary n!"!=" (.name n!"it") (.call (.member (.name n!"guard") n!"end") .nil)

theorem nameLoop (m : Nat) (path o p : Bytes) (pos : Int) (u : Started) (r : Bytes) : ∀ (d : Bytes) (n : Nat), r.length < n →
    iterate (test X nameTest) (exec X m templateFunBody1) (perform X (.incr n!"++" true (.name n!"it"))) n
      (startVars path o p pos d.length { u with shared := d ++ r }) =
      if r.all (asked s) then .ok (.next, startVars path o p pos (d ++ r).length { u with shared := d ++ r.map nameChar }) else .undef := by
  induction r with
  | nil =>
    intro d n hn
    obtain ⟨n, rfl⟩ : ∃ k, n = k + 1 := ⟨n - 1, by have := hn; simp at this; omega⟩
    rw [iterate_done (s1 := startVars path o p pos d.length { u with shared := d ++ [] }) (by cxg [startVars, nameTest, List.append_nil])]
    simp
  | cons c r ih =>
    intro d n hn
    obtain ⟨n, rfl⟩ : ∃ k, n = k + 1 := ⟨n - 1, by have := hn; simp at this; omega⟩
    have h3 : ¬ d.length = (d ++ c :: r).length := by simp
    have hc : test X nameTest (startVars path o p pos d.length { u with shared := d ++ c :: r }) =
        .ok (true, startVars path o p pos d.length { u with shared := d ++ c :: r }) := by cxg [startVars, nameTest, h3]
    cases hs : asked s c with
    | false =>
      simp only [iterate, hc, Ran.bind, if_true]
      rw [nameBody_undef m path o p pos d c r u hs]
      simp [hs]
    | true =>
      have h4 : d.length < d.length + (r.length + 1) := by omega
      rw [iterate_next (s3 := startVars path o p pos (d ++ [nameChar c]).length { u with shared := (d ++ [nameChar c]) ++ r }) hc
        (nameBody m path o p pos d c r u hs) (by cxg [startVars, h4, List.length_append, List.length_cons, List.length_nil, List.append_assoc, List.cons_append, List.nil_append])]
      rw [ih (d ++ [nameChar c]) n (by simpa using hn)]
      simp [hs]

theorem start_return1 (n : Nat) (argc : Int) (v : Val StartVal) (u : Started) (h : argc ≠ 3) :
    run X n templateFun [.int .i32 argc, v] u = .ok (.int .i32 1, [.int .i32 argc, v], u) := by
  cxg [templateFun, h]

/-- The line that is written first. -/
def announced (i o : Bytes) : Bytes := b!"Processing '" ++ i ++ b!"' to generate '" ++ o ++ b!"'\n"

theorem start_return2 (n : Nat) (p i o : Bytes) (w : Bool) :
    run X n templateFun [.int .i32 3, .arr [.str p, .str i, .str o]] { text := none, writable := w } =
      .ok (.int .i32 1, [.int .i32 3, .arr [.str p, .str i, .str o]], { text := none, writable := w, told := announced i o }) := by
  unfold announced
  cxg [templateFun, Int.reduceLT, Int.reduceToNat, argv_1, argv_2, List.append_assoc, List.nil_append, List.cons_append, Option.isSome_none, Option.isSome_some, Bool.not_false, Bool.not_true, Bool.false_eq_true]

theorem start_return3 (n : Nat) (p i o t : Bytes) :
    run X n templateFun [.int .i32 3, .arr [.str p, .str i, .str o]] { text := some t, writable := false } =
      .ok (.int .i32 1, [.int .i32 3, .arr [.str p, .str i, .str o]], { text := some t, writable := false, told := announced i o }) := by
  unfold announced
  cxg [templateFun, Int.reduceLT, Int.reduceToNat, argv_1, argv_2, List.append_assoc, List.nil_append, List.cons_append, Option.isSome_none, Option.isSome_some, Bool.not_false, Bool.not_true, Bool.false_eq_true]

theorem start_runs (n : Nat) (p i o t : Bytes) (hi : i.length < 18446744073709551615) (hn : i.length + 11 < n) :
    run X n templateFun [.int .i32 3, .arr [.str p, .str i, .str o]] { text := some t, writable := true } =
      if (baseName i).all (asked s) then
        .ok (.int .i32 0, [.int .i32 3, .arr [.str p, .str i, .str o]],
          { text := some t, writable := true, told := announced i o, shared := guardName i, out := some (templateMain i t) })
      else .undef := by
  unfold announced
  have hb := last_slash i
  have hline : b!"'" ++ b!"\n" = b!"'\n" := rfl
  have h47 : IT.toByte 47 = 47 := by decide
  have hg : (b!"GENERATED__" ++ baseName i).all (asked s) = (baseName i).all (asked s) := by
    rw [List.all_append]
    cases s <;> rfl
  have hw : (baseName i).length ≤ i.length := by
    unfold baseName
    rw [List.length_reverse]
    exact Nat.le_trans (List.takeWhile_sublist _).length_le (by simp)
  have hm : (b!"GENERATED__" ++ baseName i).map nameChar = guardName i := rfl
  have hk := fun (y : Bytes) (pos : Int) => nameLoop (s := s) n i o p pos ⟨some t, true, y, [], some []⟩ (b!"GENERATED__" ++ baseName i) [] n (by
    rw [List.length_append]
    have : (b!"GENERATED__").length = 11 := rfl
    omega)
  simp only [hg, hm, startVars, nameTest, List.nil_append, List.length_nil] at hk
  cases hl : Tools.last [47] i with
  | none =>
    rw [hl] at hb
    simp only at hb
    cxg [templateFun, Int.reduceLT, Int.reduceToNat, argv_1, argv_2, h47, lastChar, hl, found, Option.isSome_some, List.nil_append]
    rw [← hb] at hk ⊢
    rw [hk]
    cases hall : i.all (asked s) with
    | false => simp only [Bool.false_eq_true, if_false, Ran.bind]
    | true =>
      simp only [if_true, templateMain]
      cases he : endsWith i b!".hh" with
      | true => cxg [templateFun, Int.reduceLT, Int.reduceToNat, argv_1, argv_2, he, List.append_assoc, hline]
      | false => cxg [templateFun, Int.reduceLT, Int.reduceToNat, argv_1, argv_2, he, List.append_assoc, hline]
  | some k =>
    rw [hl] at hb
    have h1 : ¬ (k : Int) = npos := by have := last_le hl; unfold npos; omega
    have h2 : IT.fit .u64 ((k : Int) + 1) = some (((k + 1 : Nat)) : Int) := by
      exact PG.Cxx.fit_nat rfl (by simp only [IT.top]; have := last_le hl; omega)
    have h3 := fun u => start_substr (s := s) i (k + 1) u (by have := last_le hl; simp at this; omega)
    cxg [templateFun, Int.reduceLT, Int.reduceToNat, argv_1, argv_2, h47, lastChar, hl, found, h1, h2, h3, hb, Option.isSome_some, List.nil_append]
    rw [hk]
    cases hall : (baseName i).all (asked s) with
    | false => simp only [Bool.false_eq_true, if_false, Ran.bind]
    | true =>
      simp only [if_true, templateMain]
      cases he : endsWith i b!".hh" with
      | true => cxg [templateFun, Int.reduceLT, Int.reduceToNat, argv_1, argv_2, he, List.append_assoc, hline]
      | false => cxg [templateFun, Int.reduceLT, Int.reduceToNat, argv_1, argv_2, he, List.append_assoc, hline]

end
end PG.Cxx.Throw
