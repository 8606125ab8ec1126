import Verif.Spec.CxxTools
import Verif.Proofs.ToolAst
import Verif.Proofs.GenFileRun
import Verif.Proofs.CxxInt
/-!
The functions of template.cc: what running the C++ does is what the model says.
-/
set_option autoImplicit false
namespace PG.Cxx.Throw
open PG.Gen PG.Cxx.Tools
variable {s : Bool}

section
local notation "X" => toolLib s
theorem tool_signed : (X).base.signed = s := (rfl)
theorem tool_get (n : Name) (u : Streams) : (X).base.get n u = none := (rfl)
theorem tool_npos : (X).base.constant [n!"std", n!"string", n!"npos"] = some (.int .u64 npos) := (rfl)
theorem tool_naming : (X).base.constant [n!"PROTOGEN_VERSION_NAMING"] = some (.str namingText) := (rfl)
theorem tool_true : (X).base.constant [n!"true"] = some (.bool true) := (rfl)
theorem tool_false : (X).base.constant [n!"false"] = some (.bool false) := (rfl)
theorem tool_str (x : Bytes) (u : Streams) : (X).base.binary n!"<<" (.dom .output) (.str x) u =
    some (.dom .output, { u with out := u.out ++ x }) := (rfl)
theorem tool_chr (c : Int) (u : Streams) : (X).base.binary n!"<<" (.dom .output) (.int .char c) u =
    some (.dom .output, { u with out := u.out ++ [IT.toByte c] }) := (rfl)
theorem tool_getline (l : Bytes) (u : Streams) : (X).function [n!"std", n!"getline"] u [.dom .input, .str l] =
    .ok (.dom .input, [none, some (.str (u.getline l).1)], (u.getline l).2) := (rfl)
theorem tool_eof (u : Streams) : (X).method n!"eof" u [.dom .input] = .ok (.bool u.eof, [], u) := (rfl)
theorem tool_good (u : Streams) : (X).method n!"good" u [.dom .input] = .ok (.bool (!u.eof && !u.fail), [], u) := (rfl)
theorem tool_begin (x : Bytes) (u : Streams) : (X).method n!"begin" u [.str x] = .ok (.iter (x.map fun c => .int .char (IT.ofByte s c)), [], u) := (rfl)
theorem tool_end (x : Bytes) (u : Streams) : (X).method n!"end" u [.str x] = .ok (.iter [], [], u) := (rfl)
theorem tool_find (x y : Bytes) (u : Streams) : (X).method n!"find" u [.str x, .str y] = .ok (.int .u64 (found (first y x)), [], u) := (rfl)
theorem tool_rfind (x y : Bytes) (u : Streams) : (X).method n!"rfind" u [.str x, .str y] = .ok (.int .u64 (found (Tools.last y x)), [], u) := (rfl)
theorem tool_b_eof : builtin n!"eof" (.dom ToolVal.input) [] = none := (rfl)
theorem tool_b_good : builtin n!"good" (.dom ToolVal.input) [] = none := (rfl)
theorem tool_b_begin (x : Bytes) : builtin (D := ToolVal) n!"begin" (.str x) [] = none := (rfl)
theorem tool_b_end (x : Bytes) : builtin (D := ToolVal) n!"end" (.str x) [] = none := (rfl)
theorem tool_b_find (x y : Bytes) : builtin (D := ToolVal) n!"find" (.str x) [.str y] = none := (rfl)
theorem tool_b_rfind (x y : Bytes) : builtin (D := ToolVal) n!"rfind" (.str x) [.str y] = none := (rfl)
theorem tool_b_replace (x : Bytes) (t u : IT) (k l : Int) (y : Bytes) :
    builtin (D := ToolVal) n!"replace" (.str x) [.int t k, .int u l, .str y] = none := (rfl)
theorem tool_b_substr (x : Bytes) (t : IT) (k : Int) : builtin (D := ToolVal) n!"substr" (.str x) [.int t k] = none := (rfl)
theorem tool_replace (x : Bytes) (t : IT) (k : Nat) (y : Bytes) (u : Streams) (h : k ≤ x.length) :
    (X).method n!"replace" u [.str x, .int t k, .int .i32 6, .str y] =
      .ok (.void, [some (.str (x.take k ++ y ++ x.drop (k + 6)))], u) := by
  have : (k : Int) ≤ x.length := by omega
  simp [toolLib, this]
theorem tool_substr (x : Bytes) (u : Streams) (h : 4 ≤ x.length) :
    (X).method n!"substr" u [.str x, .int .i32 4] = .ok (.str (x.drop 4), [], u) := by
  have : (4 : Int) ≤ x.length := by omega
  simp [toolLib, this]
end
attribute [cxt] tool_signed tool_get tool_npos tool_naming tool_true tool_false tool_str tool_chr tool_getline tool_eof tool_good
  tool_begin tool_end tool_find tool_rfind tool_b_eof tool_b_good tool_b_begin tool_b_end tool_b_find tool_b_rfind tool_b_replace
  tool_b_substr

/-! ### Searching -/

theorem first_contains (y x : Bytes) : (first y x).isSome = contains y x := by
  induction x with
  | nil =>
    rw [first, contains]
    split
    · rename_i h; rw [h]; rfl
    · rename_i h; rw [Bool.eq_false_iff.mpr h]; rfl
  | cons c x ih =>
    rw [first, contains, ← ih]
    split
    · rename_i h; simp [h]
    · rename_i h; simp [h]

theorem first_le {y x : Bytes} {k : Nat} (h : first y x = some k) : k ≤ x.length := by
  induction x generalizing k with
  | nil =>
    rw [first] at h
    split at h <;> simp_all
  | cons c x ih =>
    rw [first] at h
    split at h
    · simp at h; omega
    · cases hf : first y x with
      | none => rw [hf] at h; cases h
      | some j =>
        rw [hf] at h
        have := ih hf
        simp at h ⊢
        omega

theorem first_zero (y x : Bytes) : first y x = some 0 ↔ y.isPrefixOf x = true := by
  cases x with
  | nil => rw [first]; split <;> simp_all
  | cons c x =>
    rw [first]
    split
    · simp_all
    · rename_i h
      refine ⟨fun e => ?_, fun e => absurd e h⟩
      obtain ⟨a, _, e⟩ := Option.map_eq_some_iff.mp e
      omega

theorem found_zero (y x : Bytes) : found (first y x) = 0 ↔ y.isPrefixOf x = true := by
  rw [← first_zero]
  cases h : first y x with
  | none => simp [found, npos]
  | some k => simp only [found, Option.some.injEq]; omega

theorem found_npos {y x : Bytes} (hx : x.length < 18446744073709551615) : found (first y x) = npos ↔ contains y x = false := by
  rw [← first_contains]
  cases h : first y x with
  | none => simp [found]
  | some k =>
    have := first_le h
    simp only [found, npos, Option.isSome_some, Bool.true_eq_false, iff_false]
    omega

theorem replaceFirst_first (x : Bytes) :
    replaceFirst x = (first placeholder x).map fun k => x.take k ++ namingText ++ x.drop (k + 6) := by
  induction x with
  | nil => rfl
  | cons c x ih =>
    rw [replaceFirst, first]
    split
    · simp
    · rw [ih, Option.map_map, Option.map_map]
      congr 1

theorem last_le {y x : Bytes} {k : Nat} (h : Tools.last y x = some k) : k + y.length ≤ x.length := by
  induction x generalizing k with
  | nil =>
    rw [Tools.last] at h
    split at h
    · rename_i hp
      have := (List.isPrefixOf_iff_prefix.mp hp).length_le
      simp at h; omega
    · cases h
  | cons c x ih =>
    rw [Tools.last] at h
    cases hl : Tools.last y x with
    | some j =>
      rw [hl] at h
      have := ih hl
      simp at h ⊢
      omega
    | none =>
      rw [hl] at h
      simp only at h
      split at h
      · rename_i hp
        have := (List.isPrefixOf_iff_prefix.mp hp).length_le
        simp at h this ⊢; omega
      · cases h

theorem last_suffix (y x : Bytes) : (∃ k, Tools.last y x = some k ∧ k + y.length = x.length) ↔ y.isSuffixOf x = true := by
  induction x with
  | nil =>
    rw [Tools.last]
    cases y with
    | nil => simp [List.isSuffixOf]
    | cons a y => simp [List.isSuffixOf]
  | cons c x ih =>
    rw [Tools.last, List.isSuffixOf_iff_suffix, List.suffix_cons_iff, ← List.isSuffixOf_iff_suffix, ← ih]
    cases hl : Tools.last y x with
    | some k =>
      simp only [Option.some.injEq, List.length_cons]
      constructor
      · rintro ⟨_, rfl, h⟩; exact .inr ⟨k, rfl, by omega⟩
      · rintro (e | ⟨_, rfl, h⟩)
        · have := last_le hl
          rw [e] at this
          simp at this; omega
        · exact ⟨_, rfl, by omega⟩
    | none =>
      simp only [reduceCtorEq, false_and, exists_false, or_false]
      split
      · rename_i hp
        obtain ⟨t, ht⟩ := List.isPrefixOf_iff_prefix.mp hp
        constructor
        · rintro ⟨_, h1, h2⟩
          cases h1
          have := congrArg List.length ht
          simp at this h2
          have : t = [] := List.length_eq_zero_iff.mp (by omega)
          rw [this, List.append_nil] at ht
          exact ht
        · intro e
          exact ⟨0, rfl, by rw [e]; omega⟩
      · rename_i hp
        constructor
        · rintro ⟨_, h1, _⟩; cases h1
        · intro e
          exact absurd (List.isPrefixOf_iff_prefix.mpr (e ▸ List.prefix_refl _)) hp

/-! ### `ends_with` -/

theorem ends_runs (n : Nat) (x y : Bytes) (u : Streams) (hx : x.length < 18446744073709551615) :
    run (toolLib s) n endsFun [.str x, .str y] u = .ok (.bool (endsWith x y), [.str x, .str y], u) := by
  unfold endsWith
  have hs := last_suffix y x
  cases hl : Tools.last y x with
  | none =>
    rw [hl] at hs
    have : y.isSuffixOf x = false := Bool.eq_false_iff.mpr fun h => by
      obtain ⟨k, hk, _⟩ := hs.mpr h
      cases hk
    cxg [endsFun, hl, found, this]
  | some k =>
    have hk := last_le hl
    have h1 : (k : Int) ≠ npos := by simp only [npos]; omega
    have h2 : IT.fit .u64 ((k : Int) + (y.length : Int)) = some ((k : Int) + (y.length : Int)) := by
      rw [← Int.natCast_add]
      exact PG.Cxx.fit_nat rfl (by simp only [IT.top]; omega)
    cxg [endsFun, hl, found, h1, h2]
    congr 3
    rw [Bool.eq_iff_iff, decide_eq_true_eq, ← hs, hl]
    constructor
    · intro h; exact ⟨k, rfl, by omega⟩
    · rintro ⟨_, h1, h2⟩; cases h1; omega

/-! ### `copy` -/

theorem lit_35 : IT.ofByte s 35 = 35 := by cases s <;> rfl
theorem chr_35 {c : Byte} : (IT.ofByte s c = 35) = (c = 35) := by rw [← ofByte_inj (σ := s)]; cases s <;> rfl
theorem chr_92 {c : Byte} : (IT.ofByte s c = 92) = (c = 92) := by rw [← ofByte_inj (σ := s)]; cases s <;> rfl

/-- The variables of `copy` in the loop over its lines. -/
def copyVars (name : Bytes) (line : Bytes) (u : Streams) : St ToolVal Streams :=
  ⟨[[(n!"line", .str line)], [(n!"input", .dom .input), (n!"output", .dom .output), (n!"name", .str name)]], u⟩

theorem getline_end (line : Bytes) (u : Streams) (h1 : u.eof = false) (h2 : u.fail = false) (h : u.rest.dropWhile (· ≠ 10) = []) :
    u.getline line = (u.rest.takeWhile (· ≠ 10), { u with rest := [], eof := true, fail := (u.rest.takeWhile (· ≠ 10)).isEmpty }) := by
  simp only [Streams.getline, h1, h2, h]
  rfl

theorem getline_line (line : Bytes) (u : Streams) (c : Byte) (r : Bytes) (h1 : u.eof = false) (h2 : u.fail = false)
    (h : u.rest.dropWhile (· ≠ 10) = c :: r) :
    u.getline line = (u.rest.takeWhile (· ≠ 10), { u with rest := r }) := by
  simp only [Streams.getline, h1, h2, h]
  rfl

theorem copy_end (n : Nat) (name line x : Bytes) (u v : Streams) (hg : u.getline line = (x, v)) (h1 : v.eof = true) :
    exec (toolLib s) n copyFunBody3 (copyVars name line u) = .ok (.break, copyVars name x v) := by
  cxg [copyFunBody3, copyVars, hg, h1]

theorem copy_removable (n : Nat) (name line x : Bytes) (u v : Streams) (hg : u.getline line = (x, v)) (h1 : v.eof = false)
    (h2 : v.fail = false) (hl : x.length < 18446744073709551615) (hr : removable x = true) :
    exec (toolLib s) n copyFunBody3 (copyVars name line u) = .ok (.continue, copyVars name x v) := by
  cases x with
  | nil => simp [removable] at hr
  | cons d x =>
    simp only [removable, List.head?_cons, Bool.and_eq_true, beq_iff_eq, Option.some.injEq] at hr
    have hf : ¬ found (first b!"AUTO-REMOVE" (d :: x)) = npos := fun h => by
      rw [found_npos hl] at h
      rw [h] at hr
      cases hr.2
    have h0 : (0 : Int) < ((x.length + 1 : Nat) : Int) := by omega
    obtain ⟨rfl, _⟩ := hr
    cxg [copyFunBody3, copyVars, hg, h1, h2, h0, hf, element, chr_35, List.length_cons, Int.toNat_zero, List.getD_cons_zero, Nat.zero_lt_succ, decide_true, Nat.succ_eq_add_one, Int.lt_irrefl, lit_35]

/-- The variables of `copy` in its inner loops. -/
def copyInner (name : Bytes) (line : Bytes) (pos : Val ToolVal) (u : Streams) : St ToolVal Streams :=
  ⟨[[(n!"pos", pos)], [(n!"line", .str line)], [(n!"input", .dom .input), (n!"output", .dom .output), (n!"name", .str name)]], u⟩

/-- The test of the loop that replaces the placeholder. -/
def replaceTest : Expr := .binary n!"!=" (.assign (.name n!"pos") (.call (.member (.name n!"line") n!"find")
  (.cons (.str [95, 88, 95, 89, 95, 90]) .nil))) (.qual [n!"std", n!"string", n!"npos"])

/-- A variable for places. -/
def IsPlace (pos : Val ToolVal) : Prop := pos = .undef (some .u64) ∨ ∃ k, pos = .int .u64 k

theorem placeholder_first {x : Bytes} {k : Nat} (h : first placeholder x = some k) :
    replaceFirst x = some (x.take k ++ namingText ++ x.drop (k + 6)) := by rw [replaceFirst_first, h]; rfl

theorem replaceTest_some (name x : Bytes) (pos : Val ToolVal) (hp : IsPlace pos) (u : Streams) (k : Nat) (hl : x.length < 18446744073709551615) (h : first placeholder x = some k) :
    eval (toolLib s) replaceTest (copyInner name x pos u) = .ok (.bool true, copyInner name x (.int .u64 k) u) := by
  have h1 : ¬ (k : Int) = npos := by have := first_le h; unfold npos; omega
  have h2 : first [95, 88, 95, 89, 95, 90] x = some k := h
  have h3 : npos = 18446744073709551615 := rfl
  obtain rfl | ⟨_, rfl⟩ := hp <;> cxg [replaceTest, copyInner, h2, found, h1, assigned]

theorem replaceTest_none (name x : Bytes) (pos : Val ToolVal) (hp : IsPlace pos) (u : Streams) (h : first placeholder x = none) :
    eval (toolLib s) replaceTest (copyInner name x pos u) = .ok (.bool false, copyInner name x (.int .u64 npos) u) := by
  have h2 : first [95, 88, 95, 89, 95, 90] x = none := h
  obtain rfl | ⟨_, rfl⟩ := hp <;> cxg [replaceTest, copyInner, h2, found, assigned]

theorem replaceBody (n : Nat) (name x : Bytes) (u : Streams) (k : Nat) (h : k ≤ x.length) :
    exec (toolLib s) n copyFunBody1 (copyInner name x (.int .u64 k) u) =
      .ok (.next, copyInner name (x.take k ++ namingText ++ x.drop (k + 6)) (.int .u64 k) u) := by
  have := fun t => tool_replace (s := s) x t k namingText u h
  cxg [copyFunBody1, copyInner, this, tool_b_replace]

theorem replaceFirst_length {x y : Bytes} (h : replaceFirst x = some y) : y.length = x.length := by
  induction x generalizing y with
  | nil => cases h
  | cons c x ih =>
    rw [replaceFirst] at h
    split at h
    · rename_i hp
      injection h with h
      obtain ⟨r, hr⟩ := List.isPrefixOf_iff_prefix.mp hp
      rw [← h, ← hr]
      simp [placeholder, namingText]
    · cases hr : replaceFirst x with
      | none => rw [hr] at h; cases h
      | some r =>
        rw [hr] at h
        injection h with h
        rw [← h, List.length_cons, List.length_cons, ih hr]

theorem replaceLoop (k m : Nat) (name : Bytes) (u : Streams) :
    ∀ (n : Nat) (x : Bytes) (pos : Val ToolVal), IsPlace pos → x.length < 18446744073709551615 → x.count 88 < n →
    iterate (test (toolLib s) replaceTest)
      (exec (toolLib s) m copyFunBody1) .ok n (copyInner name x pos u) = .ok (.next, copyInner name (replaceAll x) (.int .u64 npos) u) := by
  intro n
  induction n with
  | zero => intro x pos _ _ h; omega
  | succ n ih =>
    intro x pos hp hl hn
    rw [replaceAll]
    cases h : first placeholder x with
    | none =>
      have h1 : replaceFirst x = none := by rw [replaceFirst_first, h]; rfl
      rw [iterate_done (s1 := copyInner name x (.int .u64 npos) u) (by rw [test, replaceTest_none name x pos hp u h]; rfl)]
      split
      · rfl
      · rename_i h2; rw [h1] at h2; cases h2
    | some k =>
      have h1 := placeholder_first h
      rw [iterate_next (by rw [test, replaceTest_some name x pos hp u k hl h]; rfl) (replaceBody m name x u k (first_le h)) rfl]
      split
      · rename_i h2; rw [h1] at h2; cases h2
      · rename_i y h2
        rw [h1] at h2
        injection h2 with h2
        rw [h2] at h1 ⊢
        rw [ih y _ (.inr ⟨_, rfl⟩) (by rw [replaceFirst_length h1]; exact hl)]
        have := replaceFirst_count h1
        omega

theorem replaceAll_length (x : Bytes) : (replaceAll x).length = x.length := by
  generalize hn : x.count 88 = n
  induction n using Nat.strongRecOn generalizing x with
  | ind n ih =>
    rw [replaceAll]
    split
    · rfl
    · rename_i y h
      rw [ih _ (hn ▸ replaceFirst_count h) y rfl, replaceFirst_length h]

/-- The variables of `copy` in the loop that writes the characters. -/
def copyChars (s : Bool) (name line : Bytes) (pos : Int) (r : Bytes) (u : Streams) : St ToolVal Streams :=
  ⟨[[(n!"c'", .iter (r.map fun c => .int .char (IT.ofByte s c)))], [(n!"pos", .int .u64 pos)], [(n!"line", .str line)],
    [(n!"input", .dom .input), (n!"output", .dom .output), (n!"name", .str name)]], u⟩

/-- What is written for a character. -/
def escaped (c : Byte) : Bytes := if c = 34 then b!"\\\"" else if c = 92 then b!"\\\\" else [c]

theorem copyChar (n : Nat) (name line : Bytes) (pos : Int) (c : Byte) (r : Bytes) (u : Streams) :
    exec (toolLib s) n copyFunBody2 (copyChars s name line pos (c :: r) u) =
      .ok (.next, copyChars s name line pos (c :: r) { u with out := u.out ++ escaped c }) := by
  by_cases h1 : c = 34
  · subst h1
    cxg [copyFunBody2, copyChars, escaped, chr_34, List.map_cons]
  · by_cases h2 : c = 92
    · subst h2
      cxg [copyFunBody2, copyChars, escaped, chr_34, chr_92, List.map_cons]
    · cxg [copyFunBody2, copyChars, escaped, chr_34, chr_92, h1, h2, List.map_cons, toByte_ofByte]

theorem escapeLine_cons (c : Byte) (r : Bytes) : escapeLine (c :: r) = escaped c ++ escapeLine r := by
  simp only [escapeLine, List.flatMap_cons, escaped]

/-- The test for the lines that are dropped. -/
def removeTest : Expr := .binary n!"&&" (.binary n!"&&" (.binary n!">" (.call (.member (.name n!"line")
  n!"length") .nil) (.int .i32 0)) (.binary n!"==" (.index (.name n!"line") (.int .i32 0)) (.chr 35))) (.binary n!"!=" (.call
  (.member (.name n!"line") n!"find") (.cons (.str [65, 85, 84, 79, 45, 82, 69, 77, 79, 86, 69]) .nil)) (.qual [n!"std",
  n!"string", n!"npos"]))

/-- What `copy` does with the other lines. -/
def copyRest : Stmts := .cons (.decl n!"size_t" n!"pos" none) (.cons (.while replaceTest copyFunBody1)
  (.cons (.expr (.binary n!"<<" (.name n!"output") (.str [32, 32, 32, 32, 34]))) (.cons
  (.for (.decl n!"auto" n!"c'" (some (.call (.member (.name n!"line") n!"begin") .nil))) (.binary n!"!=" (.name n!"c'")
  (.call (.member (.name n!"line") n!"end") .nil)) (.incr n!"++" true (.name n!"c'")) copyFunBody2) (.cons (.expr (.binary
  n!"<<" (.name n!"output") (.str [92, 110, 34, 32, 92, 10]))) .nil))))

theorem copyFunBody3_eq : copyFunBody3 = .block (.cons (.expr (.call (.qual [n!"std", n!"getline"]) (.cons
  (.name n!"input") (.cons (.name n!"line") .nil)))) (.cons (.ite (.unary n!"!" (.call (.member (.name n!"input") n!"good")
  .nil)) .break .skip) (.cons (.ite removeTest .continue .skip) copyRest))) := rfl

/-- The variables of `copy` after the line has been read. -/
def copyRead (name : Bytes) (line : Bytes) (u : Streams) : St ToolVal Streams :=
  ⟨[[], [(n!"line", .str line)], [(n!"input", .dom .input), (n!"output", .dom .output), (n!"name", .str name)]], u⟩

theorem removeTest_eval (name x : Bytes) (v : Streams) (hl : x.length < 18446744073709551615) :
    eval (toolLib s) removeTest (copyRead name x v) = .ok (.bool (removable x), copyRead name x v) := by
  cases x with
  | nil => cxg [removeTest, copyRead, Int.lt_irrefl, decide_false]; rfl
  | cons d x =>
    have h0 : (0 : Int) < ((x.length + 1 : Nat) : Int) := by omega
    by_cases hd : d = 35
    · subst hd
      have hf := found_npos (y := b!"AUTO-REMOVE") hl
      cxg [removeTest, copyRead, h0, hf, element, chr_35, List.length_cons, Int.toNat_zero, List.getD_cons_zero, Nat.zero_lt_succ, decide_true, Nat.succ_eq_add_one, Int.lt_irrefl, lit_35]
      simp [removable]
    · cxg [removeTest, copyRead, h0, hd, element, chr_35, List.length_cons, Int.toNat_zero, List.getD_cons_zero, Nat.zero_lt_succ, decide_true, Nat.succ_eq_add_one, Int.lt_irrefl, lit_35]
      simp [removable, hd]

theorem initial_size0 {D S : Type} (L : Lib D S) (u : S) : initial L n!"size_t" none u = some (.undef (some .u64)) := (rfl)
attribute [cxt] initial_size0

theorem copyRest_exec (n : Nat) (name x : Bytes) (v : Streams) (hl : x.length < 18446744073709551615) (hn : x.length < n) :
    (execAll (toolLib s) n copyRest (copyRead name x v)).bind (fun q => .ok (q.1, q.2.leave)) =
      .ok (.next, copyVars name (replaceAll x) { v with out := v.out ++ quoteLine (replaceAll x) }) := by
  have hk := replaceLoop (s := s) 0 n name v n x (.undef (some .u64)) (.inl rfl) hl
    (by have := List.count_le_length (a := (88 : UInt8)) (l := x); omega)
  unfold copyInner at hk
  cxg [copyRest, copyRead]
  cxg [hk]
  generalize hy : replaceAll x = y
  have hl : y.length < n := by rw [← hy, replaceAll_length]; exact hn
  rw [show (⟨_, _⟩ : St ToolVal Streams) = copyChars s name y npos y { v with out := v.out ++ b!"    \"" } from rfl]
  refine (iterate_list (β := Flow ToolVal × St ToolVal Streams) (copyChars s name y npos) (fun u c => .ok (.next, { u with out := u.out ++ escaped c }))
    (fun _ _ => True) (fun r u => .ok (.next, copyVars name y { u with out := u.out ++ escapeLine r ++ b!"\\n\" \\\n" })) _
    ?_ ?_ ?_ ?_ ?_ ?_ n y _ trivial hl).trans (by simp only [quoteLine, List.append_assoc])
  · intro xs a
    cxg [copyChars, List.length_map]
  · intro c xs a _
    exact copyChar n name y npos c xs a
  · intro c xs a
    cxg [copyChars]
  · intros; trivial
  · intro a _
    cxg [copyChars, copyVars, escapeLine, List.flatMap_nil, List.append_nil]
  · intro c xs a _
    cxg [after, escapeLine_cons, List.append_assoc]

theorem copy_line (n : Nat) (name line x : Bytes) (u v : Streams) (hg : u.getline line = (x, v)) (h1 : v.eof = false)
    (h2 : v.fail = false) (hl : x.length < 18446744073709551615) (hn : x.length < n) (hr : removable x = false) :
    exec (toolLib s) n copyFunBody3 (copyVars name line u) =
      .ok (.next, copyVars name (replaceAll x) { v with out := v.out ++ quoteLine (replaceAll x) }) := by
  have ht := removeTest_eval (s := s) name x v hl
  have hx := copyRest_exec (s := s) n name x v hl hn
  rw [hr] at ht
  unfold copyRead at ht hx
  cxg [copyFunBody3_eq, copyVars, hg, h1, h2, ht]
  rw [hx]
  simp only [copyVars, h1, h2]

theorem completeLines_none (l x : Bytes) (h : x.dropWhile (· ≠ 10) = []) : completeLines l x = [] := by
  induction x generalizing l with
  | nil => rfl
  | cons c x ih =>
    by_cases hc : c = 10
    · simp [hc] at h
    · rw [completeLines, if_neg hc]
      exact ih _ (by simpa [hc] using h)

theorem completeLines_some (l x : Bytes) (c : Byte) (r : Bytes) (h : x.dropWhile (· ≠ 10) = c :: r) :
    completeLines l x = (l ++ x.takeWhile (· ≠ 10)) :: completeLines [] r := by
  induction x generalizing l with
  | nil => simp at h
  | cons d x ih =>
    by_cases hc : d = 10
    · simp [hc] at h
      simp [completeLines, hc, h.2]
    · rw [completeLines, if_neg hc, ih _ (by simpa [hc] using h)]
      simp [hc]

theorem drop_length {x : Bytes} {c : Byte} {r : Bytes} (h : x.dropWhile (· ≠ 10) = c :: r) :
    (x.takeWhile (· ≠ 10)).length + r.length + 1 = x.length := by
  have := congrArg List.length (List.takeWhile_append_dropWhile (p := (· ≠ (10 : Byte))) (l := x))
  rw [List.length_append, h, List.length_cons] at this
  omega

/-- The lines that are kept. -/
def copyLines (x : Bytes) : Bytes := ((completeLines [] x).filter fun l => !removable l).flatMap fun l => quoteLine (replaceAll l)

theorem copyLoop (name : Bytes) (m : Nat) : ∀ (n : Nat) (line : Bytes) (u : Streams), u.eof = false → u.fail = false →
    u.rest.length < 18446744073709551615 → u.rest.length < m → u.rest.length + 1 < n →
    ∃ line' u', iterate (test (toolLib s) (.unary n!"!" (.call (.member (.name n!"input") n!"eof") .nil)))
      (exec (toolLib s) m copyFunBody3) .ok n (copyVars name line u) = .ok (.next, copyVars name line' u') ∧
      u'.out = u.out ++ copyLines u.rest := by
  intro n
  induction n with
  | zero => intro line u _ _ _ _ h; omega
  | succ n ih =>
    intro line u he hf hl hm hn
    have hc : test (toolLib s) (.unary n!"!" (.call (.member (.name n!"input") n!"eof") .nil)) (copyVars name line u) =
        .ok (true, copyVars name line u) := by cxg [copyVars, he]
    cases h : u.rest.dropWhile (· ≠ 10) with
    | nil =>
      rw [iterate_break hc (copy_end m name line _ u _ (getline_end line u he hf h) rfl)]
      exact ⟨_, _, rfl, by simp [copyLines, completeLines_none [] u.rest h]⟩
    | cons c r =>
      have hd := drop_length h
      have hg := getline_line line u c r he hf h
      cases hr : removable (u.rest.takeWhile (· ≠ 10)) with
      | true =>
        rw [iterate_continue hc (copy_removable m name line _ u _ hg he hf (by omega) hr) rfl]
        obtain ⟨l', u', h1, h2⟩ := ih (u.rest.takeWhile (· ≠ 10)) { u with rest := r } he hf (by show r.length < _; omega)
          (by show r.length < _; omega) (by show r.length + 1 < _; omega)
        refine ⟨l', u', h1, ?_⟩
        rw [h2, copyLines, copyLines, completeLines_some [] u.rest c r h, List.nil_append, List.filter_cons_of_neg (by rw [hr]; decide)]
      | false =>
        rw [iterate_next hc (copy_line m name line _ u _ hg he hf (by omega) (by omega) hr) rfl]
        obtain ⟨l', u', h1, h2⟩ := ih (replaceAll (u.rest.takeWhile (· ≠ 10)))
          { u with rest := r, out := u.out ++ quoteLine (replaceAll (u.rest.takeWhile (· ≠ 10))) } he hf (by show r.length < _; omega)
          (by show r.length < _; omega) (by show r.length + 1 < _; omega)
        refine ⟨l', u', h1, ?_⟩
        rw [h2, copyLines, copyLines, completeLines_some [] u.rest c r h, List.nil_append, List.filter_cons_of_pos (by rw [hr]; rfl),
          List.flatMap_cons, List.append_assoc]

/-- What a function has written. -/
def written (r : Ran (Val ToolVal × List (Val ToolVal) × Streams)) : Ran (Val ToolVal × List (Val ToolVal) × Bytes) :=
  r.bind fun r => .ok (r.1, r.2.1, r.2.2.out)

theorem copy_runs (n : Nat) (name text : Bytes) (hn : text.length + 1 < n) (hl : text.length < 18446744073709551615) :
    written (run (toolLib s) n copyFun [.dom .input, .dom .output, .str name] (Streams.open text)) =
      .ok (.void, [.dom .input, .dom .output, .str name], copyText name text) := by
  obtain ⟨l', u', h1, h2⟩ := copyLoop (s := s) name n n [] { Streams.open text with out := [] ++ b!"#define " ++ name ++ b!" \\\n" }
    rfl rfl hl (by show text.length < n; omega) hn
  simp only [copyVars, Streams.open] at h1
  cxg [copyFun, written, Streams.open]
  cxg [h1, h2, copyText, Streams.open]
  rfl

/-! ### `process` -/

/-- The variables of `process` in its loop. -/
def processVars (guard : Bytes) (line : Bytes) (content : Bool) (u : Streams) : St ToolVal Streams :=
  ⟨[[(n!"content", .bool content), (n!"line", .str line)],
    [(n!"input", .dom .input), (n!"output", .dom .output), (n!"guard", .str guard)]], u⟩

theorem process_end (n : Nat) (guard line x : Bytes) (b : Bool) (u v : Streams) (hg : u.getline line = (x, v)) (h1 : v.eof = true) :
    exec (toolLib s) n processFunBody2 (processVars guard line b u) = .ok (.break, processVars guard x b v) := by
  cxg [processFunBody2, processVars, hg, h1]

theorem process_skipped (n : Nat) (guard line x : Bytes) (u v : Streams) (hg : u.getline line = (x, v)) (h1 : v.eof = false)
    (h2 : v.fail = false) (hx : b!"--- ".isPrefixOf x = false) :
    exec (toolLib s) n processFunBody2 (processVars guard line false u) = .ok (.continue, processVars guard x false v) := by
  have hf : ¬ found (first b!"--- " x) = 0 := fun h => by rw [found_zero, hx] at h; cases h
  cxg [processFunBody2, processVars, hg, h1, h2, hf]

theorem process_opened (n : Nat) (guard line x : Bytes) (u v : Streams) (hg : u.getline line = (x, v)) (h1 : v.eof = false)
    (h2 : v.fail = false) (hx : b!"--- ".isPrefixOf x = true) :
    exec (toolLib s) n processFunBody2 (processVars guard line false u) =
      .ok (.next, processVars guard (x.drop 4) true { v with out := v.out ++ b!"#define " ++ x.drop 4 ++ b!" \\\n" }) := by
  have hf := (found_zero b!"--- " x).mpr hx
  have hl : 4 ≤ x.length := by
    obtain ⟨r, hr⟩ := List.isPrefixOf_iff_prefix.mp hx
    rw [← hr]; simp
  have hs := fun u => tool_substr (s := s) x u hl
  cxg [processFunBody2, processVars, hg, h1, h2, hf, hs, tool_b_substr]

theorem process_closed (n : Nat) (guard line x : Bytes) (u v : Streams) (hg : u.getline line = (x, v)) (h1 : v.eof = false)
    (h2 : v.fail = false) (hx : b!"------".isPrefixOf x = true) :
    exec (toolLib s) n processFunBody2 (processVars guard line true u) =
      .ok (.continue, processVars guard x false { v with out := v.out ++ b!"\n" }) := by
  have hf := (found_zero b!"------" x).mpr hx
  cxg [processFunBody2, processVars, hg, h1, h2, hf]

/-- The variables of `process` in the loop that writes the characters. -/
def processChars (s : Bool) (guard line : Bytes) (r : Bytes) (u : Streams) : St ToolVal Streams :=
  ⟨[[(n!"it", .iter (r.map fun c => .int .char (IT.ofByte s c)))], [], [], [(n!"content", .bool true), (n!"line", .str line)],
    [(n!"input", .dom .input), (n!"output", .dom .output), (n!"guard", .str guard)]], u⟩

theorem processChar (n : Nat) (guard line : Bytes) (c : Byte) (r : Bytes) (u : Streams) :
    exec (toolLib s) n processFunBody1 (processChars s guard line (c :: r) u) =
      .ok (.next, processChars s guard line (c :: r) { u with out := u.out ++ escaped c }) := by
  by_cases h1 : c = 34
  · subst h1
    cxg [processFunBody1, processChars, escaped, chr_34, List.map_cons]
  · by_cases h2 : c = 92
    · subst h2
      cxg [processFunBody1, processChars, escaped, chr_34, chr_92, List.map_cons]
    · cxg [processFunBody1, processChars, escaped, chr_34, chr_92, h1, h2, List.map_cons, toByte_ofByte]

theorem process_line (n : Nat) (guard line x : Bytes) (u v : Streams) (hg : u.getline line = (x, v)) (h1 : v.eof = false)
    (h2 : v.fail = false) (hx : b!"------".isPrefixOf x = false) (hn : x.length < n) :
    exec (toolLib s) n processFunBody2 (processVars guard line true u) =
      .ok (.next, processVars guard x true { v with out := v.out ++ quoteLine x }) := by
  have hf : ¬ found (first b!"------" x) = 0 := fun h => by rw [found_zero, hx] at h; cases h
  cxg [processFunBody2, processVars, hg, h1, h2, hf]
  rw [show (⟨_, _⟩ : St ToolVal Streams) = processChars s guard x x { v with eof := false, fail := false, out := v.out ++ b!"    \"" } from rfl]
  refine (iterate_list (β := Flow ToolVal × St ToolVal Streams) (processChars s guard x) (fun u c => .ok (.next, { u with out := u.out ++ escaped c }))
    (fun _ _ => True) (fun r u => .ok (.next, processVars guard x true { u with out := u.out ++ escapeLine r ++ b!"\\n\" \\\n" })) _
    ?_ ?_ ?_ ?_ ?_ ?_ n x _ trivial hn).trans (by simp only [processVars, quoteLine, List.append_assoc])
  · intro xs a
    cxg [processChars, List.length_map]
  · intro c xs a _
    exact processChar n guard x c xs a
  · intro c xs a
    cxg [processChars]
  · intros; trivial
  · intro a _
    cxg [processChars, processVars, escapeLine, List.flatMap_nil, List.append_nil]
  · intro c xs a _
    cxg [after, escapeLine_cons, List.append_assoc]

theorem processLoop (guard : Bytes) (m : Nat) : ∀ (n : Nat) (line : Bytes) (b : Bool) (u : Streams), u.eof = false → u.fail = false →
    u.rest.length < m → u.rest.length + 1 < n →
    ∃ line' b' u', iterate (test (toolLib s) (.unary n!"!" (.call (.member (.name n!"input") n!"eof") .nil)))
      (exec (toolLib s) m processFunBody2) .ok n (processVars guard line b u) = .ok (.next, processVars guard line' b' u') ∧
      u'.out = u.out ++ processLines b (completeLines [] u.rest) := by
  intro n
  induction n with
  | zero => intro line b u _ _ _ h; omega
  | succ n ih =>
    intro line b u he hf hm hn
    have hc : test (toolLib s) (.unary n!"!" (.call (.member (.name n!"input") n!"eof") .nil)) (processVars guard line b u) =
        .ok (true, processVars guard line b u) := by cxg [processVars, he]
    cases h : u.rest.dropWhile (· ≠ 10) with
    | nil =>
      rw [iterate_break hc (process_end m guard line _ b u _ (getline_end line u he hf h) rfl)]
      exact ⟨_, _, _, rfl, by simp [processLines, completeLines_none [] u.rest h]⟩
    | cons c r =>
      have hd := drop_length h
      have hg := getline_line line u c r he hf h
      rw [completeLines_some [] u.rest c r h, List.nil_append]
      generalize u.rest.takeWhile (· ≠ 10) = x at *
      cases b with
      | false =>
        cases hx : b!"--- ".isPrefixOf x with
        | false =>
          rw [iterate_continue hc (process_skipped m guard line x u _ hg he hf hx) rfl]
          obtain ⟨l', b', u', h1, h2⟩ := ih x false { u with rest := r } he hf
            (by show r.length < _; omega) (by show r.length + 1 < _; omega)
          refine ⟨l', b', u', h1, ?_⟩
          rw [h2, processLines, hx]
          rfl
        | true =>
          rw [iterate_next hc (process_opened m guard line x u _ hg he hf hx) rfl]
          obtain ⟨l', b', u', h1, h2⟩ := ih (x.drop 4) true { u with rest := r, out := u.out ++ b!"#define " ++ x.drop 4 ++ b!" \\\n" } he hf
            (by show r.length < _; omega) (by show r.length + 1 < _; omega)
          refine ⟨l', b', u', h1, ?_⟩
          rw [h2, processLines, hx]
          simp only [if_true, List.append_assoc]
      | true =>
        cases hx : b!"------".isPrefixOf x with
        | true =>
          rw [iterate_continue hc (process_closed m guard line x u _ hg he hf hx) rfl]
          obtain ⟨l', b', u', h1, h2⟩ := ih x false { u with rest := r, out := u.out ++ b!"\n" } he hf
            (by show r.length < _; omega) (by show r.length + 1 < _; omega)
          refine ⟨l', b', u', h1, ?_⟩
          rw [h2, processLines, hx]
          simp only [if_true, List.append_assoc]
        | false =>
          rw [iterate_next hc (process_line m guard line x u _ hg he hf hx (by omega)) rfl]
          obtain ⟨l', b', u', h1, h2⟩ := ih x true { u with rest := r, out := u.out ++ quoteLine x } he hf
            (by show r.length < _; omega) (by show r.length + 1 < _; omega)
          refine ⟨l', b', u', h1, ?_⟩
          rw [h2, processLines, hx]
          simp only [Bool.false_eq_true, if_false, List.append_assoc]

theorem process_runs (n : Nat) (guard text : Bytes) (hn : text.length + 1 < n) :
    written (run (toolLib s) n processFun [.dom .input, .dom .output, .str guard] (Streams.open text)) =
      .ok (.void, [.dom .input, .dom .output, .str guard], processText guard text) := by
  obtain ⟨l', b', u', h1, h2⟩ := processLoop (s := s) guard n n [] false
    { Streams.open text with out := [] ++ b!"#ifndef " ++ guard ++ b!"\n" ++ b!"#define " ++ guard ++ b!"\n" }
    rfl rfl (by show text.length < n; omega) hn
  simp only [processVars, Streams.open] at h1
  have h10 : IT.toByte 10 = 10 := by decide
  cxg [processFun, written, Streams.open, h10]
  cxg [h1, h2, processText, Streams.open, h10]
  simp only [List.append_assoc, List.nil_append, List.cons_append]

end PG.Cxx.Throw
