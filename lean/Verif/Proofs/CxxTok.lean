import Verif.Proofs.CxxRuntime
/-
The functions of the tokenizer (protogen.hh:300-602) are those of the model.
-/
set_option autoImplicit false
namespace PG.Cxx
variable {V F : Type} {σ : Bool} {ops : Ops V F}

/-- protogen.hh:356-364. -/
theorem expect_runs (n : Nat) (t : TId) (w : World) :
    expectFun.run (runtimeLib σ ops) n [.int .i32 (tidNumber t)] w =
      some (.bool (w.tz.expect t).1, [.int .i32 (tidNumber t)], { w with tz := (w.tz.expect t).2 }) := by
  by_cases h : w.tz.cur.id = t
  · cxx [expectFun, h, Tz.expect]
  · cxx [expectFun, h, Tz.expect]

/-- The loop of `parse_identifier`. -/
theorem ident_loop (m : Nat) (w : World) (acc : Bytes) (n : Nat) (hn : w.tz.inp.rest.length < n) :
    iterate (test (runtimeLib σ ops) (.unary n!"!" (.call (.member (.name n!"input_") n!"eof") .nil)))
      (exec (runtimeLib σ ops) m identFunBody1) some n ⟨[[(n!"value", .str acc)], []], w⟩ =
      some (.next, ⟨[[(n!"value", .str (lexIdent w.tz.inp acc).1)], []],
        { w with tz := { w.tz with inp := (lexIdent w.tz.inp acc).2 } }⟩) := by
  induction n generalizing w acc with
  | zero => omega
  | succ n ih =>
    rw [lexIdent]
    by_cases h : w.tz.inp.eof = false
    · have h1 : test (runtimeLib σ ops) (.unary n!"!" (.call (.member (.name n!"input_") n!"eof") .nil))
          ⟨[[(n!"value", .str acc)], []], w⟩ = some (true, ⟨[[(n!"value", .str acc)], []], w⟩) := by
        cxx [h]
      rw [dif_pos h]
      have hc : ((decide (IT.ofByte σ 65 ≤ IT.ofByte σ w.tz.inp.peek) && decide (IT.ofByte σ w.tz.inp.peek ≤ IT.ofByte σ 90)) ||
          (decide (IT.ofByte σ 97 ≤ IT.ofByte σ w.tz.inp.peek) && decide (IT.ofByte σ w.tz.inp.peek ≤ IT.ofByte σ 122))) =
          isAlpha w.tz.inp.peek := by
        rw [byte_range _ _ _ (by decide) (by decide), byte_range _ _ _ (by decide) (by decide), isAlpha]
      cases ha : isAlpha w.tz.inp.peek with
      | true =>
        rw [iterate_next h1 (by cxx [identFunBody1, hc, ha]; rfl) rfl]
        have hl := w.tz.inp.next_length_lt h
        exact ih { w with tz := { w.tz with inp := w.tz.inp.next } } _ (by show w.tz.inp.next.rest.length < n; omega)
      | false =>
        rw [iterate_break h1 (by cxx [identFunBody1, hc, ha]; rfl)]
        rfl
    · have h : w.tz.inp.eof = true := by simpa using h
      rw [iterate_done (by cxx [h]; rfl), dif_neg (by simp [h])]

/-- protogen.hh:386-401. -/
theorem ident_runs (n : Nat) (w : World) (hn : w.tz.inp.rest.length < n) :
    identFun.run (runtimeLib σ ops) n [] w =
      some (.str (lexIdent w.tz.inp []).1, [], { w with tz := { w.tz with inp := (lexIdent w.tz.inp []).2 } }) := by
  cxx [identFun, ident_loop n w [] n hn]

/-- The loop of `parse_number`. -/
theorem number_loop (m : Nat) (w : World) (acc : Bytes) (l c : Int) (n : Nat) (hn : w.tz.inp.rest.length < n) :
    iterate (test (runtimeLib σ ops) (.unary n!"!" (.call (.member (.name n!"input_") n!"eof") .nil)))
      (exec (runtimeLib σ ops) m numberFunBody1) some n
      ⟨[[(n!"column", .int .i32 c), (n!"line", .int .i32 l), (n!"value", .str acc)], []], w⟩ =
      some (.next, ⟨[[(n!"column", .int .i32 c), (n!"line", .int .i32 l), (n!"value", .str (lexNumber w.tz.inp acc).1)], []],
        { w with tz := { w.tz with inp := (lexNumber w.tz.inp acc).2 } }⟩) := by
  induction n generalizing w acc with
  | zero => omega
  | succ n ih =>
    rw [lexNumber]
    by_cases h : w.tz.inp.eof = false
    · have h1 : test (runtimeLib σ ops) (.unary n!"!" (.call (.member (.name n!"input_") n!"eof") .nil))
          ⟨[[(n!"column", .int .i32 c), (n!"line", .int .i32 l), (n!"value", .str acc)], []], w⟩ =
          some (true, ⟨[[(n!"column", .int .i32 c), (n!"line", .int .i32 l), (n!"value", .str acc)], []], w⟩) := by
        cxx [h]
      rw [dif_pos h]
      have hc : (((((decide (w.tz.inp.peek = 46) ||
          (decide (IT.ofByte σ 48 ≤ IT.ofByte σ w.tz.inp.peek) && decide (IT.ofByte σ w.tz.inp.peek ≤ IT.ofByte σ 57))) ||
          decide (w.tz.inp.peek = 101)) || decide (w.tz.inp.peek = 69)) || decide (w.tz.inp.peek = 43)) ||
          decide (w.tz.inp.peek = 45)) = isNumChar w.tz.inp.peek := by
        rw [byte_range _ _ _ (by decide) (by decide), isNumChar]
        rfl
      cases ha : isNumChar w.tz.inp.peek with
      | true =>
        rw [iterate_next h1 (by cxx [numberFunBody1, hc, ha]; rfl) rfl]
        have hl := w.tz.inp.next_length_lt h
        exact ih { w with tz := { w.tz with inp := w.tz.inp.next } } _ (by show w.tz.inp.next.rest.length < n; omega)
      | false =>
        rw [iterate_break h1 (by cxx [numberFunBody1, hc, ha]; rfl)]
        rfl
    · have h : w.tz.inp.eof = true := by simpa using h
      rw [iterate_done (by cxx [h]; rfl), dif_neg (by simp [h])]

/-- protogen.hh:522-539. -/
theorem number_runs (n : Nat) (w : World) (hn : w.tz.inp.rest.length < n) :
    numberFun.run (runtimeLib σ ops) n [] w =
      some (.dom (.tok { id := .number, value := (lexNumber w.tz.inp []).1, line := w.tz.inp.line, col := w.tz.inp.col }), [],
        { w with tz := { w.tz with inp := (lexNumber w.tz.inp []).2 } }) := by
  cxx [numberFun, number_loop n w [] _ _ n hn]

/-- Hexadecimal digits. -/
theorem hex_digit (b : Byte) :
    (((decide (IT.ofByte σ 48 ≤ IT.ofByte σ b) && decide (IT.ofByte σ b ≤ IT.ofByte σ 57)) ||
      (decide (IT.ofByte σ 65 ≤ IT.ofByte σ b) && decide (IT.ofByte σ b ≤ IT.ofByte σ 70))) ||
      (decide (IT.ofByte σ 97 ≤ IT.ofByte σ b) && decide (IT.ofByte σ b ≤ IT.ofByte σ 102))) = (hexVal b).isSome := by
  rw [byte_range _ _ _ (by decide) (by decide), byte_range _ _ _ (by decide) (by decide),
    byte_range _ _ _ (by decide) (by decide), hexVal]
  split
  · rename_i h; rw [h]; rfl
  · split
    · rename_i h; rw [h]; simp
    · split
      · rename_i h; rw [h]; simp
      · rename_i h1 h2 h3
        simp only [Bool.not_eq_true] at h1 h2 h3
        rw [h1, h2, h3]; rfl

/-- One digit. -/
theorem utf8_digit (m : Nat) (w : World) (value lead : Val (Dom V F)) (l : List (Val (Dom V F))) (i : Nat) (v : Int)
    (hi : l[i]? = some (.int .char v)) :
    exec (runtimeLib σ ops) m utf8FunBody1
      ⟨[[(n!"i", .int .i32 i)], [(n!"temp", .arr l)], [(n!"value", value), (n!"lead", lead)]], w⟩ =
    if (hexVal w.tz.inp.next.peek).isSome then
      some (.next, ⟨[[(n!"i", .int .i32 i)], [(n!"temp", .arr (l.set i (.int .char (IT.ofByte σ w.tz.inp.next.peek))))],
        [(n!"value", value), (n!"lead", lead)]], { w with tz := { w.tz with inp := w.tz.inp.next } }⟩)
    else some (.ret (.bool false), ⟨[[(n!"i", .int .i32 i)], [(n!"temp", .arr l)], [(n!"value", value), (n!"lead", lead)]],
      { w with tz := { w.tz with inp := w.tz.inp.next } }⟩) := by
  have h0 : ¬ ((i : Int) < 0) := by omega
  cases h : (hexVal w.tz.inp.next.peek).isSome with
  | true => cxx [utf8FunBody1, hex_digit, h, h0, Int.toNat_natCast, hi]
  | false => cxx [utf8FunBody1, hex_digit, h]

end PG.Cxx
