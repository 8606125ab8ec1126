import Verif.Proofs.CxxTok
/-
`tokenizer::next` (protogen.hh:300-354) is `lex`.
-/
set_option autoImplicit false
namespace PG.Cxx
variable {V F : Type} {σ : Bool} {ops : Ops V F}

theorem isDigit_cases {b : Byte} (h : isDigit b = true) : b = 48 ∨ b = 49 ∨ b = 50 ∨ b = 51 ∨ b = 52 ∨ b = 53 ∨ b = 54 ∨ b = 55 ∨
    b = 56 ∨ b = 57 := by
  have h1 := b.toNat_lt
  simp only [isDigit, Bool.and_eq_true, decide_eq_true_eq, UInt8.le_iff_toNat_le] at h
  have e0 : (48 : UInt8).toNat = 48 := rfl
  have e1 : (57 : UInt8).toNat = 57 := rfl
  rw [e0, e1] at h
  have e : ∀ k : Nat, k < 256 → b.toNat = k → b = UInt8.ofNat k := fun k hk h => by
    apply UInt8.toNat_inj.mp
    rw [UInt8.toNat_ofNat']; omega
  have : b.toNat = 48 ∨ b.toNat = 49 ∨ b.toNat = 50 ∨ b.toNat = 51 ∨ b.toNat = 52 ∨ b.toNat = 53 ∨ b.toNat = 54 ∨ b.toNat = 55 ∨
    b.toNat = 56 ∨ b.toNat = 57 := by omega
  rcases this with h | h | h | h | h | h | h | h | h | h
  · exact .inl (e _ (by decide) h)
  · exact .inr (.inl (e _ (by decide) h))
  · exact .inr (.inr (.inl (e _ (by decide) h)))
  · exact .inr (.inr (.inr (.inl (e _ (by decide) h))))
  · exact .inr (.inr (.inr (.inr (.inl (e _ (by decide) h)))))
  · exact .inr (.inr (.inr (.inr (.inr (.inl (e _ (by decide) h))))))
  · exact .inr (.inr (.inr (.inr (.inr (.inr (.inl (e _ (by decide) h)))))))
  · exact .inr (.inr (.inr (.inr (.inr (.inr (.inr (.inl (e _ (by decide) h))))))))
  · exact .inr (.inr (.inr (.inr (.inr (.inr (.inr (.inr (.inl (e _ (by decide) h)))))))))
  · exact .inr (.inr (.inr (.inr (.inr (.inr (.inr (.inr (.inr (e _ (by decide) h)))))))))

/-- The loop of `next`. -/
theorem next_loop (m : Nat) (hm : 0 < m) (n : Nat) (w : World) (hn : w.tz.inp.rest.length < n) :
    iterate (test (runtimeLib σ ops) (.unary n!"!" (.call (.member (.name n!"input_") n!"eof") .nil)))
      (exec (runtimeLib σ ops) m nextFunBody1) some n ⟨[[], []], w⟩ =
        some (.ret (.dom (.tok (lex w.tz.inp).1)), ⟨[[], []], { w with tz := w.tz.next }⟩) ∨
    iterate (test (runtimeLib σ ops) (.unary n!"!" (.call (.member (.name n!"input_") n!"eof") .nil)))
      (exec (runtimeLib σ ops) m nextFunBody1) some n ⟨[[], []], w⟩ =
        some (.next, ⟨[[], []], { w with tz := { w.tz with inp := (lex w.tz.inp).2 } }⟩) ∧
      (lex w.tz.inp).1 = { id := .eos, line := (lex w.tz.inp).2.line, col := (lex w.tz.inp).2.col } := by
  induction n generalizing w with
  | zero => omega
  | succ n ih =>
    unfold Tz.next
    rw [lex]
    by_cases h : w.tz.inp.eof = false
    · have h1 : test (runtimeLib σ ops) (.unary n!"!" (.call (.member (.name n!"input_") n!"eof") .nil))
          ⟨[[], []], w⟩ = some (true, ⟨[[], []], w⟩) := by
        cxx [h]
      have hlen := w.tz.inp.next_length_lt h
      rw [dif_pos h]
      simp only
      by_cases hs : (w.tz.inp.peek = c!" " || w.tz.inp.peek = 9 || w.tz.inp.peek = 13 || w.tz.inp.peek = 10) = true
      · rw [if_pos hs]
        have hi := ih { w with tz := { w.tz with inp := w.tz.inp.next } } (by show w.tz.inp.next.rest.length < n; omega)
        simp only [Bool.or_eq_true, decide_eq_true_eq, or_assoc] at hs
        rcases hs with c | c | c | c <;>
        · rw [iterate_next h1 (by cxx [nextFunBody1, c]; rfl) rfl]
          exact hi
      · rw [if_neg hs]
        obtain ⟨m, rfl⟩ : ∃ k, m = k + 1 := ⟨m - 1, by omega⟩
        by_cases c123 : w.tz.inp.peek = c!"{"
        · rw [if_pos c123]
          exact .inl (iterate_ret h1 (by cxx [nextFunBody1, c123, iterate]))
        rw [if_neg c123]
        by_cases c125 : w.tz.inp.peek = c!"}"
        · rw [if_pos c125]
          exact .inl (iterate_ret h1 (by cxx [nextFunBody1, c125, iterate]))
        rw [if_neg c125]
        by_cases c91 : w.tz.inp.peek = c!"["
        · rw [if_pos c91]
          exact .inl (iterate_ret h1 (by cxx [nextFunBody1, c91, iterate]))
        rw [if_neg c91]
        by_cases c93 : w.tz.inp.peek = c!"]"
        · rw [if_pos c93]
          exact .inl (iterate_ret h1 (by cxx [nextFunBody1, c93, iterate]))
        rw [if_neg c93]
        by_cases c58 : w.tz.inp.peek = c!":"
        · rw [if_pos c58]
          exact .inl (iterate_ret h1 (by cxx [nextFunBody1, c58, iterate]))
        rw [if_neg c58]
        by_cases c44 : w.tz.inp.peek = c!","
        · rw [if_pos c44]
          exact .inl (iterate_ret h1 (by cxx [nextFunBody1, c44, iterate]))
        rw [if_neg c44]
        by_cases cq : w.tz.inp.peek = c!"\""
        · rw [if_pos cq]
          exact .inl (iterate_ret h1 (by cxx [nextFunBody1, cq]))
        rw [if_neg cq]
        by_cases cn : (w.tz.inp.peek = c!"-" || isDigit w.tz.inp.peek) = true
        · rw [if_pos cn]
          simp only [Bool.or_eq_true, decide_eq_true_eq] at cn
          rcases cn with c | c
          · exact .inl (iterate_ret h1 (by cxx [nextFunBody1, c]))
          · rcases isDigit_cases c with c | c | c | c | c | c | c | c | c | c <;>
            exact .inl (iterate_ret h1 (by cxx [nextFunBody1, c]))
        · rw [if_neg cn]
          simp only [Bool.or_eq_true, decide_eq_true_eq, not_or] at hs cn
          have hd : ∀ k : Byte, isDigit k = true → w.tz.inp.peek ≠ k := fun k hk e => cn.2 (e ▸ hk)
          have d0 := hd 48 (by decide)
          have d1 := hd 49 (by decide)
          have d2 := hd 50 (by decide)
          have d3 := hd 51 (by decide)
          have d4 := hd 52 (by decide)
          have d5 := hd 53 (by decide)
          have d6 := hd 54 (by decide)
          have d7 := hd 55 (by decide)
          have d8 := hd 56 (by decide)
          have d9 := hd 57 (by decide)
          unfold identToken
          by_cases it : (lexIdent w.tz.inp []).1 = b!"true"
          · rw [if_pos it]
            exact .inl (iterate_ret h1 (by cxx [nextFunBody1, hs.1.1.1, hs.1.1.2, hs.1.2, hs.2, c123, c125, c91, c93, c58, c44, cq, cn.1,
              d0, d1, d2, d3, d4, d5, d6, d7, d8, d9, it, List.cons.injEq, false_and, and_false]))
          rw [if_neg it]
          by_cases ig : (lexIdent w.tz.inp []).1 = b!"false"
          · rw [if_pos ig]
            exact .inl (iterate_ret h1 (by cxx [nextFunBody1, hs.1.1.1, hs.1.1.2, hs.1.2, hs.2, c123, c125, c91, c93, c58, c44, cq, cn.1,
              d0, d1, d2, d3, d4, d5, d6, d7, d8, d9, it, ig, List.cons.injEq, false_and, and_false]))
          rw [if_neg ig]
          by_cases ie : (lexIdent w.tz.inp []).1 = b!"null"
          · rw [if_pos ie]
            exact .inl (iterate_ret h1 (by cxx [nextFunBody1, hs.1.1.1, hs.1.1.2, hs.1.2, hs.2, c123, c125, c91, c93, c58, c44, cq, cn.1,
              d0, d1, d2, d3, d4, d5, d6, d7, d8, d9, it, ig, ie, List.cons.injEq, false_and, and_false]))
          rw [if_neg ie]
          exact .inl (iterate_ret h1 (by cxx [nextFunBody1, hs.1.1.1, hs.1.1.2, hs.1.2, hs.2, c123, c125, c91, c93, c58, c44, cq, cn.1,
              d0, d1, d2, d3, d4, d5, d6, d7, d8, d9, it, ig, ie, List.cons.injEq, false_and, and_false]))
    · have h1 : test (runtimeLib σ ops) (.unary n!"!" (.call (.member (.name n!"input_") n!"eof") .nil))
          ⟨[[], []], w⟩ = some (false, ⟨[[], []], w⟩) := by
        cxx [h]
      rw [dif_neg h]
      exact .inr ⟨iterate_done h1, rfl⟩

/-- protogen.hh:300-354. -/
theorem next_runs (n : Nat) (w : World) (hn : w.tz.inp.rest.length < n) :
    nextFun.run (runtimeLib σ ops) n [] w = some (.dom (.tok w.tz.next.cur), [], { w with tz := w.tz.next }) := by
  have h := next_loop (σ := σ) (ops := ops) n (by omega) n
    { w with tz := { w.tz with cur := { w.tz.cur with id := .none, value := [] } } } hn
  cxx [nextFun]
  rcases h with h | ⟨h, h'⟩
  · cxx [h, show nextFun.type = n!"token &" from rfl]
    rfl
  · cxx [h, show nextFun.type = n!"token &" from rfl]
    simp only [Tz.next]
    rw [← h']
end PG.Cxx
