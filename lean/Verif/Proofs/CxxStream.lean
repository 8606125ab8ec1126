import Verif.Proofs.CxxEval
/-
The functions of `iterator_istream` (protogen.hh:166-192) are those of the model.
-/
set_option autoImplicit false
namespace PG.Cxx
variable {σ : Bool}

section
variable (n : Name) (s : Cursor)
theorem stream_beg : (streamLib σ).get n!"beg_" s = some (.dom s.rest) := (rfl)
theorem stream_end : (streamLib σ).get n!"end_" s = some (.dom []) := (rfl)
theorem stream_line : (streamLib σ).get n!"line_" s = some (.int .i32 s.line) := (rfl)
theorem stream_col : (streamLib σ).get n!"column_" s = some (.int .i32 s.col) := (rfl)
theorem stream_setBeg (r : Bytes) : (streamLib σ).set n!"beg_" (.dom r) s = some { s with rest := r } := (rfl)
theorem stream_setLine (k : Int) : (streamLib σ).set n!"line_" (.int .i32 k) s = some { s with line := k } := (rfl)
theorem stream_setCol (k : Int) : (streamLib σ).set n!"column_" (.int .i32 k) s = some { s with col := k } := (rfl)
theorem stream_eq (x y : Bytes) :
    (streamLib σ).binary n!"==" (.dom x) (.dom y) s = some (.bool (decide (x.length = y.length)), s) := (rfl)
theorem stream_deref (b : Byte) (r : Bytes) : (streamLib σ).unary n!"*" (.dom (b :: r)) s = some (.int .char (IT.ofByte σ b)) := (rfl)
theorem stream_inc (b : Byte) (r : Bytes) : (streamLib σ).unary n!"++" (.dom (b :: r)) s = some (.dom r) := (rfl)
theorem stream_signed : (streamLib σ).signed = σ := (rfl)
theorem stream_skip : (streamLib σ).function [n!"skip"] s [] =
    (IStream.skipInt s.rest s.line.toNat s.col.toNat).map fun s => (.void, [], Cursor.of s) := (rfl)
end

attribute [cxx] stream_beg stream_end stream_line stream_col stream_setBeg stream_setLine stream_setCol stream_eq stream_deref
  stream_inc stream_signed stream_skip

/-- protogen.hh:178. -/
theorem eof_runs (n : Nat) (s : IStream) : eofFun.run (streamLib σ) n [] (Cursor.of s) = some (.bool s.eof, [], Cursor.of s) := by
  cxx [eofFun, Cursor.of]
  cases h : s.rest <;> simp [IStream.eof, h]

/-- protogen.hh:166-170. -/
theorem peek_runs (n : Nat) (s : IStream) :
    peekFun.run (streamLib σ) n [] (Cursor.of s) = some (.int .i32 (IT.ofByte σ s.peek), [], Cursor.of s) := by
  obtain ⟨rest, l, c⟩ := s
  cases rest with
  | nil => cxx [peekFun, Cursor.of, IStream.peek, ofByte_zero]
  | cons b r => cxx [peekFun, Cursor.of, IStream.peek, Nat.add_eq_zero_iff, Nat.succ_ne_zero, and_false]

/-- The loop of `skip`. -/
theorem skip_loop (m : Nat) (bs : Bytes) (l c n : Nat) (hl : l ≤ intMax) (hn : bs.length < n) :
    iterate (test (streamLib σ) (.binary n!"&&" (.unary n!"!" (.binary n!"==" (.name n!"beg_") (.name n!"end_")))
      (.binary n!"==" (.unary n!"*" (.name n!"beg_")) (.chr 10)))) (exec (streamLib σ) m skipFunBody1) some n
      ⟨[[], []], ⟨bs, l, c⟩⟩ = (IStream.skipInt bs l c).map fun s => (.next, ⟨[[], []], Cursor.of s⟩) := by
  induction bs generalizing l c n with
  | nil =>
    obtain ⟨n, rfl⟩ : ∃ k, n = k + 1 := ⟨n - 1, by simp at hn; omega⟩
    rw [iterate_done (by cxx []; rfl)]
    cxx [IStream.skipInt, Cursor.of]
  | cons b r ih =>
    obtain ⟨n, rfl⟩ : ∃ k, n = k + 1 := ⟨n - 1, by simp at hn; omega⟩
    by_cases hb : b = 10
    · subst hb
      have h1 : test (streamLib σ) (.binary n!"&&" (.unary n!"!" (.binary n!"==" (.name n!"beg_") (.name n!"end_")))
          (.binary n!"==" (.unary n!"*" (.name n!"beg_")) (.chr 10))) ⟨[[], []], ⟨10 :: r, l, c⟩⟩ =
          some (true, ⟨[[], []], ⟨10 :: r, l, c⟩⟩) := by
        cxx [Nat.add_eq_zero_iff, Nat.succ_ne_zero, and_false]
      by_cases hm : l < intMax
      · have hf : IT.fit .i32 ((l : Int) + 1) = some ((l : Int) + 1) := fit_i32 (by unfold intMax at hm; omega)
        rw [iterate_next h1 (by cxx [skipFunBody1, hf]; rfl) rfl]
        have h2 := ih (l + 1) 1 n (by omega) (by simp at hn; omega)
        cxx [IStream.skipInt, PG.incr, hm]
        exact h2
      · have hf : IT.fit .i32 ((l : Int) + 1) = none := fit_i32_none (by unfold intMax at hm; omega)
        rw [iterate_none h1 (by cxx [skipFunBody1, hf])]
        cxx [IStream.skipInt, PG.incr, hm]
    · rw [iterate_done (by cxx [Nat.add_eq_zero_iff, Nat.succ_ne_zero, and_false, hb]; rfl)]
      cxx [IStream.skipInt, Cursor.of, hb]

/-- protogen.hh:184-192: the lines are counted by an `int`. -/
theorem skip_runs (n : Nat) (s : IStream) (hl : s.line ≤ intMax) (hn : s.rest.length < n) :
    skipFun.run (streamLib σ) n [] (Cursor.of s) =
      (IStream.skipInt s.rest s.line s.col).map fun s => (.void, [], Cursor.of s) := by
  cxx [skipFun]
  have := skip_loop (σ := σ) n s.rest s.line s.col n hl hn
  unfold Cursor.of
  rw [this]
  cases IStream.skipInt s.rest s.line s.col <;> cxx [Cursor.of]

/-- protogen.hh:171-177. -/
theorem advance_runs (n : Nat) (s : IStream) :
    advanceFun.run (streamLib σ) n [] (Cursor.of s) = s.nextInt.map fun s => (.void, [], Cursor.of s) := by
  obtain ⟨rest, l, c⟩ := s
  cases rest with
  | nil => cxx [advanceFun, Cursor.of, IStream.nextInt]
  | cons b r =>
    by_cases hm : c < intMax
    · have hf : IT.fit .i32 ((c : Int) + 1) = some ((c : Int) + 1) := fit_i32 (by unfold intMax at hm; omega)
      have ht : ((c : Int) + 1).toNat = c + 1 := by omega
      cxx [advanceFun, Cursor.of, Nat.add_eq_zero_iff, Nat.succ_ne_zero, and_false, IStream.nextInt, PG.incr, hf, hm, ht,
        Int.toNat_natCast]
      cases IStream.skipInt r l (c + 1) <;> cxx [Cursor.of]
    · have hf : IT.fit .i32 ((c : Int) + 1) = none := fit_i32_none (by unfold intMax at hm; omega)
      cxx [advanceFun, Cursor.of, Nat.add_eq_zero_iff, Nat.succ_ne_zero, and_false, IStream.nextInt, PG.incr, hf, hm]

end PG.Cxx
