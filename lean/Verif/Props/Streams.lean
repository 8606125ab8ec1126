import Verif.Model.Iter
import Verif.Props.Demo
/-
C24 (input sources) and C25 (output sinks).
-/
set_option autoImplicit false
namespace PG

/-! ### C24 -/

/-- The unread part of the block. -/
def MStream.abs (s : MStream) : IStream := ⟨s.mem.drop s.pos, s.line, s.col⟩

/-- The iterators are inside the block. -/
def MStream.Ok (s : MStream) : Prop := s.last = s.mem.length ∧ s.pos ≤ s.mem.length

theorem MStream.eof_abs {s : MStream} (h : s.Ok) : s.eof = s.abs.eof := by
  unfold MStream.eof MStream.abs IStream.eof
  simp only [h.1]
  by_cases hp : s.pos = s.mem.length
  · simp [hp]
  · have := h.2
    have h1 : (s.pos == s.mem.length) = false := by simpa using hp
    rw [h1]
    symm
    simp only [List.isEmpty_eq_false_iff, ne_eq, List.drop_eq_nil_iff]
    omega

theorem MStream.deref_in {s : MStream} (h : s.pos < s.mem.length) : s.deref = some s.mem[s.pos] := by
  unfold MStream.deref
  rw [if_neg (by simp; omega)]
  exact List.getElem?_eq_getElem h

theorem MStream.skip_abs (s : MStream) (h : s.Ok) : ∃ s', s.skip = some s' ∧ s'.Ok ∧ s'.mem = s.mem ∧
    s'.abs = IStream.skip (s.mem.drop s.pos) s.line s.col := by
  induction hk : s.mem.length - s.pos using Nat.strongRecOn generalizing s with
  | ind k ih =>
    unfold MStream.skip
    by_cases he : s.pos = s.mem.length
    · rw [if_pos (by simp [MStream.eof, h.1, he])]
      refine ⟨s, rfl, h, rfl, ?_⟩
      unfold MStream.abs
      rw [he, List.drop_length]; rfl
    · have hlt : s.pos < s.mem.length := by have := h.2; omega
      rw [if_neg (by simp [MStream.eof, h.1, he]), MStream.deref_in hlt]
      simp only
      have hinc : s.inc = { s with pos := s.pos + 1 } := by
        unfold MStream.inc; rw [if_neg (by simp; omega)]
      have hd : s.mem.drop s.pos = s.mem[s.pos] :: s.mem.drop (s.pos + 1) := List.drop_eq_getElem_cons hlt
      split
      · rename_i hb
        rw [hinc]
        obtain ⟨s', h1, h2, h3, h4⟩ := ih (s.mem.length - (s.pos + 1)) (by omega)
          { s with pos := s.pos + 1, line := s.line + 1, col := 1 } ⟨h.1, hlt⟩ rfl
        refine ⟨s', h1, h2, h3, ?_⟩
        rw [h4, hd]
        conv => rhs; unfold IStream.skip
        rw [if_pos hb.1]
      · rename_i hb
        refine ⟨s, rfl, h, rfl, ?_⟩
        rw [hd]
        unfold IStream.skip
        rw [if_neg (fun hh => hb ⟨hh, hlt⟩)]
        unfold MStream.abs
        rw [hd]

theorem MStream.peek_abs {s : MStream} (h : s.Ok) : s.peek = some s.abs.peek := by
  unfold MStream.peek
  by_cases he : s.pos = s.mem.length
  · rw [if_pos (by simp [MStream.eof, h.1, he])]
    unfold MStream.abs IStream.peek
    rw [he, List.drop_length]
  · have hlt : s.pos < s.mem.length := by have := h.2; omega
    rw [if_neg (by simp [MStream.eof, h.1, he]), MStream.deref_in hlt]
    unfold MStream.abs IStream.peek
    rw [List.drop_eq_getElem_cons hlt]

theorem MStream.next_abs (s : MStream) (h : s.Ok) : ∃ s', s.next = some s' ∧ s'.Ok ∧ s'.abs = s.abs.next := by
  unfold MStream.next
  by_cases he : s.pos = s.mem.length
  · rw [if_pos (by simp [MStream.eof, h.1, he])]
    refine ⟨s, rfl, h, ?_⟩
    unfold MStream.abs IStream.next
    rw [he, List.drop_length]
  · have hlt : s.pos < s.mem.length := by have := h.2; omega
    rw [if_neg (by simp [MStream.eof, h.1, he])]
    have hinc : s.inc = { s with pos := s.pos + 1 } := by
      unfold MStream.inc; rw [if_neg (by simp; omega)]
    rw [hinc]
    obtain ⟨s', h1, h2, _, h4⟩ := MStream.skip_abs { s with pos := s.pos + 1, col := s.col + 1 } ⟨h.1, hlt⟩
    refine ⟨s', h1, h2, ?_⟩
    rw [h4]
    unfold MStream.abs IStream.next
    rw [List.drop_eq_getElem_cons hlt]

/-- C24, one step at a time: over a block of memory (checked or unchecked iterators alike) the stream shows exactly what
the byte-list stream used everywhere else shows, and never reads outside the block. -/
theorem C24_stream_operations (s : MStream) (h : s.Ok) :
    s.peek = some s.abs.peek ∧ s.eof = s.abs.eof ∧ s.line = s.abs.line ∧ s.col = s.abs.col ∧
    ∃ s', s.next = some s' ∧ s'.Ok ∧ s'.abs = s.abs.next :=
  ⟨MStream.peek_abs h, MStream.eof_abs h, rfl, rfl, MStream.next_abs s h⟩

theorem runM_runI {σ : Type} (c : Client σ) (n : Nat) (x : σ) (s : MStream) (h : s.Ok) :
    ∃ s', c.runM n x s = some ((c.runI n x s.abs).1, s') ∧ s'.abs = (c.runI n x s.abs).2 := by
  induction n generalizing x s with
  | zero => exact ⟨s, rfl, rfl⟩
  | succ n ih =>
    unfold Client.runM Client.runI
    rw [MStream.peek_abs h]
    simp only
    rw [← MStream.eof_abs h]
    show ∃ s', (match (if (c.step x s.abs.peek s.eof s.line s.col).2 = true then s.next else some s) with
      | none => none
      | some s' => c.runM n (c.step x s.abs.peek s.eof s.line s.col).1 s') = _ ∧ _
    cases hb : (c.step x s.abs.peek s.eof s.line s.col).2 with
    | false =>
      simp only [Bool.false_eq_true, if_false]
      have e : (c.step x s.abs.peek s.eof s.abs.line s.abs.col).2 = false := hb
      simp only [e, Bool.false_eq_true, if_false]
      exact ih _ s h
    | true =>
      simp only [if_true]
      obtain ⟨s1, h1, h2, h3⟩ := MStream.next_abs s h
      have e : (c.step x s.abs.peek s.eof s.abs.line s.abs.col).2 = true := hb
      rw [h1]
      simp only [e, if_true]
      rw [← h3]
      exact ih _ s1 h2

/-- C24.  Whatever a client of the stream interface does (the tokenizer is one: it receives an `istream&`), for any
number of steps and any bytes, it ends in the same state over `(char*, length)`, `std::string`, `std::vector<char>` and
the sequence of bytes itself, and no byte outside the block is read. -/
theorem C24_sources_agree {σ : Type} (c : Client σ) (n : Nat) (x : σ) (guarded : Bool) (mem : Bytes) :
    ∃ s s', MStream.open' guarded mem = some s ∧
      c.runM n x s = some ((c.runI n x (IStream.open' mem)).1, s') ∧ s'.abs = (c.runI n x (IStream.open' mem)).2 := by
  obtain ⟨s, h1, h2, _, h4⟩ := MStream.skip_abs ⟨guarded, mem, 0, mem.length, 1, 1⟩ ⟨rfl, Nat.zero_le _⟩
  obtain ⟨s', h5, h6⟩ := runM_runI c n x s h2
  have h4 : s.abs = IStream.open' mem := h4
  rw [h4] at h5 h6
  exact ⟨s, s', h1, h5, h6⟩

/-- C24, the checked iterator by itself: wherever it has been moved to it never reads outside the block, gives a NUL
behind its end and never leaves it by more than the end. -/
theorem C24_checked_iterator (s : MStream) (h : s.guarded = true) :
    s.deref = some (s.mem[s.pos]?.getD 0) ∧ s.inc.guarded = true ∧ s.inc.mem = s.mem ∧
    s.inc.pos = if s.pos < s.mem.length then s.pos + 1 else s.pos := by
  unfold MStream.deref MStream.inc
  by_cases hp : s.mem.length ≤ s.pos
  · have : ¬ s.pos < s.mem.length := by omega
    simp [h, hp, this]
  · have hp' : s.pos < s.mem.length := by omega
    simp [h, hp, hp']

example : (MStream.mk true b!"ab" 2 3 1 1).deref = some 0 ∧ (MStream.mk true b!"ab" 2 3 1 1).inc.pos = 2 ∧
    (MStream.mk true b!"ab" 1 3 1 1).deref = some c!"b" := by decide +kernel

/-- Without the bounds of `last` the unchecked iterator would read outside: the block matters. -/
example : (MStream.mk false b!"ab" 2 3 1 1).peek = none ∧ (MStream.open' true []).bind MStream.peek = some 0 := by decide +kernel

example : (MStream.open' false b!"\n\n{").map (fun s => (s.pos, s.line)) = some (2, 3) := by decide +kernel

/-! ### C25 -/

/-- C25, the growing sinks: `std::string`, `std::vector<char>` and `std::ostream` receive the same bytes, behind what was
there, with the same return value. -/
theorem C25_growing_sinks (k : Sink) (t : Ty) (p : Option Params) (v : t.Den) (content : Bytes) :
    serializeTo k t p v content = serializeString t p v content := by
  unfold serializeTo serializeString
  simp only
  have h : ∀ (bs content : Bytes), bs.foldl k.put content = content ++ bs := by
    intro bs
    induction bs with
    | nil => intro c; simp
    | cons b bs ih => intro c; rw [List.foldl_cons, ih]; simp [Sink.put]
  rw [h]

/-- The buffer after sending `bs` with the cursor at index `i`. -/
theorem memPutAll_eq (bs buf : Bytes) (i : Nat) (hi : i ≤ buf.length) :
    ∃ buf' i', memPutAll (buf, ⟨i, buf.length⟩) bs = some (buf', ⟨i', buf.length⟩) ∧ buf'.length = buf.length ∧
      ∀ k, buf'[k]? = if i < k ∧ k ≤ i + bs.length ∧ k < buf.length then bs[k - i - 1]? else buf[k]? := by
  induction bs generalizing buf i with
  | nil =>
    refine ⟨buf, i, rfl, rfl, fun k => ?_⟩
    rw [if_neg]
    simp only [List.length_nil]; omega
  | cons b bs ih =>
    unfold memPutAll memPut
    simp only
    by_cases h1 : i < buf.length
    · have hinc : (MemIt.mk i buf.length).inc = ⟨i + 1, buf.length⟩ := by unfold MemIt.inc; rw [if_pos h1]
      rw [hinc]
      by_cases h2 : i + 1 < buf.length
      · have hd : (MemIt.mk (i + 1) buf.length).deref = some (i + 1) := by
          unfold MemIt.deref; rw [if_neg (by simp only; omega)]
        rw [hd]
        simp only
        rw [if_pos h2]
        have hl : (buf.set (i + 1) b).length = buf.length := List.length_set ..
        obtain ⟨buf', i', h3, h4, h5⟩ := ih (buf.set (i + 1) b) (i + 1) (by omega)
        rw [hl] at h3 h4 h5
        refine ⟨buf', i', h3, h4, fun k => ?_⟩
        rw [h5, List.getElem?_set]
        simp only [List.length_cons]
        by_cases hk : k = i + 1
        · subst hk
          rw [if_neg (by omega), if_pos (by omega), if_pos h2, if_pos (by omega)]
          simp
        · by_cases hk2 : i + 1 < k ∧ k ≤ i + 1 + bs.length ∧ k < buf.length
          · rw [if_pos hk2, if_pos (by omega)]
            rw [show k - i - 1 = (k - (i + 1) - 1) + 1 by omega, List.getElem?_cons_succ]
          · rw [if_neg hk2, if_neg (by omega), if_neg (by omega)]
      · have hd : (MemIt.mk (i + 1) buf.length).deref = none := by
          unfold MemIt.deref; rw [if_pos (by simp only; omega)]
        rw [hd]
        simp only
        obtain ⟨buf', i', h3, h4, h5⟩ := ih buf (i + 1) (by omega)
        refine ⟨buf', i', h3, h4, fun k => ?_⟩
        rw [h5]
        simp only [List.length_cons]
        rw [if_neg (by omega), if_neg (by omega)]
    · have hinc : (MemIt.mk i buf.length).inc = ⟨i, buf.length⟩ := by unfold MemIt.inc; rw [if_neg h1]
      have hd : (MemIt.mk i buf.length).deref = none := by
        unfold MemIt.deref; rw [if_pos (by simp only; omega)]
      rw [hinc, hd]
      simp only
      obtain ⟨buf', i', h3, h4, h5⟩ := ih buf i hi
      refine ⟨buf', i', h3, h4, fun k => ?_⟩
      rw [h5]
      simp only [List.length_cons]
      rw [if_neg (by omega), if_neg (by omega)]

/-- C25, bounded buffers.  Nothing outside the buffer is written, and the buffer is filled from its *second* byte on.
The full statement would say `buf'[k]? = text[k]?`. -/
theorem C25_bounded_buffer_partial (t : Ty) (p : Option Params) (v : t.Den) (buf : Bytes) :
    ∃ buf', serializeBuf t p v buf = some ((serialize t p v).ret, (serialize t p v).params, buf') ∧ buf'.length = buf.length ∧
      ∀ k, buf'[k]? = if 0 < k ∧ k ≤ (serialize t p v).out.length ∧ k < buf.length then (serialize t p v).out[k - 1]? else buf[k]? := by
  obtain ⟨buf', i', h1, h2, h3⟩ := memPutAll_eq (serialize t p v).out buf 0 (Nat.zero_le _)
  refine ⟨buf', ?_, h2, ?_⟩
  · unfold serializeBuf
    simp only [h1]
  · intro k
    rw [h3]
    simp only [Nat.zero_add, Nat.sub_zero]

/-- C25 is false for `(char*, length)`: the first byte of the buffer is never written and the text is shifted. -/
theorem C25_first_byte_never_written :
    serializeBuf Demo.address none (Demo.addr 7 b!"x") (List.replicate 40 c!"?") =
      some (true, none, b!"?{\"number\":7,\"street\":\"x\"}" ++ List.replicate 14 c!"?") ∧
    (serialize Demo.address none (Demo.addr 7 b!"x")).out = b!"{\"number\":7,\"street\":\"x\"}" := by decide +kernel

/-- ... and a text that does not fit is cut without any sign of it. -/
theorem C25_truncation_unreported :
    serializeBuf Demo.address (some {}) (Demo.addr 7 b!"x") (List.replicate 5 c!"?") = some (true, some {}, b!"?{\"nu") := by
  decide +kernel

end PG
