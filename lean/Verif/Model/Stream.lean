import Verif.Model.Bytes
/-
Model of `iterator_istream` (source/cpp/protogen.hh:157-193): a cursor over the input that silently drops '\n' while
counting lines.  The iterator pair `[beg_, end_)` is the list of the bytes that are still unread.
-/
namespace PG

/-- protogen.hh:181-183.  `line_`/`column_` are C++ `int`; here unbounded. -/
structure IStream where
  rest : Bytes
  line : Nat
  col  : Nat
deriving DecidableEq, Repr

namespace IStream

/-- protogen.hh:184-192 `skip()`: drop newlines at the cursor, counting them. -/
def skip : Bytes → Nat → Nat → IStream
  | [], l, c => ⟨[], l, c⟩
  | b :: bs, l, c => if b = 10 then skip bs (l + 1) 1 else ⟨b :: bs, l, c⟩

/-- protogen.hh:161-165, the constructor. -/
def open' (bs : Bytes) : IStream := skip bs 1 1

/-- protogen.hh:166-170 `peek()`: 0 at the end of the input. -/
def peek (s : IStream) : Byte :=
  match s.rest with
  | [] => 0
  | b :: _ => b

/-- protogen.hh:171-177 `next()`. -/
def next (s : IStream) : IStream :=
  match s.rest with
  | [] => s
  | _ :: bs => skip bs s.line (s.col + 1)

/-- protogen.hh:178 `eof()`. -/
def eof (s : IStream) : Bool := s.rest.isEmpty

theorem skip_length_le (bs : Bytes) (l c : Nat) : (skip bs l c).rest.length ≤ bs.length := by
  induction bs generalizing l c with
  | nil => simp [skip]
  | cons b bs ih =>
    unfold skip
    split
    · have := ih (l + 1) 1; simp; omega
    · simp

theorem next_length_le (s : IStream) : s.next.rest.length ≤ s.rest.length := by
  unfold next
  split
  · simp
  · rename_i b bs h
    have := skip_length_le bs s.line (s.col + 1)
    rw [h]; simp; omega

theorem next_length_lt (s : IStream) (h : s.eof = false) : s.next.rest.length < s.rest.length := by
  unfold next
  split
  · rename_i h'; simp [eof, h'] at h
  · rename_i b bs h'
    have := skip_length_le bs s.line (s.col + 1)
    rw [h']; simp; omega

end IStream
end PG
