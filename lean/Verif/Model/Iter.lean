import Verif.Model.Entity
/-
`iterator_istream` over a memory block (source/cpp/protogen.hh:157-218) with explicit indices, so that reads outside the
block are visible, and the output sinks (protogen.hh:121-145, 669-698).
-/
set_option autoImplicit false
namespace PG

/-- protogen.hh:157-193 `iterator_istream<I>` for iterators into a block of memory.  `mem` is the block handed to
`deserialize`; `pos` is the index of `beg_`, `last` that of `end_`.  `guarded` distinguishes `mem_const_iterator<char>`
(protogen.hh:195-218), which checks its bounds, from the iterators of `std::string` and `std::vector<char>`. -/
structure MStream where
  guarded : Bool
  mem  : Bytes
  pos  : Nat
  last : Nat
  line : Nat
  col  : Nat
deriving DecidableEq, Repr

namespace MStream

/-- `*beg_`: for `mem_const_iterator` protogen.hh:207-211; `none` is a read outside the block. -/
def deref (s : MStream) : Option Byte :=
  if s.guarded && decide (s.mem.length ≤ s.pos) then some 0 else s.mem[s.pos]?

/-- `++beg_`: for `mem_const_iterator` protogen.hh:202-206. -/
def inc (s : MStream) : MStream :=
  if s.guarded && decide (s.mem.length ≤ s.pos) then s else { s with pos := s.pos + 1 }

/-- protogen.hh:178 `eof()`. -/
def eof (s : MStream) : Bool := s.pos == s.last

/-- protogen.hh:184-192 `skip()`; `none` is a read outside the block.  The second conjunct follows from the first (a
guarded `deref` at the end gives 0); it is there for termination. -/
def skip (s : MStream) : Option MStream :=
  if s.eof then some s
  else
    match s.deref with
    | none => none
    | some b => if _h : b = 10 ∧ s.pos < s.mem.length then skip { s.inc with line := s.line + 1, col := 1 } else some s
termination_by s.mem.length - s.pos
decreasing_by
  unfold inc
  rw [if_neg (by simp; omega)]
  simp only
  omega

/-- protogen.hh:161-165, with the iterators of 649-667. -/
def open' (guarded : Bool) (mem : Bytes) : Option MStream := skip ⟨guarded, mem, 0, mem.length, 1, 1⟩

/-- protogen.hh:166-170 `peek()`. -/
def peek (s : MStream) : Option Byte := if s.eof then some 0 else s.deref

/-- protogen.hh:171-177 `next()`. -/
def next (s : MStream) : Option MStream := if s.eof then some s else skip { s.inc with col := s.col + 1 }

end MStream

/-- A user of the abstract `istream` interface (protogen.hh:147-155): in each step it looks at `peek()`, `eof()`,
`line()` and `column()` and decides whether to call `next()`. -/
structure Client (σ : Type) where
  step : σ → Byte → Bool → Nat → Nat → σ × Bool

/-- A client running on the byte-list stream. -/
def Client.runI {σ : Type} (c : Client σ) : Nat → σ → IStream → σ × IStream
  | 0, x, s => (x, s)
  | n + 1, x, s =>
    let r := c.step x s.peek s.eof s.line s.col
    c.runI n r.1 (if r.2 then s.next else s)

/-- A client running on a memory block; `none`: something outside the block was read. -/
def Client.runM {σ : Type} (c : Client σ) : Nat → σ → MStream → Option (σ × MStream)
  | 0, x, s => some (x, s)
  | n + 1, x, s =>
    match s.peek with
    | none => none
    | some b =>
      let r := c.step x b s.eof s.line s.col
      match (if r.2 then s.next else some s) with
      | none => none
      | some s' => c.runM n r.1 s'

/-- protogen.hh:669-698: where `serialize` can send its bytes. -/
inductive Sink
  | string | vector | ostream
deriving DecidableEq, Repr

/-- One byte sent by `iterator_ostream` (`*++beg_ = value`, protogen.hh:127-131) to a `back_insert_iterator` or an
`ostream_iterator`: `++` and `*` return the iterator itself, the assignment appends. -/
def Sink.put (_ : Sink) (content : Bytes) (b : Byte) : Bytes := content ++ [b]

/-- protogen.hh:669-683, 692-698 `serialize` to a growing sink. -/
def serializeTo (k : Sink) (t : Ty) (params : Option Params) (v : t.Den) (content : Bytes) : Bool × Option Params × Bytes :=
  let r := serialize t params v
  (r.ret, r.params, r.out.foldl k.put content)

end PG
