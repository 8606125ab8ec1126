import Verif.Model.Iter
/-
Reading from a `std::istream` (source/cpp/protogen.hh:637-647): `std::istream_iterator<char>` under `iterator_istream`, with
what is left in the stream for the next reader; and writing to a `std::ostream` that may fail (protogen.hh:677-683).
-/
set_option autoImplicit false
namespace PG

/-- A `std::istream` (C++ library): the characters not yet extracted, whether an extraction has failed (`failbit`; from then
on all extractions fail), and the flag `skipws`. -/
structure StdIn where
  rest : Bytes
  fail : Bool
  skipws : Bool
deriving DecidableEq, Repr

/-- `in >> ch` for a `char` (C++ library): white space is skipped first if `skipws` is set; at the end `eofbit` and `failbit`
are set. -/
def StdIn.get (s : StdIn) : Option Byte × StdIn :=
  if s.fail then (none, s)
  else
    match (if s.skipws then s.rest.dropWhile isSpace else s.rest) with
    | [] => (none, { s with rest := [], fail := true })
    | b :: t => (some b, { s with rest := t })

/-- protogen.hh:157-193 `iterator_istream<std::istream_iterator<char>>`.  An `istream_iterator` holds the character it has
extracted last; `none` is the end-of-stream iterator, to which `end_` (a default constructed one) is equal. -/
structure SStream where
  src : StdIn
  cur : Option Byte
  line : Nat
  col : Nat
deriving DecidableEq, Repr

namespace SStream

/-- `++beg_`: extract the next character (C++ library). -/
def inc (s : SStream) : SStream := { s with src := s.src.get.2, cur := s.src.get.1 }

/-- protogen.hh:178 `eof()`. -/
def eof (s : SStream) : Bool := s.cur.isNone

/-- Characters still to come, for termination. -/
def m (s : SStream) : Nat := s.src.rest.length + (if s.cur.isSome then 1 else 0)

theorem inc_m (s : SStream) (h : s.cur.isSome = true) : s.inc.m < s.m := by
  have hl : (s.src.rest.dropWhile isSpace).length ≤ s.src.rest.length := (List.dropWhile_sublist _).length_le
  unfold m inc StdIn.get
  rw [if_pos h]
  by_cases hf : s.src.fail = true
  · rw [if_pos hf]; simp
  · rw [if_neg hf]
    cases hs : s.src.skipws with
    | true =>
      simp only [if_true]
      cases hd : s.src.rest.dropWhile isSpace with
      | nil => simp
      | cons b t => rw [hd] at hl; simp at hl ⊢; omega
    | false =>
      simp only [Bool.false_eq_true, if_false]
      cases hd : s.src.rest with
      | nil => simp
      | cons b t => simp

/-- protogen.hh:184-192 `skip()`. -/
def skip (s : SStream) : SStream :=
  if _h : s.cur = some 10 then skip { s.inc with line := s.line + 1, col := 1 } else s
termination_by s.m
decreasing_by exact inc_m s (by rw [_h]; rfl)

/-- protogen.hh:641-643, 161-165: constructing the iterator extracts the first character. -/
def open' (src : StdIn) : SStream := skip (inc ⟨src, none, 1, 1⟩)

/-- protogen.hh:166-170 `peek()`. -/
def peek (s : SStream) : Byte := s.cur.getD 0

/-- protogen.hh:171-177 `next()`. -/
def next (s : SStream) : SStream := if s.eof then s else skip { s.inc with col := s.col + 1 }

end SStream

/-- A client of the stream interface running on a `std::istream` (see `Client`). -/
def Client.runS {σ : Type} (c : Client σ) : Nat → σ → SStream → σ × SStream
  | 0, x, s => (x, s)
  | n + 1, x, s =>
    let r := c.step x s.peek s.eof s.line s.col
    c.runS n r.1 (if r.2 then s.next else s)

/-- The characters a `std::istream` delivers to the tokenizer: none if it has failed before. -/
def StdIn.avail (src : StdIn) : Bytes := if src.fail then [] else src.rest

/-- The stream after a reader that has arrived at `i` (proved to be what the iterators do, `C24_istream`): the character
under the cursor is extracted already; trying to extract one behind the last sets `failbit`.  Lines 639-640 and 645 restore
the flag `skipws`. -/
def StdIn.after (src : StdIn) (i : IStream) : StdIn :=
  if src.fail then src else { src with rest := i.rest.tail, fail := i.rest.isEmpty }

/-- protogen.hh:637-647 `deserialize(std::istream&)`: the result and the stream afterwards. -/
def deserializeStd (t : Ty) (src : StdIn) (params : Option Params) (v : t.Den) : Option (DRes t.Den × StdIn) :=
  let r := t.read (fuelFor src.avail) (Tz.open' (IStream.open' src.avail) (ctxParams params).err) v
  match r.1 with
  | .fuel => none
  | rc => some ({ ret := rc = .ok, params := paramsAfter params (rc = .ok) r.2.1.err, obj := r.2.2 }, src.after r.2.1.inp)

/-- A `std::ostream` (C++ library): what has arrived at the device, how many more bytes the device takes (`none`: any number),
whether writing has failed (`badbit`; from then on nothing is written), and the format state used by `operator<<(char)`: field
width, fill character, `std::left`. -/
structure StdOut where
  content : Bytes
  room : Option Nat := none
  bad : Bool := false
  width : Nat := 0
  fill : Byte := 32
  left : Bool := false
deriving DecidableEq, Repr

/-- Bytes sent to the device.  (A buffer in between only delays what happens.) -/
def StdOut.write (s : StdOut) (bs : Bytes) : StdOut :=
  match s.room with
  | none => { s with content := s.content ++ bs }
  | some n => { s with content := s.content ++ bs.take n, room := some (n - bs.length), bad := decide (n < bs.length) }

/-- The characters for one `char` with the given field width. -/
def StdOut.pad (s : StdOut) (b : Byte) : Bytes :=
  let p := List.replicate (s.width - 1) s.fill
  if s.left then b :: p else p ++ [b]

/-- `out << ch` (C++ library), which is what assigning to an `ostream_iterator<char>` does: the field width is used once. -/
def StdOut.put (s : StdOut) (b : Byte) : StdOut :=
  if s.bad then s else { s.write (s.pad b) with width := 0 }

/-- protogen.hh:677-683 `serialize(std::ostream&)`: return value, parameters and the stream afterwards. -/
def serializeStd (t : Ty) (params : Option Params) (v : t.Den) (s : StdOut) : Bool × Option Params × StdOut :=
  let r := serialize t params v
  (r.ret, r.params, r.out.foldl StdOut.put s)

end PG
