import Verif.Spec.CxxLib
import Verif.Model.Entity
import Verif.Model.Counter
/-
The libraries for the small classes of protogen.hh: `ErrorInfo` (54-86), `iterator_ostream` (117-145), the constructor of
`iterator_istream` (161-165), `mem_const_iterator` (195-219), `mem_iterator` (221-249), `token` (261-287) and the constructor of
`tokenizer` (292-295).
-/
set_option autoImplicit false
namespace PG.Cxx

/-! ### `ErrorInfo` and `token` -/

/-- protogen.hh:56-58 and 263-265: an enumerator, a text and a position.  `none`: not initialized. -/
structure Quad where
  num : Option Int
  text : Bytes
  line : Option Int
  col : Option Int
deriving DecidableEq

/-- The members of an `ErrorInfo`. -/
def Quad.ofErr (e : ErrInfo) : Quad := ⟨some e.code.number, e.code.message, some e.line, some e.col⟩

/-- The members of a token. -/
def Quad.ofTok (t : Token) : Quad := ⟨some (tidNumber t.id), t.value, some t.line, some t.col⟩

/-- The value of a member that may not be initialized. -/
def maybe {D : Type} : Option Int → Val D
  | some k => .int .i32 k
  | none => .undef (some .i32)

/-- A member; the first two have different names in the two classes. -/
def Quad.get (num text : Name) (q : Quad) (n : Name) : Option (Val Quad) :=
  if n = num then some (maybe q.num)
  else if n = text then some (.str q.text)
  else if n = n!"line" then some (maybe q.line)
  else if n = n!"column" then some (maybe q.col)
  else none

/-- After an assignment to a member. -/
def Quad.put (num text : Name) (q : Quad) (n : Name) (v : Val Quad) : Option Quad :=
  match v with
  | .int .i32 k =>
    if n = num then some { q with num := some k }
    else if n = n!"line" then some { q with line := some k }
    else if n = n!"column" then some { q with col := some k }
    else none
  | .str x => if n = text then some { q with text := x } else none
  | _ => none

/-- All members are initialized. -/
def Quad.whole (q : Quad) : Bool := q.num.isSome && q.line.isSome && q.col.isSome

/-- The state is the object.  The member `swap` of a token has a meaning if all members are initialized (`tokSwap_none`,
Proofs/CxxObject). -/
def quadLib (σ : Bool) (num text : Name) : Lib Quad Quad where
  signed := σ
  constant := constants
  get := fun n s => if n = n!"this" then some (.dom s) else s.get num text n
  set := fun n v s =>
    match v with
    | .dom q => if n = n!"this" then some q else none
    | v => s.put num text n v
  member := fun v n _ =>
    match v with
    | .dom q => q.get num text n
    | _ => none
  update := fun v n x =>
    match v with
    | .dom q =>
      match x with
      | .dom r => if n = n!"*" then some (.dom r) else none
      | x => (q.put num text n x).map .dom
    | _ => none
  function := fun p s args =>
    match args with
    | [u, v] => if p = [n!"std", n!"swap"] then some (.void, [some v, some u], s) else none
    | [.dom q] => if p = [n!"swap"] ∧ s.whole = true ∧ q.whole = true then some (.void, [some (.dom s)], q) else none
    | _ => none
  inst := fun _ _ _ _ => none
  statik := fun _ _ _ _ => none
  method := fun f s args =>
    match args with
    | [.str x, .str y] => if f = n!"swap" then some (.void, [some (.str y), some (.str x)], s) else none
    | _ => none
  unary := fun o v _ =>
    match v with
    | .dom q => if o = n!"*" then some (.dom q) else none
    | _ => none
  binary := fun _ _ _ _ => none
  assign := fun a b =>
    match a, b with
    | .dom _, .dom q => some (.dom q)
    | _, _ => none
  init := fun _ _ _ => none
  cast := fun _ _ => none
  size := fun _ => none

/-! ### Iterators over memory -/

/-- Values: a pointer into the block, an iterator, what `*` refers to (an element of the block, or the member `empty`). -/
inductive Spot
  | ptr (i : Nat)
  | it (m : MemIt)
  | cell (o : Option Nat)

/-- The state is the iterator. -/
def memLib (σ : Bool) : Lib Spot MemIt where
  signed := σ
  constant := constants
  get := fun n s =>
    if n = n!"this" then some (.dom (.it s))
    else if n = n!"cursor" then some (.dom (.ptr s.cursor))
    else if n = n!"end" then some (.dom (.ptr s.endp))
    else if n = n!"empty" then some (.dom (.cell none))
    else none
  set := fun n v s =>
    match v with
    | .dom (.it m) => if n = n!"this" then some m else none
    | .dom (.ptr i) =>
      if n = n!"cursor" then some { s with cursor := i }
      else if n = n!"end" then some { s with endp := i }
      else none
    | _ => none
  member := fun v n _ =>
    match v with
    | .dom (.it m) =>
      if n = n!"cursor" then some (.dom (.ptr m.cursor))
      else if n = n!"end" then some (.dom (.ptr m.endp))
      else if n = n!"empty" then some (.undef (some .char))
      else none
    | _ => none
  update := fun v n x =>
    match v, x with
    | .dom (.it m), .dom (.ptr i) =>
      if n = n!"cursor" then some (.dom (.it { m with cursor := i }))
      else if n = n!"end" then some (.dom (.it { m with endp := i }))
      else none
    | .dom (.it m), .int .char 0 => if n = n!"empty" then some (.dom (.it m)) else none
    | _, _ => none
  function := fun _ _ _ => none
  inst := fun _ _ _ _ => none
  statik := fun _ _ _ _ => none
  method := fun _ _ _ => none
  unary := fun o v _ =>
    match v with
    | .dom (.ptr i) =>
      if o = n!"*" then some (.dom (.cell (some i)))
      else if o = n!"++" then some (.dom (.ptr (i + 1)))
      else none
    | .dom (.it m) => if o = n!"*" then some (.dom (.it m)) else none
    | _ => none
  binary := fun o a b s =>
    match a, b with
    | .dom (.ptr i), .dom (.ptr j) =>
      if o = n!"<" then some (.bool (decide (i < j)), s)
      else if o = n!">=" then some (.bool (decide (j ≤ i)), s)
      else if o = n!"==" then some (.bool (decide (i = j)), s)
      else none
    | .dom (.ptr i), .int .u64 k => if o = n!"+" then some (.dom (.ptr (i + k.toNat)), s) else none
    | _, _ => none
  assign := fun a b =>
    match a, b with
    | .dom (.ptr _), .dom (.ptr i) => some (.dom (.ptr i))
    | _, _ => none
  init := fun _ _ _ => none
  cast := fun _ _ => none
  size := fun _ => none

/-! ### `iterator_ostream` -/

/-- The iterators it is used with: `std::back_insert_iterator` and `std::ostream_iterator` (with what they have appended to) and
`mem_iterator` (with its block). -/
inductive Sink
  | back (content : Bytes)
  | mem (block : Bytes) (it : MemIt)
deriving DecidableEq

/-- `++`: nothing for the iterators of the standard library. -/
def Sink.inc : Sink → Sink
  | .back x => .back x
  | .mem x it => .mem x it.inc

/-- Assignment to `*`: appended, or stored where the iterator is; what is stored in `empty` is lost, what is stored outside of the
block has no meaning. -/
def Sink.store (b : Byte) : Sink → Option Sink
  | .back x => some (.back (x ++ [b]))
  | .mem x it =>
    match it.deref with
    | none => some (.mem x it)
    | some i => if i < x.length then some (.mem (x.set i b) it) else none

/-- One character, as Model/Entity has it. -/
def Sink.send (b : Byte) : Sink → Option Sink
  | .back x => some (.back (x ++ [b]))
  | .mem x it => (memPut (x, it) b).map fun r => .mem r.1 r.2

/-- Several characters. -/
def Sink.sendAll : Sink → Bytes → Option Sink
  | .back x, bs => some (.back (x ++ bs))
  | .mem x it, bs => (memPutAll (x, it) bs).map fun r => .mem r.1 r.2

/-- Values: the iterator, the stream. -/
inductive Tap
  | it (s : Sink)
  | self

/-- The state is the member `beg_`, the only one of the stream. -/
def sinkLib (σ : Bool) : Lib Tap Sink where
  signed := σ
  constant := constants
  get := fun n s =>
    if n = n!"this" then some (.dom .self)
    else if n = n!"beg_" then some (.dom (.it s))
    else none
  set := fun n v _ =>
    match v with
    | .dom (.it x) => if n = n!"beg_" ∨ n = n!"this" then some x else none
    | _ => none
  member := fun v n _ =>
    match v with
    | .dom .self => if n = n!"beg_" then some (.undef none) else none
    | _ => none
  update := fun v n x =>
    match v, x with
    | .dom .self, .dom (.it t) => if n = n!"beg_" then some (.dom (.it t)) else none
    | .dom (.it s), .int .char k => if n = n!"*" then (s.store (IT.toByte k)).map fun s => .dom (.it s) else none
    | _, _ => none
  function := fun p s args =>
    match args with
    | [.int _ k] => if p = [n!"std", n!"to_string"] then some (.str (decInt k), [], s) else none
    | _ => none
  inst := fun _ _ _ _ => none
  statik := fun _ _ _ _ => none
  method := fun f s args =>
    match args with
    | [.str x] =>
      if f = n!"begin" then some (.iter (x.map fun b => .int .char (IT.ofByte σ b)), [], s)
      else if f = n!"end" then some (.iter [], [], s)
      else none
    | [.dom .self, .str x] => if f = n!"operator<<" then (s.sendAll x).map fun t => (.dom .self, [], t) else none
    | _ => none
  unary := fun o v _ =>
    match v with
    | .dom (.it s) =>
      if o = n!"++" then some (.dom (.it s.inc))
      else if o = n!"*" then some (.undef (some .char))
      else none
    | .dom .self => if o = n!"*" then some (.dom .self) else none
    | _ => none
  binary := fun o a b s =>
    match a, b with
    | .dom .self, .ptr x => if o = n!"<<" then (s.sendAll (x.takeWhile (· ≠ 0))).map fun t => (.dom .self, t) else none
    | _, _ => none
  assign := fun _ _ => none
  init := fun _ _ _ => none
  cast := fun t v =>
    match v with
    | .ptr x => if t = n!"const char *" then some (.ptr x) else none
    | _ => none
  size := fun _ => none

/-! ### The constructors of `iterator_istream` and `tokenizer` -/

/-- Values: an iterator (the characters from it on), the stream. -/
inductive Start
  | it (rest : Bytes)
  | obj (c : Option Bytes × Option Bytes × Option Int × Option Int)

/-- The members `beg_`, `end_`, `line_` and `column_` as far as they are initialized. -/
abbrev Opening := Option Bytes × Option Bytes × Option Int × Option Int

/-- The state is the stream; `skip` is that of C86 and can be called when all members are initialized. -/
def openLib (σ : Bool) : Lib Start Opening where
  signed := σ
  constant := constants
  get := fun n s => if n = n!"this" then some (.dom (.obj s)) else none
  set := fun n v _ =>
    match v with
    | .dom (.obj s) => if n = n!"this" then some s else none
    | _ => none
  member := fun v n _ =>
    match v with
    | .dom (.obj _) =>
      if n = n!"beg_" ∨ n = n!"end_" then some (.undef none)
      else if n = n!"line_" ∨ n = n!"column_" then some (.undef (some .i32))
      else none
    | _ => none
  update := fun v n x =>
    match v, x with
    | .dom (.obj s), .dom (.it r) =>
      if n = n!"beg_" then some (.dom (.obj (some r, s.2)))
      else if n = n!"end_" then some (.dom (.obj (s.1, some r, s.2.2)))
      else none
    | .dom (.obj s), .int .i32 k =>
      if n = n!"line_" then some (.dom (.obj (s.1, s.2.1, some k, s.2.2.2)))
      else if n = n!"column_" then some (.dom (.obj (s.1, s.2.1, s.2.2.1, some k)))
      else none
    | _, _ => none
  function := fun p s args =>
    match args, s with
    | [], (some r, some [], some l, some c) =>
      if p = [n!"skip"] then
        (IStream.skipInt r l.toNat c.toNat).map fun s => (.void, [], (some s.rest, some [], some (s.line : Int), some (s.col : Int)))
      else none
    | _, _ => none
  inst := fun _ _ _ _ => none
  statik := fun _ _ _ _ => none
  method := fun _ _ _ => none
  unary := fun _ _ _ => none
  binary := fun _ _ _ _ => none
  assign := fun _ _ => none
  init := fun _ _ _ => none
  cast := fun _ _ => none
  size := fun _ => none

/-- The members `input_` and `error_` of the tokenizer, which are references, as far as they are initialized, and `current_`. -/
structure Lexing where
  inp : Option IStream
  err : Option ErrInfo
  cur : Token

/-- Values. -/
inductive Feed
  | source (s : IStream)
  | params (q : Params)
  | err (e : ErrInfo)
  | tok (t : Token)
  | obj (l : Lexing)

/-- protogen.hh:512-520 `parse_keyword()`, which is not called: the characters of the text are the next of the input; `none` is the
overflow of a counter. -/
def keyword (i : IStream) : Bytes → Option (Bool × IStream)
  | [] => some (true, i)
  | c :: cs => if i.peek = c then (i.nextInt).bind fun i => keyword i cs else some (false, i)

/-- The state is the tokenizer; `next` is that of C86 and can be called when the references are initialized. -/
def lexLib (σ : Bool) : Lib Feed Lexing where
  signed := σ
  constant := constants
  get := fun n s =>
    if n = n!"this" then some (.dom (.obj s))
    else if n = n!"input_" then s.inp.map fun i => .dom (.source i)
    else if n = n!"error_" then s.err.map fun e => .dom (.err e)
    else none
  set := fun n v s =>
    match v with
    | .dom (.obj s) => if n = n!"this" then some s else none
    | .dom (.err e) => if n = n!"error_" then some { s with err := some e } else none
    | _ => none
  member := fun v n _ =>
    match v with
    | .dom (.obj _) => if n = n!"input_" ∨ n = n!"error_" then some (.undef none) else none
    | .dom (.params q) => if n = n!"error" then some (.dom (.err q.err)) else none
    | _ => none
  update := fun v n x =>
    match v, x with
    | .dom (.obj s), .dom (.source i) => if n = n!"input_" then some (.dom (.obj { s with inp := some i })) else none
    | .dom (.obj s), .dom (.err e) => if n = n!"error_" then some (.dom (.obj { s with err := some e })) else none
    | _, _ => none
  function := fun p s args =>
    match args, s.inp, s.err with
    | [], some i, some e =>
      if p = [n!"next"] then
        let t := Tz.next ⟨s.cur, i, e⟩
        some (.dom (.tok t.cur), [], ⟨some t.inp, some t.err, t.cur⟩)
      else none
    | _, _, _ => none
  inst := fun _ _ _ _ => none
  statik := fun _ _ _ _ => none
  method := fun f s args =>
    match args with
    | [.dom (.source i)] =>
      if f = n!"line" then some (.int .i32 i.line, [], s)
      else if f = n!"column" then some (.int .i32 i.col, [], s)
      else if f = n!"peek" then some (.int .i32 (IT.ofByte σ i.peek), [], s)
      else if f = n!"next" then i.nextInt.map fun i => (.void, [], { s with inp := some i })
      else none
    | [.str x] =>
      if f = n!"begin" then some (.iter (x.map fun b => .int .char (IT.ofByte σ b)), [], s)
      else if f = n!"end" then some (.iter [], [], s)
      else none
    | _ => none
  unary := fun _ _ _ => none
  binary := fun _ _ _ _ => none
  assign := fun a b =>
    match a, b with
    | .dom (.err _), .dom (.err e) => some (.dom (.err e))
    | _, _ => none
  init := fun _ _ _ => none
  cast := fun _ _ => none
  size := fun _ => none

end PG.Cxx
