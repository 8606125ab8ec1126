import Verif.Model.Stream
import Verif.Model.Proto
/-
The counters of the two input streams as what they are, `int`s: the same functions as in `Model/Stream.lean` and
`Model/Proto.lean`, with the additional outcome `none` where an increment leaves the range of `int` (undefined behaviour).
-/
set_option autoImplicit false
namespace PG

/-- The largest `int` (32 bits on the platforms of the build). -/
def intMax : Nat := 2 ^ 31 - 1

/-- The increments at protogen.hh:175, 188 and proto3.cc:207, 218. -/
def incr (n : Nat) : Option Nat := if n < intMax then some (n + 1) else none

namespace IStream

/-- protogen.hh:184-192 `skip()`. -/
def skipInt : Bytes → Nat → Nat → Option IStream
  | [], l, c => some ⟨[], l, c⟩
  | b :: bs, l, c => if b = 10 then (incr l).bind fun l => skipInt bs l 1 else some ⟨b :: bs, l, c⟩

/-- protogen.hh:161-165, the constructor. -/
def openInt (bs : Bytes) : Option IStream := skipInt bs 1 1

/-- protogen.hh:171-177 `next()`. -/
def nextInt (s : IStream) : Option IStream :=
  match s.rest with
  | [] => some s
  | _ :: bs => (incr s.col).bind fun c => skipInt bs s.line c

end IStream

namespace Proto
namespace In

/-- proto3.cc:205-209. -/
def newlineInt (s : In) : Option In :=
  if s.last = 10 then (incr s.line).map fun l => { s with line := l, col := 0 } else some s

/-- proto3.cc:198-220 `get`. -/
def getInt (s : In) : Option (Int × In) :=
  if s.ungot then some (s.last, { s with ungot := false })
  else
    s.newlineInt.bind fun s =>
      match s.rest with
      | [] => some (-1, { s with last := -2 })
      | b :: r => (incr s.col).map fun c => ((b.toNat : Int), { s with rest := r, last := b.toNat, col := c })

end In
end Proto
end PG
