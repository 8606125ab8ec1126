import Verif.Spec.CxxTools
/-
The library used by `main` of template.cc.
-/
set_option autoImplicit false
namespace PG.Cxx.Tools
open PG.Gen

/-- The objects: the streams, `std::cout`, `std::endl`; a string that iterators point into; an iterator, with its position. -/
inductive StartVal
  | input
  | output
  | cout
  | endl
  | shared
  | place (k : Nat)

/-- What the files are, and what has happened: the text of the input file, if it can be opened; whether the output file can be
opened; what has been written to `std::cout`; the string that iterators point into; whether the output file has been opened, and
what has been written to it. -/
structure Started where
  text : Option Bytes
  writable : Bool
  told : Bytes := []
  shared : Bytes := []
  out : Option Bytes := none

/-- `isalpha` in the "C" locale; the argument has to be the value of an `unsigned char`, or `EOF` (ISO/IEC 9899:1999, 7.4). -/
def isAlpha? (c : Int) : Option Bool :=
  if c = -1 then some false
  else if 0 ≤ c ∧ c < 256 then some (decide ((65 ≤ c ∧ c ≤ 90) ∨ (97 ≤ c ∧ c ≤ 122)))
  else none

/-- The last place of a character. -/
def lastChar (c : Byte) (x : Bytes) : Option Nat := last [c] x

/-- The library for `main`. -/
def startLib (s : Bool) : ThrowLib StartVal Started where
  base := { Schema.plain s with
    constant := fun p =>
      if p = [n!"std", n!"string", n!"npos"] then some (.int .u64 npos)
      else if p = [n!"std", n!"cout"] then some (.dom .cout)
      else if p = [n!"std", n!"endl"] then some (.dom .endl)
      else none
    unary := fun o a st =>
      match a with
      | .dom (.place k) =>
        if o = n!"*" then (st.shared[k]?).map fun c => .int .char (IT.ofByte s c)
        else if o = n!"++" then (if k < st.shared.length then some (.dom (.place (k + 1))) else none)
        else none
      | _ => none
    binary := fun o a b st =>
      match a, b with
      | .dom .cout, .str x => if o = n!"<<" then some (.dom .cout, { st with told := st.told ++ x }) else none
      | .dom .cout, .dom .endl => if o = n!"<<" then some (.dom .cout, { st with told := st.told ++ b!"\n" }) else none
      | .dom (.place j), .dom (.place k) => if o = n!"!=" then some (.bool (decide (j ≠ k)), st) else none
      | _, _ => none
    init := fun n v _ =>
      match v with
      | some (.int .char c) => if n = n!"const char" then some (.int .char c) else none
      | some (.dom (.place k)) => if n = n!"auto" then some (.dom (.place k)) else none
      | _ => none }
  function := fun p st args =>
    match args with
    | [.str _] =>
      if p = [n!"std :: ifstream"] then .ok (.dom .input, [], st)
      else if p = [n!"std :: ofstream"] then
        .ok (.dom .output, [], if st.writable then { st with out := some [] } else st)
      else .undef
    | [.int .char c] => if p = [n!"isalpha"] then .of ((isAlpha? c).map fun b => (.bool b, [], st)) else .undef
    | [.str x, .str y] => if p = [n!"ends_with"] then .ok (.bool (endsWith x y), [], st) else .undef
    | [.dom .input, .dom .output, .dom .shared] =>
      match st.text, st.out with
      | some text, some [] =>
        if p = [n!"copy"] then .ok (.void, [], { st with out := some (copyText st.shared text) })
        else if p = [n!"process"] then .ok (.void, [], { st with out := some (processText st.shared text) })
        else .undef
      | _, _ => .undef
    | _ => .undef
  method := fun m st args =>
    match args with
    | [.dom .input] => if m = n!"good" then .ok (.bool st.text.isSome, [], st) else .undef
    | [.dom .output] => if m = n!"good" then .ok (.bool st.writable, [], st) else .undef
    | [.str x, .int .char c] => if m = n!"rfind" then .ok (.int .u64 (found (lastChar (IT.toByte c) x)), [], st) else .undef
    | [.str x, .int .u64 k] =>
      if m = n!"substr" ∧ 0 ≤ k ∧ k ≤ x.length then .ok (.str (x.drop k.toNat), [], st) else .undef
    | [.str x] =>
      if m = n!"begin" then .ok (.dom (.place 0), [some (.dom .shared)], { st with shared := x }) else .undef
    | [.dom .shared] => if m = n!"end" then .ok (.dom (.place st.shared.length), [], st) else .undef
    | _ => .undef
  caught := fun _ _ _ => none
  store := fun p v st =>
    match p, v with
    | .dom (.place k), .int .char c =>
      if k < st.shared.length then some { st with shared := st.shared.set k (IT.toByte c) } else none
    | _, _ => none

end PG.Cxx.Tools
