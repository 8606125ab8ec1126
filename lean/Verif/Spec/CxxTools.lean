import Verif.Spec.CxxProto
import Verif.Model.Template
/-
The library used by the functions of template.cc: streams and `std::string` (ISO/IEC 14882:2011, 21.4 and 27).
-/
set_option autoImplicit false
namespace PG.Cxx.Tools
open PG.Gen

/-! ### Strings -/

/-- The first place from which a text is found. -/
def first (needle : Bytes) : Bytes → Option Nat
  | [] => if needle.isPrefixOf [] then some 0 else none
  | c :: x => if needle.isPrefixOf (c :: x) then some 0 else (first needle x).map (· + 1)

/-- The last place from which a text is found. -/
def last (needle : Bytes) : Bytes → Option Nat
  | [] => if needle.isPrefixOf [] then some 0 else none
  | c :: x =>
    match last needle x with
    | some k => some (k + 1)
    | none => if needle.isPrefixOf (c :: x) then some 0 else none

/-- `std::string::npos`. -/
def npos : Int := 18446744073709551615

/-- What `find` and `rfind` return. -/
def found : Option Nat → Int
  | some k => k
  | none => npos

/-! ### Streams -/

/-- The input: the characters that have not been read, and the bits `eofbit` and `failbit`; what has been written to the output. -/
structure Streams where
  rest : Bytes
  eof : Bool
  fail : Bool
  out : Bytes

/-- A stream that has just been opened. -/
def Streams.open (text : Bytes) : Streams := ⟨text, false, false, []⟩

/-- `std::getline`: what the string is afterwards. -/
def Streams.getline (line : Bytes) (st : Streams) : Bytes × Streams :=
  if st.eof || st.fail then (line, { st with fail := true })
  else
    let l := st.rest.takeWhile (· ≠ 10)
    match st.rest.dropWhile (· ≠ 10) with
    | [] => (l, { st with rest := [], eof := true, fail := l.isEmpty })
    | _ :: r => (l, { st with rest := r })

/-- The two streams. -/
inductive ToolVal
  | input
  | output

/-- The library for `copy`, `process` and `ends_with`. -/
def toolLib (s : Bool) : ThrowLib ToolVal Streams where
  base := { Schema.plain s with
    constant := fun p =>
      if p = [n!"std", n!"string", n!"npos"] then some (.int .u64 npos)
      else if p = [n!"PROTOGEN_VERSION_NAMING"] then some (.str namingText)
      else if p = [n!"true"] then some (.bool true)
      else if p = [n!"false"] then some (.bool false)
      else none
    binary := fun o a b st =>
      if o = n!"<<" then
        match a, b with
        | .dom .output, .str x => some (.dom .output, { st with out := st.out ++ x })
        | .dom .output, .int .char c => some (.dom .output, { st with out := st.out ++ [IT.toByte c] })
        | _, _ => none
      else none }
  function := fun p st args =>
    match args with
    | [.dom .input, .str line] =>
      if p = [n!"std", n!"getline"] then
        .ok (.dom .input, [none, some (.str (st.getline line).1)], (st.getline line).2)
      else .undef
    | _ => .undef
  method := fun m st args =>
    match args with
    | [.dom .input] =>
      if m = n!"eof" then .ok (.bool st.eof, [], st)
      else if m = n!"good" then .ok (.bool (!st.eof && !st.fail), [], st)
      else .undef
    | [.str x] =>
      if m = n!"begin" then .ok (.iter (x.map fun c => .int .char (IT.ofByte s c)), [], st)
      else if m = n!"end" then .ok (.iter [], [], st)
      else .undef
    | [.str x, .str y] =>
      if m = n!"find" then .ok (.int .u64 (found (first y x)), [], st)
      else if m = n!"rfind" then .ok (.int .u64 (found (last y x)), [], st)
      else .undef
    | [.str x, .int _ k] =>
      if m = n!"substr" ∧ 0 ≤ k ∧ k ≤ x.length then .ok (.str (x.drop k.toNat), [], st) else .undef
    | [.str x, .int _ k, .int _ l, .str y] =>
      if m = n!"replace" ∧ 0 ≤ k ∧ k ≤ x.length ∧ 0 ≤ l then
        .ok (.void, [some (.str (x.take k.toNat ++ y ++ x.drop (k.toNat + l.toNat)))], st)
      else .undef
    | _ => .undef
  caught := fun _ _ _ => none

end PG.Cxx.Tools
