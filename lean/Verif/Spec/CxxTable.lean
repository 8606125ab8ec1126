import Verif.Spec.ProtoText
import Verif.Spec.GenText
import Verif.Spec.CxxProto
import Verif.Spec.CxxGen
import Verif.Model.SourceHead
import Verif.Model.Debug
/-
Tables of the sources: initialisers of arrays, and macros that are numbers or strings, read as C++.
-/
set_option autoImplicit false
namespace PG.Cxx.Table
open PG.Gen PG.Cpp PG.Cxx

/-- An element of an initialiser. -/
inductive Cell
  | int (k : Nat)
  | str (x : Bytes)
  | name (path : List Name)
deriving DecidableEq

/-- `nullptr`. -/
def Cell.null : Cell := .name [n!"nullptr"]

/-- One element. -/
def cell : Reader Cell := fun ts =>
  match primary (fun _ => none) ts with
  | some (.int _ k, us) => some (.int k, us)
  | some (.str x, us) => some (.str x, us)
  | some (.name x, us) => some (.name [x], us)
  | some (.qual p, us) => some (.name p, us)
  | _ => none

/-- Elements up to the closing brace, with commas between them and perhaps one after the last. -/
def upTo {α : Type} (item : Reader α) : Nat → Reader (List α)
  | 0, _ => none
  | n + 1, ts =>
    match eat b!"}" ts with
    | some us => some ([], us)
    | none => (item ts).bind fun r =>
      match eat b!"," r.2 with
      | some us => (upTo item n us).map fun q => (r.1 :: q.1, q.2)
      | none => (eat b!"}" r.2).map fun us => ([r.1], us)

/-- A row: elements in braces, or a single element. -/
def row (n : Nat) : Reader (List Cell) := fun ts =>
  match eat b!"{" ts with
  | some us => upTo cell n us
  | none => (cell ts).map fun r => ([r.1], r.2)

/-- The rows of the table that lines of a file define. -/
def tableOf (n : Nat) (lines : List Bytes) : Option (List (List Cell)) :=
  (preprocess [] [] [] lines).bind fun ts => (eat b!"=" (ts.dropWhile fun t => t ≠ .op b!"=")).bind fun us =>
    (eat b!"{" us).bind fun us => (upTo (row n) n us).bind fun r => if r.2 = [.op b!";"] then some r.1 else none

/-- The name of the table: the word before the brackets. -/
def tableName : List Cpp.Tok → Option Bytes
  | .word w :: .op o :: .op c :: r => if o = b!"[" ∧ c = b!"]" then some w else tableName (.op o :: .op c :: r)
  | _ :: r => tableName r
  | [] => none

/-- The name of the table that lines of a file define. -/
def nameIn (lines : List Bytes) : Option Bytes := (preprocess [] [] [] lines).bind tableName

/-- A macro that is a number. -/
def numberMacro (line : Bytes) : Option (Bytes × Nat) :=
  match tokens (line ++ [10]) with
  | some [.op h, .word d, .word m, .word v] =>
    if h = b!"#" ∧ d = b!"define" then
      match Cxx.number v with
      | some (.int _ k) => some (m, k)
      | _ => none
    else none
  | _ => none

/-- A macro that is a string. -/
def stringMacro (line : Bytes) : Option (Bytes × Bytes) :=
  match tokens (line ++ [10]) with
  | some [.op h, .word d, .word m, .str v] => if h = b!"#" ∧ d = b!"define" then (Gen.cString v).map fun x => (m, x) else none
  | _ => none

/-- The members of a structure up to the closing brace, with the values that they begin with; declarations of functions are left out. -/
def members : Nat → List Cpp.Tok → Option (List (Name × Option Cell))
  | 0, _ => none
  | n + 1, ts =>
    match eat b!"}" ts with
    | some _ => some []
    | none => (Cxx.declared 0 [] ts).bind fun d =>
      match eat b!"=" d.2.2 with
      | some us => (cell us).bind fun c => (eat b!";" c.2).bind fun vs => (members n vs).map ((d.2.1, some c.1) :: ·)
      | none =>
        match eat b!";" d.2.2 with
        | some us => (members n us).map ((d.2.1, none) :: ·)
        | none => members n ((d.2.2.dropWhile fun t => t ≠ .op b!";").drop 1)

/-- The members of the structure that lines of a file define. -/
def membersOf (n : Nat) (lines : List Bytes) : Option (List (Name × Option Cell)) :=
  (preprocess [] [] [] lines).bind fun ts => members n ((ts.dropWhile fun t => t ≠ .op b!"{").drop 1)

/-- The text of a scalar type in capitals. -/
def capitals (x : Bytes) : Bytes := x.map fun b => if 97 ≤ b ∧ b ≤ 122 then b - 32 else b

end PG.Cxx.Table
