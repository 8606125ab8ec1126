import Verif.Spec.Fault
/-
What the messages of the JSON reader claim about the place of the error: the lexemes taken so far and the kind of the token
that follows them.
-/
set_option autoImplicit false
namespace PG

/-- The lexemes end with a string, the name of a member. -/
def EndsName (ls : List Bytes) : Prop := ∃ a k l, ls = a ++ [l] ∧ ScalarOf (.str k) l

/-- The code and the message, and what they say: which token is missing at the place. -/
inductive Says : Nat → Bytes → TId → List Bytes → Prop
  | number {k : TId} {ls : List Bytes} : k ≠ .number → Says 4 b!"invalid numeric value" k ls
  | bool {k : TId} {ls : List Bytes} : k ≠ .btrue → k ≠ .bfalse → Says 4 b!"invalid boolean value" k ls
  | string {k : TId} {ls : List Bytes} : k ≠ .string → Says 4 b!"invalid string value" k ls
  | bytes {k : TId} {ls : List Bytes} : k ≠ .string → Says 5 b!"invalid string" k ls
  | arrayStart {k : TId} {ls : List Bytes} : k ≠ .arrs → Says 7 b!"invalid array" k ls
  | array {k : TId} {ls : List Bytes} : k ≠ .comma → k ≠ .arre → Says 7 b!"invalid array" k ls
  | objectStart {k : TId} {ls : List Bytes} : k ≠ .objs → Says 5 b!"objects must start with '{'" k ls
  | object {k : TId} {ls : List Bytes} : k ≠ .comma → k ≠ .obje → Says 5 b!"invalid JSON object" k ls
  | name {k : TId} {ls : List Bytes} : k ≠ .string → Says 6 b!"object key must be string" k ls
  | colon {k : TId} {ls : List Bytes} : EndsName ls → k ≠ .colon → Says 3 b!"field name and value must be separated by ':'" k ls
  | skippedArray {k : TId} {ls : List Bytes} : k ≠ .comma → k ≠ .arre → Says 1 b!"invalid array" k ls
  | skippedObject {k : TId} {ls : List Bytes} : k ≠ .comma → k ≠ .obje → Says 1 b!"invalid object" k ls
  | skippedName {k : TId} {ls : List Bytes} : k ≠ .string → Says 1 b!"expected field name" k ls
  | skippedColon {k : TId} {ls : List Bytes} : EndsName ls → k ≠ .colon → Says 1 b!"expected colon" k ls
  | skippedValue {k : TId} {ls : List Bytes} : k ∉ valueStart → Says 1 b!"invalid value" k ls
  | finished {k : TId} {ls : List Bytes} : k = .eos ∨ k = .none → Says 1 b!"end of stream" k ls

end PG
