import Verif.Spec.Position
import Verif.Spec.Gen
/-
What the generator refuses, as it is reported to the user.  Independent of the generator.
-/
set_option autoImplicit false
namespace PG.Gen
open PG.Proto

/-- The option was set by the declaration `d` of the text, and `line` is the line where it begins: with the word `option`
at the level of the file and of messages, with the name of the option in the brackets of a field. -/
def SetAt (text : Bytes) (o : OptEntry) : Prop :=
  ∃ (d : OptDecl) (ls : List Lexeme) (pre mid z : Bytes), d.WF ∧ o.name = d.name ∧ o.type = d.value.type ∧
    o.value = d.value.value ∧ text = pre ++ (mid ++ z) ∧ Before ls pre (mid ++ z) ∧ o.line = lineAt pre ∧
    ((Before (.word b!"option" :: d.lexemes) mid z ∧ ∃ m, mid = b!"option" ++ m) ∨ (Before d.lexemes mid z ∧ ∃ m, mid = d.name ++ m))

/-- `t` has a fault, to be reported with this text, line and column. -/
inductive Fault (t : Tree) : Bytes → Nat → Nat → Prop
  | fileOption {n : Bytes} {o : OptEntry} (hn : n = b!"obfuscate_strings" ∨ n = b!"cpp_use_lists" ∨ n = b!"number_names")
      (ho : t.options.find n = some o) (ht : o.type ≠ .boolean) :
      Fault t (b!"The value for '" ++ n ++ b!"' must be a boolean") o.line 1
  | transient {m : Message} {f : Field} {o : OptEntry} (hm : m ∈ t.messages) (hf : f ∈ m.fields)
      (ho : f.options.find b!"transient" = some o) (ht : o.type ≠ .boolean) :
      Fault t b!"The value for 'transient' must be a boolean" o.line 1
  | name {m : Message} {f : Field} {o : OptEntry} (hm : m ∈ t.messages) (hf : f ∈ m.fields) (hp : Persistent f = true)
      (ho : f.options.find b!"name" = some o) (ht : o.type ≠ .string) :
      Fault t b!"The value for 'name' must be a string" o.line 1
  | quotes {m : Message} {f : Field} (hm : m ∈ t.messages) (hf : f ∈ m.fields) (hp : Persistent f = true)
      (hq : c!"'" ∈ givenName f ∨ c!"\"" ∈ givenName f) :
      Fault t (b!"option 'name' in the field '" ++ f.name ++ b!"' must not contain quotes") 1 1
  | circular {i : Nat} {m : Message} (hm : t.messages[i]? = some m) (hc : Reaches t.messages i i) :
      Fault t (b!"circular reference with '" ++ m.name ++ b!"'") 0 0
  | tooMany {m : Message} (hm : m ∈ t.messages) (hl : m.fields.length > 64) :
      Fault t (b!"more than 64 fields in message '" ++ m.name ++ b!"'") 0 0

end PG.Gen
