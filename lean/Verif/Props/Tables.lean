import Verif.Spec.CxxTable
import Verif.Props.Debug
import Verif.Model.HeaderTxt
import Verif.Model.Write
import Verif.Props.Template
/-
C102: the tables, enumerations and macros of the generator, read as C++, are those of the model, and they fit together: the parser
converts the code of a token to a `FieldType`, the generator uses the number of a type as an index.
-/
set_option autoImplicit false
namespace PG.Cxx.Table
open PG.Proto PG.Gen PG.Cxx PG.Cxx.Schema PG.Cxx.Maker

/-- C102: `TOKENS` and `TYPES` (debug builds). -/
theorem C102_debug : nameIn (slice proto3Lines 75 118) = some b!"TOKENS" ∧ nameIn (slice proto3Lines 120 138) = some b!"TYPES" ∧
    tableOf 60 (slice proto3Lines 75 118) = some (TOKENS.map fun x => [.str x]) ∧
    tableOf 60 (slice proto3Lines 120 138) = some (TYPES.map (fun x => [.str x]) ++ [[.null]]) := by decide +kernel

/-- C102: `KEYWORDS`, with the macros for the codes. -/
theorem C102_keywords : nameIn (protoText 142 174) = some b!"KEYWORDS" ∧
    tableOf 60 (protoText 142 174) =
      some (keywords.map (fun k => [.int k.2.num, .str k.1]) ++ [[.int 0, .null]]) := by decide +kernel

/-- The macros for the codes of tokens, by their names. -/
def tokenMacros : List (Bytes × Nat) := (slice proto3Lines 30 70).filterMap numberMacro

/-- C102: every code has its macro, with its number; two of the macros have no code, and no two have the same number. -/
theorem C102_codes : (∀ c : Code, tokenMacros.lookup (b!"TOKEN_" ++ c.title) = some c.num) ∧
    (∀ m ∈ tokenMacros, (∃ c : Code, m = (b!"TOKEN_" ++ c.title, c.num)) ∨ m = (b!"TOKEN_T_MESSAGE", 21) ∨ m = (b!"TOKEN_COMMENT", 26)) ∧
    (tokenMacros.map (·.2)).Nodup := by
  have h1 : (allCodes.all fun c => tokenMacros.lookup (b!"TOKEN_" ++ c.title) == some c.num) = true := by decide +kernel
  have h2 : (tokenMacros.all fun m => (allCodes.any fun c => m == (b!"TOKEN_" ++ c.title, c.num)) || m == (b!"TOKEN_T_MESSAGE", 21) ||
      m == (b!"TOKEN_COMMENT", 26)) = true := by decide +kernel
  refine ⟨fun c => eq_of_beq (List.all_eq_true.mp h1 c (mem_allCodes c)), fun m hm => ?_, by decide +kernel⟩
  have := List.all_eq_true.mp h2 m hm
  simp only [Bool.or_eq_true, List.any_eq_true, beq_iff_eq] at this
  rcases this with (⟨c, _, h⟩ | h) | h
  · exact .inl ⟨c, h⟩
  · exact .inr (.inl h)
  · exact .inr (.inr h)

/-- The enumerators of `FieldType`. -/
def fieldTypes : List (Name × Nat) := (enumOf 60 (slice proto3HeadLines 29 47)).getD []

/-- C102: `FieldType` has an enumerator for every scalar type, whose value is the code of the keyword of the type, and one for
messages; there are no others. -/
theorem C102_fieldType : enumOf 60 (slice proto3HeadLines 29 47) = some fieldTypes ∧
    (∀ t : Proto.Scalar, fieldTypes.lookup (nameOf (b!"TYPE_" ++ capitals t.text)) = some t.num ∧
      tokenMacros.lookup (b!"TOKEN_T_" ++ capitals t.text) = some t.num ∧ (t.text, Code.ty t) ∈ keywords ∧
      ftypeOf t.num = some (.scalar t)) ∧
    fieldTypes.lookup n!"TYPE_MESSAGE" = some 21 ∧ tokenMacros.lookup b!"TOKEN_T_MESSAGE" = some 21 ∧ ftypeOf 21 = some .message ∧
    fieldTypes.length = 16 ∧ (fieldTypes.map (·.2)).Nodup := by
  refine ⟨by decide +kernel, fun t => ?_, by decide +kernel⟩
  cases t <;> decide +kernel

/-- The rows of `TYPE_MAPPING`. -/
def mappingRows : List (List Cell) := (tableOf 60 (slice cppgenLines 51 75)).getD []

/-- A text, or `nullptr`. -/
def orNull : Option Bytes → Cell
  | some x => .str x
  | none => .null

/-- C102: row `t - TYPE_DOUBLE` of `TYPE_MAPPING` is that of the type `t`: it has the type, its name in schemas and the C++ type
of the model; strings and messages have no C++ type there. -/
theorem C102_mapping : nameIn (slice cppgenLines 51 75) = some b!"TYPE_MAPPING" ∧ tableOf 60 (slice cppgenLines 51 75) = some mappingRows ∧
    mappingRows.length = 16 ∧ (mappingRows.map fun r => r[2]?) = rows.map (fun x => some (orNull x)) ∧
    (∀ t : Proto.Scalar, ∃ native initial, mappingRows[t.num - 6]? =
        some [.name [n!"protogen", nameOf (b!"TYPE_" ++ capitals t.text)], .str t.text, native, initial] ∧
      (t ≠ .string → native = .str (mapping t)) ∧ (t = .string → native = .null)) ∧
    mappingRows[21 - 6]? = some [.name [n!"protogen", n!"TYPE_MESSAGE"], .null, .null, .null] := by
  refine ⟨by decide +kernel, by decide +kernel, by decide +kernel, by decide +kernel, fun t => ?_, by decide +kernel⟩
  have h : (scalars.all fun t => match mappingRows[t.num - 6]? with
      | some [a, b, c, _] => a == .name [n!"protogen", nameOf (b!"TYPE_" ++ capitals t.text)] && b == .str t.text &&
        (c == if t = .string then .null else .str (mapping t))
      | _ => false) = true := by decide +kernel
  have := List.all_eq_true.mp h t (by cases t <;> decide)
  split at this
  · next a b c d e =>
    simp only [Bool.and_eq_true, beq_iff_eq] at this
    refine ⟨c, d, ?_, fun h => by rw [this.2, if_neg h], fun h => by rw [this.2, if_pos h]⟩
    rw [e, this.1.1, this.1.2]
  · cases this

/-- The macros for the names of options. -/
def optionMacros : List (Bytes × Bytes) := (slice cppgenHeadLines 26 44).filterMap stringMacro

/-- C102: the names of the options are those that the generator of the model looks for, and the only constants of the library that C95
executes the generator with that have such names. -/
theorem C102_options : optionMacros = [(b!"PROTOGEN_O_OBFUSCATE_STRINGS", b!"obfuscate_strings"), (b!"PROTOGEN_O_NUMBER_NAMES", b!"number_names"),
      (b!"PROTOGEN_O_TRANSIENT", b!"transient"), (b!"PROTOGEN_O_CPP_USE_LISTS", b!"cpp_use_lists"), (b!"PROTOGEN_O_NAME", b!"name")] ∧
    (∀ m ∈ optionMacros, (constants.find? fun c => c.1 = [nameOf m.1]).map (fun c => match c.2 with | .str x => some x | _ => none) =
      some (some m.2)) ∧
    (∀ t : Proto.Scalar, ∀ n, n = nameOf (b!"TYPE_" ++ capitals t.text) → ∀ c, (constants.find? fun c => c.1 = [n!"protogen", n]) = some c →
      c.2 = .int .i32 t.num) := by
  refine ⟨by decide +kernel, ?_, fun t n hn c h => ?_⟩
  · have h : (optionMacros.all fun m => (constants.find? fun c => c.1 = [nameOf m.1]).map (fun c => match c.2 with | .str x => some x | _ => none) ==
      some (some m.2)) = true := by decide +kernel
    exact fun m hm => eq_of_beq (List.all_eq_true.mp h m hm)
  · subst hn
    have h2 : ((constants.find? fun c => c.1 = [n!"protogen", nameOf (b!"TYPE_" ++ capitals t.text)]).all fun c =>
        match c.2 with | .int .i32 k => k == t.num | _ => false) = true := by
      cases t <;> decide +kernel
    rw [h] at h2
    simp only [Option.all_some] at h2
    split at h2
    · next k e => rw [e, eq_of_beq h2]
    · cases h2

/-- C102: what the members of new objects are (proto3.hh:51-103). -/
theorem C102_members :
    membersOf 20 (slice proto3HeadLines 51 58) = some [(n!"id", some (.name [n!"FieldType", n!"TYPE_DOUBLE"])), (n!"qname", none), (n!"ref", none),
      (n!"repeated", some (.name [n!"false"])), (n!"optional", some (.name [n!"false"]))] ∧
    membersOf 20 (slice proto3HeadLines 68 74) = some [(n!"name", none), (n!"type", some (.name [n!"OptionType", n!"IDENTIFIER"])),
      (n!"value", none), (n!"line", some (.int 0))] ∧
    membersOf 20 (slice proto3HeadLines 78 84) = some [(n!"type", none), (n!"name", none), (n!"index", some (.int 0)), (n!"options", none)] ∧
    membersOf 20 (slice proto3HeadLines 86 95) = some [(n!"fields", none), (n!"name", none), (n!"package", none), (n!"options", none)] ∧
    membersOf 20 (slice proto3HeadLines 97 104) = some [(n!"messages", none), (n!"options", none), (n!"fileName", none)] ∧
    newField = ⟨⟨.scalar .double, [], none, false, false⟩, [], 0, []⟩ ∧ newOption = ⟨[], .identifier, [], 0⟩ ∧
    newMessage = ⟨[], [], [], []⟩ := by decide +kernel

/-- C102: the parameters begin with both switches off (protogen.hh:88-98). -/
theorem C102_parameters : membersOf 20 (slice protogenLines 88 98) = some [(n!"ensure_ascii", some (.name [n!"false"])),
      (n!"serialize_null", some (.name [n!"false"])), (n!"error", none)] ∧
    ({} : Params) = ⟨false, false, {}⟩ := by decide +kernel

/-- C102: the names by which the executed generator (C95) knows the templates are those of the macros that template.cc makes (C50),
each with its template. -/
theorem C102_templates : (∀ e ∈ codeMacros, Cxx.Maker.templates.lookup (nameOf e.1) = some e.2) ∧
    (∀ e ∈ Cxx.Maker.templates, (∃ p, e.2 = .runtime p) ∨ ∃ m ∈ codeMacros, e = (nameOf m.1, m.2)) := by
  have h1 : (codeMacros.all fun e => Cxx.Maker.templates.lookup (nameOf e.1) == some e.2) = true := by decide +kernel
  have h2 : (Cxx.Maker.templates.all fun e => (match e.2 with | .runtime _ => true | _ => false) ||
      codeMacros.any fun m => e == (nameOf m.1, m.2)) = true := by decide +kernel
  refine ⟨fun e he => eq_of_beq (List.all_eq_true.mp h1 e he), fun e he => ?_⟩
  have := List.all_eq_true.mp h2 e he
  simp only [Bool.or_eq_true, List.any_eq_true, beq_iff_eq] at this
  rcases this with h | ⟨m, hm, h⟩
  · left
    split at h
    · next p e => exact ⟨p, e⟩
    · cases h
  · exact .inr ⟨m, hm, h⟩

end PG.Cxx.Table
