# A formal model of protogen in Lean 4

Source: brunexgeek/protogen (C++), read as text from `/repo`.  Nothing was compiled or run.

## Layout

| Directory (under `lean/Verif/`) | Contents |
|---|---|
| `Model/`  | function-by-function model of the C++ code; every definition cites file and lines |
| `Spec/`   | small independent specifications (JSON grammar, UTF-8, base64, abstract deserialization, the lenient grammar that is really accepted, schema grammar, C literals, macro templates, the meaning of a generated file, ...) |
| `Proofs/` | helper lemmas |
| `Props/`  | the property theorems (one file per group), each with a non-vacuity example |

`properties.jsonl` holds the properties, `MANIFEST.json` the theorems that prove them and what is missing,
`seeded/LOG.jsonl` the wrong programs the theorems were tried against.

## Modelling decisions

* Bytes are `UInt8`, strings are `List UInt8`.  `char` signedness is irrelevant for the comparisons the code makes
  (all constants are ASCII); `peek()` returning 0 at the end of input is modelled literally.
* Integers of C++ integer types are `Int` with a range proof; `static_cast` is reduction modulo 2^n.  `long` is
  64 bits (LP64), as on the platform of the CMake build.  Line/column counters are unbounded `Nat`
  (C++ `int`; `Model/Counter.lean` has them bounded, and C79 says for which inputs the two agree).
* `double`/`float` are exact: a finite value is a sign and a natural multiple of 2^-1074 with a representability proof.
  `%f` is exact decimal rounding half-to-even, `strtod` is correct rounding (glibc behaviour, trusted); `newlocale` succeeds (C91 also says what happens when it fails).
* Loops that consume input carry a fuel argument and a distinct outcome when the fuel runs out.  "The C++ loop
  terminates" = "some fuel is enough"; "it hangs" = "no fuel is enough".  The public entry points of the runtime are given
  enough fuel and that is proved for every input; for the schema parser both sides are proved (C43).
* The behaviour of generated C++ code is modelled by its meaning: a message type is a tree `Ty`/`Fields`, an object is an
  element of the type `Ty.Den t`, and `read`, `write`, `empty`, `clear`, `equal`, `swap` are the functions the templates in
  `code.txt` expand to.  That they are is C85: the text of every generated class is parsed and executed by a small C++
  interpreter (`Spec/Cpp.lean`, `Spec/CppRun.lean`), given the functions of the runtime it calls (`Spec/CppClass.lean`).  The
  functions of the runtime are checked in the same way (C86-C104): their text, taken from the headers line by line, is parsed
  and executed by a larger interpreter (`Spec/Cxx.lean`, `Spec/CxxRun.lean`: integer types with promotion, conversion and
  overflow, loops, `goto`, arrays, references, templates instantiated by their parameter) and does what the function of the
  model does.  A call of another function of the runtime has the meaning of the model's function (`Spec/CxxLib.lean`), which has
  a theorem of its own; for the functions of the tokenizer, which are mutually recursive, C98 replaces the meaning by the text
  wherever one is called (`Spec/CxxLink.lean`), and C100 does so for the parser of schemas (`Spec/CxxProtoLink.lean`),
  C101 for `main` together with the parser (`Spec/CxxMainLink.lean`),
  C103 for the generator (`Spec/CxxMakerLink.lean`), C104 for all of them together (`Spec/CxxProgramLink.lean`).  Functions of `InputStream` keep their meaning there (C94 has their texts, for counters that do not overflow), and so does `rol`; a `std::string` is taken to have less than 2^64 characters, which for the names of fields is C103_obfuscate.  The tables that these functions use are read from the
  sources too (C102, `Spec/CxxTable.lean`).  Whether `char` is signed is a parameter of these theorems.  The parser of schemas (proto3.cc, C94) is checked in the same way, with exceptions
  (`Spec/CxxThrow.lean`) and its own library (`Spec/CxxProto.lean`); so is the generator (cppgen.cc and printer.cc, C95,
  `Spec/CxxGen.lean`), and the tools around it (template.cc, exception.cc, parts of main.cc, C96, `Spec/CxxTools.lean`,
  `Spec/CxxShow.lean`, `Spec/CxxStart.lean`; `main` is C97, `Spec/CxxDriver.lean`).  Arguments passed by
  reference are taken to be distinct objects.  The rules of both interpreters are by reading (trusted).  What the generator prints is modelled as text, and `Spec/Meaning.lean` reads the printed calls back into such a tree: C55 and C56 connect the
  schema, the printed file and the runtime.
* C++ exceptions are values of an outcome type.  Undefined behaviour the code could reach is a separate outcome or is
  excluded by a proved precondition.
* The file system seen by `main` is a structure `World` of arbitrary functions (which file a path leads to, contents,
  permissions, `realpath`); theorems about the driver hold for all of them.

## What is modelled

| File | Modelled | Where |
|---|---|---|
| source/cpp/protogen.hh | `istream`, iterators over memory and streams, `ostream` and its sinks, `tokenizer` complete, `ignore_value`, error codes and messages, `message<>` entry points, what is left in a `std::istream`, what arrives at a `std::ostream` | Stream, Counter, Iter, Source, Token, Entity, Depth |
| source/cpp/json.hh, json-array.hh, json-string.hh, json-number.hh, json-base64.hh | all readers, writers, `empty`/`clear`/`equal`/`swap`, field classes, number conversion, UTF-8 validation, base64 | Read, Write, Field, JStr, Num, Flt, Near, Schema |
| source/cpp/code.txt | all templates, as text and (for the JSON functions) as meaning | CodeTxt, Gen, Schema, Read, Write |
| source/cpp/*.hh as text | the six files line by line, as they are embedded by the template processor | HeaderTxt |
| source/cpp/cppgen.cc | all functions | Gen |
| source/printer.hh, printer.cc | `Printer` | Printer |
| source/template.cc | all functions | Template |
| source/proto3.cc, include/protogen/proto3.hh | `InputStream`, `Tokenizer`, all parse functions, reference resolution, the output operators of debug builds | Proto, Counter, Debug |
| source/main.cc, source/exception.cc | all functions (the POSIX branch) | Gen, Main |

## Not modelled

Allocation failure, stack exhaustion (the nesting of the calls is counted, C71), locale creation failure,
Windows code paths, `std::ios` state of input streams other than `failbit` and `skipws`, C++ compilation errors
of generated code other than those due to the names in the schema (C72).  `deserialize_array(T&, const char*, size_t)`
(json-array.hh:107-114) passes a `const char *` where `mem_iterator<char>` takes a `char *`, so it cannot be instantiated and
has no behaviour to model.

## Trusted base

* The Lean 4.33 kernel.
* The axioms `propext`, `Classical.choice` and `Quot.sound` of Lean; no axiom of our own, no `sorry`, no `native_decide`.
  Some witnesses are evaluated by the kernel (`decide +kernel`), which uses no further axiom.
* The faithfulness of the model to the source (by reading).  `Props/Suite.lean` runs the repository's own tests (schemas and
  `tests.cc`) on the model; all of them pass there.  These are tests of the model and no part of the proofs.
* The C++ standard library and C library functions as described in the comments (`strtol`, `strtoul`, `strtod`,
  `snprintf`, `std::to_string`, `std::sort`, containers, `unordered_map` initializer-list semantics, `ofstream::open`, the output
  operator of `std::shared_ptr`).

Axioms of the theorems named in the manifest (names without the leading `PG.`):

* no axioms (2 theorems): `C31_swap_with_value`, `C84_distinct`.
* `propext` (36 theorems): `C05_ranges`, `Cxx.Throw.C100_texts`, `Cxx.Throw.C100_depth`, `Cxx.Throw.C101_texts`, `Cxx.Table.C102_debug`, `Cxx.Table.C102_keywords`, `Cxx.Table.C102_fieldType`, `Cxx.Table.C102_members`, `Cxx.Table.C102_parameters`, `C18_covers_all`, `C30_not_equal`, `C31_swap_exchanges`, `C31_swap_twice`, `Gen.C35_masks`, `Gen.C39_namespaces_balanced`, `Gen.C50_unclosed_section`, `Gen.C53_defaults`, `Gen.C53_transient_name_ignored`, `C64_string_history`, `C64_compare_string`, `C64_stale`, `C64_forget`, `Cxx.C86_lead`, `Cxx.C86_enums`, `Cxx.C90_json_strings`, `Cxx.C93_error`, `Cxx.C93_error_is_false`, `Cxx.C93_token`, `Cxx.C93_token_is_false`, `Cxx.C93_iterators`, `Cxx.C93_input`, `Cxx.Throw.C94_stream`, `Cxx.Throw.C94_tokenizer_new`, `Cxx.Throw.C95_print_undefined`, `Cxx.Throw.C96_ends`, `Cxx.C98_texts`.
* `Quot.sound`, `propext` (131 theorems): `C02_nul_is_lost`, `C04_needs_flag`, `C06_no_digits`, `C06_covers`, `C08_buffer_suffices`, `Cxx.Table.C102_codes`, `Cxx.Table.C102_mapping`, `Cxx.Table.C102_options`, `Cxx.Table.C102_templates`, `Gen.C105_complete`, `Gen.C105_program_cut`, `C12_always_true`, `C12_failure_hidden`, `C13_text_ignores_transient_partial`, `C13_own_transient_fields_partial`, `C13_nested_transient_shows`, `C16_empty_containers_not_null`, `C16_numbers_written_null_partial`, `C23_serialize_independent`, `C24_checked_iterator`, `C24_istream`, `C25_growing_sinks`, `C25_first_byte_never_written`, `C25_truncation_unreported`, `C29_clear_is_default`, `C29_unset`, `C29_clear_empty_equal`, `C29_clear_serializes`, `C29_empty_is_not_default`, `C30_equal_means`, `C30_reflexive`, `C30_symmetric`, `C30_transitive`, `C30_same_text`, `C30_same_text_exact`, `C30_field_against_value`, `C32_assign_full_partial`, `C32_assign_to_cleared_partial`, `C32_assign_serializes_partial`, `C32_stale_value_makes_unequal`, `C32_stale_string_serialized`, `C33_written_under_its_name`, `Gen.C35_label_iff`, `Gen.C35_key_iff`, `Gen.C35_words`, `Gen.C35_transparent_partial`, `Gen.C35_masked`, `Gen.C35_is_false`, `Gen.C35_backslash`, `Gen.C36_same_name_twice`, `Gen.C39_guard_is_identifier`, `Gen.C40_backspace_dropped`, `Gen.C40_large_number`, `Gen.C40_runtime_always`, `Gen.C41_is_false`, `Gen.C42_repeated_bytes_collapsed`, `Proto.C45_as_written_partial`, `Proto.C45_truncated`, `Proto.C45_is_false`, `Proto.C45_as_written_iff`, `Proto.C46_order_matters_for_duplicates`, `Proto.C49_slash_hides_a_character`, `Proto.C49_is_false`, `Gen.C50_reproduced_iff`, `Gen.C50_header`, `Gen.C50_reproduced_partial`, `Gen.C50_last_line_lost`, `Gen.C50_is_false`, `Gen.C50_guard_is_identifier`, `Gen.C50_guard_of_file`, `Gen.C50_code_txt`, `Gen.C50_code_txt_distinct`, `Gen.C52_any_sort`, `Gen.C52_sorted`, `Gen.C52_names_may_repeat`, `Gen.C53_as_read`, `Gen.C53_is_false`, `Gen.MessageTy.unique`, `Gen.C55_is_false`, `Proto.C57_position_unresolved`, `Proto.C57_position_broken_string`, `Proto.C57_position_end`, `Proto.C57_position_same_number`, `Gen.C60_position`, `Gen.C60_examples`, `Gen.C61_output_lost`, `Gen.C61_is_false`, `C64_number_history`, `C64_swap_hands_out`, `C64_compare_number`, `C64_compare_fields`, `C64_empty`, `Proto.C65_named_partial`, `Proto.C65_out_of_bounds`, `Proto.C66_addresses`, `Proto.C66_addresses_only`, `Proto.C66_is_false`, `Gen.C70_program_unnoticed`, `Gen.C70_is_false`, `C70_object_witness`, `C73_text`, `Gen.C76_position_is_false`, `C77_is_false`, `IStream.C79_position`, `IStream.C79_iff`, `IStream.C79_safe`, `Proto.In.C79_schema_position`, `Proto.In.C79_schema_iff`, `Proto.In.C79_schema_safe`, `C81_room`, `C81_most`, `Gen.C82_embedded`, `Gen.C82_version_in_place`, `Gen.C82_defined`, `Cxx.C86_expect`, `Cxx.C90_field`, `Cxx.C90_string_field`, `Cxx.C90_json_numbers`, `Cxx.C90_json_bool`, `Cxx.C90_types`, `Cxx.C91_no_locale`, `Cxx.C91_integers`, `Cxx.C91_tokens`, `Cxx.C92_serializer`, `Cxx.C93_tokenizer`, `Cxx.Throw.C94_get_overflow_is_reached`, `Cxx.Throw.C96_exception`, `Cxx.Throw.C96_show`, `Cxx.Throw.C97_no_name`, `Cxx.Throw.C97_what`, `Cxx.C98_more`.
* `Classical.choice`, `Quot.sound`, `propext` (319 theorems): `C01_message_round_trip`, `C01_round_trip_norm`, `C02_string_round_trip_raw`, `C03_string_round_trip_ascii`, `C04_ascii_output`, `C05_integer_round_trip`, `C06_integer_conversion`, `C07_written_precision`, `C07_millionths_exact`, `C07_big_exact`, `C07_float_exact`, `C09_base64_round_trip`, `C10_never_rejected`, `C10_malformed_accepted`, `C10_decoded`, `C10_length_noticed_partial`, `Cxx.Throw.C100_functions`, `Cxx.Throw.C100_proto`, `Cxx.Throw.C100_tokenizer`, `Cxx.Throw.C100_parse`, `Cxx.Throw.C101_main`, `Cxx.Throw.C101_to_stdout`, `Cxx.Throw.C101_to_file`, `Cxx.Throw.C103_generate`, `Cxx.Throw.C103_accepted`, `Cxx.Throw.C103_defined`, `Cxx.Throw.C103_ends_iff`, `Cxx.Throw.C103_text`, `Cxx.Throw.C103_text_thrown`, `Cxx.Throw.C103_obfuscate`, `Cxx.Throw.C104_main`, `Cxx.Throw.C104_to_stdout`, `Cxx.Throw.C104_to_file`, `Gen.C105_last`, `Gen.C105_program`, `Cxx.Throw.C105_texts`, `C11_output_is_json`, `C11_names_from_schema`, `C12_failures_make_json`, `C12_text`, `C12_string_writer_partial`, `C13_deserialize_keeps_transient`, `C13_transient_fields_unchanged`, `C13_text_iff`, `C14_unknown_ignored_partial`, `C14_unknown_ignored_iff`, `C14_escapes_example`, `C14_unknown_member_rejected`, `C15_absent_or_null_keeps`, `C15_null_resets_strings`, `C16_null_string_lost`, `C16_empty_again_partial`, `C16_empty_again_iff`, `C17_member_order`, `C17_permutation`, `C17_needs_distinct_names`, `C18_white_space`, `C19_occurrences_in_order`, `C19_last_wins`, `C19_repeated_concatenated`, `C20_terminates`, `C20_iteration_bound`, `C20_token_reads`, `C21_code_agrees_partial`, `C21_null_without_error`, `C22_positions_partial`, `C22_last_token_partial`, `C22_which_token`, `C22_string_tokens_have_no_position`, `C23_deserialize_independent`, `C23_any_history`, `C24_stream_operations`, `C24_sources_agree`, `C24_istream_agrees`, `C25_bounded_buffer_partial`, `C26_arrays_append`, `C26_repeated_field_accumulates`, `C27_trailing_ignored`, `C28_string_decoded_partial`, `C28_string_iff`, `C28_documents`, `C28_low_escape_rejected`, `C28_rejected_document`, `C28_surrogates_sloppy`, `C30_sign_of_zero_shows`, `C32_assign_iff`, `C33_name_reaches_its_field`, `C33_unknown_name_reaches_nothing`, `Gen.C34_names`, `Gen.C34_distinct`, `Gen.C34_written`, `Gen.C36_definitions_precede_uses`, `Gen.C36_used_classes_are_declared`, `Gen.C37_circular_iff`, `Gen.output_ends`, `Gen.C38_too_many_fails`, `Gen.C38_only_then`, `Gen.C38_limit`, `Gen.C39_namespace_text`, `Gen.C39_namespaces_are_identifiers`, `Gen.C40_substitution_partial`, `Gen.C40_single_dollar_truncates`, `Gen.C40_word_truncates`, `Gen.C40_exact`, `Gen.C40_generated_text`, `Gen.C40_generated_always`, `Gen.C40_runtime_text`, `Gen.C41_inclusions_partial`, `Gen.C41_bytes_without_base64`, `Gen.C42_types`, `Gen.C42_members`, `Proto.C43_comment_at_end_runs_forever`, `Proto.C43_string_at_end_runs_forever`, `Proto.C43_termination_is_false`, `Proto.C43_terminates_partial`, `Proto.C43_terminates_with_final_line_feed_partial`, `Proto.C43_terminates_on_lexical_elements_partial`, `Proto.C43_outcome_unique`, `Proto.C43_runs_forever_iff`, `Proto.C43_terminates`, `Proto.C44_only_protogen_exceptions`, `Proto.C44_success_or_exception`, `Proto.C45_valid_and_distinct`, `Proto.C45_index_of`, `Proto.C45_numerals_accepted`, `Proto.C45_good_iff`, `Proto.C45_verdict_iff`, `Proto.C46_resolved`, `Proto.C46_undefined_rejected`, `Proto.C46_order_irrelevant_partial`, `Proto.C46_same_references_partial`, `Proto.C47_accepted`, `Proto.C47_write_and_parse`, `Proto.C47_accepted_iff`, `Proto.C48_layout_irrelevant`, `Proto.C49_accepted_iff`, `Proto.C49_unterminated_message_accepted`, `Proto.C49_broken_string_ends_file`, `Proto.C49_unterminated_comment_accepted`, `Proto.C49_rejected_partial`, `Proto.C49_stray_symbol_rejected`, `Gen.C50_sections`, `C51_fixed_point_partial`, `C51_nested_transient`, `C51_null_string`, `C51_fixed_point_iff`, `C51_of_schema`, `Gen.C52_same_code`, `Gen.C52_layout`, `Gen.C53_last_wins`, `Gen.C53_found`, `Gen.C53_wrong_type_fails_partial`, `Gen.C53_file_option_reported`, `C54_accepted_is_object`, `C54_accepted_is_value`, `C54_leniencies`, `Gen.C55_classes`, `Gen.className_inj`, `Gen.C56_round_trip`, `Gen.C56_numbered`, `Gen.C56_default`, `Gen.C56_is_false`, `Proto.C57_error_position`, `Proto.C57_rejected_start`, `C58_accepted_iff`, `C58_result_is_meaning`, `C59_line_feeds_meaningless`, `C59_example`, `Gen.C60_status_to_stdout`, `Gen.C60_status_to_file`, `Gen.C60_output`, `Gen.C60_failure_explained`, `Gen.C60_refused`, `Gen.C60_unknown`, `Gen.C60_runs_forever_iff`, `Gen.C60_ends`, `Gen.C61_other_files_partial`, `Gen.C61_schema_lost`, `Gen.C62_layout_irrelevant`, `C63_explained`, `C63_refused_iff`, `C63_refused_any`, `C63_not_late`, `C63_first_offender`, `C63_examples`, `C63_null_element`, `C63_masked_example`, `Proto.C65_misnamed`, `Proto.C66_shown_is_schema_partial`, `Proto.C66_packages_break`, `Proto.C66_iff`, `Proto.C67_refused_iff`, `Proto.C67_unresolved_iff`, `Proto.C67_verdict`, `Proto.C67_whole_iff`, `Proto.C67_viable`, `Proto.C67_offender`, `C68_second_lost`, `C68_is_false`, `C68_separated_partial`, `C68_last_fails_stream`, `C69_evolution`, `C69_compatible`, `C69_field`, `C69_same_version`, `C69_widening`, `C69_of_schemas`, `C70_unnoticed`, `C70_arrives`, `C70_objects_partial`, `Gen.C70_program_partial`, `C71_levels`, `C71_known_partial`, `C71_own_output`, `C71_is_false`, `C71_unfinished`, `Gen.C72_legal_iff`, `Gen.C72_identifiers_partial`, `Gen.C72_is_false`, `Gen.C72_clashes`, `Gen.C72_hidden`, `C73_json_iff`, `C73_refused`, `C73_example`, `C74_equal_iff`, `C74_empty_iff`, `C74_equivalence_partial`, `C74_is_false`, `C75_nearest`, `C75_covers`, `C75_no_digits`, `C75_read`, `C75_float_partial`, `C75_is_false_for_float`, `C75_float_iff`, `C75_example`, `Gen.C76_reported`, `Gen.C76_refused_iff`, `Gen.C76_lines`, `Gen.C76_printed`, `Gen.C76_position_partial`, `Gen.C76_example`, `C77_same_text_iff`, `C77_same_text`, `C77_of_schema`, `C77_equality_is_different`, `C78_survives_iff`, `C78_refused`, `C78_of_schema`, `C78_examples`, `IStream.C79_short`, `IStream.C79_tight`, `Proto.In.C79_schema_short`, `C80_no_amplification`, `C80_new`, `C81_buffer`, `Gen.C82_printed`, `Gen.C83_form_iff`, `Gen.C83_shipped_iff`, `Gen.C83_form`, `Gen.C83_is_false`, `Gen.C83_line_feed`, `C84_true_partial`, `C84_silent`, `C84_is_false`, `C84_examples`, `C84_writer`, `Cpp.C85_functions`, `Cpp.C85_classes`, `Cxx.C86_stream`, `Cxx.C86_tokens`, `Cxx.C86_escape`, `Cxx.C87_ignore`, `Cxx.C87_enough`, `Cxx.C88_numbers`, `Cxx.C88_bool`, `Cxx.C88_fields`, `Cxx.C88_strings`, `Cxx.C88_bytes`, `Cxx.C88_arrays`, `Cxx.C88_objects`, `Cxx.C89_reveal`, `Cxx.C90_json_containers`, `Cxx.C91_floats`, `Cxx.C91_equal_number`, `Cxx.C92_deserialize`, `Cxx.C92_serialize`, `Cxx.C92_members`, `Cxx.C92_inputs`, `Cxx.C92_outputs`, `Cxx.C92_comparison`, `Cxx.C92_is_false`, `Cxx.C93_output`, `Cxx.C93_rest`, `Cxx.Throw.C94_get`, `Cxx.Throw.C94_get_is_false`, `Cxx.Throw.C94_cur`, `Cxx.Throw.C94_tokenizer`, `Cxx.Throw.C94_parser`, `Cxx.Throw.C94_parse`, `Cxx.Throw.C95_options`, `Cxx.Throw.C95_types`, `Cxx.Throw.C95_message`, `Cxx.Throw.C95_sort`, `Cxx.Throw.C95_file`, `Cxx.Throw.C95_obfuscate`, `Cxx.Throw.C95_print`, `Cxx.Throw.C95_printed`, `Cxx.Throw.C96_template`, `Cxx.Throw.C96_start`, `Cxx.Throw.C97_main`, `Cxx.C98_next`, `Cxx.C98_expect`, `Cxx.C98_ignore`, `Cxx.C98_linked`, `Cxx.C98_all`, `Cxx.C98_depth`, `Cxx.Throw.C99_to_stdout`, `Cxx.Throw.C99_to_file`.

## How the proofs go

* C85: each printed template is lexed with its arguments left open (`Toks`), then parsed (`class_of`), then executed for all
  objects (`implements`); the closed form of the printer calls puts the classes into the file.
* C84: each way a text can break off (`Cut`, C63) carries the code and message of the place in the source; induction over these ways shows
  that the claim of the message (`Says`) holds.
* C77: the texts of two objects are compared from the left; a text followed by a separator determines its value
  (`Ty.write_unique`), and the values that are written alike are described by `Ty.Shows` without mentioning texts.

* C01-C06, C09, C13-C19, C26-C28, C51: one refinement theorem (`Ty.read_refines`) says that the reader applied to a text of a
  JSON tree performs an abstract operation `absorb` on the object; a second says that the writer emits a text of the tree
  of the object.  The properties are corollaries about `absorb`.
* C54, C58, C59: the converse direction.  Inversion of the tokenizer (`lex_inv`) and of the readers (`Ty.read_means`)
  gives a document of the type-directed grammar `Reads`; `Ty.read_takes` is its completeness.  Line feeds are handled by a
  bisimulation of tokenizers (`TzBi`).
* C63: `Cut` (Spec/Fault.lean) describes the refused documents; `Ty.read_bad` shows that every failure is one of its cases,
  `Cut.fails` that every case fails as described, `Cut.viable` that what was taken can be completed.
* C07, C08: arithmetic of correct rounding on exact rationals.
* C20-C23: measure "unread bytes plus pending token"; invariants of the error record.
* C24, C25: simulation between iterators over memory and lists.
* C29-C32: induction on types.
* C33-C42, C50, C52, C53, C55, C56: the generator is a writer monad over printer calls; `generate_eq` gives its output in closed
  form, and `Spec/Meaning.lean` reads it back.  `sort` is an invariant of depth-first search.
* C43-C49, C57, C62: the schema tokenizer is related to an abstract lexer on the rest of the text; the parser is
  parametric in its token source, so properties are transported along relations of token sources (`rel_parseFrom`).
* C67, C43: `Spec/Expect.lean` is a table of places; every parse function is shown to walk along it (`Walk`), the end of a
  walk is unique (`stop_unique`), and walks are translated to and from texts (`verdict_of_stop`, `stop_of_verdict`).
* C79: the counters are compared with the position of the cursor.  C80: potential "unread bytes plus credit of the current
  token".  C81: induction on types.
* C82: the template processor is run on the files in chunks (`decide +kernel` over the whole text).  C83: a scanner for the
  outer form of C++ files (`Spec/Lexical.lean`; no trigraphs or raw strings); every template call has a net effect
  on the stack of open brackets, whatever fills its holes.
* C60, C61: case analysis of `main` on top of these.

Properties that the code does not have are proved false with a witness or a general negation, and a theorem with the
suffix `_partial` states what remains.

## Properties and theorems

| Id | Property | Status | Theorems |
|---|---|---|---|
| C01 | Message round trip | proved | `C01_message_round_trip`, `C01_round_trip_norm` |
| C02 | String round trip, raw output | proved | `C02_string_round_trip_raw`, `C02_nul_is_lost` |
| C03 | String round trip, ASCII output | proved | `C03_string_round_trip_ascii` |
| C04 | ensure_ascii really means ASCII | proved | `C04_ascii_output`, `C04_needs_flag` |
| C05 | Integer round trip is exact | proved | `C05_integer_round_trip`, `C05_ranges` |
| C06 | Out-of-range integers are converted predictably | proved | `C06_integer_conversion`, `C06_no_digits`, `C06_covers` |
| C07 | Floating point precision | proved | `C07_written_precision`, `C07_millionths_exact`, `C07_big_exact`, `C07_float_exact` |
| C08 | Number formatting never overflows or truncates its buffer | proved | `C08_buffer_suffices` |
| C09 | Base64 round trip | proved | `C09_base64_round_trip` |
| C10 | Malformed base64 is reported | partial | `C10_never_rejected`, `C10_malformed_accepted`, `C10_decoded`, `C10_length_noticed_partial` |
| C11 | Output is well-formed JSON | proved | `C11_output_is_json`, `C11_names_from_schema` |
| C12 | serialize reports encoding failures | partial | `C12_always_true`, `C12_failure_hidden`, `C12_failures_make_json`, `C12_text`, `C12_string_writer_partial` |
| C13 | Transient fields stay out of JSON | partial | `C13_deserialize_keeps_transient`, `C13_transient_fields_unchanged`, `C13_text_ignores_transient_partial`, `C13_own_transient_fields_partial`, `C13_nested_transient_shows`, `C13_text_iff` |
| C14 | Unknown fields are ignored | partial | `C14_unknown_ignored_partial`, `C14_unknown_ignored_iff`, `C14_escapes_example`, `C14_unknown_member_rejected` |
| C15 | Absent and null members keep the previous value | proved | `C15_absent_or_null_keeps`, `C15_null_resets_strings` |
| C16 | null round trip with serialize_null | partial | `C16_null_string_lost`, `C16_empty_containers_not_null`, `C16_numbers_written_null_partial`, `C16_empty_again_partial`, `C16_empty_again_iff` |
| C17 | Member order is irrelevant | proved | `C17_member_order`, `C17_permutation`, `C17_needs_distinct_names` |
| C18 | Insignificant whitespace is irrelevant | proved | `C18_white_space`, `C18_covers_all` |
| C19 | Duplicate members | proved | `C19_occurrences_in_order`, `C19_last_wins`, `C19_repeated_concatenated` |
| C20 | Deserialization always terminates | proved | `C20_terminates`, `C20_iteration_bound`, `C20_token_reads` |
| C21 | Return value and error information agree | partial | `C21_code_agrees_partial`, `C21_null_without_error` |
| C22 | Error positions point into the document | partial | `C22_positions_partial`, `C22_last_token_partial`, `C22_which_token`, `C22_string_tokens_have_no_position` |
| C23 | Calls are independent of earlier errors | proved | `C23_deserialize_independent`, `C23_serialize_independent`, `C23_any_history` |
| C24 | All input sources agree and stay in bounds | proved | `C24_stream_operations`, `C24_sources_agree`, `C24_checked_iterator`, `C24_istream`, `C24_istream_agrees` |
| C25 | All output sinks agree; bounded buffers are never overrun | partial | `C25_growing_sinks`, `C25_bounded_buffer_partial`, `C25_first_byte_never_written`, `C25_truncation_unreported` |
| C26 | Repeated fields accumulate | proved | `C26_arrays_append`, `C26_repeated_field_accumulates` |
| C27 | Trailing input is ignored | proved | `C27_trailing_ignored` |
| C28 | String escapes are decoded as JSON specifies | partial | `C28_string_decoded_partial`, `C28_string_iff`, `C28_documents`, `C28_low_escape_rejected`, `C28_rejected_document`, `C28_surrogates_sloppy` |
| C29 | clear, empty and default construction agree | proved | `C29_clear_is_default`, `C29_unset`, `C29_clear_empty_equal`, `C29_clear_serializes`, `C29_empty_is_not_default` |
| C30 | Equality is an equivalence | proved | `C30_equal_means`, `C30_reflexive`, `C30_symmetric`, `C30_transitive`, `C30_not_equal`, `C30_same_text`, `C30_same_text_exact`, `C30_sign_of_zero_shows`, `C30_field_against_value` |
| C31 | swap exchanges two objects | proved | `C31_swap_exchanges`, `C31_swap_twice`, `C31_swap_with_value` |
| C32 | Assignment makes objects equal | partial | `C32_assign_full_partial`, `C32_assign_to_cleared_partial`, `C32_assign_serializes_partial`, `C32_stale_value_makes_unequal`, `C32_stale_string_serialized`, `C32_assign_iff` |
| C33 | Each JSON name reaches its own field | proved | `C33_name_reaches_its_field`, `C33_unknown_name_reaches_nothing`, `C33_written_under_its_name` |
| C34 | Field-number names are unambiguous | proved | `Gen.C34_names`, `Gen.C34_distinct`, `Gen.C34_written` |
| C35 | String obfuscation is transparent | partial | `Gen.C35_label_iff`, `Gen.C35_key_iff`, `Gen.C35_masks`, `Gen.C35_words`, `Gen.C35_transparent_partial`, `Gen.C35_masked`, `Gen.C35_is_false`, `Gen.C35_backslash` |
| C36 | Definitions precede uses in generated code | proved | `Gen.C36_definitions_precede_uses`, `Gen.C36_used_classes_are_declared`, `Gen.C36_same_name_twice` |
| C37 | Circular references are always diagnosed | proved | `Gen.C37_circular_iff`, `Gen.output_ends` |
| C38 | Field count limit | proved | `Gen.C38_too_many_fails`, `Gen.C38_only_then`, `Gen.C38_limit` |
| C39 | Header guards and namespaces are well formed | proved | `Gen.C39_guard_is_identifier`, `Gen.C39_namespaces_balanced`, `Gen.C39_namespace_text`, `Gen.C39_namespaces_are_identifiers` |
| C40 | Template substitution is literal | partial | `Gen.C40_substitution_partial`, `Gen.C40_single_dollar_truncates`, `Gen.C40_word_truncates`, `Gen.C40_backspace_dropped`, `Gen.C40_large_number`, `Gen.C40_exact`, `Gen.C40_generated_text`, `Gen.C40_generated_always`, `Gen.C40_runtime_always`, `Gen.C40_runtime_text` |
| C41 | Runtime support matches the fields used | partial | `Gen.C41_inclusions_partial`, `Gen.C41_bytes_without_base64`, `Gen.C41_is_false` |
| C42 | Type mapping | proved | `Gen.C42_types`, `Gen.C42_members`, `Gen.C42_repeated_bytes_collapsed` |
| C43 | The schema parser terminates | partial | `Proto.C43_comment_at_end_runs_forever`, `Proto.C43_string_at_end_runs_forever`, `Proto.C43_termination_is_false`, `Proto.C43_terminates_partial`, `Proto.C43_terminates_with_final_line_feed_partial`, `Proto.C43_terminates_on_lexical_elements_partial`, `Proto.C43_outcome_unique`, `Proto.C43_runs_forever_iff`, `Proto.C43_terminates` |
| C44 | Only protogen::exception escapes the schema parser | proved | `Proto.C44_only_protogen_exceptions`, `Proto.C44_success_or_exception` |
| C45 | Field numbers are valid and unique | partial | `Proto.C45_valid_and_distinct`, `Proto.C45_index_of`, `Proto.C45_as_written_partial`, `Proto.C45_truncated`, `Proto.C45_numerals_accepted`, `Proto.C45_is_false`, `Proto.C45_as_written_iff`, `Proto.C45_good_iff`, `Proto.C45_verdict_iff` |
| C46 | Message types are resolved | partial | `Proto.C46_resolved`, `Proto.C46_undefined_rejected`, `Proto.C46_order_irrelevant_partial`, `Proto.C46_order_matters_for_duplicates`, `Proto.C46_same_references_partial` |
| C47 | Every well-formed schema is accepted as written | proved | `Proto.C47_accepted`, `Proto.C47_write_and_parse`, `Proto.C47_accepted_iff` |
| C48 | Comments and layout do not matter in schemas | proved | `Proto.C48_layout_irrelevant` |
| C49 | Malformed schemas are rejected | partial | `Proto.C49_accepted_iff`, `Proto.C49_unterminated_message_accepted`, `Proto.C49_broken_string_ends_file`, `Proto.C49_unterminated_comment_accepted`, `Proto.C49_slash_hides_a_character`, `Proto.C49_is_false`, `Proto.C49_rejected_partial`, `Proto.C49_stray_symbol_rejected` |
| C50 | Embedded runtime sources are reproduced | partial | `Gen.C50_reproduced_iff`, `Gen.C50_header`, `Gen.C50_reproduced_partial`, `Gen.C50_last_line_lost`, `Gen.C50_is_false`, `Gen.C50_sections`, `Gen.C50_unclosed_section`, `Gen.C50_guard_is_identifier`, `Gen.C50_guard_of_file`, `Gen.C50_code_txt`, `Gen.C50_code_txt_distinct` |
| C51 | Re-serialization is a fixed point | partial | `C51_fixed_point_partial`, `C51_nested_transient`, `C51_null_string`, `C51_fixed_point_iff`, `C51_of_schema` |
| C52 | Fields are emitted in a canonical order | proved | `Gen.C52_same_code`, `Gen.C52_any_sort`, `Gen.C52_sorted`, `Gen.C52_layout`, `Gen.C52_names_may_repeat` |
| C53 | Option lookup | partial | `Gen.C53_last_wins`, `Gen.C53_found`, `Gen.C53_defaults`, `Gen.C53_as_read`, `Gen.C53_wrong_type_fails_partial`, `Gen.C53_file_option_reported`, `Gen.C53_is_false`, `Gen.C53_transient_name_ignored` |
| C54 | Accepted documents are JSON-like | proved | `C54_accepted_is_object`, `C54_accepted_is_value`, `C54_leniencies` |
| C55 | Generated classes have the types of the schema | proved | `Gen.C55_classes`, `Gen.MessageTy.unique`, `Gen.className_inj`, `Gen.C55_is_false` |
| C56 | End-to-end round trip | proved | `Gen.C56_round_trip`, `Gen.C56_numbered`, `Gen.C56_default`, `Gen.C56_is_false` |
| C57 | Schema error positions | proved | `Proto.C57_error_position`, `Proto.C57_rejected_start`, `Proto.C57_position_unresolved`, `Proto.C57_position_broken_string`, `Proto.C57_position_end`, `Proto.C57_position_same_number` |
| C58 | Exactly the accepted documents | proved | `C58_accepted_iff`, `C58_result_is_meaning` |
| C59 | Line feeds carry no meaning | proved | `C59_line_feeds_meaningless`, `C59_example` |
| C60 | Exit status, output and diagnostics of the program | proved | `Gen.C60_status_to_stdout`, `Gen.C60_status_to_file`, `Gen.C60_output`, `Gen.C60_failure_explained`, `Gen.C60_position`, `Gen.C60_refused`, `Gen.C60_unknown`, `Gen.C60_runs_forever_iff`, `Gen.C60_ends`, `Gen.C60_examples` |
| C61 | A failed run leaves the files alone | partial | `Gen.C61_other_files_partial`, `Gen.C61_output_lost`, `Gen.C61_schema_lost`, `Gen.C61_is_false` |
| C62 | The generated code does not depend on the layout of the schema | proved | `Gen.C62_layout_irrelevant` |
| C63 | Refused documents, exactly | proved | `C63_explained`, `C63_refused_iff`, `C63_refused_any`, `C63_not_late`, `C63_first_offender`, `C63_examples`, `C63_null_element`, `C63_masked_example` |
| C64 | A field holds what its history says | proved | `C64_number_history`, `C64_string_history`, `C64_swap_hands_out`, `C64_compare_number`, `C64_compare_string`, `C64_compare_fields`, `C64_empty`, `C64_stale`, `C64_forget` |
| C65 | Debug output names tokens | partial | `Proto.C65_named_partial`, `Proto.C65_misnamed`, `Proto.C65_out_of_bounds` |
| C66 | Debug output of a schema is a schema | partial | `Proto.C66_addresses`, `Proto.C66_addresses_only`, `Proto.C66_shown_is_schema_partial`, `Proto.C66_packages_break`, `Proto.C66_iff`, `Proto.C66_is_false` |
| C67 | The error of a refused schema, exactly | proved | `Proto.C67_refused_iff`, `Proto.C67_unresolved_iff`, `Proto.C67_verdict`, `Proto.C67_whole_iff`, `Proto.C67_viable`, `Proto.C67_offender` |
| C68 | Documents in one stream can be read one after another | partial | `C68_second_lost`, `C68_is_false`, `C68_separated_partial`, `C68_last_fails_stream` |
| C69 | Versions of a schema read each other's documents | proved | `C69_evolution`, `C69_compatible`, `C69_field`, `C69_same_version`, `C69_widening`, `C69_of_schemas` |
| C70 | Success means that the output has arrived | partial | `C70_unnoticed`, `Gen.C70_program_unnoticed`, `Gen.C70_is_false`, `C70_object_witness`, `C70_arrives`, `C70_objects_partial`, `Gen.C70_program_partial` |
| C71 | Reading takes a bounded part of the call stack | partial | `C71_levels`, `C71_known_partial`, `C71_own_output`, `C71_is_false`, `C71_unfinished` |
| C72 | The names of a schema that is accepted can be used in C++ | partial | `Gen.C72_legal_iff`, `Gen.C72_identifiers_partial`, `Gen.C72_is_false`, `Gen.C72_clashes`, `Gen.C72_hidden` |
| C73 | Exactly the objects that are written as JSON | proved | `C73_json_iff`, `C73_refused`, `C73_text`, `C73_example` |
| C74 | Comparison of plain numbers | partial | `C74_equal_iff`, `C74_empty_iff`, `C74_equivalence_partial`, `C74_is_false` |
| C75 | Numerals are read as the nearest floating point number | partial | `C75_nearest`, `C75_covers`, `C75_no_digits`, `C75_read`, `C75_float_partial`, `C75_is_false_for_float`, `C75_float_iff`, `C75_example` |
| C76 | The reason given for refusing a schema is true | partial | `Gen.C76_reported`, `Gen.C76_refused_iff`, `Gen.C76_lines`, `Gen.C76_printed`, `Gen.C76_position_partial`, `Gen.C76_position_is_false`, `Gen.C76_example` |
| C77 | Which objects have the same JSON text | proved | `C77_same_text_iff`, `C77_same_text`, `C77_of_schema`, `C77_equality_is_different`, `C77_is_false` |
| C78 | Exactly the objects that survive a round trip | proved | `C78_survives_iff`, `C78_refused`, `C78_of_schema`, `C78_examples` |
| C79 | Line and column counters do not overflow | proved | `IStream.C79_position`, `IStream.C79_iff`, `IStream.C79_safe`, `IStream.C79_short`, `IStream.C79_tight`, `Proto.In.C79_schema_position`, `Proto.In.C79_schema_iff`, `Proto.In.C79_schema_safe`, `Proto.In.C79_schema_short` |
| C80 | Reading does not amplify | proved | `C80_no_amplification`, `C80_new` |
| C81 | Room for the text is known beforehand | proved | `C81_room`, `C81_most`, `C81_buffer` |
| C82 | The runtime reaches the generated file unchanged | proved | `Gen.C82_embedded`, `Gen.C82_printed`, `Gen.C82_version_in_place`, `Gen.C82_defined` |
| C83 | The generated file has the outer form of a C++ file | partial | `Gen.C83_form_iff`, `Gen.C83_shipped_iff`, `Gen.C83_form`, `Gen.C83_is_false`, `Gen.C83_line_feed` |
| C84 | The message of an error is true | partial | `C84_true_partial`, `C84_silent`, `C84_distinct`, `C84_is_false`, `C84_examples`, `C84_writer` |
| C85 | The generated functions, read as C++, are those of the model | proved | `Cpp.C85_functions`, `Cpp.C85_classes` |
| C86 | The tokenizer of the runtime, read as C++, is that of the model | proved | `Cxx.C86_stream`, `Cxx.C86_tokens`, `Cxx.C86_escape`, `Cxx.C86_lead`, `Cxx.C86_expect`, `Cxx.C86_enums` |
| C87 | The functions that skip values, read as C++, are those of the model | proved | `Cxx.C87_ignore`, `Cxx.C87_enough` |
| C88 | The readers and writers of the runtime, read as C++, are those of the model | proved | `Cxx.C88_numbers`, `Cxx.C88_bool`, `Cxx.C88_fields`, `Cxx.C88_strings`, `Cxx.C88_bytes`, `Cxx.C88_arrays`, `Cxx.C88_objects` |
| C89 | The functions that reveal names, read as C++, are those of the model | proved | `Cxx.C89_reveal` |
| C90 | The field classes of the runtime, read as C++, are those of the model | proved | `Cxx.C90_field`, `Cxx.C90_string_field`, `Cxx.C90_json_numbers`, `Cxx.C90_json_bool`, `Cxx.C90_json_strings`, `Cxx.C90_json_containers`, `Cxx.C90_types` |
| C91 | Conversions between numbers and text, read as C++, are those of the model | proved | `Cxx.C91_floats`, `Cxx.C91_no_locale`, `Cxx.C91_integers`, `Cxx.C91_tokens`, `Cxx.C91_equal_number` |
| C92 | The functions that programs call, read as C++, are those of the model | partial | `Cxx.C92_deserialize`, `Cxx.C92_serialize`, `Cxx.C92_members`, `Cxx.C92_serializer`, `Cxx.C92_inputs`, `Cxx.C92_outputs`, `Cxx.C92_comparison`, `Cxx.C92_is_false` |
| C93 | The small classes of the runtime, read as C++, are those of the model | partial | `Cxx.C93_error`, `Cxx.C93_error_is_false`, `Cxx.C93_token`, `Cxx.C93_token_is_false`, `Cxx.C93_iterators`, `Cxx.C93_output`, `Cxx.C93_input`, `Cxx.C93_tokenizer`, `Cxx.C93_rest` |
| C94 | The parser of schemas, read as C++, is that of the model | partial | `Cxx.Throw.C94_stream`, `Cxx.Throw.C94_get`, `Cxx.Throw.C94_get_is_false`, `Cxx.Throw.C94_get_overflow_is_reached`, `Cxx.Throw.C94_cur`, `Cxx.Throw.C94_tokenizer`, `Cxx.Throw.C94_parser`, `Cxx.Throw.C94_parse`, `Cxx.Throw.C94_tokenizer_new` |
| C95 | The generator, read as C++, is that of the model | proved | `Cxx.Throw.C95_options`, `Cxx.Throw.C95_types`, `Cxx.Throw.C95_message`, `Cxx.Throw.C95_sort`, `Cxx.Throw.C95_file`, `Cxx.Throw.C95_obfuscate`, `Cxx.Throw.C95_print`, `Cxx.Throw.C95_printed`, `Cxx.Throw.C95_print_undefined` |
| C96 | The tools around the generator, read as C++, are those of the model | proved | `Cxx.Throw.C96_template`, `Cxx.Throw.C96_start`, `Cxx.Throw.C96_exception`, `Cxx.Throw.C96_ends`, `Cxx.Throw.C96_show` |
| C97 | The driver, read as C++, is that of the model | proved | `Cxx.Throw.C97_main`, `Cxx.Throw.C97_no_name`, `Cxx.Throw.C97_what` |
| C98 | The functions of the tokenizer, read as C++, work together | proved | `Cxx.C98_texts`, `Cxx.C98_next`, `Cxx.C98_expect`, `Cxx.C98_ignore`, `Cxx.C98_linked`, `Cxx.C98_more`, `Cxx.C98_all`, `Cxx.C98_depth` |
| C99 | From the schema to the object that is read back, all of it executed | proved | `Cxx.Throw.C99_to_stdout`, `Cxx.Throw.C99_to_file` |
| C100 | The functions of the parser of schemas, read as C++, work together | proved | `Cxx.Throw.C100_texts`, `Cxx.Throw.C100_functions`, `Cxx.Throw.C100_proto`, `Cxx.Throw.C100_tokenizer`, `Cxx.Throw.C100_parse`, `Cxx.Throw.C100_depth` |
| C101 | The driver executed together with the parser of schemas | proved | `Cxx.Throw.C101_texts`, `Cxx.Throw.C101_main`, `Cxx.Throw.C101_to_stdout`, `Cxx.Throw.C101_to_file` |
| C102 | The tables of the generator, read as C++, are those of the model and fit together | proved | `Cxx.Table.C102_debug`, `Cxx.Table.C102_keywords`, `Cxx.Table.C102_codes`, `Cxx.Table.C102_fieldType`, `Cxx.Table.C102_mapping`, `Cxx.Table.C102_options`, `Cxx.Table.C102_members`, `Cxx.Table.C102_parameters`, `Cxx.Table.C102_templates` |
| C103 | The functions of the generator, read as C++, work together | proved | `Cxx.Throw.C103_generate`, `Cxx.Throw.C103_accepted`, `Cxx.Throw.C103_defined`, `Cxx.Throw.C103_ends_iff`, `Cxx.Throw.C103_text`, `Cxx.Throw.C103_text_thrown`, `Cxx.Throw.C103_obfuscate` |
| C104 | The compiler as a whole, read as C++, is the model | proved | `Cxx.Throw.C104_main`, `Cxx.Throw.C104_to_stdout`, `Cxx.Throw.C104_to_file` |
| C105 | A header is complete exactly when the generator succeeds | proved | `Gen.C105_complete`, `Gen.C105_last`, `Gen.C105_program`, `Gen.C105_program_cut`, `Cxx.Throw.C105_texts` |
