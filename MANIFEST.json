{"claims": [
  {"property": "C01", "status": "proved", "theorems": ["PG.C01_message_round_trip", "PG.C01_round_trip_norm"], "note": "Every schema type, every writable faithful value; C01_round_trip_norm gives the exact value read back without the faithfulness condition."},
  {"property": "C02", "status": "proved", "theorems": ["PG.C02_string_round_trip_raw", "PG.C02_nul_is_lost"], "note": "Strings without NUL; C02_nul_is_lost is the witness that the condition is needed."},
  {"property": "C03", "status": "proved", "theorems": ["PG.C03_string_round_trip_ascii"], "note": ""},
  {"property": "C04", "status": "proved", "theorems": ["PG.C04_ascii_output", "PG.C04_needs_flag"], "note": ""},
  {"property": "C05", "status": "proved", "theorems": ["PG.C05_integer_round_trip", "PG.C05_ranges"], "note": "All eight integer kinds."},
  {"property": "C06", "status": "proved", "theorems": ["PG.C06_integer_conversion", "PG.C06_no_digits", "PG.C06_covers"], "note": "Saturation to 64 bits then wrap to the field type, as strtol/strtoull and the cast do."},
  {"property": "C07", "status": "proved", "theorems": ["PG.C07_written_precision", "PG.C07_millionths_exact", "PG.C07_big_exact", "PG.C07_float_exact"], "note": ""},
  {"property": "C08", "status": "proved", "theorems": ["PG.C08_buffer_suffices"], "note": ""},
  {"property": "C09", "status": "proved", "theorems": ["PG.C09_base64_round_trip"], "note": ""},
  {"property": "C10", "status": "partial", "theorems": ["PG.C10_never_rejected", "PG.C10_malformed_accepted", "PG.C10_decoded", "PG.C10_length_noticed_partial"], "note": "False: the bytes reader discards the result of the decoder, so no string is ever rejected (witness). What any string is decoded to is described exactly (C10_decoded). Partial: the decoder itself notices a bad length."},
  {"property": "C100", "status": "proved", "theorems": ["PG.Cxx.Throw.C100_texts", "PG.Cxx.Throw.C100_functions", "PG.Cxx.Throw.C100_proto", "PG.Cxx.Throw.C100_tokenizer", "PG.Cxx.Throw.C100_parse", "PG.Cxx.Throw.C100_depth"], "note": "Spec/CxxProtoLink.lean executes the text wherever a function of the parser or of its tokenizer is called; the functions of InputStream, constructors, methods of containers, strtol and throw keep the meaning of C94. Proofs/CxxThrowMono.lean shows that execution with exceptions depends on the library only through what is called. Loops make at most N iterations, for any N from 26 on (there are 25 keywords); that some N is enough is C43. What comment returns is not used by its caller and left undefined."},
  {"property": "C101", "status": "proved", "theorems": ["PG.Cxx.Throw.C101_texts", "PG.Cxx.Throw.C101_main", "PG.Cxx.Throw.C101_to_stdout", "PG.Cxx.Throw.C101_to_file"], "note": "Spec/CxxMainLink.lean executes the texts; streams, realpath, std::sort and CppGenerator::generate keep the meaning they have in C97 (generate is C95). N bounds the loops, as in C100."},
  {"property": "C102", "status": "proved", "theorems": ["PG.Cxx.Table.C102_debug", "PG.Cxx.Table.C102_keywords", "PG.Cxx.Table.C102_codes", "PG.Cxx.Table.C102_fieldType", "PG.Cxx.Table.C102_mapping", "PG.Cxx.Table.C102_options", "PG.Cxx.Table.C102_members", "PG.Cxx.Table.C102_parameters", "PG.Cxx.Table.C102_templates"], "note": "The domains are finite and covered completely; Spec/CxxTable.lean reads initialisers. (TOKENS does not fit the codes: C65.)"},
  {"property": "C103", "status": "proved", "theorems": ["PG.Cxx.Throw.C103_generate", "PG.Cxx.Throw.C103_accepted", "PG.Cxx.Throw.C103_defined", "PG.Cxx.Throw.C103_ends_iff", "PG.Cxx.Throw.C103_text", "PG.Cxx.Throw.C103_text_thrown", "PG.Cxx.Throw.C103_obfuscate"], "note": "Spec/CxxMakerLink.lean executes the texts, those of obfuscate and of Printer::print for labels too; an exception carries the calls of the printer made by then; the C++ library is by meaning."},
  {"property": "C104", "status": "proved", "theorems": ["PG.Cxx.Throw.C104_main", "PG.Cxx.Throw.C104_to_stdout", "PG.Cxx.Throw.C104_to_file"], "note": "Spec/CxxProgramLink.lean executes the texts; streams, realpath and std::sort are by meaning; what has been printed when the generator throws is written by the text of the printer too."},
  {"property": "C105", "status": "proved", "theorems": ["PG.Gen.C105_complete", "PG.Gen.C105_last", "PG.Gen.C105_program", "PG.Gen.C105_program_cut", "PG.Cxx.Throw.C105_texts"], "note": "The end of the file is the call at cppgen.cc:589; C105_texts says it for the executed texts, C105_program and C105_program_cut for the program of main.cc."},
  {"property": "C11", "status": "proved", "theorems": ["PG.C11_output_is_json", "PG.C11_names_from_schema"], "note": ""},
  {"property": "C12", "status": "partial", "theorems": ["PG.C12_always_true", "PG.C12_failure_hidden", "PG.C12_failures_make_json", "PG.C12_text", "PG.C12_string_writer_partial"], "note": "False: serialize returns true whatever the field writers say (witnesses; two failing strings can even give a JSON text of another object). Partial: the string writer itself fails exactly on text its UTF-8 decoder refuses."},
  {"property": "C13", "status": "partial", "theorems": ["PG.C13_deserialize_keeps_transient", "PG.C13_transient_fields_unchanged", "PG.C13_text_ignores_transient_partial", "PG.C13_own_transient_fields_partial", "PG.C13_nested_transient_shows", "PG.C13_text_iff"], "note": "False for writing: a set transient field of a nested message makes the nested member appear (witness). Reading is proved in full; writing for the own fields of the serialized message, and C13_text_iff gives the exact condition for all objects."},
  {"property": "C14", "status": "partial", "theorems": ["PG.C14_unknown_ignored_partial", "PG.C14_unknown_ignored_iff", "PG.C14_escapes_example", "PG.C14_unknown_member_rejected"], "note": "False in general: an unknown member whose string uses an escape the tokenizer rejects makes the call fail (witness). Partial: all documents the tokenizer can read. C14_unknown_ignored_iff gives the exact condition for RFC 8259 members: no escape below U+0080."},
  {"property": "C15", "status": "proved", "theorems": ["PG.C15_absent_or_null_keeps", "PG.C15_null_resets_strings"], "note": ""},
  {"property": "C16", "status": "partial", "theorems": ["PG.C16_null_string_lost", "PG.C16_empty_containers_not_null", "PG.C16_numbers_written_null_partial", "PG.C16_empty_again_partial", "PG.C16_empty_again_iff"], "note": "False for strings (null reads back as an empty non-null string) and for containers (never written as null); both witnessed. C16_empty_again_iff gives the exact condition: a field that was empty is empty again iff no string is part of it."},
  {"property": "C17", "status": "proved", "theorems": ["PG.C17_member_order", "PG.C17_permutation", "PG.C17_needs_distinct_names"], "note": ""},
  {"property": "C18", "status": "proved", "theorems": ["PG.C18_white_space", "PG.C18_covers_all"], "note": "Documents whose top level is an object or an array, every placement of white space."},
  {"property": "C19", "status": "proved", "theorems": ["PG.C19_occurrences_in_order", "PG.C19_last_wins", "PG.C19_repeated_concatenated"], "note": ""},
  {"property": "C20", "status": "proved", "theorems": ["PG.C20_terminates", "PG.C20_iteration_bound", "PG.C20_token_reads"], "note": ""},
  {"property": "C21", "status": "partial", "theorems": ["PG.C21_code_agrees_partial", "PG.C21_null_without_error"], "note": "False for a top-level null (witness). Partial: false is returned without a code exactly when the first token is null, otherwise result and code agree; all message types."},
  {"property": "C22", "status": "partial", "theorems": ["PG.C22_positions_partial", "PG.C22_last_token_partial", "PG.C22_which_token", "PG.C22_string_tokens_have_no_position"], "note": "False when the offending token is a string: its line and column are 0 (witness). Partial: all other tokens. C22_which_token says for all classes which token is reported: the one where the reader stopped, or the one behind an earlier bytes string of a wrong length."},
  {"property": "C23", "status": "proved", "theorems": ["PG.C23_deserialize_independent", "PG.C23_serialize_independent", "PG.C23_any_history"], "note": ""},
  {"property": "C24", "status": "proved", "theorems": ["PG.C24_stream_operations", "PG.C24_sources_agree", "PG.C24_checked_iterator", "PG.C24_istream", "PG.C24_istream_agrees"], "note": "Stated for every client of the istream interface; the tokenizer only sees that interface."},
  {"property": "C25", "status": "partial", "theorems": ["PG.C25_growing_sinks", "PG.C25_bounded_buffer_partial", "PG.C25_first_byte_never_written", "PG.C25_truncation_unreported"], "note": "False for (char*, length): the first byte of the buffer is never written (witness). Partial: exact content of the buffer, no write outside it; growing sinks agree."},
  {"property": "C26", "status": "proved", "theorems": ["PG.C26_arrays_append", "PG.C26_repeated_field_accumulates"], "note": ""},
  {"property": "C27", "status": "proved", "theorems": ["PG.C27_trailing_ignored"], "note": ""},
  {"property": "C28", "status": "partial", "theorems": ["PG.C28_string_decoded_partial", "PG.C28_string_iff", "PG.C28_documents", "PG.C28_low_escape_rejected", "PG.C28_rejected_document", "PG.C28_surrogates_sloppy"], "note": "False: escapes below U+0080 are rejected in every position (general theorem and valid JSON witness). Partial: every other RFC 8259 string literal decodes to the right bytes; C28_string_iff characterises all accepted strings and their contents exactly; C28_documents lifts it to whole documents (read as their value, or refused by every class)."},
  {"property": "C29", "status": "proved", "theorems": ["PG.C29_clear_is_default", "PG.C29_unset", "PG.C29_clear_empty_equal", "PG.C29_clear_serializes", "PG.C29_empty_is_not_default"], "note": ""},
  {"property": "C30", "status": "proved", "theorems": ["PG.C30_equal_means", "PG.C30_reflexive", "PG.C30_symmetric", "PG.C30_transitive", "PG.C30_not_equal", "PG.C30_same_text", "PG.C30_same_text_exact", "PG.C30_sign_of_zero_shows", "PG.C30_field_against_value"], "note": "Equality is an equivalence away from NaN; equal objects serialize alike up to the sign of zero."},
  {"property": "C31", "status": "proved", "theorems": ["PG.C31_swap_exchanges", "PG.C31_swap_twice", "PG.C31_swap_with_value"], "note": ""},
  {"property": "C32", "status": "partial", "theorems": ["PG.C32_assign_full_partial", "PG.C32_assign_to_cleared_partial", "PG.C32_assign_serializes_partial", "PG.C32_stale_value_makes_unequal", "PG.C32_stale_string_serialized", "PG.C32_assign_iff"], "note": "False: assigning a null field keeps the stale value (witnesses). Partial: sources without null fields, cleared targets, string-free types; C32_assign_iff gives the exact conditions for all objects."},
  {"property": "C33", "status": "proved", "theorems": ["PG.C33_name_reaches_its_field", "PG.C33_unknown_name_reaches_nothing", "PG.C33_written_under_its_name"], "note": ""},
  {"property": "C34", "status": "proved", "theorems": ["PG.Gen.C34_names", "PG.Gen.C34_distinct", "PG.Gen.C34_written"], "note": "For every accepted schema; the written label is the decimal number unless obfuscate_strings is on too (C35)."},
  {"property": "C35", "status": "partial", "theorems": ["PG.Gen.C35_label_iff", "PG.Gen.C35_key_iff", "PG.Gen.C35_masks", "PG.Gen.C35_words", "PG.Gen.C35_transparent_partial", "PG.Gen.C35_masked", "PG.Gen.C35_is_false", "PG.Gen.C35_backslash"], "note": "False: a name with a character equal to its length mask is cut off (price becomes %). The condition under which it holds is exact."},
  {"property": "C36", "status": "proved", "theorems": ["PG.Gen.C36_definitions_precede_uses", "PG.Gen.C36_used_classes_are_declared", "PG.Gen.C36_same_name_twice"], "note": "Every message is emitted exactly once, after those it refers to; the emitted declarations are read off the printed calls. Two messages with the same qualified name are both emitted (witness), each once."},
  {"property": "C37", "status": "proved", "theorems": ["PG.Gen.C37_circular_iff", "PG.Gen.output_ends"], "note": "The file options are evaluated before, hence the hypothesis on them; termination is unconditional."},
  {"property": "C38", "status": "proved", "theorems": ["PG.Gen.C38_too_many_fails", "PG.Gen.C38_only_then", "PG.Gen.C38_limit"], "note": ""},
  {"property": "C39", "status": "proved", "theorems": ["PG.Gen.C39_guard_is_identifier", "PG.Gen.C39_namespaces_balanced", "PG.Gen.C39_namespace_text", "PG.Gen.C39_namespaces_are_identifiers"], "note": ""},
  {"property": "C40", "status": "partial", "theorems": ["PG.Gen.C40_substitution_partial", "PG.Gen.C40_single_dollar_truncates", "PG.Gen.C40_word_truncates", "PG.Gen.C40_backspace_dropped", "PG.Gen.C40_large_number", "PG.Gen.C40_exact", "PG.Gen.C40_generated_text", "PG.Gen.C40_generated_always", "PG.Gen.C40_runtime_always", "PG.Gen.C40_runtime_text"], "note": "Holds for templates made of $n$ and other characters, and for every template of the generator; false for a lone $, a backspace, and hole numbers beyond int. C40_exact says what any text becomes."},
  {"property": "C41", "status": "partial", "theorems": ["PG.Gen.C41_inclusions_partial", "PG.Gen.C41_bytes_without_base64", "PG.Gen.C41_is_false"], "note": "False for bytes: base64 support is included only for repeated bytes fields. The other four equivalences hold for all accepted schemas."},
  {"property": "C42", "status": "proved", "theorems": ["PG.Gen.C42_types", "PG.Gen.C42_members", "PG.Gen.C42_repeated_bytes_collapsed"], "note": "For every field of every accepted schema. A repeated bytes field has the type of a plain one."},
  {"property": "C43", "status": "partial", "theorems": ["PG.Proto.C43_comment_at_end_runs_forever", "PG.Proto.C43_string_at_end_runs_forever", "PG.Proto.C43_termination_is_false", "PG.Proto.C43_terminates_partial", "PG.Proto.C43_terminates_with_final_line_feed_partial", "PG.Proto.C43_terminates_on_lexical_elements_partial", "PG.Proto.C43_outcome_unique", "PG.Proto.C43_runs_forever_iff", "PG.Proto.C43_terminates"], "note": "False: a line comment or a string literal that meets the end of the file is read for ever. C43_runs_forever_iff says exactly which texts are parsed for ever, C43_terminates that all others end within a number of steps bounded by their size. Partial, without the table of places: every text whose comments and strings are closed, in particular every text ending with a line feed; and every text made of lexical elements, white space and comments."},
  {"property": "C44", "status": "proved", "theorems": ["PG.Proto.C44_only_protogen_exceptions", "PG.Proto.C44_success_or_exception"], "note": ""},
  {"property": "C45", "status": "partial", "theorems": ["PG.Proto.C45_valid_and_distinct", "PG.Proto.C45_index_of", "PG.Proto.C45_as_written_partial", "PG.Proto.C45_truncated", "PG.Proto.C45_numerals_accepted", "PG.Proto.C45_is_false", "PG.Proto.C45_as_written_iff", "PG.Proto.C45_good_iff", "PG.Proto.C45_verdict_iff"], "note": "Validity as the code defines it and uniqueness hold for all accepted files. False: 4294967297 becomes 1, 19001 is accepted, 536870911 is rejected. Partial: numbers below 2^31 are kept, and exactly those; the numbers for which the verdict is the right one are given exactly."},
  {"property": "C46", "status": "partial", "theorems": ["PG.Proto.C46_resolved", "PG.Proto.C46_undefined_rejected", "PG.Proto.C46_order_irrelevant_partial", "PG.Proto.C46_order_matters_for_duplicates", "PG.Proto.C46_same_references_partial"], "note": "Resolution and rejection hold for all files. Order is irrelevant up to the positions; with two messages of the same qualified name the first is meant (witness); when messages of the same qualified name are the same, every field refers to the same message in either order."},
  {"property": "C47", "status": "proved", "theorems": ["PG.Proto.C47_accepted", "PG.Proto.C47_write_and_parse", "PG.Proto.C47_accepted_iff"], "note": "For every well formed schema and every layout; the conditions on numbers and references are exactly those of Consistent."},
  {"property": "C48", "status": "proved", "theorems": ["PG.Proto.C48_layout_irrelevant"], "note": "Up to the line numbers that options keep for error messages."},
  {"property": "C49", "status": "partial", "theorems": ["PG.Proto.C49_accepted_iff", "PG.Proto.C49_unterminated_message_accepted", "PG.Proto.C49_broken_string_ends_file", "PG.Proto.C49_unterminated_comment_accepted", "PG.Proto.C49_slash_hides_a_character", "PG.Proto.C49_is_false", "PG.Proto.C49_rejected_partial", "PG.Proto.C49_stray_symbol_rejected"], "note": "The accepted files are characterised exactly. False for unclosed messages, strings broken by a line feed, unclosed comments (general negations). Partial: all files made of lexical elements, and all files with a stray symbol."},
  {"property": "C50", "status": "partial", "theorems": ["PG.Gen.C50_reproduced_iff", "PG.Gen.C50_header", "PG.Gen.C50_reproduced_partial", "PG.Gen.C50_last_line_lost", "PG.Gen.C50_is_false", "PG.Gen.C50_sections", "PG.Gen.C50_unclosed_section", "PG.Gen.C50_guard_is_identifier", "PG.Gen.C50_guard_of_file", "PG.Gen.C50_code_txt", "PG.Gen.C50_code_txt_distinct"], "note": "Reproduced up to an additional empty line if the text ends with a line feed and has no trigraphs (C50_reproduced_iff: without trigraphs exactly the texts that end with a line feed and have no marked line); a last line without line feed is lost. C50_code_txt shows that code.txt gives the templates of the generator model."},
  {"property": "C51", "status": "partial", "theorems": ["PG.C51_fixed_point_partial", "PG.C51_nested_transient", "PG.C51_null_string", "PG.C51_fixed_point_iff", "PG.C51_of_schema"], "note": "False for null strings under serialize_null and for messages whose only content is transient (witnesses). C51_fixed_point_iff gives the exact condition, C51_of_schema states it for the classes of any regular schema."},
  {"property": "C52", "status": "proved", "theorems": ["PG.Gen.C52_same_code", "PG.Gen.C52_any_sort", "PG.Gen.C52_sorted", "PG.Gen.C52_layout", "PG.Gen.C52_names_may_repeat"], "note": "For distinct field names, as in the quantifier; that hypothesis is not enforced by the parser."},
  {"property": "C53", "status": "partial", "theorems": ["PG.Gen.C53_last_wins", "PG.Gen.C53_found", "PG.Gen.C53_defaults", "PG.Gen.C53_as_read", "PG.Gen.C53_wrong_type_fails_partial", "PG.Gen.C53_file_option_reported", "PG.Gen.C53_is_false", "PG.Gen.C53_transient_name_ignored"], "note": "Last definition wins and defaults hold. Wrong types fail for all options the generator reads; the name of a transient field, message options and unknown options are ignored."},
  {"property": "C54", "status": "proved", "theorems": ["PG.C54_accepted_is_object", "PG.C54_accepted_is_value", "PG.C54_leniencies"], "note": "The grammar is over the input without line feeds, which the stream never shows; the leniencies are witnessed."},
  {"property": "C55", "status": "proved", "theorems": ["PG.Gen.C55_classes", "PG.Gen.MessageTy.unique", "PG.Gen.className_inj", "PG.Gen.C55_is_false"], "note": "The generated calls are read by an independent reader (Spec/Meaning.lean). Each condition is needed: duplicate messages, duplicate fields and a lone bytes field are accepted but give no program (witnesses)."},
  {"property": "C56", "status": "proved", "theorems": ["PG.Gen.C56_round_trip", "PG.Gen.C56_numbered", "PG.Gen.C56_default", "PG.Gen.C56_is_false"], "note": "Regularity follows from distinct names alone with number_names, or without name options. With equal JSON names it is false (witness)."},
  {"property": "C57", "status": "proved", "theorems": ["PG.Proto.C57_error_position", "PG.Proto.C57_rejected_start", "PG.Proto.C57_position_unresolved", "PG.Proto.C57_position_broken_string", "PG.Proto.C57_position_end", "PG.Proto.C57_position_same_number"], "note": "Trichotomy over all rejected texts. The last four theorems are witnesses of the exceptional places."},
  {"property": "C58", "status": "proved", "theorems": ["PG.C58_accepted_iff", "PG.C58_result_is_meaning"], "note": "Equivalence for every message type; soundness alone also for arrays and scalars."},
  {"property": "C59", "status": "proved", "theorems": ["PG.C59_line_feeds_meaningless", "PG.C59_example"], "note": ""},
  {"property": "C60", "status": "proved", "theorems": ["PG.Gen.C60_status_to_stdout", "PG.Gen.C60_status_to_file", "PG.Gen.C60_output", "PG.Gen.C60_failure_explained", "PG.Gen.C60_position", "PG.Gen.C60_refused", "PG.Gen.C60_unknown", "PG.Gen.C60_runs_forever_iff", "PG.Gen.C60_ends", "PG.Gen.C60_examples"], "note": "One exception is part of the theorem: nothing is printed if realpath fails. Writing to the output is assumed to succeed. The message for a missing semicolon after an option says =."},
  {"property": "C61", "status": "partial", "theorems": ["PG.Gen.C61_other_files_partial", "PG.Gen.C61_output_lost", "PG.Gen.C61_schema_lost", "PG.Gen.C61_is_false"], "note": "False: the output file is emptied before the schema is read (general negation and witnesses); given the schema as output file, the schema is erased and the program succeeds. Partial: no other file changes."},
  {"property": "C62", "status": "proved", "theorems": ["PG.Gen.C62_layout_irrelevant"], "note": ""},
  {"property": "C63", "status": "proved", "theorems": ["PG.C63_explained", "PG.C63_refused_iff", "PG.C63_refused_any", "PG.C63_not_late", "PG.C63_first_offender", "PG.C63_examples", "PG.C63_null_element", "PG.C63_masked_example"], "note": "For classes with bytes fields the record may instead be one that an earlier malformed base64 string left (Masked); everything else holds for all classes."},
  {"property": "C64", "status": "proved", "theorems": ["PG.C64_number_history", "PG.C64_string_history", "PG.C64_swap_hands_out", "PG.C64_compare_number", "PG.C64_compare_string", "PG.C64_compare_fields", "PG.C64_empty", "PG.C64_stale", "PG.C64_forget"], "note": ""},
  {"property": "C65", "status": "partial", "theorems": ["PG.Proto.C65_named_partial", "PG.Proto.C65_misnamed", "PG.Proto.C65_out_of_bounds"], "note": "False: the table lacks an entry for the unused number 5, so every token from the scalar types on is shown with the name of the next code, and showing the token optional reads past the end of the table. Partial: the five codes before."},
  {"property": "C66", "status": "partial", "theorems": ["PG.Proto.C66_addresses", "PG.Proto.C66_addresses_only", "PG.Proto.C66_shown_is_schema_partial", "PG.Proto.C66_packages_break", "PG.Proto.C66_iff", "PG.Proto.C66_is_false"], "note": "False: the messages are held by shared pointers, so what is printed for a schema is the addresses of its messages; it is rejected at the first character (for every schema with a message). Partial: the messages printed one after the other by their own operator are a schema exactly if no message of a package is the type of a field (types are printed with the package, messages without it)."},
  {"property": "C67", "status": "proved", "theorems": ["PG.Proto.C67_refused_iff", "PG.Proto.C67_unresolved_iff", "PG.Proto.C67_verdict", "PG.Proto.C67_whole_iff", "PG.Proto.C67_viable", "PG.Proto.C67_offender"], "note": "Necessary and sufficient conditions for every exception of the parser, with kind, names and position; the table of places is connected to the grammar of C49 by C67_whole_iff."},
  {"property": "C68", "status": "partial", "theorems": ["PG.C68_second_lost", "PG.C68_is_false", "PG.C68_separated_partial", "PG.C68_last_fails_stream"], "note": "False: the tokenizer reads ahead beyond the closing brace, so a second object written to the same stream can never be read back, whatever white space is between (general negation, all types and objects), and reading the last document leaves the stream failed. Partial: with a comma and one more character between them both are read."},
  {"property": "C69", "status": "proved", "theorems": ["PG.C69_evolution", "PG.C69_compatible", "PG.C69_field", "PG.C69_same_version", "PG.C69_widening", "PG.C69_of_schemas"], "note": "Ty.carry says what becomes of an object, without texts or JSON values; conversions that involve floating point numbers go through the decimal text. Uses C01-style hypotheses on names and strings."},
  {"property": "C70", "status": "partial", "theorems": ["PG.C70_unnoticed", "PG.Gen.C70_program_unnoticed", "PG.Gen.C70_is_false", "PG.C70_object_witness", "PG.C70_arrives", "PG.C70_objects_partial", "PG.Gen.C70_program_partial"], "note": "False: neither serialize nor the program looks at the state of the stream, so return value and exit status do not depend on what arrives (general negations, witnesses); a field width set on the stream pads the opening brace. Partial: what arrives exactly; the stream is still good exactly if all has arrived."},
  {"property": "C71", "status": "partial", "theorems": ["PG.C71_levels", "PG.C71_known_partial", "PG.C71_own_output", "PG.C71_is_false", "PG.C71_unfinished"], "note": "False: members the type does not have are skipped by recursion, one call per level of nesting, so for every message type a document takes as many levels as wanted (general negation; the text need not even be closed). Partial: exact number of levels for every document; bounded by the type for documents with no other members, in particular those written by serialize."},
  {"property": "C72", "status": "partial", "theorems": ["PG.Gen.C72_legal_iff", "PG.Gen.C72_identifiers_partial", "PG.Gen.C72_is_false", "PG.Gen.C72_clashes", "PG.Gen.C72_hidden"], "note": "False: only the form of identifiers is checked, not keywords (negation for every keyword that is not a word of the schema language), clashes (A and A_type, message and package, fields of one name) and names the class has already. Proved: an exact condition on the names of the schema for the file being legal. Names of the standard library in the global namespace and macros are left out."},
  {"property": "C73", "status": "proved", "theorems": ["PG.C73_json_iff", "PG.C73_refused", "PG.C73_text", "PG.C73_example"], "note": "Both directions, for every type; the refusal by every message class. Without the UTF-8 condition the equivalence fails, see C12_failures_make_json."},
  {"property": "C74", "status": "partial", "theorems": ["PG.C74_equal_iff", "PG.C74_empty_iff", "PG.C74_equivalence_partial", "PG.C74_is_false"], "note": "The relation is determined exactly for all values. It is no equivalence: not transitive; an infinity does not equal itself but (in one direction) the greatest finite value; the smallest positive number counts as empty. Partial: reflexive and symmetric on the finite numbers. Generated code does not call these functions (fields and containers compare with ==)."},
  {"property": "C75", "status": "partial", "theorems": ["PG.C75_nearest", "PG.C75_covers", "PG.C75_no_digits", "PG.C75_read", "PG.C75_float_partial", "PG.C75_is_false_for_float", "PG.C75_float_iff", "PG.C75_example"], "note": "Proved for double. False for float: the numeral is rounded twice, to double and then to float; 1.0000000596046447754 is read as 1 although the next float is nearer. Partial for float: exact when the numeral is a double; C75_float_iff gives the exact condition. The correct rounding of strtod itself is trusted (Model/Flt states it as integer arithmetic); the theorem shows that this arithmetic is the nearest number, for every numeral."},
  {"property": "C76", "status": "partial", "theorems": ["PG.Gen.C76_reported", "PG.Gen.C76_refused_iff", "PG.Gen.C76_lines", "PG.Gen.C76_printed", "PG.Gen.C76_position_partial", "PG.Gen.C76_position_is_false", "PG.Gen.C76_example"], "note": "The reason is true and complete, for every parsed schema, and the line of every option is right. False about positions: quotes in a name are always reported at 1:1, circular references and too many fields at 0:0, the column of the others is always 1."},
  {"property": "C77", "status": "proved", "theorems": ["PG.C77_same_text_iff", "PG.C77_same_text", "PG.C77_of_schema", "PG.C77_equality_is_different", "PG.C77_is_false"], "note": "Both directions. Each condition is needed (C77_is_false). Equality (C30) is a different relation: 0 and -0 are equal but written differently, doubles that differ by less than a millionth are written alike."},
  {"property": "C78", "status": "proved", "theorems": ["PG.C78_survives_iff", "PG.C78_refused", "PG.C78_of_schema", "PG.C78_examples"], "note": "Both directions; C78_of_schema from the text of any regular schema. Objects that are not writable are refused by every class (C78_refused)."},
  {"property": "C79", "status": "proved", "theorems": ["PG.IStream.C79_position", "PG.IStream.C79_iff", "PG.IStream.C79_safe", "PG.IStream.C79_short", "PG.IStream.C79_tight", "PG.Proto.In.C79_schema_position", "PG.Proto.In.C79_schema_iff", "PG.Proto.In.C79_schema_safe", "PG.Proto.In.C79_schema_short"], "note": "Model/Counter.lean repeats the counting functions with int counters (overflow is a separate outcome); both directions. The rest of the model keeps unbounded counters, which these theorems justify for countable inputs."},
  {"property": "C80", "status": "proved", "theorems": ["PG.C80_no_amplification", "PG.C80_new"], "note": "Potential argument: unread bytes plus what the current token can still contribute. Numbers and flags have constant size and count as 0, every element counts as 1 plus what it holds."},
  {"property": "C81", "status": "proved", "theorems": ["PG.C81_room", "PG.C81_most", "PG.C81_buffer"], "note": "The example shows texts that need all of the room. The first byte of the buffer is never written (C25), hence one byte more."},
  {"property": "C82", "status": "proved", "theorems": ["PG.Gen.C82_embedded", "PG.Gen.C82_printed", "PG.Gen.C82_version_in_place", "PG.Gen.C82_defined"], "note": "Model/HeaderTxt.lean holds the six files line by line (text of the repository, as data)."},
  {"property": "C83", "status": "partial", "theorems": ["PG.Gen.C83_form_iff", "PG.Gen.C83_shipped_iff", "PG.Gen.C83_form", "PG.Gen.C83_is_false", "PG.Gen.C83_line_feed"], "note": "False: a JSON name that ends with a backslash is accepted and takes the closing quote of its literal with it; a line feed in the name of the schema file ends the comment it is copied to. Proved: for file names without line feeds an exact condition on the JSON names; no condition is needed with number_names, obfuscation, or without name options."},
  {"property": "C84", "status": "partial", "theorems": ["PG.C84_true_partial", "PG.C84_silent", "PG.C84_distinct", "PG.C84_is_false", "PG.C84_examples", "PG.C84_writer"], "note": "False as stated: characters that are no token are called \"end of stream\" where the value of an unknown member is expected or has just ended. Proved: everything else of the statement, for all classes and texts (Says lists the claims of the messages). For classes with bytes fields the record may be the one of an earlier malformed base64 string, as in C63."},
  {"property": "C85", "status": "proved", "theorems": ["PG.Cpp.C85_functions", "PG.Cpp.C85_classes"], "note": "Spec/Cpp.lean (lexer and parser) and Spec/CppRun.lean (interpreter) give the meaning of a fragment of C++: string, character and number literals, declarations, assignment, if, switch, blocks, return, calls with reference parameters. Spec/CppClass.lean has the library the code calls: the functions json<T> of the members, the read_object loop, the table of names, the output stream. json<decltype(x)> is taken to be the class of the type of the value of x. Whether names in a schema are C++ keywords is C72."},
  {"property": "C86", "status": "proved", "theorems": ["PG.Cxx.C86_stream", "PG.Cxx.C86_tokens", "PG.Cxx.C86_escape", "PG.Cxx.C86_lead", "PG.Cxx.C86_expect", "PG.Cxx.C86_enums"], "note": "Spec/Cxx.lean (lexer, preprocessor and parser) and Spec/CxxRun.lean (interpreter) give the meaning of the fragment of C++ that the headers are written in; Spec/CxxLib.lean has the members of the classes and the library (std::string, strtol, iterators). Calls of other functions of the runtime have the meaning of the model functions, each with its own theorem. parse_string is run from its opening quote, as the code does."},
  {"property": "C87", "status": "proved", "theorems": ["PG.Cxx.C87_ignore", "PG.Cxx.C87_enough"], "note": "As C86. Fuel from 2 * bytes left + 8 on."},
  {"property": "C88", "status": "proved", "theorems": ["PG.Cxx.C88_numbers", "PG.Cxx.C88_bool", "PG.Cxx.C88_fields", "PG.Cxx.C88_strings", "PG.Cxx.C88_bytes", "PG.Cxx.C88_arrays", "PG.Cxx.C88_objects"], "note": "As C86. string_to_number and number_to_string are calls of the C library and have the meaning given in Model/Num.lean and Model/Flt.lean."},
  {"property": "C89", "status": "proved", "theorems": ["PG.Cxx.C89_reveal"], "note": "As C86."},
  {"property": "C90", "status": "proved", "theorems": ["PG.Cxx.C90_field", "PG.Cxx.C90_string_field", "PG.Cxx.C90_json_numbers", "PG.Cxx.C90_json_bool", "PG.Cxx.C90_json_strings", "PG.Cxx.C90_json_containers", "PG.Cxx.C90_types"], "note": "As C86. Arguments passed by reference are taken to be distinct objects (no aliasing with *this)."},
  {"property": "C91", "status": "proved", "theorems": ["PG.Cxx.C91_floats", "PG.Cxx.C91_no_locale", "PG.Cxx.C91_integers", "PG.Cxx.C91_tokens", "PG.Cxx.C91_equal_number"], "note": "As C86. strtod, snprintf, strtol, strtoul, std::nextafter and the locale functions of the C library have the meaning given in Spec/CxxNumber.lean, Model/Num.lean and Model/Flt.lean; C91_floats assumes that newlocale succeeds, C91_no_locale says what happens when it fails (every text is read as 0, every number is written as 0)."},
  {"property": "C92", "status": "partial", "theorems": ["PG.Cxx.C92_deserialize", "PG.Cxx.C92_serialize", "PG.Cxx.C92_members", "PG.Cxx.C92_serializer", "PG.Cxx.C92_inputs", "PG.Cxx.C92_outputs", "PG.Cxx.C92_comparison", "PG.Cxx.C92_is_false"], "note": "False of the code: deserialize_array(T&, const char*, size_t) makes a mem_iterator<char> from a const char*, which has no meaning (a program that calls it does not compile); C92_is_false. All other entry points are proved to be those of the model. As C86; arguments passed by reference are distinct objects."},
  {"property": "C93", "status": "partial", "theorems": ["PG.Cxx.C93_error", "PG.Cxx.C93_error_is_false", "PG.Cxx.C93_token", "PG.Cxx.C93_token_is_false", "PG.Cxx.C93_iterators", "PG.Cxx.C93_output", "PG.Cxx.C93_input", "PG.Cxx.C93_tokenizer", "PG.Cxx.C93_rest"], "note": "False of the code: ErrorInfo(code, message) leaves line and column uninitialized (C93_error_is_false), and the move constructor of token exchanges members that are not initialized, which is undefined (C93_token_is_false; compilers elide it where the runtime would use it). Everything else is proved. As C86."},
  {"property": "C94", "status": "partial", "theorems": ["PG.Cxx.Throw.C94_stream", "PG.Cxx.Throw.C94_get", "PG.Cxx.Throw.C94_get_is_false", "PG.Cxx.Throw.C94_get_overflow_is_reached", "PG.Cxx.Throw.C94_cur", "PG.Cxx.Throw.C94_tokenizer", "PG.Cxx.Throw.C94_parser", "PG.Cxx.Throw.C94_parse", "PG.Cxx.Throw.C94_tokenizer_new"], "note": "False of the code for texts from 2^31 characters on: the counters of lines and columns are of type int and overflow (C94_get_is_false, C94_get_overflow_is_reached). Spec/CxxThrow.lean adds exceptions to the interpreter of C86; Spec/CxxProto.lean has members and library. C94_parse is about a Proto3 object that is empty before. A handler of exceptions does not see how far the schema got, since it throws again."},
  {"property": "C95", "status": "proved", "theorems": ["PG.Cxx.Throw.C95_options", "PG.Cxx.Throw.C95_types", "PG.Cxx.Throw.C95_message", "PG.Cxx.Throw.C95_sort", "PG.Cxx.Throw.C95_file", "PG.Cxx.Throw.C95_obfuscate", "PG.Cxx.Throw.C95_print", "PG.Cxx.Throw.C95_printed", "PG.Cxx.Throw.C95_print_undefined"], "note": "Spec/CxxGen.lean has members and library (std::vector, std::unordered_set of shared pointers, std::stringstream with hex and setfill, strchr, strtol). A call of another function of cppgen.cc has the meaning of the model, which has a theorem of its own; the recursive call of sort has one level less. nativeType is executed for messages, the only fields it is called for. What was printed before an exception is not kept. Printer::print itself is undefined for a number that converts to the smallest int (C95_print_undefined); the generator has no such format (C95_printed)."},
  {"property": "C96", "status": "proved", "theorems": ["PG.Cxx.Throw.C96_template", "PG.Cxx.Throw.C96_start", "PG.Cxx.Throw.C96_exception", "PG.Cxx.Throw.C96_ends", "PG.Cxx.Throw.C96_show"], "note": "Spec/CxxTools.lean, Spec/CxxShow.lean and Spec/CxxStart.lean have the libraries (std::getline, find, rfind, replace, substr, iterators into a string, operator<<, exit, isalpha). In main of template.cc the calls of copy, process and ends_with have the meaning of the model, which C96_template shows; a stream that cannot be opened is a parameter."},
  {"property": "C97", "status": "proved", "theorems": ["PG.Cxx.Throw.C97_main", "PG.Cxx.Throw.C97_no_name", "PG.Cxx.Throw.C97_what"], "note": "Spec/CxxDriver.lean has the library: file streams over the file system World, realpath, std::sort with the order of equal names that the model has, Proto3::parse and CppGenerator::generate with the meaning of the model (C94, C95). main_usage and main_error end the program as C96_ends shows. The function without a name is parsed on its own; an exception specification throw() is left out. Not modelled: what realpath leaves in the buffer when it fails, and a result of PATH_MAX characters or more, which realpath does not give."},
  {"property": "C98", "status": "proved", "theorems": ["PG.Cxx.C98_texts", "PG.Cxx.C98_next", "PG.Cxx.C98_expect", "PG.Cxx.C98_ignore", "PG.Cxx.C98_linked", "PG.Cxx.C98_more", "PG.Cxx.C98_all", "PG.Cxx.C98_depth"], "note": "Spec/CxxLink.lean executes the text wherever a function of the tokenizer is called; the functions of istream, token(...), peek, error and strtol call none of them and keep the meaning of C86. Proofs/CxxMono.lean shows that execution depends on the library only through what is called. Loops have a bound that is computed from what is left of the text. C98_depth: the depth of the recursion is not bounded, so a document of brackets exhausts any stack."},
  {"property": "C99", "status": "proved", "theorems": ["PG.Cxx.Throw.C99_to_stdout", "PG.Cxx.Throw.C99_to_file"], "note": "Composes C97, C60, C85, C56 and C92. Acceptable is that of C60, Regular that of C56, the conditions on objects are those of C01. Between the executed texts stand the theorems that connect their libraries with the model: main calls Proto3::parse and CppGenerator::generate with the meaning of C94 and C95; serialize and deserialize call read and write of the type, which the functions of the class are (C85)."}
]}
