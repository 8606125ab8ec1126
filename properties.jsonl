{"id": "C01", "title": "Message round trip", "statement": "Serializing an object and deserializing the text into a freshly constructed object of the same type returns true and yields an object equal to the original, provided the content is representable (transient fields empty, no NUL byte in strings, no null element in repeated strings, doubles that survive six decimals).", "quantifier": "every message type (any nesting, any number of fields), every object of that type, ensure_ascii on or off", "why_tests_cant": "message types and objects are unbounded; a test fixes a handful of schemas and values", "anchors": ["source/cpp/json.hh:read_object", "source/cpp/code.txt:CODE_JSON__WRITE__ITEM", "source/cpp/code.txt:CODE_JSON__READ_FIELD__ITEM", "source/cpp/protogen.hh:tokenizer"]}
{"id": "C02", "title": "String round trip, raw output", "statement": "With ensure_ascii=false, any string that contains no NUL byte is written and read back byte for byte, whatever bytes it contains (including invalid UTF-8, quotes, backslashes and newlines).", "quantifier": "every byte string without NUL, every text that follows it in the document", "why_tests_cant": "infinitely many byte strings; escapes interact with each other and with the newline skipping of the input stream", "anchors": ["source/cpp/json-string.hh:json<std::string>::write", "source/cpp/protogen.hh:tokenizer::parse_string"]}
{"id": "C03", "title": "String round trip, ASCII output", "statement": "With ensure_ascii=true, any valid UTF-8 string without NUL is written and read back byte for byte, including characters outside the BMP, which travel as UTF-16 surrogate pairs.", "quantifier": "every valid UTF-8 string without U+0000", "why_tests_cant": "1.1 million code points in every combination and length", "anchors": ["source/cpp/json-string.hh:json<std::string>::write", "source/cpp/json-string.hh:write_escaped_utf8", "source/cpp/protogen.hh:tokenizer::parse_escaped_utf8"]}
{"id": "C04", "title": "ensure_ascii really means ASCII", "statement": "With ensure_ascii=true every byte that serialize emits is below 0x80, for every string content, even when the content is not valid UTF-8.", "quantifier": "every message type whose JSON names are ASCII, every object, every byte string content", "why_tests_cant": "requires all byte strings, including malformed ones", "anchors": ["source/cpp/json-string.hh:json<std::string>::write", "source/cpp/json-string.hh:write_escaped_utf8"]}
{"id": "C05", "title": "Integer round trip is exact", "statement": "Any value of an int32, uint32, int64, uint64 (and sint/fixed/sfixed) field is written as its decimal numeral and read back as exactly the same value, over the full 64-bit range (not only 53 bits).", "quantifier": "every integer type and every value of it", "why_tests_cant": "2^64 values per type", "anchors": ["source/cpp/json-number.hh:number_to_string", "source/cpp/json-number.hh:string_to_number", "source/cpp/protogen.hh:tokenizer::parse_number"]}
{"id": "C06", "title": "Out-of-range integers are converted predictably", "statement": "A JSON integer outside the range of the target field never traps: it is clamped to the 64-bit range of the platform long and then reduced modulo 2^n to the field's width; an integral part followed by a fraction or exponent is truncated at the first non-digit.", "quantifier": "every number lexeme and every integer field type", "why_tests_cant": "unbounded digit strings", "anchors": ["source/cpp/json-number.hh:string_to_number"]}
{"id": "C07", "title": "Floating point precision", "statement": "A finite double is written with six decimals; the text is within 5e-7 of the value; values that are exact multiples of 1e-6, and all values of magnitude at least 2^33, are read back exactly.", "quantifier": "every finite IEEE-754 double", "why_tests_cant": "2^64 bit patterns, and the claim is about rounding at every magnitude", "anchors": ["source/cpp/json-number.hh:number_to_string", "source/cpp/json-number.hh:string_to_number"]}
{"id": "C08", "title": "Number formatting never overflows or truncates its buffer", "statement": "The 320-byte buffer used to format floating point numbers is large enough for every finite double: no digit of the numeral is lost.", "quantifier": "every finite double", "why_tests_cant": "needs the widest value over all doubles", "anchors": ["source/cpp/json-number.hh:number_to_string"]}
{"id": "C09", "title": "Base64 round trip", "statement": "A bytes field that uses the base64 encoding is written as RFC 4648 base64 and read back as exactly the same bytes, for any length.", "quantifier": "every byte sequence of every length", "why_tests_cant": "unbounded lengths; three residue classes times 2^24 groups", "anchors": ["source/cpp/json-base64.hh:json<std::vector<uint8_t>>::write", "source/cpp/json-base64.hh:json<std::vector<uint8_t>>::read"]}
{"id": "C10", "title": "Malformed base64 is reported", "statement": "Deserializing a bytes field from a string that is not base64 (wrong length or foreign characters) makes deserialize return false.", "quantifier": "every string that is not a base64 text", "why_tests_cant": "infinitely many malformed strings", "anchors": ["source/cpp/json-base64.hh:json<std::vector<uint8_t>>::read", "source/cpp/json-base64.hh:b64_int"]}
{"id": "C11", "title": "Output is well-formed JSON", "statement": "The text produced by serialize is a JSON object according to RFC 8259, with every key drawn from the schema, provided strings contain no unescaped control characters and floating point values are finite.", "quantifier": "every message type, every object, every parameter combination", "why_tests_cant": "well-formedness must hold for every object, not for sampled outputs", "anchors": ["source/cpp/code.txt:CODE_JSON__WRITE__ITEM", "source/cpp/json-array.hh:json::write", "source/cpp/json-string.hh:json<std::string>::write", "source/cpp/json-number.hh:number_to_string"]}
{"id": "C12", "title": "serialize reports encoding failures", "statement": "If some string cannot be encoded (invalid UTF-8 under ensure_ascii), serialize returns false and fills Parameters::error.", "quantifier": "every message type and object holding a string that is not valid UTF-8", "why_tests_cant": "needs every message shape: the error must propagate through any nesting", "anchors": ["source/cpp/json-string.hh:set_error", "source/cpp/code.txt:CODE_JSON__WRITE__ITEM", "source/cpp/json.hh:PG_X_Y_Z_ENTITY"]}
{"id": "C13", "title": "Transient fields stay out of JSON", "statement": "A field marked transient never influences the serialized text and is never modified by deserialize, whatever the input text.", "quantifier": "every message type, object and input text", "why_tests_cant": "for all inputs, including ones that mention the transient field's name", "anchors": ["source/cpp/cppgen.cc:is_transient", "source/cpp/cppgen.cc:generate_function__read_field", "source/cpp/cppgen.cc:generate_function__index"]}
{"id": "C14", "title": "Unknown fields are ignored", "statement": "Adding members with names unknown to the schema, carrying any well-formed JSON value (arbitrarily nested), anywhere in the object does not change the outcome of deserialize nor the resulting object.", "quantifier": "every message type, every document, every JSON value in the unknown member, every position", "why_tests_cant": "unbounded nesting depth and document size", "anchors": ["source/cpp/protogen.hh:tokenizer::ignore_value", "source/cpp/json.hh:read_object"]}
{"id": "C15", "title": "Absent and null members keep the previous value", "statement": "A field whose name does not occur in the document, or occurs with the value null, keeps the value it had before deserialize (numeric, boolean, bytes, repeated and message fields).", "quantifier": "every message type, prior object state and document", "why_tests_cant": "quantifies over all documents and prior states", "anchors": ["source/cpp/json.hh:read_object", "source/cpp/json-number.hh:json<field<T>>::read", "source/cpp/json-array.hh:json::read"]}
{"id": "C16", "title": "null round trip with serialize_null", "statement": "With serialize_null=true an empty field is written as null and after deserialization into a fresh object it is empty again.", "quantifier": "every message type and object", "why_tests_cant": "every combination of empty and non-empty fields", "anchors": ["source/cpp/json-string.hh:json<string_field>::read", "source/cpp/json-number.hh:json<field<T>>::write"]}
{"id": "C17", "title": "Member order is irrelevant", "statement": "Permuting the members of a JSON object whose names are distinct does not change the result of deserialize nor the resulting object, when every member is acceptable.", "quantifier": "every message type, document and permutation", "why_tests_cant": "n! orders of unbounded n", "anchors": ["source/cpp/json.hh:read_object"]}
{"id": "C18", "title": "Insignificant whitespace is irrelevant", "statement": "Inserting or removing spaces, tabs, carriage returns and newlines between the tokens of a document changes neither the result of deserialize nor the resulting object.", "quantifier": "every message type, every well-formed document and every placement of whitespace", "why_tests_cant": "unbounded placements", "anchors": ["source/cpp/protogen.hh:tokenizer::next", "source/cpp/protogen.hh:iterator_istream::skip"]}
{"id": "C19", "title": "Duplicate members", "statement": "When a scalar member occurs several times the last occurrence wins; for repeated fields the occurrences are concatenated in order.", "quantifier": "every message type, any number of duplicates", "why_tests_cant": "unbounded repetition", "anchors": ["source/cpp/json.hh:read_object", "source/cpp/json-array.hh:json::read"]}
{"id": "C20", "title": "Deserialization always terminates", "statement": "deserialize returns for every input, after a number of token reads bounded by the input length; no input can make it loop forever.", "quantifier": "every message type, every byte string (well-formed or not)", "why_tests_cant": "an infinite loop on one input among infinitely many cannot be excluded by sampling", "anchors": ["source/cpp/protogen.hh:tokenizer::next", "source/cpp/protogen.hh:tokenizer::ignore_value", "source/cpp/json.hh:read_object", "source/cpp/json-array.hh:json::read"]}
{"id": "C21", "title": "Return value and error information agree", "statement": "If deserialize returns true then Parameters::error.code is PGERR_OK; if it returns false then the code is not PGERR_OK.", "quantifier": "every message type and every input", "why_tests_cant": "must hold on every failure path of every nested type", "anchors": ["source/cpp/json.hh:PG_X_Y_Z_ENTITY", "source/cpp/protogen.hh:tokenizer::error"]}
{"id": "C22", "title": "Error positions point into the document", "statement": "When deserialize fails, the reported line and column are the 1-based position of the offending token in the input.", "quantifier": "every input on which deserialize fails", "why_tests_cant": "positions depend on every newline and token before the failure", "anchors": ["source/cpp/protogen.hh:tokenizer::error", "source/cpp/protogen.hh:iterator_istream", "source/cpp/protogen.hh:tokenizer::parse_string"]}
{"id": "C23", "title": "Calls are independent of earlier errors", "statement": "The result of serialize or deserialize does not depend on the error information left in Parameters by earlier calls; a successful call leaves it cleared.", "quantifier": "every history of calls that reuse the same Parameters", "why_tests_cant": "all histories", "anchors": ["source/cpp/json.hh:PG_X_Y_Z_ENTITY", "source/cpp/protogen.hh:ErrorInfo::clear"]}
{"id": "C24", "title": "All input sources agree and stay in bounds", "statement": "Deserializing from std::string, std::vector<char>, (char*, length) or std::istream gives identical results on identical bytes, and the (char*, length) variant never reads outside the given range.", "quantifier": "every byte string and message type", "why_tests_cant": "all lengths including zero", "anchors": ["source/cpp/protogen.hh:message::deserialize", "source/cpp/protogen.hh:mem_const_iterator", "source/cpp/protogen.hh:iterator_istream"]}
{"id": "C25", "title": "All output sinks agree; bounded buffers are never overrun", "statement": "Serializing to std::string, std::vector<char> or std::ostream appends the same bytes; serializing to (char*, length) never writes outside the buffer and leaves in it the first length bytes of the text.", "quantifier": "every object and every buffer length", "why_tests_cant": "all lengths relative to all outputs", "anchors": ["source/cpp/protogen.hh:message::serialize", "source/cpp/protogen.hh:mem_iterator", "source/cpp/protogen.hh:iterator_ostream"]}
{"id": "C26", "title": "Repeated fields accumulate", "statement": "Deserializing an array into a repeated field appends the elements, in document order, after the elements already present.", "quantifier": "every element type, prior content and array", "why_tests_cant": "unbounded lengths", "anchors": ["source/cpp/json-array.hh:json::read"]}
{"id": "C27", "title": "Trailing input is ignored", "statement": "Whatever follows the closing brace of the top-level object does not change the result of deserialize nor the resulting object.", "quantifier": "every document and every trailing byte string", "why_tests_cant": "arbitrary suffixes", "anchors": ["source/cpp/json.hh:PG_X_Y_Z_ENTITY", "source/cpp/protogen.hh:tokenizer::expect"]}
{"id": "C28", "title": "String escapes are decoded as JSON specifies", "statement": "A JSON string is decoded as RFC 8259 prescribes: two-character escapes, \\uXXXX escapes of every code unit and surrogate pairs produce the UTF-8 encoding of the denoted characters.", "quantifier": "every JSON string literal", "why_tests_cant": "unbounded strings over 65536 code units", "anchors": ["source/cpp/protogen.hh:tokenizer::parse_string", "source/cpp/protogen.hh:tokenizer::parse_escaped_utf8"]}
{"id": "C29", "title": "clear, empty and default construction agree", "statement": "After clear() an object is empty(), is equal to a default constructed object and serializes to {}; clear is idempotent.", "quantifier": "every message type and object state", "why_tests_cant": "all nested states", "anchors": ["source/cpp/cppgen.cc:generate_function__clear", "source/cpp/cppgen.cc:generate_function__empty", "source/cpp/json-number.hh:field", "source/cpp/json-string.hh:string_field"]}
{"id": "C30", "title": "Equality is an equivalence", "statement": "operator== on messages is reflexive (absent NaN), symmetric and transitive, operator!= is its negation, and equal objects serialize to the same text up to the sign of zero.", "quantifier": "all objects of all message types", "why_tests_cant": "triples of objects", "anchors": ["source/cpp/cppgen.cc:generate_function__equal", "source/cpp/protogen.hh:message::operator=="]}
{"id": "C31", "title": "swap exchanges two objects", "statement": "swap exchanges the complete contents of two objects; doing it twice restores both.", "quantifier": "every message type and pair of objects", "why_tests_cant": "all pairs", "anchors": ["source/cpp/cppgen.cc:generate_function__swap", "source/cpp/json-number.hh:field::swap", "source/cpp/json-string.hh:string_field::swap"]}
{"id": "C32", "title": "Assignment makes objects equal", "statement": "After a = b the object a is equal to b, serializes identically, and b is unchanged.", "quantifier": "every message type and every pair of objects", "why_tests_cant": "depends on the previous state of the target", "anchors": ["source/cpp/json-number.hh:field::operator=", "source/cpp/json-string.hh:string_field::operator=", "source/cpp/json.hh:PG_X_Y_Z_ENTITY"]}
{"id": "C33", "title": "Each JSON name reaches its own field", "statement": "In the generated code, reading a member named by the JSON name of a persistent field updates exactly that field, and writing that field uses the same name; names of no persistent field reach no field.", "quantifier": "every list of fields with distinct JSON names, any mix of transient fields", "why_tests_cant": "all field lists and transient patterns", "anchors": ["source/cpp/cppgen.cc:generate_function__index", "source/cpp/cppgen.cc:generate_function__read_field", "source/cpp/cppgen.cc:generate_function__write"]}
{"id": "C34", "title": "Field-number names are unambiguous", "statement": "With number_names=true every message accepted by the parser gets pairwise distinct JSON names, which are the decimal field numbers.", "quantifier": "every accepted message", "why_tests_cant": "all schemas", "anchors": ["source/cpp/cppgen.cc:generate_function__write", "source/proto3.cc:parseField"]}
{"id": "C35", "title": "String obfuscation is transparent", "statement": "With obfuscate_strings=true the program behaves as without it: the revealed label equals the JSON name and lookups find the same fields.", "quantifier": "every JSON name", "why_tests_cant": "the mask depends on the length, the failure on a single byte value", "anchors": ["source/cpp/cppgen.cc:obfuscate", "source/cpp/protogen.hh:reveal", "source/cpp/code.txt:CODE_JSON__INDEX__HEADER_OBF"]}
{"id": "C36", "title": "Definitions precede uses in generated code", "statement": "The generated header defines every message exactly once and after every message it refers to, whatever the order in the proto file.", "quantifier": "every accepted schema without circular references", "why_tests_cant": "all dependency graphs", "anchors": ["source/cpp/cppgen.cc:sort", "source/cpp/cppgen.cc:contains"]}
{"id": "C37", "title": "Circular references are always diagnosed", "statement": "Generation fails with a circular reference error exactly when some message refers to itself directly or through other messages; it never recurses forever.", "quantifier": "every accepted schema", "why_tests_cant": "all graphs", "anchors": ["source/cpp/cppgen.cc:sort"]}
{"id": "C38", "title": "Field count limit", "statement": "Generation fails when a message has more than 64 fields and does not fail for that reason otherwise.", "quantifier": "every schema", "why_tests_cant": "boundary in unbounded field counts, any message in the file", "anchors": ["source/cpp/cppgen.cc:generateMessage", "include/protogen/protogen.hh:MAX_FIELDS"]}
{"id": "C39", "title": "Header guards and namespaces are well formed", "statement": "The include guard is a C identifier for any file name, and for any package name the namespaces opened around a message are closed again, one closing brace per opening one.", "quantifier": "every file name and package name", "why_tests_cant": "all strings", "anchors": ["source/cpp/cppgen.cc:makeGuard", "source/cpp/cppgen.cc:generateNamespace"]}
{"id": "C40", "title": "Template substitution is literal", "statement": "The printer replaces each $n$ by the n-th argument verbatim and copies everything else (tabs as four spaces); text coming from arguments is never interpreted as a placeholder.", "quantifier": "every template and arguments", "why_tests_cant": "arguments may contain any characters", "anchors": ["source/printer.cc:Printer::print"]}
{"id": "C41", "title": "Runtime support matches the fields used", "statement": "The generated header contains the runtime support required by every field type used in the schema: array support iff there is a repeated field, string support iff a string field, number support iff a numeric field, base64 support iff a bytes field.", "quantifier": "every schema", "why_tests_cant": "all combinations of field types over any number of messages", "anchors": ["source/cpp/cppgen.cc:generateInclusions"]}
{"id": "C42", "title": "Type mapping", "statement": "Every proto3 scalar type accepted by the parser is mapped to the C++ type documented in the README, repeated fields to vector or list according to cpp_use_lists, bytes always to vector<uint8_t>.", "quantifier": "every field declaration", "why_tests_cant": "every type, label and option combination", "anchors": ["source/cpp/cppgen.cc:fieldNativeType", "source/cpp/cppgen.cc:TYPE_MAPPING"]}
{"id": "C43", "title": "The schema parser terminates", "statement": "Proto3::parse returns or throws for every input file.", "quantifier": "every byte string", "why_tests_cant": "a hang on one input is invisible to sampling", "anchors": ["source/proto3.cc:Tokenizer::comment", "source/proto3.cc:Tokenizer::literalString", "source/proto3.cc:parseProto"]}
{"id": "C44", "title": "Only protogen::exception escapes the schema parser", "statement": "For every input the parser either succeeds or throws protogen::exception; the internal 'unable to unget' and 'Already ungot' failures never occur.", "quantifier": "every byte string", "why_tests_cant": "all inputs", "anchors": ["source/proto3.cc:InputStream::unget", "source/proto3.cc:Tokenizer::unget"]}
{"id": "C45", "title": "Field numbers are valid and unique", "statement": "Every field of an accepted schema has a number between 1 and 536870911, outside the reserved range 19000-19999, equal to the number written in the file, and unique within its message.", "quantifier": "every accepted input file", "why_tests_cant": "all files; numerals of any length", "anchors": ["source/proto3.cc:parseField"]}
{"id": "C46", "title": "Message types are resolved", "statement": "After a successful parse every field of message type refers to a message of the schema whose qualified name is the field's type name qualified by the current package; a reference to an undefined message makes the parse fail; the order of definitions does not matter.", "quantifier": "every input file", "why_tests_cant": "all reference patterns, forward and backward", "anchors": ["source/proto3.cc:findMessage", "source/proto3.cc:Proto3::parse", "source/proto3.cc:parseField"]}
{"id": "C47", "title": "Every well-formed schema is accepted as written", "statement": "Writing any schema in proto3 syntax and parsing it yields exactly that schema: packages, options, messages, fields with type, label, name, number and field options, in order.", "quantifier": "every schema in the supported subset", "why_tests_cant": "unbounded schemas", "anchors": ["source/proto3.cc:parseProto", "source/proto3.cc:parseMessage", "source/proto3.cc:parseField", "source/proto3.cc:parseOption"]}
{"id": "C48", "title": "Comments and layout do not matter in schemas", "statement": "Whitespace and line or block comments between tokens do not change the parsed schema.", "quantifier": "every placement of whitespace and terminated comments", "why_tests_cant": "unbounded placements", "anchors": ["source/proto3.cc:Tokenizer::next", "source/proto3.cc:Tokenizer::comment"]}
{"id": "C49", "title": "Malformed schemas are rejected", "statement": "A file with an unterminated string, an unterminated message body or a stray symbol is rejected rather than silently truncated.", "quantifier": "every malformed file", "why_tests_cant": "infinitely many malformed files", "anchors": ["source/proto3.cc:Tokenizer::literalString", "source/proto3.cc:parseMessage", "source/proto3.cc:Tokenizer::comment"]}
{"id": "C50", "title": "Embedded runtime sources are reproduced", "statement": "The build-time template processor turns any text file into a C string literal whose value is the file's text (with the version placeholder replaced), whatever characters the lines contain.", "quantifier": "every input file", "why_tests_cant": "every line content", "anchors": ["source/template.cc:copy", "source/template.cc:process"]}
{"id": "C51", "title": "Re-serialization is a fixed point", "statement": "Deserializing a serialized object and serializing the result gives the identical text, also for floating point fields whose value changed in the first trip.", "quantifier": "every message type and object with finite floating point values, no null strings in repeated fields", "why_tests_cant": "all doubles and all nestings", "anchors": ["source/cpp/json-number.hh:number_to_string", "source/cpp/json-number.hh:string_to_number", "source/cpp/code.txt:CODE_JSON__WRITE__ITEM"]}
{"id": "C52", "title": "Fields are emitted in a canonical order", "statement": "The compiler orders fields by name, so two schemas that differ only in the order of field declarations generate the same field order and the same JSON text for the same contents.", "quantifier": "every message and every permutation of its field declarations (distinct names)", "why_tests_cant": "n! permutations", "anchors": ["source/main.cc:main", "source/cpp/cppgen.cc:generate_function__write"]}
{"id": "C53", "title": "Option lookup", "statement": "For every option name the last definition wins; an option that is absent yields the default; a value of the wrong type makes generation fail with an error instead of being ignored.", "quantifier": "every option list", "why_tests_cant": "all option lists", "anchors": ["source/cpp/cppgen.cc:get_option", "source/proto3.cc:parseFieldOptions", "source/proto3.cc:parseStandardOption"]}
{"id": "C54", "title": "Accepted documents are JSON-like", "statement": "If deserialize returns true the input begins with a text derivable from the (documented, lenient) JSON object grammar; in particular brackets are balanced and members are separated by commas.", "quantifier": "every input accepted by deserialize", "why_tests_cant": "all accepted inputs", "anchors": ["source/cpp/protogen.hh:tokenizer", "source/cpp/json.hh:read_object"]}
{"id": "C55", "title": "Generated classes have the types of the schema", "statement": "For every accepted schema with distinct qualified message names and distinct field names per message, whose JSON names can stand in a C++ literal and whose bytes fields have runtime support, the generated file defines every class exactly once and before its use, and the class treats every field as the schema says: type of the member, label in the writer, entry and number in the table of names, case of read_field; transient fields in none of them; empty, clear, equal and swap cover all members.", "quantifier": "every accepted schema of any size satisfying the conditions, both settings of all three file options", "why_tests_cant": "all schemas; the agreement of six generated functions per message", "anchors": ["source/cpp/cppgen.cc:generate_message", "source/cpp/cppgen.cc:generate_function__index", "source/cpp/cppgen.cc:generate_function__write", "source/cpp/cppgen.cc:nativeType", "source/cpp/code.txt:CODE_JSON__INDEX__ITEM"]}
{"id": "C56", "title": "End-to-end round trip", "statement": "For every accepted regular schema (C55, plus distinct JSON names that need no escaping), every class of the generated file writes its objects to JSON that it reads back as an equal object, under the content conditions of C01.", "quantifier": "every accepted regular schema, every message of it, every object", "why_tests_cant": "schemas times objects; composes parser, generator, templates and runtime", "anchors": ["source/proto3.cc:parse", "source/cpp/cppgen.cc:generate", "source/cpp/json.hh:read_object", "source/cpp/code.txt:CODE_JSON__WRITE__ITEM"]}
{"id": "C57", "title": "Schema error positions", "statement": "A rejected schema is reported at the line and column of the first character of the offending element, what precedes it consists of whole lexical elements, and every other file that starts the same way up to the end of that element is rejected with the same error at the same place. Exceptions, stated exactly: an unresolved type is reported at 0:0, an error at the end of the file one column to the left of the end, and at 1:1 if a string is not closed on its line.", "quantifier": "every schema text that is rejected, every continuation after the offending element", "why_tests_cant": "all texts with an error, all continuations", "anchors": ["source/proto3.cc:next", "source/proto3.cc:InputStream", "source/proto3.cc:parse", "include/protogen/exception.hh:exception"]}
{"id": "C58", "title": "Exactly the accepted documents", "statement": "deserialize returns true and leaves the object o if and only if the input without line feeds begins with a document of an explicit, type-directed lenient JSON grammar whose value, absorbed into the object, gives o. Nothing else is accepted, nothing of the grammar is rejected, and the object is determined by the value of the document.", "quantifier": "every message type, every object before the call, every input byte string", "why_tests_cant": "all inputs, accepted and rejected, for all message types", "anchors": ["source/cpp/protogen.hh:tokenizer", "source/cpp/protogen.hh:ignore_value", "source/cpp/json.hh:read_object", "source/cpp/json-array.hh:json"]}
{"id": "C59", "title": "Line feeds carry no meaning", "statement": "Two inputs that differ only in line feeds give the same return value, the same object and the same error code, wherever the line feeds stand (even inside strings and numbers); only positions differ.", "quantifier": "every message type, object and pair of inputs equal up to line feeds", "why_tests_cant": "all insertions of line feeds into all inputs", "anchors": ["source/cpp/protogen.hh:istream", "source/cpp/protogen.hh:tokenizer"]}
{"id": "C60", "title": "Exit status, output and diagnostics of the program", "statement": "The program exits with status 0 if and only if it got one or two arguments, could open the schema and the output file, and the schema is acceptable (parsed, options of the right types, no circular reference, at most 64 fields per message); then standard error is empty and the output is exactly the generated text. If it ends otherwise the status is 1 and standard error names the usage, the file or path:line:column and the reason; only a failure of realpath is silent. It ends on every schema whose comments and strings are closed.", "quantifier": "every file system, every argument vector, every schema text", "why_tests_cant": "all file systems and argument vectors; failures of open and realpath", "anchors": ["source/main.cc:main", "source/main.cc:main_usage", "source/main.cc:main_error", "source/exception.cc:cause"]}
{"id": "C61", "title": "A failed run leaves the files alone", "statement": "If the program fails, all files have the contents they had before; a successful run changes only the output file, and never the schema.", "quantifier": "every file system, every argument vector, every schema text", "why_tests_cant": "all file systems, including paths that lead to the same file", "anchors": ["source/main.cc:main"]}
{"id": "C62", "title": "The generated code does not depend on the layout of the schema", "statement": "Two schema texts made of the same lexical elements, with any white space and comments between them, give byte for byte the same generated file, or are rejected for the same reason.", "quantifier": "every pair of layouts of every list of lexical elements", "why_tests_cant": "all layouts of all schemas", "anchors": ["source/proto3.cc:next", "source/cpp/cppgen.cc:generate", "source/main.cc:main"]}
{"id": "C63", "title": "Refused documents, exactly", "statement": "deserialize fails with error code c and leaves the object o if and only if the input, line feeds aside, begins with lexemes after which -- before a token of some kind, the end of the input or something that is no token -- an explicit, type-directed grammar of refused documents says that reading stops with code c and object o. The reported position is that of the offending token (0, 0 for a string). Errors are reported neither early nor late: the text before the offending token can be continued to an accepted document, and whatever text begins with a token of the same kind in its place gives the same code and the same object.", "quantifier": "every message type (code and position: without bytes fields), every object before the call, every input byte string that is refused", "why_tests_cant": "all refused inputs, for all message types; all continuations", "anchors": ["source/cpp/protogen.hh:tokenizer", "source/cpp/protogen.hh:ignore_value", "source/cpp/json.hh:read_object", "source/cpp/json-array.hh:json", "source/cpp/json-number.hh:json"]}
{"id": "C64", "title": "A field holds what its history says", "statement": "Whatever sequence of operations is performed on a field of a generated class, by whichever member functions (assignment of a value, of a C string or of another field, both swaps, clear, empty(bool), writing through operator*), whether it is null and which value it holds is determined by the history: the newest operation that sets the flag and the newest value put in. Copying a null field keeps the old value inside. Comparisons, empty() and the conversions show exactly that.", "quantifier": "every arithmetic type, every sequence of operations, all values", "why_tests_cant": "all sequences of operations", "anchors": ["source/cpp/json-number.hh:field", "source/cpp/json-string.hh:string_field"]}
{"id": "C65", "title": "Debug output names tokens", "statement": "In a debug build every token is printed with the name of its code, and printing never reads outside of the table of names.", "quantifier": "every token", "why_tests_cant": "the table is only used in debug builds; reading past its end need not be noticed", "anchors": ["source/proto3.cc:TOKENS", "source/proto3.cc:operator<<"]}
{"id": "C66", "title": "Debug output of a schema is a schema", "statement": "What a debug build prints for an accepted schema is a schema again that is accepted and has the same messages, fields, types and numbers (options and the label optional are not printed).", "quantifier": "every accepted schema text", "why_tests_cant": "all schemas; every combination of packages and references", "anchors": ["source/proto3.cc:TYPES", "source/proto3.cc:operator<<", "source/proto3.cc:parse"]}
{"id": "C67", "title": "The error of a refused schema, exactly", "statement": "An explicit table says for each place of a schema (between two lexical elements) what is expected there and which error anything else gets. The parser throws error k at line l, column c if and only if the text begins with lexical elements each of which is expected at its place, and then comes something unexpected -- a lexical element, a stray character, a malformed name, or the end of the file -- whose error by the table is k, and l, c is where it begins (for the end of the file: see C57). It throws 'unresolved' if and only if the whole file is admitted and the type of some field is no message. Errors are not late: the text before the error can be continued to a whole schema, except after a wrong version and in a field whose number is used already or for which no number is left.", "quantifier": "every input byte string; every continuation", "why_tests_cant": "all refused texts, all kinds of errors at all places, all continuations", "anchors": ["source/proto3.cc:parse_proto", "source/proto3.cc:parse_field", "source/proto3.cc:parse_option", "source/proto3.cc:parse_message", "source/proto3.cc:parse_package", "source/proto3.cc:parse_syntax", "source/proto3.cc:next"]}
{"id": "C68", "title": "Documents in one stream can be read one after another", "statement": "If several objects are written to the same std::ostream one after another (with or without white space between them), reading from a std::istream over these bytes as many times gives the objects back in order, and a successful read leaves the stream usable.", "quantifier": "every message type with distinct JSON names, every pair of writable objects, every separator", "why_tests_cant": "all pairs of documents and all separators; the state of the stream after the call", "anchors": ["source/cpp/protogen.hh:deserialize", "source/cpp/protogen.hh:iterator_istream", "source/cpp/protogen.hh:tokenizer"]}
{"id": "C69", "title": "Versions of a schema read each other's documents", "statement": "An object written by the class of one schema is read by the class of another: fields with the same JSON name carry their value over (integers keep their value if it fits), fields unknown to the reader are ignored, fields unknown to the writer stay as new, at every depth. Between compatible versions (fields added, removed or moved; numbers exchanged for numbers, strings for bytes) this always succeeds; otherwise the document is refused exactly if a field is written whose value cannot be carried over.", "quantifier": "every pair of message types with usable names, every writable object, all parameters", "why_tests_cant": "all pairs of versions of all schemas, all objects", "anchors": ["source/cpp/json.hh:read_object", "source/cpp/code.txt:CODE_JSON__INDEX__HEADER", "source/cpp/protogen.hh:ignore_value", "source/cpp/json-number.hh:json"]}
{"id": "C70", "title": "Success means that the output has arrived", "statement": "If serialize(std::ostream&) returns true, the whole text has been appended to what the stream contained; if the program exits with status 0, the whole generated text is in the output file (or went to standard output).", "quantifier": "every object; every state of the stream (room on the device, failed before, field width); every file system and schema", "why_tests_cant": "full disks and failed streams are rarely tested; all objects and schemas", "anchors": ["source/cpp/protogen.hh:serialize", "source/cpp/protogen.hh:iterator_ostream", "source/main.cc:main"]}
{"id": "C71", "title": "Reading takes a bounded part of the call stack", "statement": "The number of nested calls during deserialize is bounded by the nesting of the message type: it does not depend on the document.", "quantifier": "every message type, every byte string", "why_tests_cant": "no test tries documents nested arbitrarily deep", "anchors": ["source/cpp/protogen.hh:ignore_value", "source/cpp/protogen.hh:ignore_array", "source/cpp/protogen.hh:ignore_object", "source/cpp/json.hh:read_object"]}
{"id": "C72", "title": "The names of a schema that is accepted can be used in C++", "statement": "For every schema that code is generated for, the declarations of the generated file are legal: everything is called by an identifier that is no keyword and hides nothing the code uses, no type is defined twice or called like a namespace, no structure has two members of one name, and every field can be reached in the class.", "quantifier": "every schema text", "why_tests_cant": "all names in all places of all schemas; clashes between any two declarations", "anchors": ["source/cpp/cppgen.cc:generateModel", "source/cpp/cppgen.cc:generateEntity", "source/proto3.cc:parse_field", "source/proto3.cc:parse_message", "source/cpp/json.hh:PG_X_Y_Z_ENTITY"]}
{"id": "C73", "title": "Exactly the objects that are written as JSON", "statement": "For a message type with legal JSON names and an object whose strings are UTF-8 (needed under ensure_ascii only), the output of serialize is a JSON text if and only if no string that is written contains a control character other than backspace, tab, line feed, form feed and carriage return, and every number that is written is finite. Numbers that are not finite are written as nan, inf and -inf, serialize returns true, and no message class whatsoever reads the document.", "quantifier": "every message type, every object, all parameters; for the refusal: every other message type, parameters and object", "why_tests_cant": "all objects, in both directions; all readers", "anchors": ["source/cpp/json-number.hh:number_to_string", "source/cpp/json-string.hh:json", "source/cpp/protogen.hh:tokenizer", "source/cpp/protogen.hh:ignore_value"]}
{"id": "C74", "title": "Comparison of plain numbers", "statement": "json<T>::equal of an arithmetic type is an equivalence that tells different numbers apart up to rounding: integers are equal iff they are the same, finite floating point numbers iff no number of the type lies strictly between them; json<T>::empty holds for the numbers equal to zero.", "quantifier": "every arithmetic type, every pair of values including infinities and NaN", "why_tests_cant": "all pairs of floating point numbers; the edge cases are the ends of the range and the numbers next to zero", "anchors": ["source/cpp/json-number.hh:equal_number", "source/cpp/json-number.hh:json"]}
{"id": "C75", "title": "Numerals are read as the nearest floating point number", "statement": "The value of a floating point field read from a number token is the number of the type that is nearest to the decimal numeral at the beginning of the token (of two the one with an even significand, beyond the range an infinity); what follows the numeral in the token is ignored, and a token without digits before the exponent gives 0.", "quantifier": "every number token, double and float", "why_tests_cant": "infinitely many numerals of any length; errors of the last bit are invisible in tests of a few values", "anchors": ["source/cpp/json-number.hh:string_to_number", "source/cpp/json-number.hh:json", "source/cpp/protogen.hh:tokenizer"]}
{"id": "C76", "title": "The reason given for refusing a schema is true", "statement": "When the generator refuses a schema that was parsed, the fault it reports (option of the wrong type, quotes in a name, circular reference, too many fields) is one the schema has, it names the option, field or message concerned, and the position points at it; a schema without such faults is not refused. The line kept with every option is the one where its declaration begins.", "quantifier": "every schema text that is parsed", "why_tests_cant": "all schemas with any combination of faults; positions depend on the layout", "anchors": ["source/cpp/cppgen.cc:get_option", "source/cpp/cppgen.cc:get_json_name", "source/cpp/cppgen.cc:sort", "source/cpp/cppgen.cc:generateMessage", "source/proto3.cc:parse_option", "source/main.cc:main"]}
{"id": "C77", "title": "Which objects have the same JSON text", "statement": "Two objects of a generated class have the same JSON text if and only if they show the same data: every persistent field is written for both or for neither (without serialize_null the empty ones are left out), and what is written has the same bytes in strings and bytes fields, the same elements in the same order, integers of the same value and floating point numbers that have the same sign and the same rounded number of millionths, or are both NaN, or the same infinity.", "quantifier": "every class of every regular schema, every pair of objects, all parameters (with ensure_ascii: objects whose strings are UTF-8)", "why_tests_cant": "all pairs of objects; a test cannot show that no two different objects are written alike", "anchors": ["source/cpp/code.txt:CODE_JSON__WRITE__ITEM", "source/cpp/json-string.hh:json", "source/cpp/json-number.hh:number_to_string", "source/cpp/json-base64.hh:json"]}
{"id": "C78", "title": "Exactly the objects that survive a round trip", "statement": "Take a class of a regular schema and an object of it whose strings are UTF-8 (needed with ensure_ascii only). What serialize writes is read back into a fresh object if and only if every number that is written is finite, no string that is written contains a NUL byte, and no string in a repeated field is null. The object that is read back is the same object if and only if in addition nothing of it is invisible in the text: transient fields are as in a new object, so are fields that are left out, strings are not null, and floating point numbers have no more than six decimals. Objects that fail the first two conditions are written without complaint, and no message class whatsoever reads what was written.", "quantifier": "every class of every regular schema, every object, all parameters; for the refusal: every other message type, parameters and object", "why_tests_cant": "all objects, in both directions; all readers", "anchors": ["source/cpp/json.hh:read_object", "source/cpp/code.txt:CODE_JSON__WRITE__ITEM", "source/cpp/json-array.hh:read_array", "source/cpp/protogen.hh:tokenizer"]}
{"id": "C79", "title": "Line and column counters do not overflow", "statement": "The line and column counters of the JSON reader and of the schema reader are the position of the cursor in the text, and they are ints: reading a text from end to end overflows none of them if and only if every position in it has a line and a column that are ints. In particular texts of less than 2^31 - 1 bytes are safe whatever they contain, and a text of that many equal bytes is not.", "quantifier": "every input, every sequence of next() calls; every schema text, every sequence of get() and unget() calls", "why_tests_cant": "an overflow needs an input of two gigabytes; the counters of every state must be right", "anchors": ["source/cpp/protogen.hh:iterator_istream", "source/proto3.cc:InputStream"]}
{"id": "C80", "title": "Reading does not amplify", "statement": "After deserialize, successful or not, an object holds at most as many string bytes, bytes and elements (of repeated fields, together and at all levels) more than before as the text has bytes.", "quantifier": "every generated type, every input, all parameters, every object", "why_tests_cant": "all inputs, hostile ones in particular; failing reads included", "anchors": ["source/cpp/protogen.hh:tokenizer", "source/cpp/json.hh:read_object", "source/cpp/json-array.hh:read_array", "source/cpp/json-base64.hh:json"]}
{"id": "C81", "title": "Room for the text is known beforehand", "statement": "The text serialize writes is no longer than a size computed from the lengths of strings, byte sequences and containers: 2 bytes per string byte (3 with ensure_ascii), 4 per 3 bytes of a bytes field, the widest numeral of a type, labels and separators. For messages without fields of variable size there is a size that suffices for every object. A buffer of one byte more is never too small for serialize(char*, size_t).", "quantifier": "every generated type, every object, all parameters; output that is cut off by an error included", "why_tests_cant": "all objects; the widest numerals have 317 characters and occur nowhere in the tests", "anchors": ["source/cpp/json-string.hh:json", "source/cpp/json-number.hh:number_to_string", "source/cpp/json-base64.hh:json", "source/cpp/code.txt:CODE_JSON__WRITE__ITEM"]}
{"id": "C82", "title": "The runtime reaches the generated file unchanged", "statement": "The template processor turns each of the six runtime headers into one macro, under the name the generator uses, whose value is the text of the header without the lines marked for removal, with the version number in place of its placeholder; the generator prints this text unchanged except that tabs become spaces. No placeholder is left, and the macros, namespace and classes the generated code relies on are defined by the parts that are always included.", "quantifier": "every directory the template processor is run in, every part of the runtime, every text that surrounds the part in the output", "why_tests_cant": "the path goes through quoting into C literals, the C compiler's reading of them and the placeholder language of the printer; a dollar sign or backslash anywhere in 1900 lines could break it", "anchors": ["source/template.cc:process", "source/cpp/cppgen.cc:generateModel", "source/printer.cc:Printer::print", "source/cpp/protogen.hh", "source/cpp/json.hh"]}
{"id": "C83", "title": "The generated file has the outer form of a C++ file", "statement": "In every file that the generator completes, comments, string and character literals and directives end, parentheses, brackets and braces are properly nested, and so are #if and #endif.", "quantifier": "every schema the parser and the generator accept, every file name", "why_tests_cant": "all schemas; names, packages and file names are copied into code, comments and literals", "anchors": ["source/cpp/cppgen.cc:generateModel", "source/cpp/cppgen.cc:get_json_name", "source/cpp/code.txt", "source/printer.cc:Printer::print"]}
{"id": "C84", "title": "The message of an error is true", "statement": "The code and the message that a failed read leaves say what is missing at the reported place: the token that was expected there is indeed not there, and a message about the end of the stream is given only at the end.", "quantifier": "every message class, every text", "why_tests_cant": "fifteen messages at thirty places; the text can break off or go wrong at any depth and in known or unknown members", "anchors": ["source/cpp/protogen.hh:tokenizer::error", "source/cpp/protogen.hh:tokenizer::ignore_value", "source/cpp/json.hh:json_base", "source/cpp/json.hh:json<T>::read_object", "source/cpp/json.hh:read_bool"]}
{"id": "C85", "title": "The generated functions, read as C++, are those of the model", "statement": "For a schema with distinct names and printable JSON names the generated file contains, outside of comments, literals and other declarations, one class json<T> for every message; its functions read, read_field, index, write, empty, clear, equal and swap, parsed and executed statement by statement as C++, do for all objects, inputs and parameters what the type of the message says.", "quantifier": "every schema the parser and the generator accept (distinct names, printable JSON names), every message of it, every object, input text and parameters", "why_tests_cant": "the code is text assembled from templates for all schemas; a test compiles one schema and runs it on a few objects", "anchors": ["source/cpp/code.txt:CODE_JSON_MODEL__HEADER", "source/cpp/cppgen.cc:generateModelWrapper", "source/cpp/cppgen.cc:generateModel"]}
{"id": "C86", "title": "The tokenizer of the runtime, read as C++, is that of the model", "statement": "The text of the functions of iterator_istream (eof, peek, next, skip) and of tokenizer (next, expect, error, parse_identifier, parse_string, parse_utf8_character, parse_number) in protogen.hh and of set_error in json.hh, parsed and executed statement by statement as C++ with its integer types, does for all states what the functions of the model do, whether char is signed or not; no operation in them overflows or is undefined except the two position counters.", "quantifier": "every input, every state of the tokenizer, both kinds of char", "why_tests_cant": "hundreds of statements with gotos, character classes and integer conversions; a test runs them on a few texts on one platform", "anchors": ["source/cpp/protogen.hh:iterator_istream", "source/cpp/protogen.hh:tokenizer::next", "source/cpp/protogen.hh:tokenizer::parse_string", "source/cpp/protogen.hh:tokenizer::parse_utf8_character", "source/cpp/protogen.hh:tokenizer::parse_number", "source/cpp/json.hh:set_error"]}
{"id": "C87", "title": "The functions that skip values, read as C++, are those of the model", "statement": "The text of ignore_array, ignore_object and ignore_value in protogen.hh, parsed and executed as C++, skips for all inputs what the functions of the model skip, with the same return value, error and position; the loops end.", "quantifier": "every input, every state of the tokenizer", "why_tests_cant": "they call one another to any depth", "anchors": ["source/cpp/protogen.hh:tokenizer::ignore_array", "source/cpp/protogen.hh:tokenizer::ignore_object", "source/cpp/protogen.hh:tokenizer::ignore_value"]}
{"id": "C88", "title": "The readers and writers of the runtime, read as C++, are those of the model", "statement": "The text of the functions read and write of json<T> for numbers, bool, field<T>, std::string, string_field, std::vector<uint8_t> and the containers, of read_object, write_escaped_utf8 and b64_int, parsed and executed as C++, does for all values, inputs and parameters what the model's readers and writers of the corresponding types do; array indices are in bounds and no integer operation overflows.", "quantifier": "every value (sizes below 2^64 - 2), every state of the tokenizer, every type of elements and every message class, both kinds of char", "why_tests_cant": "byte manipulation with shifts, masks and conversions, depending on all bytes of a value and on the signedness of char", "anchors": ["source/cpp/json-number.hh:json<T>::read", "source/cpp/json-number.hh:json<field<T>>", "source/cpp/json-string.hh:json<std::string>::write", "source/cpp/json-string.hh:json<string_field>", "source/cpp/json-base64.hh:json<std::vector<uint8_t>>", "source/cpp/json-array.hh:json<T>::read", "source/cpp/json.hh:json<T>::read_object"]}
{"id": "C89", "title": "The functions that reveal names, read as C++, are those of the model", "statement": "The text of rol and reveal in protogen.hh, parsed and executed as C++, computes for every string what the model's function computes.", "quantifier": "every string shorter than 2^64", "why_tests_cant": "the key depends on the length, and the shifts on promotion to int and conversion back", "anchors": ["source/cpp/protogen.hh:rol", "source/cpp/protogen.hh:reveal"]}
{"id": "C90", "title": "The field classes of the runtime, read as C++, are those of the model", "statement": "The text of the functions of field<T> and string_field (constructors, swap, clear, empty, assignment, comparison, conversion, operator*) and of empty, clear, equal and swap of json<T> for field<T>, numbers, bool, std::string, string_field, containers and std::vector<uint8_t>, parsed and executed as C++, does for all objects and arguments what the model's functions do.", "quantifier": "every value of every element type, every state of the objects, both kinds of char", "why_tests_cant": "small functions, dozens of them, each with its own flag that says whether the field is set", "anchors": ["source/cpp/json-number.hh:field", "source/cpp/json-string.hh:string_field", "source/cpp/json-number.hh:json<field<T>>", "source/cpp/json-string.hh:json<string_field>", "source/cpp/json-array.hh:json<T>", "source/cpp/json-base64.hh:json<std::vector<uint8_t>>"]}
{"id": "C91", "title": "Conversions between numbers and text, read as C++, are those of the model", "statement": "The text of string_to_number, number_to_string and equal_number, parsed and executed as C++, computes for all numbers and all texts without a zero byte what the model computes, whatever the locale of the thread and whatever the C library does in locales other than C; the locale of the thread is the same afterwards. Number tokens have no zero byte.", "quantifier": "every numeric type, every value, every text without a zero byte, every locale of the caller, both variants of the text (with and without __USE_GNU)", "why_tests_cant": "the results depend on the locale of the thread and on conversions between types of different width", "anchors": ["source/cpp/json-number.hh:string_to_number", "source/cpp/json-number.hh:number_to_string", "source/cpp/json-number.hh:equal_number"]}
{"id": "C92", "title": "The functions that programs call, read as C++, are those of the model", "statement": "The text of every overload of deserialize, serialize, deserialize_array and serialize_array, of the members that PG_X_Y_Z_ENTITY and PG_X_Y_Z_ENTITY_SERIALIZER define and of the comparisons of messages, parsed and executed as C++ (macros with their line splices), can be executed and does for all objects, inputs, outputs and parameters what the model's entry points do: return value, object, error record of the caller, output.", "quantifier": "every message and array type, every object, input, output and parameter (present or null), every fuel of the reader", "why_tests_cant": "eight overloads of each function, each of which builds its own stream and passes parameters on", "anchors": ["source/cpp/protogen.hh:message", "source/cpp/json.hh:PG_X_Y_Z_ENTITY", "source/cpp/json.hh:PG_X_Y_Z_ENTITY_SERIALIZER", "source/cpp/json-array.hh:deserialize_array", "source/cpp/json-array.hh:serialize_array"]}
{"id": "C93", "title": "The small classes of the runtime, read as C++, are those of the model", "statement": "The text of the constructors and functions of ErrorInfo, token, mem_const_iterator, mem_iterator, iterator_ostream, iterator_istream and tokenizer, parsed and executed as C++, does for all objects and arguments what the model does; every constructor leaves an object whose members are all initialized, and reads no member before that.", "quantifier": "every state, every argument, every output iterator that the runtime uses, both kinds of char", "why_tests_cant": "an uninitialized member has whatever value the memory had, usually zero in a test", "anchors": ["source/cpp/protogen.hh:ErrorInfo", "source/cpp/protogen.hh:token", "source/cpp/protogen.hh:mem_const_iterator", "source/cpp/protogen.hh:mem_iterator", "source/cpp/protogen.hh:iterator_ostream", "source/cpp/protogen.hh:iterator_istream", "source/cpp/protogen.hh:tokenizer"]}
{"id": "C94", "title": "The parser of schemas, read as C++, is that of the model", "statement": "The text of the functions of InputStream, Token, Tokenizer and of the parser in proto3.cc, parsed and executed as C++ with exceptions, does for all inputs what the model's functions do: values, state of stream and tokenizer, schema, text and position of exceptions; no operation on the way is undefined.", "quantifier": "every text, every state of the stream and of the tokenizer, every schema, both kinds of char", "why_tests_cant": "exceptions leave from any of thirty functions, and each of them must have the position that was current", "anchors": ["source/proto3.cc:InputStream", "source/proto3.cc:Token", "source/proto3.cc:Tokenizer", "source/proto3.cc:parseOption", "source/proto3.cc:parseField", "source/proto3.cc:parseMessage", "source/proto3.cc:parseProto", "source/proto3.cc:Proto3::parse"]}
{"id": "C95", "title": "The generator, read as C++, is that of the model", "statement": "The text of the functions of cppgen.cc and of Printer::print, parsed and executed as C++ with exceptions, does for all schemas what the model's functions do: the same calls of the printer with the same formats and arguments in the same order, the same exceptions; every call of the printer that the generator makes is defined and prints the text of the model's call.", "quantifier": "every schema with fewer than 2^64 messages and fields (2^31 in functions that count in int), every option, every file name, both kinds of char", "why_tests_cant": "thirty functions with their own loops and formats, whose output depends on every field and option of a schema", "anchors": ["source/cpp/cppgen.cc:nativeType", "source/cpp/cppgen.cc:fieldNativeType", "source/cpp/cppgen.cc:generateModel", "source/cpp/cppgen.cc:generateMessage", "source/cpp/cppgen.cc:sort", "source/cpp/cppgen.cc:generateInclusions", "source/cpp/cppgen.cc:CppGenerator::generate", "source/cpp/cppgen.cc:obfuscate", "source/printer.cc:Printer::print"]}
{"id": "C96", "title": "The tools around the generator, read as C++, are those of the model", "statement": "The text of the functions of template.cc, of main_usage and main_error, of the constructors and cause of exception, and of the output operators of proto3.cc, parsed and executed as C++, does for all inputs what the model's functions do; main of template.cc is undefined exactly when the name of its input file has a character that isalpha must not be called with, and otherwise writes the header that the model gives for the file.", "quantifier": "every template text and header, every name of a file, every text and position of an exception, every token, field, message and tree, both kinds of char", "why_tests_cant": "the headers are made once when the program is built, from a few files with ASCII names", "anchors": ["source/template.cc:copy", "source/template.cc:process", "source/template.cc:ends_with", "source/template.cc:main", "source/main.cc:main_usage", "source/main.cc:main_error", "source/exception.cc:exception", "source/exception.cc:exception::cause", "source/proto3.cc:operator<<"]}
{"id": "C97", "title": "The driver, read as C++, is that of the model", "statement": "The text of main in main.cc, parsed and executed as C++ with exceptions, leaves behind for all arguments and all file systems what the model's main does: the exit status, what is printed to standard output and to the file, what is written to standard error, the contents of all files; if the model's parser does not end, neither does it. The function that compares fields compares their names, and exception::what gives the text of the exception.", "quantifier": "every number of arguments, every path, every file system (contents, permissions, room, realpath), every schema text", "why_tests_cant": "the outcome depends on which of five operations on files fails and on where an exception comes from", "anchors": ["source/main.cc:main", "source/exception.cc:exception::what"]}
{"id": "C98", "title": "The functions of the tokenizer, read as C++, work together", "statement": "The functions of the class tokenizer of protogen.hh, where each of them is its text and calls the texts of the others instead of functions of the model, have in every state the result and the final state of the model's functions; ignore, which calls itself through three others, ends for every text, with calls nested at most twice for each character that is left and a few times more; no fixed depth of calls is enough for all texts, since calls nest as deep as the brackets of the document.", "quantifier": "every text that is left, every current token, every depth of calls, both kinds of char", "why_tests_cant": "the functions are mutually recursive; that each of them is right if the others are does not say that they are right, or that they end", "anchors": ["source/cpp/protogen.hh:tokenizer::next", "source/cpp/protogen.hh:tokenizer::ignore", "source/cpp/protogen.hh:tokenizer::ignore_array", "source/cpp/protogen.hh:tokenizer::ignore_object", "source/cpp/protogen.hh:tokenizer::ignore_value", "source/cpp/protogen.hh:tokenizer::parse_string"]}
{"id": "C99", "title": "From the schema to the object that is read back, all of it executed", "statement": "If main of main.cc, executed as C++, is given a schema that is acceptable and regular, it ends with status 0, complains about nothing and leaves a text, on standard output or in the output file, that contains for every message a class whose functions, parsed and executed as C++, are those of the type of the message; every representable object of that type survives serialize and deserialize of json.hh, executed as C++: both return true and the object that is read equals the one that was written. No other file changes.", "quantifier": "every acceptable regular schema text, every file system with room for the output, every name of a file without a line break, every message, object and set of parameters, both kinds of char", "why_tests_cant": "schema, generated class, document and object are all unbounded, and an error in any of six programs on the way would show", "anchors": ["source/main.cc:main", "source/cpp/cppgen.cc:CppGenerator::generate", "source/cpp/json.hh:serialize", "source/cpp/json.hh:deserialize", "source/cpp/code.txt:CODE_JSON__WRITE__ITEM"]}
{"id": "C100", "title": "The functions of the parser of schemas, read as C++, work together", "statement": "The functions of the tokenizer and of the parser in proto3.cc (next, unget, comment, qname, name, integer, literalString; parseOption, parseFieldOptions, parseStandardOption, findMessage, parseField, parseMessage, parsePackage, parseSyntax, parseProto, Proto3::parse), where each of them is its text and calls the texts of the others instead of functions of the model, return what the model's functions return, leave the tokenizer, the schema, the options and the message as those do, and throw the same exceptions with the same position; calls nest at most four deep below parseProto.", "quantifier": "every source of tokens, every state of the parser, every schema text, every bound of loops, both kinds of char", "why_tests_cant": "what a function does to its arguments passed by reference is seen only by its callers, three and four levels up", "anchors": ["source/proto3.cc:Tokenizer::next", "source/proto3.cc:parseOption", "source/proto3.cc:parseFieldOptions", "source/proto3.cc:parseStandardOption", "source/proto3.cc:findMessage", "source/proto3.cc:parseField", "source/proto3.cc:parseMessage", "source/proto3.cc:parseProto", "source/proto3.cc:Proto3::parse"]}
{"id": "C101", "title": "The driver executed together with the parser of schemas", "statement": "main of main.cc, executed as C++ where main_usage, main_error, exception::cause and Proto3::parse are their texts, and Proto3::parse executes the texts of the functions of the parser and of its tokenizer, leaves behind for all arguments and all file systems what the model's main does; the way from the schema to the object that is read back (C99) holds with these texts.", "quantifier": "every number of arguments, every path, every file system, every schema text, every bound of loops of at least 26, both kinds of char", "why_tests_cant": "an exception thrown in the tokenizer passes through four functions before main turns it into a message; each function right by itself does not say that the message is", "anchors": ["source/main.cc:main", "source/main.cc:main_usage", "source/main.cc:main_error", "source/exception.cc:exception::cause", "source/proto3.cc:Proto3::parse"]}
{"id": "C102", "title": "The tables of the generator, read as C++, are those of the model and fit together", "statement": "The arrays KEYWORDS, TOKENS, TYPES and TYPE_MAPPING, the macros TOKEN_* and PROTOGEN_O_*, the enumeration FieldType and the values that members of new objects begin with, read from the text of the sources, are those of the model. For every scalar type the enumerator of FieldType, the code of its keyword and its number in the model agree (parseField converts the code of a token to a FieldType), and row t - TYPE_DOUBLE of TYPE_MAPPING is that of the type t (nativeType uses the number as an index). No two codes are the same. The names of the templates are those of the macros made of code.txt.", "quantifier": "every code of a token, every scalar type, every keyword, every template, every row", "why_tests_cant": "the tables are in four files and fit together by numbers written by hand; a wrong row shows only in schemas that use the type", "anchors": ["source/proto3.cc:KEYWORDS", "source/proto3.cc:TOKENS", "source/proto3.cc:TYPES", "source/cpp/cppgen.cc:TYPE_MAPPING", "include/protogen/proto3.hh:FieldType", "include/protogen/protogen.hh:PROTOGEN_O_NAME", "source/cpp/protogen.hh:Parameters"]}
{"id": "C103", "title": "The functions of the generator, read as C++, work together", "statement": "CppGenerator::generate, parsed from its text and executed as C++ where every function of the generator that is called (23 names, 26 texts), however deep and including the recursion of sort over the references, is its text too, prints the calls of the model or throws the exception of the model; together with the text of Printer::print it writes the bytes of the model's header. It is never undefined for a schema that the parser accepts.", "quantifier": "for all accepted schemas (in fewer than 2^64 steps), file names, contents of the output before, both signs of char, and all depths of calls above the number of messages and seven", "why_tests_cant": "Tests compare headers of a few schemas; that all functions agree with each other at every call, that the recursion of sort ends within the number of messages and that no call is undefined (null pointers, overflow, arguments of the wrong kind) is a statement about all schemas.", "anchors": ["source/cpp/cppgen.cc:CppGenerator::generate", "source/cpp/cppgen.cc:generateModel", "source/cpp/cppgen.cc:generateMessage", "source/cpp/cppgen.cc:sort", "source/cpp/cppgen.cc:generateInclusions", "source/printer.cc:Printer::print"]}
{"id": "C104", "title": "The compiler as a whole, read as C++, is the model", "statement": "main, parsed from its text and executed as C++ with the texts of Proto3::parse and all functions of the parser and its tokenizer, of CppGenerator::generate and all functions of the generator, of Printer::print, of main_usage, main_error and exception::cause in place of their meaning, leaves behind what the model's main leaves behind: exit status, standard output, standard error and files. For a regular schema the header that is written this way contains, for every message, a class whose functions, executed, serialize and deserialize every object of its type without loss.", "quantifier": "for all arguments, all file systems, all schemas, both signs of char, and all bounds of at least 26 and less than 2^64 iterations for the loops of the parser", "why_tests_cant": "Running the program shows single executions on one platform; that all functions fit together for every schema, every outcome of opening and reading files and every argument list cannot be enumerated.", "anchors": ["source/main.cc:main", "source/proto3.cc:Proto3::parse", "source/cpp/cppgen.cc:CppGenerator::generate", "source/printer.cc:Printer::print", "source/exception.cc:exception::cause"]}
{"id": "C105", "title": "A header is complete exactly when the generator succeeds", "statement": "The generator prints the line #endif // GUARD for the guard of the file exactly when it ends without exception, and then once and last; when it throws, what it has printed by then (the parts of the runtime, the beginning of the file, some of the messages) does not contain it, so an output left behind by a failed run leaves the conditional of the guard open.", "quantifier": "every schema tree (accepted or not), every file name, every outcome of the generator; for the texts of the C++ functions every accepted schema", "why_tests_cant": "a failure may happen at any field of any message; tests of failing schemas look at the exit code and not at what is left in the file", "anchors": ["source/cpp/cppgen.cc:generateModel", "source/cpp/cppgen.cc:CppGenerator::generate", "source/cpp/cppgen.cc:makeGuard"]}
