import Verif.Model.Gen
/-
The headers of the generator, line by line: `include/protogen/proto3.hh` and `include/protogen/protogen.hh`.
-/
set_option autoImplicit false
namespace PG.Gen

/-- include/protogen/proto3.hh:1-100. -/
def proto3HeadLines1 : List Bytes := [
  b!"/*",
  b!" * Copyright 2024 Bruno Ribeiro <https://github.com/brunexgeek>",
  b!" *",
  b!" * Licensed under the Apache License, Version 2.0 (the \"License\");",
  b!" * you may not use this file except in compliance with the License.",
  b!" * You may obtain a copy of the License at",
  b!" *",
  b!" *     http://www.apache.org/licenses/LICENSE-2.0",
  b!" *",
  b!" * Unless required by applicable law or agreed to in writing, software",
  b!" * distributed under the License is distributed on an \"AS IS\" BASIS,",
  b!" * WITHOUT WARRANTIES OR CONDITIONS OF ANY KIND, either express or implied.",
  b!" * See the License for the specific language governing permissions and",
  b!" * limitations under the License.",
  b!" */",
  b!"",
  b!"#ifndef PROTOGEN_PROTO3_HH",
  b!"#define PROTOGEN_PROTO3_HH",
  b!"",
  b!"#include <string>",
  b!"#include <vector>",
  b!"#include <unordered_map>",
  b!"#include <iostream>",
  b!"#include <memory>",
  b!"#include <protogen/exception.hh>",
  b!"",
  b!"namespace protogen {",
  b!"",
  b!"enum FieldType",
  b!"{",
  b!"    TYPE_DOUBLE   = 6,",
  b!"    TYPE_FLOAT    = 7,",
  b!"    TYPE_INT32    = 8,",
  b!"    TYPE_INT64    = 9,",
  b!"    TYPE_UINT32   = 10,",
  b!"    TYPE_UINT64   = 11,",
  b!"    TYPE_SINT32   = 12,",
  b!"    TYPE_SINT64   = 13,",
  b!"    TYPE_FIXED32  = 14,",
  b!"    TYPE_FIXED64  = 15,",
  b!"    TYPE_SFIXED32 = 16,",
  b!"    TYPE_SFIXED64 = 17,",
  b!"    TYPE_BOOL     = 18,",
  b!"    TYPE_STRING   = 19,",
  b!"    TYPE_BYTES    = 20,",
  b!"    TYPE_MESSAGE  = 21,",
  b!"};",
  b!"",
  b!"class Message;",
  b!"",
  b!"struct TypeInfo",
  b!"{",
  b!"    FieldType id = FieldType::TYPE_DOUBLE;",
  b!"    std::string qname;",
  b!"    std::shared_ptr<Message> ref;",
  b!"    bool repeated = false;",
  b!"    bool optional = false;",
  b!"};",
  b!"",
  b!"enum class OptionType",
  b!"{",
  b!"    IDENTIFIER,",
  b!"    STRING,",
  b!"    INTEGER,",
  b!"    BOOLEAN",
  b!"};",
  b!"",
  b!"struct OptionEntry",
  b!"{",
  b!"    std::string name;",
  b!"    OptionType type = OptionType::IDENTIFIER;",
  b!"    std::string value;",
  b!"    int line = 0;",
  b!"};",
  b!"",
  b!"typedef std::unordered_map<std::string, OptionEntry> OptionMap;",
  b!"",
  b!"struct Field",
  b!"{",
  b!"    TypeInfo type;",
  b!"    std::string name;",
  b!"    int index = 0;",
  b!"    OptionMap options;",
  b!"};",
  b!"",
  b!"struct Message",
  b!"{",
  b!"    std::vector<Field> fields;",
  b!"    std::string name;",
  b!"    std::string package;",
  b!"    OptionMap options;",
  b!"",
  b!"    std::string qualifiedName() const;",
  b!"    void splitPackage( std::vector<std::string> &out );",
  b!"};",
  b!"",
  b!"struct Proto3",
  b!"{",
  b!"    std::vector<std::shared_ptr<Message>> messages;",
  b!"    OptionMap options;"]

/-- include/protogen/proto3.hh:101-113. -/
def proto3HeadLines2 : List Bytes := [
  b!"    std::string fileName;",
  b!"",
  b!"    void parse( std::istream &input, const std::string &fileName = \"\");",
  b!"};",
  b!"",
  b!"} // protogen",
  b!"",
  b!"std::ostream &operator<<( std::ostream &out, protogen::Proto3 &proto );",
  b!"std::ostream &operator<<( std::ostream &out, protogen::Message &message );",
  b!"std::ostream &operator<<( std::ostream &out, protogen::Field &field );",
  b!"",
  b!"",
  b!"#endif // PROTOGEN_PROTO3_HH"]

/-- include/protogen/proto3.hh. -/
def proto3HeadLines : List Bytes :=
  proto3HeadLines1 ++ proto3HeadLines2

/-- include/protogen/protogen.hh:1-62. -/
def cppgenHeadLines1 : List Bytes := [
  b!"/*",
  b!" * Copyright 2021 Bruno Ribeiro <https://github.com/brunexgeek>",
  b!" *",
  b!" * Licensed under the Apache License, Version 2.0 (the \"License\");",
  b!" * you may not use this file except in compliance with the License.",
  b!" * You may obtain a copy of the License at",
  b!" *",
  b!" *     http://www.apache.org/licenses/LICENSE-2.0",
  b!" *",
  b!" * Unless required by applicable law or agreed to in writing, software",
  b!" * distributed under the License is distributed on an \"AS IS\" BASIS,",
  b!" * WITHOUT WARRANTIES OR CONDITIONS OF ANY KIND, either express or implied.",
  b!" * See the License for the specific language governing permissions and",
  b!" * limitations under the License.",
  b!" */",
  b!"",
  b!"#ifndef PROTOGEN_API_H",
  b!"#define PROTOGEN_API_H",
  b!"",
  b!"",
  b!"#include <protogen/proto3.hh>",
  b!"",
  b!"",
  b!"namespace protogen {",
  b!"",
  b!"",
  b!"// Obfuscate generated strings (true) or keep them in plain text (false).",
  b!"// The default value is false.",
  b!"#define PROTOGEN_O_OBFUSCATE_STRINGS       \"obfuscate_strings\"",
  b!"",
  b!"// Use field numbers as JSON field names (true) or use the actual names (false).",
  b!"// The default value value is false.",
  b!"#define PROTOGEN_O_NUMBER_NAMES            \"number_names\"",
  b!"",
  b!"// Make a field transient (true) or not (false). The default value is false.",
  b!"#define PROTOGEN_O_TRANSIENT               \"transient\"",
  b!"",
  b!"// Enable (true) or disable (false) the use of 'std::list' as container class for repeated",
  b!"// fields. If disabled, 'std::vector' will be used instead. The default value is false.",
  b!"#define PROTOGEN_O_CPP_USE_LISTS           \"cpp_use_lists\"",
  b!"",
  b!"// Specify a custom name for the JSON field, while retaining the C++ field name as defined in the message.",
  b!"// If no custom name is provided, the JSON field and the C++ field name will be the same.",
  b!"#define PROTOGEN_O_NAME                    \"name\"",
  b!"",
  b!"class Generator",
  b!"{",
  b!"    public:",
  b!"        virtual void generate( Proto3 &proto, std::ostream &out ) = 0;",
  b!"};",
  b!"",
  b!"",
  b!"class CppGenerator : public Generator",
  b!"{",
  b!"    public:",
  b!"        static const int MAX_FIELDS = sizeof(uint64_t) * 8;",
  b!"        void generate( Proto3 &proto, std::ostream &out );",
  b!"};",
  b!"",
  b!"}",
  b!"",
  b!"#endif // PROTOGEN_API_H"]

/-- include/protogen/protogen.hh. -/
def cppgenHeadLines : List Bytes :=
  cppgenHeadLines1

end PG.Gen
