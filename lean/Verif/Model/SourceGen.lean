import Verif.Model.Gen
/-
The generator and the printer, line by line: `source/cpp/cppgen.cc` and `source/printer.cc`.
-/
set_option autoImplicit false
namespace PG.Gen

/-- source/cpp/cppgen.cc:1-100. -/
def cppgenLines1 : List Bytes := [
  b!"/*",
  b!" * Copyright 2020 Bruno Ribeiro <https://github.com/brunexgeek>",
  b!" *",
  b!" * Licensed under the Apache License, Version 2.0 (the \"License\");",
  b!" * you may not use this file except in compliance with the License.",
  b!" * You may obtain a copy of the License at",
  b!" *",
  b!" *     http://www.apache.org/licenses/LICENSE-2.0",
  b!" *",
  b!" * Unless required by applicable law or agreed to in writing, software",
  b!" * distributed under the License is distributed on an \"AS IS\" BASIS,",
  b!" * WITHOUT WARRANTIES OR CONDITIONS OF ANY KIND, either express or implied.",
  b!" * See the License for the specific language governing permissions and",
  b!" * limitations under the License.",
  b!" */",
  b!"",
  b!"#include <algorithm>",
  b!"#include <unordered_set>",
  b!"#include <vector>",
  b!"#include <cmake.hh>",
  b!"#include <auto-code.hh>",
  b!"#include <auto-protogen.hh>",
  b!"#include <auto-json.hh>",
  b!"#include <auto-json-array.hh>",
  b!"#include <auto-json-base64.hh>",
  b!"#include <auto-json-number.hh>",
  b!"#include <auto-json-string.hh>",
  b!"#include <protogen/protogen.hh>",
  b!"#include \"../printer.hh\"",
  b!"#include <sstream>",
  b!"#include <cstdio>",
  b!"",
  b!"namespace protogen {",
  b!"",
  b!"#ifdef _WIN32",
  b!"#define SNPRINTF _snprintf",
  b!"#else",
  b!"#define SNPRINTF snprintf",
  b!"#endif",
  b!"",
  b!"struct GeneratorContext",
  b!"{",
  b!"    Printer &printer;",
  b!"    Proto3 &root;",
  b!"    bool number_names = false;",
  b!"    bool obfuscate_strings = false;",
  b!"    bool cpp_use_lists = false;",
  b!"",
  b!"    GeneratorContext( Printer &printer, Proto3 &root ) : printer(printer), root(root) {}",
  b!"};",
  b!"",
  b!"static constexpr const struct {",
  b!"    protogen::FieldType type;",
  b!"    const char *typeName;",
  b!"    const char *nativeType;",
  b!"    const char *defaultValue;",
  b!"} TYPE_MAPPING[] =",
  b!"{",
  b!"    { protogen::TYPE_DOUBLE,   \"double\",    \"double\"      , \"0.0\" },",
  b!"    { protogen::TYPE_FLOAT,    \"float\",     \"float\"       , \"0.0F\" },",
  b!"    { protogen::TYPE_INT32,    \"int32\",     \"int32_t\"     , \"0\" },",
  b!"    { protogen::TYPE_INT64,    \"int64\",     \"int64_t\"     , \"0\" },",
  b!"    { protogen::TYPE_UINT32,   \"uint32\",    \"uint32_t\"    , \"0\" },",
  b!"    { protogen::TYPE_UINT64,   \"uint64\",    \"uint64_t\"    , \"0\" },",
  b!"    { protogen::TYPE_SINT32,   \"sint32\",    \"int32_t\"     , \"0\" },",
  b!"    { protogen::TYPE_SINT64,   \"sint64\",    \"int64_t\"     , \"0\" },",
  b!"    { protogen::TYPE_FIXED32,  \"fixed32\",   \"uint32_t\"    , \"0\" },",
  b!"    { protogen::TYPE_FIXED64,  \"fixed64\",   \"uint64_t\"    , \"0\" },",
  b!"    { protogen::TYPE_SFIXED32, \"sfixed32\",  \"int32_t\"     , \"0\" },",
  b!"    { protogen::TYPE_SFIXED64, \"sfixed64\",  \"int64_t\"     , \"0\" },",
  b!"    { protogen::TYPE_BOOL,     \"bool\",      \"bool\"        , \"false\" },",
  b!"    { protogen::TYPE_STRING,   \"string\",    nullptr       , \"\\\"\\\"\" },",
  b!"    { protogen::TYPE_BYTES,    \"bytes\",     \"uint8_t\"     , nullptr },",
  b!"    { protogen::TYPE_MESSAGE,  nullptr,     nullptr       , nullptr }",
  b!"};",
  b!"",
  b!"static std::string nativePackage( const std::string &package )",
  b!"{",
  b!"    // extra space because the compiler may complain about '<::' (i.e. using in templates)",
  b!"    if (package.empty())",
  b!"        return \" \";",
  b!"    std::string name;",
  b!"    name.reserve(package.length());",
  b!"    name += \" ::\";",
  b!"    for (auto c : package)",
  b!"    {",
  b!"        if (c == '.')",
  b!"            name += \"::\";",
  b!"        else",
  b!"            name += c;",
  b!"    }",
  b!"    return name;",
  b!"}",
  b!"",
  b!"/**",
  b!" * Translates protobuf3 types to C++ types.",
  b!" */",
  b!"static std::string nativeType( const Field &field )",
  b!"{",
  b!"    if (field.type.id >= protogen::TYPE_DOUBLE && field.type.id <= protogen::TYPE_STRING)"]

/-- source/cpp/cppgen.cc:101-200. -/
def cppgenLines2 : List Bytes := [
  b!"    {",
  b!"        int index = (int)field.type.id - (int)protogen::TYPE_DOUBLE;",
  b!"        return TYPE_MAPPING[index].nativeType;",
  b!"    }",
  b!"    else",
  b!"    if (field.type.id == protogen::TYPE_BYTES)",
  b!"        return \"uint8_t\";",
  b!"    else",
  b!"    if (field.type.id == protogen::TYPE_MESSAGE)",
  b!"    {",
  b!"        if (field.type.ref == nullptr)",
  b!"            throw protogen::exception(\"Message type reference is null\");",
  b!"        return nativePackage(field.type.ref->package) + \"::\" + field.type.ref->name;",
  b!"    }",
  b!"    else",
  b!"        throw protogen::exception(\"Invalid field type\");",
  b!"}",
  b!"",
  b!" /**",
  b!"  * Translates protobuf3 types to C++ types.",
  b!"  */",
  b!"static std::string fieldNativeType( const Field &field, bool useLists )",
  b!"{",
  b!"    std::string valueType;",
  b!"",
  b!"    // value type",
  b!"    if (field.type.id == protogen::TYPE_STRING)",
  b!"    {",
  b!"        valueType = \"protogen\";",
  b!"        valueType += PROTOGEN_VERSION_NAMING;",
  b!"        valueType += \"::string_field\";",
  b!"    }",
  b!"    else",
  b!"    if (field.type.id >= protogen::TYPE_DOUBLE && field.type.id <= protogen::TYPE_BYTES)",
  b!"    {",
  b!"        int index = (int)field.type.id - (int)protogen::TYPE_DOUBLE;",
  b!"        valueType = TYPE_MAPPING[index].nativeType;",
  b!"    }",
  b!"    else",
  b!"    if (field.type.id == protogen::TYPE_MESSAGE)",
  b!"        valueType = nativeType(field);",
  b!"    else",
  b!"        throw protogen::exception(\"Invalid field type\");",
  b!"",
  b!"    if (field.type.repeated || field.type.id == protogen::TYPE_BYTES)",
  b!"    {",
  b!"        std::string output = \"std::\";",
  b!"        if (field.type.id == protogen::TYPE_BYTES || !useLists)",
  b!"            output += \"vector<\";",
  b!"        else",
  b!"            output += \"list<\";",
  b!"        output += valueType;",
  b!"        output += '>';",
  b!"        return output;",
  b!"    }",
  b!"    if (field.type.id == protogen::TYPE_MESSAGE || field.type.id == protogen::TYPE_STRING)",
  b!"        return valueType;",
  b!"    else",
  b!"    {",
  b!"        std::string output = \"protogen\";",
  b!"        output += PROTOGEN_VERSION_NAMING;",
  b!"        output += \"::field<\";",
  b!"        output += valueType;",
  b!"        output += '>';",
  b!"        return output;",
  b!"    }",
  b!"}",
  b!"",
  b!"static void generateNamespace( GeneratorContext &ctx, const Message &message, bool opening )",
  b!"{",
  b!"    if (message.package.empty()) return;",
  b!"",
  b!"    std::string name;",
  b!"    std::string package = message.package + '.';",
  b!"    for (auto c : package)",
  b!"    {",
  b!"        if (c == '.')",
  b!"        {",
  b!"            if (opening)",
  b!"                ctx.printer(\"namespace $1$ {\\n\", name);",
  b!"            else",
  b!"                ctx.printer(\"} // namespace $1$\\n\", name);",
  b!"            name.clear();",
  b!"        }",
  b!"        else",
  b!"            name += c;",
  b!"    }",
  b!"}",
  b!"",
  b!"static void generateModel( GeneratorContext &ctx, const Message &message )",
  b!"{",
  b!"    // begin namespace",
  b!"    generateNamespace(ctx, message, true);",
  b!"",
  b!"    ctx.printer(\"\\tstruct $1$_type\\n\\t{\\n\", message.name);",
  b!"    for (auto field : message.fields)",
  b!"    {",
  b!"        auto type = fieldNativeType(field, ctx.cpp_use_lists);",
  b!"        ctx.printer(\"\\t\\t$1$ $2$;\\n\", type, field.name);",
  b!"    }"]

/-- source/cpp/cppgen.cc:201-300. -/
def cppgenLines3 : List Bytes := [
  b!"    ctx.printer(\"\\t};\\n\");",
  b!"",
  b!"    // end namespace",
  b!"    generateNamespace(ctx, message, false);",
  b!"}",
  b!"",
  b!"template <typename T>",
  b!"T rol( T value, int count )",
  b!"{",
  b!"\tstatic_assert(std::is_unsigned<T>::value, \"Unsupported signed type\");",
  b!"\treturn (T) ((value << count) | (value >> (-count & ((int)sizeof(T) * 8 - 1))));",
  b!"}",
  b!"",
  b!"static inline std::string obfuscate( const std::string &value )",
  b!"{",
  b!"    uint8_t mask = rol<uint8_t>(0x93U, value.length() % 8);",
  b!"\tstd::stringstream result;",
  b!"\tfor (size_t i = 0, t = value.length(); i < t; ++i)",
  b!"    {",
  b!"\t\tresult << \"\\\\x\";",
  b!"        result << std::hex << ((uint8_t) value[i] ^ mask);",
  b!"    }",
  b!"\treturn result.str();",
  b!"}",
  b!"",
  b!"static std::string get_option( const protogen::OptionMap &options, const std::string &name, const std::string &value )",
  b!"{",
  b!"    if (options.count(name) == 0)",
  b!"        return value;",
  b!"",
  b!"    OptionEntry opt = options.at(name);",
  b!"    if (opt.type != OptionType::STRING)",
  b!"        throw exception(\"The value for '\" + name + \"' must be a string\", opt.line, 1);",
  b!"    return opt.value;",
  b!"}",
  b!"",
  b!"static bool get_option( const protogen::OptionMap &options, const std::string &name, bool value )",
  b!"{",
  b!"    if (options.count(name) == 0)",
  b!"        return value;",
  b!"",
  b!"    OptionEntry opt = options.at(name);",
  b!"    if (opt.type != OptionType::BOOLEAN)",
  b!"        throw exception(\"The value for '\" + name + \"' must be a boolean\", opt.line, 1);",
  b!"    return opt.value == \"true\";",
  b!"}",
  b!"",
  b!"static bool is_transient( const Field &field )",
  b!"{",
  b!"    return get_option(field.options, PROTOGEN_O_TRANSIENT, false);",
  b!"}",
  b!"",
  b!"static std::string get_json_name( const Field &field )",
  b!"{",
  b!"    auto name = get_option(field.options, PROTOGEN_O_NAME, field.name);",
  b!"    for (auto c : name)",
  b!"        if (c == '\\'' || c == '\"')",
  b!"            throw exception(\"option '\" + std::string(PROTOGEN_O_NAME) + \"' in the field '\" + field.name + \"' must not contain quotes\", 1, 1);",
  b!"    return name;",
  b!"}",
  b!"",
  b!"static void generate_function__read_field( GeneratorContext &ctx, const Message &message, const std::string &typeName,",
  b!"    bool is_persistent )",
  b!"{",
  b!"    if (message.fields.size() == 0 || !is_persistent)",
  b!"    {",
  b!"        ctx.printer(CODE_JSON__READ_FIELD__EMPTY, typeName);",
  b!"        return;",
  b!"    }",
  b!"",
  b!"    ctx.printer(CODE_JSON__READ_FIELD__HEADER, typeName);",
  b!"",
  b!"    int i = 0;",
  b!"    for (auto field : message.fields)",
  b!"    {",
  b!"        if (is_transient(field))",
  b!"            continue;",
  b!"        ctx.printer(CODE_JSON__READ_FIELD__ITEM, i, field.name);",
  b!"        ++i;",
  b!"    }",
  b!"",
  b!"    ctx.printer(CODE_JSON__READ_FIELD__FOOTER);",
  b!"}",
  b!"",
  b!"static void generate_function__write( GeneratorContext &ctx, const Message &message, const std::string &typeName,",
  b!"    bool is_persistent )",
  b!"{",
  b!"    if (message.fields.size() == 0 || !is_persistent)",
  b!"    {",
  b!"        ctx.printer(CODE_JSON__WRITE__EMPTY, typeName);",
  b!"        return;",
  b!"    }",
  b!"",
  b!"    ctx.printer(CODE_JSON__WRITE__HEADER, typeName, PROTOGEN_VERSION_NAMING);",
  b!"",
  b!"    int i = 0;",
  b!"    for (auto field : message.fields)",
  b!"    {",
  b!"        if (is_transient(field))",
  b!"            continue;"]

/-- source/cpp/cppgen.cc:301-400. -/
def cppgenLines4 : List Bytes := [
  b!"        auto name = get_json_name(field);",
  b!"",
  b!"        std::string label = ctx.number_names ? std::to_string(field.index) : name;",
  b!"        if (ctx.obfuscate_strings)",
  b!"            label = Printer::format(\"reveal(\\\"$1$\\\")\", obfuscate(label));",
  b!"        else",
  b!"            label = Printer::format(\"\\\"$1$\\\"\", label);",
  b!"",
  b!"        ctx.printer(CODE_JSON__WRITE__ITEM, field.name, label);",
  b!"        ++i;",
  b!"    }",
  b!"",
  b!"    ctx.printer(CODE_JSON__WRITE__FOOTER);",
  b!"}",
  b!"",
  b!"static void generate_function__empty( GeneratorContext &ctx, const Message &message, const std::string &typeName )",
  b!"{",
  b!"    if (message.fields.size() == 0)",
  b!"    {",
  b!"        ctx.printer(CODE_JSON__EMPTY__EMPTY, typeName);",
  b!"        return;",
  b!"    }",
  b!"",
  b!"    ctx.printer(CODE_JSON__EMPTY__HEADER, typeName);",
  b!"",
  b!"    int i = 0;",
  b!"    for (auto field : message.fields)",
  b!"    {",
  b!"        ctx.printer(CODE_JSON__EMPTY__ITEM, field.name);",
  b!"        ++i;",
  b!"    }",
  b!"",
  b!"    ctx.printer(CODE_JSON__EMPTY__FOOTER);",
  b!"}",
  b!"",
  b!"static void generate_function__clear( GeneratorContext &ctx, const Message &message, const std::string &typeName )",
  b!"{",
  b!"    if (message.fields.size() == 0)",
  b!"    {",
  b!"        ctx.printer(CODE_JSON__CLEAR__EMPTY, typeName);",
  b!"        return;",
  b!"    }",
  b!"",
  b!"    ctx.printer(CODE_JSON__CLEAR__HEADER, typeName);",
  b!"",
  b!"    int i = 0;",
  b!"    for (auto field : message.fields)",
  b!"    {",
  b!"        ctx.printer(CODE_JSON__CLEAR__ITEM, field.name);",
  b!"        ++i;",
  b!"    }",
  b!"",
  b!"    ctx.printer(CODE_JSON__CLEAR__FOOTER);",
  b!"}",
  b!"",
  b!"static void generate_function__equal( GeneratorContext &ctx, const Message &message, const std::string &typeName )",
  b!"{",
  b!"    if (message.fields.size() == 0)",
  b!"    {",
  b!"        ctx.printer(CODE_JSON__EQUAL__EMPTY, typeName);",
  b!"        return;",
  b!"    }",
  b!"",
  b!"    ctx.printer(CODE_JSON__EQUAL__HEADER, typeName);",
  b!"",
  b!"    int i = 0;",
  b!"    for (auto field : message.fields)",
  b!"    {",
  b!"        ctx.printer(CODE_JSON__EQUAL__ITEM, field.name);",
  b!"        ++i;",
  b!"    }",
  b!"",
  b!"    ctx.printer(CODE_JSON__EQUAL__FOOTER);",
  b!"}",
  b!"",
  b!"static void generate_function__swap( GeneratorContext &ctx, const Message &message, const std::string &typeName )",
  b!"{",
  b!"    if (message.fields.size() == 0)",
  b!"    {",
  b!"        ctx.printer(CODE_JSON__SWAP__EMPTY, typeName);",
  b!"        return;",
  b!"    }",
  b!"",
  b!"    ctx.printer(CODE_JSON__SWAP__HEADER, typeName);",
  b!"",
  b!"    int i = 0;",
  b!"    for (auto field : message.fields)",
  b!"    {",
  b!"        ctx.printer(CODE_JSON__SWAP__ITEM, field.name);",
  b!"        ++i;",
  b!"    }",
  b!"",
  b!"    ctx.printer(CODE_JSON__SWAP__FOOTER);",
  b!"}",
  b!"",
  b!"static void generate_function__index( GeneratorContext &ctx, const Message &message, bool is_persistent )",
  b!"{",
  b!"    if (message.fields.size() == 0 || !is_persistent)",
  b!"    {",
  b!"        ctx.printer(CODE_JSON__INDEX__EMPTY);"]

/-- source/cpp/cppgen.cc:401-500. -/
def cppgenLines5 : List Bytes := [
  b!"        return;",
  b!"    }",
  b!"",
  b!"    if (ctx.obfuscate_strings)",
  b!"        ctx.printer(CODE_JSON__INDEX__HEADER_OBF);",
  b!"    else",
  b!"        ctx.printer(CODE_JSON__INDEX__HEADER);",
  b!"",
  b!"    int i = 0;",
  b!"    for (auto field : message.fields)",
  b!"    {",
  b!"        if (is_transient(field))",
  b!"            continue;",
  b!"        auto name = get_json_name(field);",
  b!"",
  b!"        std::string label = ctx.number_names ? std::to_string(field.index) : name;",
  b!"        if (ctx.obfuscate_strings)",
  b!"            label = obfuscate(label);",
  b!"        ctx.printer(CODE_JSON__INDEX__ITEM, label, i);",
  b!"        ++i;",
  b!"    }",
  b!"",
  b!"    ctx.printer(CODE_JSON__INDEX__FOOTER);",
  b!"}",
  b!"",
  b!"static void generateModelWrapper( GeneratorContext &ctx, const Message &message )",
  b!"{",
  b!"    std::string typeName = nativePackage(message.package) + \"::\" + message.name + \"_type\";",
  b!"",
  b!"    bool is_persistent = false;",
  b!"    for (auto field : message.fields)",
  b!"    {",
  b!"        if (!is_transient(field))",
  b!"        {",
  b!"            is_persistent = true;",
  b!"            break;",
  b!"        }",
  b!"    }",
  b!"",
  b!"    ctx.printer(CODE_JSON_MODEL__HEADER, PROTOGEN_VERSION_NAMING, typeName);",
  b!"    generate_function__read_field(ctx, message, typeName, is_persistent);",
  b!"    generate_function__write(ctx, message, typeName, is_persistent);",
  b!"    generate_function__empty(ctx, message, typeName);",
  b!"    generate_function__clear(ctx, message, typeName);",
  b!"    generate_function__equal(ctx, message, typeName);",
  b!"    generate_function__swap(ctx, message, typeName);",
  b!"    generate_function__index(ctx, message, is_persistent);",
  b!"    ctx.printer(CODE_JSON_MODEL__FOOTER, PROTOGEN_VERSION_NAMING);",
  b!"}",
  b!"",
  b!"static void generateEntity( GeneratorContext &ctx, const Message &message )",
  b!"{",
  b!"    std::string originalType = nativePackage(message.package) + \"::\" + message.name + \"_type\";",
  b!"    generateNamespace(ctx, message, true);",
  b!"    ctx.printer(CODE_ENTITY, message.name , originalType, PROTOGEN_VERSION_NAMING);",
  b!"    generateNamespace(ctx, message, false);",
  b!"}",
  b!"",
  b!"static void generateEntityWrapper( GeneratorContext &ctx, const Message &message )",
  b!"{",
  b!"    std::string typeName = nativePackage(message.package) + \"::\" + message.name;",
  b!"    ctx.printer(CODE_ENTITY_JSON, typeName, typeName + \"_type\", PROTOGEN_VERSION_NAMING);",
  b!"}",
  b!"",
  b!"static void generateMessage( GeneratorContext &ctx, const Message &message )",
  b!"{",
  b!"    if (message.fields.size() > protogen::CppGenerator::MAX_FIELDS)",
  b!"        throw protogen::exception(\"more than \" + std::to_string(protogen::CppGenerator::MAX_FIELDS) +",
  b!"            \" fields in message '\" + message.name + \"'\");",
  b!"",
  b!"    ctx.printer(\"\\n//\\n// $1$\\n//\\n\", message.name);",
  b!"",
  b!"    // create the model structure",
  b!"    generateModel(ctx, message);",
  b!"    // create JSON wrapper for model structure",
  b!"    generateModelWrapper(ctx, message);",
  b!"    // create entoty structure and JSON wrapper",
  b!"    generateEntity(ctx, message);",
  b!"    generateEntityWrapper(ctx, message);",
  b!"}",
  b!"",
  b!"static std::string makeGuard( const std::string &fileName )",
  b!"{",
  b!"    std::string out = \"GUARD_\";",
  b!"    for (auto it = fileName.begin(); it != fileName.end(); ++it)",
  b!"    {",
  b!"        if ( (*it >= 'A' && *it <= 'Z') ||",
  b!"             (*it >= 'a' && *it <= 'z') ||",
  b!"             (*it >= '0' && *it <= '9') ||",
  b!"             *it == '_')",
  b!"            out += *it;",
  b!"        else",
  b!"            out += '_';",
  b!"    }",
  b!"    return out;",
  b!"}",
  b!"",
  b!"typedef std::vector<std::shared_ptr<protogen::Message>> MessageList;",
  b!"typedef std::unordered_set<std::shared_ptr<protogen::Message>> MessageSet;",
  b!""]

/-- source/cpp/cppgen.cc:501-600. -/
def cppgenLines6 : List Bytes := [
  b!"static bool contains( const MessageList &items, const std::shared_ptr<protogen::Message> &message )",
  b!"{",
  b!"    for (const auto &current : items)",
  b!"        if (current == message)",
  b!"            return true;",
  b!"    return false;",
  b!"}",
  b!"",
  b!"static void sort( MessageList &output, MessageSet &pending, std::shared_ptr<protogen::Message> message )",
  b!"{",
  b!"    if (pending.count(message) > 0)",
  b!"        throw exception(\"circular reference with '\" + message->name + \"'\");",
  b!"    if (contains(output, message))",
  b!"        return; // already processed",
  b!"",
  b!"    pending.insert(message);",
  b!"    for (auto &field : message->fields)",
  b!"    {",
  b!"        if (field.type.ref != nullptr && !contains(output, field.type.ref))",
  b!"            sort(output, pending, field.type.ref);",
  b!"    }",
  b!"    pending.erase(message);",
  b!"",
  b!"    output.push_back(message);",
  b!"}",
  b!"",
  b!"static void sort( GeneratorContext &ctx )",
  b!"{",
  b!"    std::vector<std::shared_ptr<protogen::Message>> messages;",
  b!"    std::unordered_set<std::shared_ptr<protogen::Message>> pending;",
  b!"    for (auto &message : ctx.root.messages)",
  b!"        sort(messages, pending, message);",
  b!"",
  b!"    ctx.root.messages.swap(messages);",
  b!"}",
  b!"",
  b!"static void generateInclusions( GeneratorContext &ctx )",
  b!"{",
  b!"    bool has_array = false;",
  b!"    bool has_base64 = false;",
  b!"    bool has_string = false;",
  b!"    bool has_number = false;",
  b!"",
  b!"    // check what types of fields we have",
  b!"    for (const auto &message : ctx.root.messages)",
  b!"    {",
  b!"        for (const auto &field : message->fields)",
  b!"        {",
  b!"            if (field.type.repeated)",
  b!"            {",
  b!"                if (field.type.id == protogen::TYPE_BYTES)",
  b!"                    has_base64 = true;",
  b!"                has_array = true;",
  b!"            }",
  b!"            if (field.type.id == protogen::TYPE_STRING)",
  b!"                has_string = true;",
  b!"            else",
  b!"            if (field.type.id >= protogen::TYPE_DOUBLE && field.type.id <= protogen::TYPE_BOOL)",
  b!"                has_number = true;",
  b!"",
  b!"            if (has_array && has_base64 && has_string && has_number)",
  b!"                break;",
  b!"        }",
  b!"    }",
  b!"    // include the necessary headers",
  b!"    ctx.printer(GENERATED__protogen_hh);",
  b!"    ctx.printer(GENERATED__json_hh);",
  b!"    if (has_array)",
  b!"        ctx.printer(GENERATED__json_array_hh);",
  b!"    if (has_base64)",
  b!"        ctx.printer(GENERATED__json_base___hh);",
  b!"    if (has_number)",
  b!"        ctx.printer(GENERATED__json_number_hh);",
  b!"    if (has_string)",
  b!"        ctx.printer(GENERATED__json_string_hh);",
  b!"}",
  b!"",
  b!"static void generateModel( GeneratorContext &ctx )",
  b!"{",
  b!"    std::string guard = makeGuard(ctx.root.fileName);",
  b!"    ctx.printer(CODE_HEADER, PROTOGEN_VERSION, ctx.root.fileName, guard);",
  b!"",
  b!"    sort(ctx);",
  b!"",
  b!"    // message declarations",
  b!"    for (const auto &message : ctx.root.messages)",
  b!"        generateMessage(ctx, *message);",
  b!"",
  b!"    ctx.printer(\"#endif // $1$\\n\", guard);",
  b!"}",
  b!"",
  b!"void CppGenerator::generate( Proto3 &root, std::ostream &out )",
  b!"{",
  b!"    Printer printer(out);",
  b!"    GeneratorContext ctx(printer, root);",
  b!"",
  b!"    ctx.obfuscate_strings = get_option(ctx.root.options, PROTOGEN_O_OBFUSCATE_STRINGS, false);",
  b!"    ctx.cpp_use_lists = get_option(ctx.root.options, PROTOGEN_O_CPP_USE_LISTS, false);",
  b!"    ctx.number_names = get_option(ctx.root.options, PROTOGEN_O_NUMBER_NAMES, false);",
  b!""]

/-- source/cpp/cppgen.cc:601-606. -/
def cppgenLines7 : List Bytes := [
  b!"    generateInclusions(ctx);",
  b!"    generateModel(ctx);",
  b!"}",
  b!"",
  b!"",
  b!"}"]

/-- source/cpp/cppgen.cc. -/
def cppgenLines : List Bytes :=
  cppgenLines1 ++ cppgenLines2 ++ cppgenLines3 ++ cppgenLines4 ++ cppgenLines5 ++ cppgenLines6 ++ cppgenLines7

/-- source/printer.cc:1-69. -/
def printerLines1 : List Bytes := [
  b!"/*",
  b!" * Copyright 2020 Bruno Ribeiro <https://github.com/brunexgeek>",
  b!" *",
  b!" * Licensed under the Apache License, Version 2.0 (the \"License\");",
  b!" * you may not use this file except in compliance with the License.",
  b!" * You may obtain a copy of the License at",
  b!" *",
  b!" *     http://www.apache.org/licenses/LICENSE-2.0",
  b!" *",
  b!" * Unless required by applicable law or agreed to in writing, software",
  b!" * distributed under the License is distributed on an \"AS IS\" BASIS,",
  b!" * WITHOUT WARRANTIES OR CONDITIONS OF ANY KIND, either express or implied.",
  b!" * See the License for the specific language governing permissions and",
  b!" * limitations under the License.",
  b!" */",
  b!"",
  b!"#include \"printer.hh\"",
  b!"#include <cstring>",
  b!"#include <cstdlib>",
  b!"",
  b!"namespace protogen {",
  b!"",
  b!"",
  b!"Printer::Printer( std::ostream &out, bool pretty ) : out_(out), pretty_(pretty),",
  b!"    newLine_(true), tab_(0)",
  b!"{",
  b!"}",
  b!"",
  b!"void Printer::print( const char *format )",
  b!"{",
  b!"    out_ << format;",
  b!"}",
  b!"",
  b!"void Printer::print( const char *format, const std::vector<std::string> &vars )",
  b!"{",
  b!"    print(out_, format, vars);",
  b!"}",
  b!"",
  b!"void Printer::print( std::ostream &out, const char *format, const std::vector<std::string> &vars )",
  b!"{",
  b!"    const char *ptr = format;",
  b!"    while (*ptr != 0)",
  b!"    {",
  b!"        if (*ptr == '$')",
  b!"        {",
  b!"            const char *end = strchr(ptr + 1, '$');",
  b!"            if (end == nullptr) return;",
  b!"",
  b!"            char *last = nullptr;",
  b!"            int index = (int) strtol(ptr + 1, &last, 10) - 1;",
  b!"            if (last != end) return;",
  b!"",
  b!"            ptr = end + 1;",
  b!"            //std::cerr << index << \"  \" << vars[0] << std::endl;;",
  b!"            if (index < 0 || index >= (int) vars.size()) continue;",
  b!"            out << vars[index];",
  b!"            continue;",
  b!"        }",
  b!"        if (*ptr == '\\t')",
  b!"            out << \"    \";",
  b!"        else",
  b!"        if (*ptr != '\\b')",
  b!"            out << *ptr;",
  b!"        ++ptr;",
  b!"    }",
  b!"}",
  b!"",
  b!"",
  b!"}"]

/-- source/printer.cc. -/
def printerLines : List Bytes :=
  printerLines1

end PG.Gen
