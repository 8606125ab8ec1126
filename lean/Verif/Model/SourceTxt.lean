import Verif.Model.Gen
/-
The schema parser, line by line: `source/proto3.cc`.
-/
set_option autoImplicit false
namespace PG.Gen

/-- source/proto3.cc:1-100. -/
def proto3Lines1 : List Bytes := [
  b!"/*",
  b!" * Copyright 2020 Bruno Ribeiro <https://github.com/brunexgeek>",
  b!" *",
  b!" * Licensed under the Apache License, Version 2.0 (the \"License\");",
  b!" * you may not use this file except in compliance with the License.",
  b!" * You may obtain a copy of the License at",
  b!" *",
  b!" *     http://www.apache.org/licenses/LICENSE-2.0",
  b!" *",
  b!" * Unless required by applicable law or agreed to in writing, software",
  b!" * distributed under the License is distributed on an \"AS IS\" BASIS,",
  b!" * WITHOUT WARRANTIES OR CONDITIONS OF ANY KIND, either express or implied.",
  b!" * See the License for the specific language governing permissions and",
  b!" * limitations under the License.",
  b!" */",
  b!"",
  b!"#include <protogen/proto3.hh>",
  b!"#include <iterator>",
  b!"#include <sstream>",
  b!"",
  b!"",
  b!"#define IS_LETTER(x)           ( ((x) >= 'A' && (x) <= 'Z') || ((x) >= 'a' && (x) <= 'z') || (x) == '_' )",
  b!"#define IS_DIGIT(x)            ( (x) >= '0' && (x) <= '9' )",
  b!"#define IS_LETTER_OR_DIGIT(x)  ( IS_LETTER(x) || IS_DIGIT(x) )",
  b!"",
  b!"#define IS_VALID_TYPE(x)       ( (x) >= protogen::TYPE_DOUBLE && (x) <= protogen::TYPE_MESSAGE )",
  b!"#define TOKEN_POSITION(t)      (t).line, (t).column",
  b!"#define CURRENT_TOKEN_POSITION ctx.tokens.current.line, ctx.tokens.current.column",
  b!"",
  b!"#define TOKEN_EOF              0",
  b!"#define TOKEN_MESSAGE          1",
  b!"#define TOKEN_NAME             2",
  b!"#define TOKEN_EQUAL            3",
  b!"#define TOKEN_REPEATED         4",
  b!"#define TOKEN_T_DOUBLE         6",
  b!"#define TOKEN_T_FLOAT          7",
  b!"#define TOKEN_T_INT32          8",
  b!"#define TOKEN_T_INT64          9",
  b!"#define TOKEN_T_UINT32         10",
  b!"#define TOKEN_T_UINT64         11",
  b!"#define TOKEN_T_SINT32         12",
  b!"#define TOKEN_T_SINT64         13",
  b!"#define TOKEN_T_FIXED32        14",
  b!"#define TOKEN_T_FIXED64        15",
  b!"#define TOKEN_T_SFIXED32       16",
  b!"#define TOKEN_T_SFIXED64       17",
  b!"#define TOKEN_T_BOOL           18",
  b!"#define TOKEN_T_STRING         19",
  b!"#define TOKEN_T_BYTES          20",
  b!"#define TOKEN_T_MESSAGE        21",
  b!"#define TOKEN_SYNTAX           22",
  b!"#define TOKEN_QNAME            23",
  b!"#define TOKEN_STRING           24",
  b!"#define TOKEN_INTEGER          25",
  b!"#define TOKEN_COMMENT          26",
  b!"#define TOKEN_ENUM             27",
  b!"#define TOKEN_SCOLON           28",
  b!"#define TOKEN_PACKAGE          29",
  b!"#define TOKEN_LT               30",
  b!"#define TOKEN_GT               31",
  b!"#define TOKEN_MAP              32",
  b!"#define TOKEN_COMMA            33",
  b!"#define TOKEN_BEGIN            34",
  b!"#define TOKEN_END              35",
  b!"#define TOKEN_OPTION           36",
  b!"#define TOKEN_TRUE             37",
  b!"#define TOKEN_FALSE            38",
  b!"#define TOKEN_LBRACKET         39",
  b!"#define TOKEN_RBRACKET         40",
  b!"#define TOKEN_OPTIONAL         41",
  b!"",
  b!"",
  b!"#ifdef BUILD_DEBUG",
  b!"",
  b!"static const char *TOKENS[] =",
  b!"{",
  b!"    \"TOKEN_EOF\",",
  b!"    \"TOKEN_MESSAGE\",",
  b!"    \"TOKEN_NAME\",",
  b!"    \"TOKEN_EQUAL\",",
  b!"    \"TOKEN_REPEATED\",",
  b!"    \"TOKEN_T_DOUBLE\",",
  b!"    \"TOKEN_T_FLOAT\",",
  b!"    \"TOKEN_T_INT32\",",
  b!"    \"TOKEN_T_INT64\",",
  b!"    \"TOKEN_T_UINT32\",",
  b!"    \"TOKEN_T_UINT64\",",
  b!"    \"TOKEN_T_SINT32\",",
  b!"    \"TOKEN_T_SINT64\",",
  b!"    \"TOKEN_T_FIXED32\",",
  b!"    \"TOKEN_T_FIXED64\",",
  b!"    \"TOKEN_T_SFIXED32\",",
  b!"    \"TOKEN_T_SFIXED64\",",
  b!"    \"TOKEN_T_BOOL\",",
  b!"    \"TOKEN_T_STRING\",",
  b!"    \"TOKEN_T_BYTES\",",
  b!"    \"TOKEN_T_MESSAGE\",",
  b!"    \"TOKEN_SYNTAX\",",
  b!"    \"TOKEN_QNAME\",",
  b!"    \"TOKEN_STRING\","]

/-- source/proto3.cc:101-200. -/
def proto3Lines2 : List Bytes := [
  b!"    \"TOKEN_INTEGER\",",
  b!"    \"TOKEN_COMMENT\",",
  b!"    \"TOKEN_ENUM\",",
  b!"    \"TOKEN_SCOLON\",",
  b!"    \"TOKEN_PACKAGE\",",
  b!"    \"TOKEN_LT\",",
  b!"    \"TOKEN_GT\",",
  b!"    \"TOKEN_MAP\",",
  b!"    \"TOKEN_COMMA\",",
  b!"    \"TOKEN_BEGIN\",",
  b!"    \"TOKEN_END\",",
  b!"    \"TOKEN_OPTION\",",
  b!"    \"TOKEN_TRUE\",",
  b!"    \"TOKEN_FALSE\",",
  b!"    \"TOKEN_LBRACKET\",",
  b!"    \"TOKEN_RBRACKET\",",
  b!"    \"TOKEN_OPTIONAL\",",
  b!"};",
  b!"",
  b!"static const char *TYPES[] =",
  b!"{",
  b!"    \"double\",",
  b!"    \"float\",",
  b!"    \"int32\",",
  b!"    \"int64\",",
  b!"    \"uint32\",",
  b!"    \"uint64\",",
  b!"    \"sint32\",",
  b!"    \"sint64\",",
  b!"    \"fixed32\",",
  b!"    \"fixed64\",",
  b!"    \"sfixed32\",",
  b!"    \"sfixed64\",",
  b!"    \"bool\",",
  b!"    \"string\",",
  b!"    \"bytes\",",
  b!"    nullptr,",
  b!"};",
  b!"",
  b!"#endif",
  b!"",
  b!"static const struct",
  b!"{",
  b!"    int code;",
  b!"    const char *keyword;",
  b!"} KEYWORDS[] =",
  b!"{",
  b!"    { TOKEN_MESSAGE     , \"message\" },",
  b!"    { TOKEN_REPEATED    , \"repeated\" },",
  b!"    { TOKEN_T_STRING    , \"string\" },",
  b!"    { TOKEN_ENUM        , \"enum\" },",
  b!"    { TOKEN_T_DOUBLE    , \"double\" },",
  b!"    { TOKEN_T_FLOAT     , \"float\" },",
  b!"    { TOKEN_T_BOOL      , \"bool\" },",
  b!"    { TOKEN_T_INT32     , \"int32\" },",
  b!"    { TOKEN_T_INT64     , \"int64\" },",
  b!"    { TOKEN_T_UINT32    , \"uint32\" },",
  b!"    { TOKEN_T_UINT64    , \"uint64\" },",
  b!"    { TOKEN_T_SINT32    , \"sint32\" },",
  b!"    { TOKEN_T_SINT64    , \"sint64\" },",
  b!"    { TOKEN_T_FIXED32   , \"fixed32\" },",
  b!"    { TOKEN_T_FIXED64   , \"fixed64\" },",
  b!"    { TOKEN_T_SFIXED32  , \"sfixed32\" },",
  b!"    { TOKEN_T_SFIXED64  , \"sfixed64\" },",
  b!"    { TOKEN_T_BYTES     , \"bytes\" },",
  b!"    { TOKEN_PACKAGE     , \"package\" },",
  b!"    { TOKEN_SYNTAX      , \"syntax\" },",
  b!"    { TOKEN_MAP         , \"map\" },",
  b!"    { TOKEN_OPTION      , \"option\" },",
  b!"    { TOKEN_TRUE        , \"true\" },",
  b!"    { TOKEN_FALSE       , \"false\" },",
  b!"    { TOKEN_OPTIONAL    , \"optional\" },",
  b!"    { 0, nullptr },",
  b!"};",
  b!"",
  b!"",
  b!"namespace protogen {",
  b!"",
  b!"",
  b!"template <typename I> class InputStream",
  b!"{",
  b!"    protected:",
  b!"        I cur_, end_;",
  b!"        int last_, line_, column_;",
  b!"        bool ungot_;",
  b!"",
  b!"    public:",
  b!"        InputStream( const I& first, const I& last ) : cur_(first), end_(last),",
  b!"            last_(-1), line_(1), column_(0), ungot_(false)",
  b!"        {",
  b!"        }",
  b!"",
  b!"        bool eof()",
  b!"        {",
  b!"            return last_ == -2;",
  b!"        }",
  b!"",
  b!"        int get()",
  b!"        {",
  b!"            if (ungot_)"]

/-- source/proto3.cc:201-300. -/
def proto3Lines3 : List Bytes := [
  b!"            {",
  b!"                ungot_ = false;",
  b!"                return last_;",
  b!"            }",
  b!"            if (last_ == '\\n')",
  b!"            {",
  b!"                ++line_;",
  b!"                column_ = 0;",
  b!"            }",
  b!"            if (cur_ == end_)",
  b!"            {",
  b!"                last_ = -2;",
  b!"                return -1;",
  b!"            }",
  b!"",
  b!"            last_ = *cur_ & 0xFF;",
  b!"            ++cur_;",
  b!"            ++column_;",
  b!"            return last_;",
  b!"        }",
  b!"",
  b!"        void unget()",
  b!"        {",
  b!"            if (last_ >= 0)",
  b!"            {",
  b!"                if (ungot_) throw std::runtime_error(\"unable to unget\");",
  b!"                ungot_ = true;",
  b!"            }",
  b!"        }",
  b!"",
  b!"        int cur() const { return *cur_; }",
  b!"",
  b!"        int line() const { return line_; }",
  b!"",
  b!"        int column() const { return column_; }",
  b!"",
  b!"        void skipws()",
  b!"        {",
  b!"            while (1) {",
  b!"                int ch = get();",
  b!"                if (! (ch == ' ' || ch == '\\t' || ch == '\\n' || ch == '\\r'))",
  b!"                {",
  b!"                    unget();",
  b!"                    break;",
  b!"                }",
  b!"            }",
  b!"        }",
  b!"",
  b!"        bool expect(int expect)",
  b!"        {",
  b!"            if (get() != expect)",
  b!"            {",
  b!"                unget();",
  b!"                return false;",
  b!"            }",
  b!"            return true;",
  b!"        }",
  b!"};",
  b!"",
  b!"",
  b!"struct Token",
  b!"{",
  b!"    int code;",
  b!"    std::string value;",
  b!"    int line, column;",
  b!"",
  b!"    Token( int code = TOKEN_EOF, const std::string &value = \"\", int line = 1, int column = 1) :",
  b!"        code(code), value(value), line(line), column(column)",
  b!"    {",
  b!"    }",
  b!"",
  b!"    template<typename I>",
  b!"    Token( int code, const std::string &value, InputStream<I> &is ) : code(code), value(value)",
  b!"    {",
  b!"        line = is.line();",
  b!"        column = is.column() - value.length();",
  b!"    }",
  b!"",
  b!"};",
  b!"",
  b!"",
  b!"template <typename I> class Tokenizer",
  b!"{",
  b!"    public:",
  b!"        Token current;",
  b!"        bool ungot;",
  b!"",
  b!"        Tokenizer( InputStream<I> &is ) : ungot(false), is(is)",
  b!"        {",
  b!"        }",
  b!"",
  b!"        void unget()",
  b!"        {",
  b!"            if (ungot)",
  b!"                throw exception(\"Already ungot\", current.line, current.column);",
  b!"            ungot = true;",
  b!"        }",
  b!"",
  b!"        Token next()",
  b!"        {"]

/-- source/proto3.cc:301-400. -/
def proto3Lines4 : List Bytes := [
  b!"            int line = 1;",
  b!"            int column = 1;",
  b!"",
  b!"            while (true)",
  b!"            {",
  b!"                if (ungot)",
  b!"                {",
  b!"                    ungot = false;",
  b!"                    return current;",
  b!"                }",
  b!"                is.skipws();",
  b!"",
  b!"                line = is.line();",
  b!"                column = is.column();",
  b!"",
  b!"                int cur = is.get();",
  b!"                if (cur < 0) break;",
  b!"",
  b!"                if (IS_LETTER(cur))",
  b!"                {",
  b!"                    is.unget();",
  b!"                    current = qname(line, column);",
  b!"                }",
  b!"                else",
  b!"                if (IS_DIGIT(cur))",
  b!"                    current = integer(cur, line, column);",
  b!"                else",
  b!"                if (cur == '/')",
  b!"                {",
  b!"                    comment(); //discarding",
  b!"                    continue;",
  b!"                }",
  b!"                else",
  b!"                if (cur == '\\n' || cur == '\\r')",
  b!"                    continue;",
  b!"                else",
  b!"                if (cur == '\"')",
  b!"                    current = literalString(line, column);",
  b!"                else",
  b!"                if (cur == '=')",
  b!"                    current = Token(TOKEN_EQUAL, \"\", line, column);",
  b!"                else",
  b!"                if (cur == '{')",
  b!"                    current = Token(TOKEN_BEGIN, \"\", line, column);",
  b!"                else",
  b!"                if (cur == '}')",
  b!"                    current = Token(TOKEN_END, \"\", line, column);",
  b!"                else",
  b!"                if (cur == ';')",
  b!"                    current = Token(TOKEN_SCOLON, \"\", line, column);",
  b!"                else",
  b!"                if (cur == ',')",
  b!"                    current = Token(TOKEN_COMMA, \"\", line, column);",
  b!"                else",
  b!"                if (cur == '<')",
  b!"                    current = Token(TOKEN_LT, \"\", line, column);",
  b!"                else",
  b!"                if (cur == '>')",
  b!"                    current = Token(TOKEN_GT, \"\", line, column);",
  b!"                else",
  b!"                if (cur == '[')",
  b!"                    current = Token(TOKEN_LBRACKET, \"\", line, column);",
  b!"                else",
  b!"                if (cur == ']')",
  b!"                    current = Token(TOKEN_RBRACKET, \"\", line, column);",
  b!"                else",
  b!"                    throw exception(\"Invalid symbol\", line, column);",
  b!"",
  b!"                return current;",
  b!"            }",
  b!"",
  b!"            return current = Token(TOKEN_EOF, \"\", line, column);",
  b!"        }",
  b!"",
  b!"    private:",
  b!"        InputStream<I> &is;",
  b!"",
  b!"        Token comment()",
  b!"        {",
  b!"            Token temp(TOKEN_COMMENT, \"\");",
  b!"            int cur = is.get();",
  b!"",
  b!"            if (cur == '/')",
  b!"            {",
  b!"                while ((cur = is.get()) != '\\n') temp.value += (char) cur;",
  b!"                return temp;",
  b!"            }",
  b!"            else",
  b!"            if (cur == '*')",
  b!"            {",
  b!"                while (true)",
  b!"                {",
  b!"                    cur = is.get();",
  b!"                    if (cur == '*' && is.expect('/')) return temp;",
  b!"                    if (cur < 0) return Token();",
  b!"                    temp.value += (char) cur;",
  b!"                }",
  b!"            }",
  b!"",
  b!"            return Token();"]

/-- source/proto3.cc:401-500. -/
def proto3Lines5 : List Bytes := [
  b!"        }",
  b!"",
  b!"        Token qname( int line = 1, int column = 1 )",
  b!"        {",
  b!"            // capture the identifier",
  b!"            int type = TOKEN_NAME;",
  b!"            std::string name = this->name();",
  b!"            while (is.get() == '.')",
  b!"            {",
  b!"                type = TOKEN_QNAME;",
  b!"                std::string cur = this->name();",
  b!"                if (cur.length() == 0)",
  b!"                    throw exception(\"Invalid identifier\", line, column);",
  b!"                name += '.';",
  b!"                name += cur;",
  b!"            }",
  b!"            is.unget();",
  b!"",
  b!"            // we found a keyword?",
  b!"            if (type == TOKEN_NAME)",
  b!"            {",
  b!"                for (int i = 0; KEYWORDS[i].keyword != nullptr; ++i)",
  b!"                {",
  b!"                    if (name == KEYWORDS[i].keyword)",
  b!"                    {",
  b!"                        type = KEYWORDS[i].code;",
  b!"                        break;",
  b!"                    }",
  b!"                }",
  b!"            }",
  b!"",
  b!"            return Token(type, name, line, column);",
  b!"        }",
  b!"",
  b!"        std::string name()",
  b!"        {",
  b!"            std::string temp;",
  b!"            bool first = true;",
  b!"            int cur;",
  b!"            while ((cur = is.get()) >= 0)",
  b!"            {",
  b!"                if ((first && !IS_LETTER(cur)) || !IS_LETTER_OR_DIGIT(cur)) break;",
  b!"                first = false;",
  b!"                temp += (char)cur;",
  b!"            }",
  b!"            is.unget();",
  b!"            return temp;",
  b!"        }",
  b!"",
  b!"        Token integer( int first = 0, int line = 1, int column = 1 )",
  b!"        {",
  b!"            Token tt(TOKEN_INTEGER, \"\", line, column);",
  b!"            if (first != 0) tt.value += (char) first;",
  b!"",
  b!"            do",
  b!"            {",
  b!"                int cur = is.get();",
  b!"                if (!IS_DIGIT(cur))",
  b!"                {",
  b!"                    is.unget();",
  b!"                    return tt;",
  b!"                }",
  b!"                tt.value += (char) cur;",
  b!"            } while (true);",
  b!"",
  b!"            return tt;",
  b!"        }",
  b!"",
  b!"        Token literalString(int line = 1, int column = 1 )",
  b!"        {",
  b!"            Token tt(TOKEN_STRING, \"\", line, column);",
  b!"",
  b!"            do",
  b!"            {",
  b!"                int cur = is.get();",
  b!"                if (cur == '\\n' || cur == 0) return Token();",
  b!"                if (cur == '\"') return tt;",
  b!"                tt.value += (char) cur;",
  b!"            } while (true);",
  b!"",
  b!"            return tt;",
  b!"        }",
  b!"};",
  b!"",
  b!"",
  b!"template<typename T>",
  b!"struct Context",
  b!"{",
  b!"    Tokenizer<T> &tokens;",
  b!"    Proto3 &tree;",
  b!"    InputStream<T> &is;",
  b!"    std::string package;",
  b!"",
  b!"    Context( Tokenizer<T> &tokenizer, Proto3 &tree, InputStream<T> &is ) :",
  b!"        tokens(tokenizer), tree(tree), is(is)",
  b!"    {",
  b!"    }",
  b!"};",
  b!"",
  b!""]

/-- source/proto3.cc:501-600. -/
def proto3Lines6 : List Bytes := [
  b!"typedef Context< std::istream_iterator<char> > ProtoContext;",
  b!"",
  b!"} // namespace protogen",
  b!"",
  b!"#ifdef BUILD_DEBUG",
  b!"",
  b!"std::ostream &operator<<( std::ostream &out, const protogen::Token &tt );",
  b!"std::ostream &operator<<( std::ostream &out, protogen::Message &message );",
  b!"std::ostream &operator<<( std::ostream &out, protogen::Proto3 &proto );",
  b!"",
  b!"#endif",
  b!"",
  b!"namespace protogen {",
  b!"",
  b!"std::string Message::qualifiedName() const",
  b!"{",
  b!"    if (package.empty()) return name;",
  b!"    return package + '.' + name;",
  b!"}",
  b!"",
  b!"",
  b!"static OptionEntry parseOption( ProtoContext &ctx )",
  b!"{",
  b!"    // the token 'option' is already consumed at this point",
  b!"    OptionEntry temp;",
  b!"",
  b!"    temp.line = ctx.tokens.current.line;",
  b!"",
  b!"    // option name",
  b!"    ctx.tokens.next();",
  b!"    if (ctx.tokens.current.code != TOKEN_NAME && ctx.tokens.current.code != TOKEN_QNAME)",
  b!"        throw exception(\"Missing option name\", TOKEN_POSITION(ctx.tokens.current));",
  b!"    temp.name = ctx.tokens.current.value;",
  b!"    // equal symbol",
  b!"    if (ctx.tokens.next().code != TOKEN_EQUAL)",
  b!"        throw exception(\"Expected '='\", TOKEN_POSITION(ctx.tokens.current));",
  b!"    // option value",
  b!"    ctx.tokens.next();",
  b!"    switch (ctx.tokens.current.code)",
  b!"    {",
  b!"        case TOKEN_TRUE:",
  b!"        case TOKEN_FALSE:",
  b!"            temp.type = OptionType::BOOLEAN;",
  b!"            break;",
  b!"        case TOKEN_NAME:",
  b!"        case TOKEN_QNAME:",
  b!"            temp.type = OptionType::IDENTIFIER;",
  b!"            break;",
  b!"        case TOKEN_INTEGER:",
  b!"            temp.type = OptionType::INTEGER;",
  b!"            break;",
  b!"        case TOKEN_STRING:",
  b!"            temp.type = OptionType::STRING;",
  b!"            break;",
  b!"        default:",
  b!"            throw exception(\"Invalid option value\", TOKEN_POSITION(ctx.tokens.current));",
  b!"    }",
  b!"    temp.value = ctx.tokens.current.value;",
  b!"    return temp;",
  b!"}",
  b!"",
  b!"static void parseFieldOptions( ProtoContext &ctx, OptionMap &entries )",
  b!"{",
  b!"    while (true)",
  b!"    {",
  b!"        if (ctx.tokens.next().code == TOKEN_RBRACKET) break;",
  b!"        ctx.tokens.unget();",
  b!"        OptionEntry option = parseOption(ctx);",
  b!"        if (ctx.tokens.next().code != TOKEN_COMMA) ctx.tokens.unget();",
  b!"        entries[option.name] = option;",
  b!"    }",
  b!"    // give back the TOKEN_RBRACKET",
  b!"    ctx.tokens.unget();",
  b!"}",
  b!"",
  b!"",
  b!"static void parseStandardOption( ProtoContext &ctx, OptionMap &entries )",
  b!"{",
  b!"    // the token 'option' is already consumed at this point",
  b!"",
  b!"    OptionEntry option = parseOption(ctx);",
  b!"",
  b!"    // semicolon symbol",
  b!"    if (ctx.tokens.next().code != TOKEN_SCOLON)",
  b!"        throw exception(\"Expected '='\", TOKEN_POSITION(ctx.tokens.current));",
  b!"",
  b!"    entries[option.name] = option;",
  b!"}",
  b!"",
  b!"",
  b!"static std::shared_ptr<Message> findMessage( ProtoContext &ctx, const std::string &name )",
  b!"{",
  b!"    for (auto it = ctx.tree.messages.begin(); it != ctx.tree.messages.end(); ++it)",
  b!"        if ((*it)->qualifiedName() == name) return *it;",
  b!"    return nullptr;",
  b!"}",
  b!"",
  b!"",
  b!"static void parseField( ProtoContext &ctx, Message &message )",
  b!"{"]

/-- source/proto3.cc:601-700. -/
def proto3Lines7 : List Bytes := [
  b!"    Field field;",
  b!"",
  b!"    if (ctx.tokens.current.code == TOKEN_REPEATED)",
  b!"    {",
  b!"        field.type.repeated = true;",
  b!"        ctx.tokens.next();",
  b!"    }",
  b!"    else",
  b!"    if (ctx.tokens.current.code == TOKEN_OPTIONAL)",
  b!"    {",
  b!"        field.type.optional = true;",
  b!"        ctx.tokens.next();",
  b!"    }",
  b!"",
  b!"    // type",
  b!"    if (ctx.tokens.current.code >= TOKEN_T_DOUBLE && ctx.tokens.current.code <= TOKEN_T_BYTES)",
  b!"        field.type.id = (FieldType) ctx.tokens.current.code;",
  b!"    else",
  b!"    if (ctx.tokens.current.code == TOKEN_NAME || ctx.tokens.current.code == TOKEN_QNAME)",
  b!"    {",
  b!"        field.type.id = (FieldType) TOKEN_T_MESSAGE;",
  b!"        if (!message.package.empty())",
  b!"        {",
  b!"            field.type.qname += message.package;",
  b!"            field.type.qname += '.';",
  b!"        }",
  b!"        field.type.qname += ctx.tokens.current.value;",
  b!"        field.type.ref = findMessage(ctx, field.type.qname);",
  b!"    }",
  b!"# if 0",
  b!"    else",
  b!"    if (ctx.tokens.current.code == TOKEN_MAP)",
  b!"    {",
  b!"        if (ctx.tokens.next().code != TOKEN_LT) throw exception(\"Missing <\");",
  b!"",
  b!"        // key type",
  b!"        if (ctx.tokens.next().code != TOKEN_T_STRING) throw exception(\"Key type must be 'string'\");",
  b!"        field.type.id = (FieldType) ctx.tokens.current.code;",
  b!"        // comma",
  b!"        if (ctx.tokens.next().code != TOKEN_COMMA) throw exception(\"Missing comma\");",
  b!"        //value type",
  b!"        if (ctx.tokens.next().code != TOKEN_T_STRING) throw exception(\"Key type must be 'string'\");",
  b!"        field.type.id = (FieldType) ctx.tokens.current.code;",
  b!"",
  b!"        if (ctx.tokens.next().code != TOKEN_GT) throw exception(\"Missing >\");",
  b!"    }",
  b!"#endif",
  b!"    else",
  b!"        throw exception(\"Missing field type\", TOKEN_POSITION(ctx.tokens.current));",
  b!"",
  b!"    // name",
  b!"    auto code = ctx.tokens.next().code;",
  b!"    if (code != TOKEN_NAME && code != TOKEN_MESSAGE && code != TOKEN_PACKAGE)",
  b!"        throw exception(\"Missing field name\", TOKEN_POSITION(ctx.tokens.current));",
  b!"    field.name = ctx.tokens.current.value;",
  b!"    // equal symbol",
  b!"    if (ctx.tokens.next().code != TOKEN_EQUAL)",
  b!"        throw exception(\"Expected '='\", TOKEN_POSITION(ctx.tokens.current));",
  b!"    // index",
  b!"    if (ctx.tokens.next().code != TOKEN_INTEGER)",
  b!"        throw exception(\"Missing field index\", TOKEN_POSITION(ctx.tokens.current));",
  b!"    field.index = (int) strtol(ctx.tokens.current.value.c_str(), nullptr, 10);",
  b!"    // https://protobuf.dev/programming-guides/proto3/#assigning",
  b!"    if (field.index <= 0 || field.index >= 0x1FFFFFFF || field.index == 0x4E1F || field.index == 0x4A38)",
  b!"        throw exception(\"Invalid field index\", TOKEN_POSITION(ctx.tokens.current));",
  b!"",
  b!"    ctx.tokens.next();",
  b!"",
  b!"    // options",
  b!"    if (ctx.tokens.current.code == TOKEN_LBRACKET)",
  b!"    {",
  b!"        parseFieldOptions(ctx, field.options);",
  b!"        if (ctx.tokens.next().code != TOKEN_RBRACKET)",
  b!"            throw exception(\"Expected ']'\", TOKEN_POSITION(ctx.tokens.current));",
  b!"        ctx.tokens.next();",
  b!"    }",
  b!"",
  b!"    // semi-colon",
  b!"    if (ctx.tokens.current.code != TOKEN_SCOLON)",
  b!"        throw exception(\"Expected ';'\", TOKEN_POSITION(ctx.tokens.current));",
  b!"",
  b!"    // check for repeated field indices",
  b!"    for (auto it = message.fields.begin(); it != message.fields.end(); it++)",
  b!"        if (it->index == field.index)",
  b!"            throw exception(\"Field '\" + it->name + \"' has the same index as '\" + field.name + \"'\", CURRENT_TOKEN_POSITION);",
  b!"",
  b!"    message.fields.push_back(field);",
  b!"}",
  b!"",
  b!"static void parseMessage( ProtoContext &ctx )",
  b!"{",
  b!"    if (ctx.tokens.current.code == TOKEN_MESSAGE)",
  b!"    {",
  b!"        auto code = ctx.tokens.next().code;",
  b!"        if (code == TOKEN_NAME || code == TOKEN_MESSAGE || code == TOKEN_PACKAGE)",
  b!"        {",
  b!"            auto message = std::make_shared<Message>();",
  b!"            message->package = ctx.package;",
  b!"            message->name = ctx.tokens.current.value;",
  b!"            if (ctx.tokens.next().code != TOKEN_BEGIN)"]

/-- source/proto3.cc:701-800. -/
def proto3Lines8 : List Bytes := [
  b!"                throw exception(\"Missing message body\", CURRENT_TOKEN_POSITION);",
  b!"",
  b!"            while (ctx.tokens.next().code != TOKEN_EOF)",
  b!"            {",
  b!"                if (ctx.tokens.current.code == TOKEN_END)",
  b!"                    break;",
  b!"                if (ctx.tokens.current.code == TOKEN_OPTION)",
  b!"                    parseStandardOption(ctx, message->options);",
  b!"                else",
  b!"                    parseField(ctx, *message);",
  b!"            }",
  b!"            ctx.tree.messages.push_back(message);",
  b!"            return;",
  b!"        }",
  b!"    }",
  b!"",
  b!"    throw exception(\"Invalid message\", CURRENT_TOKEN_POSITION);",
  b!"}",
  b!"",
  b!"static void parsePackage( ProtoContext &ctx )",
  b!"{",
  b!"    Token tt = ctx.tokens.next();",
  b!"    if ((tt.code == TOKEN_NAME || tt.code == TOKEN_QNAME) && ctx.tokens.next().code == TOKEN_SCOLON)",
  b!"        ctx.package = tt.value;",
  b!"    else",
  b!"        throw exception(\"Invalid package\", CURRENT_TOKEN_POSITION);",
  b!"}",
  b!"",
  b!"static void parseSyntax( ProtoContext &ctx )",
  b!"{",
  b!"    // the token 'syntax' is already consumed at this point",
  b!"",
  b!"    if (ctx.tokens.next().code != TOKEN_EQUAL)",
  b!"        throw exception(\"Expected '='\", CURRENT_TOKEN_POSITION);",
  b!"    Token tt = ctx.tokens.next();",
  b!"    if (tt.code == TOKEN_STRING && ctx.tokens.next().code == TOKEN_SCOLON)",
  b!"    {",
  b!"        if (tt.value != \"proto3\")",
  b!"            throw exception(\"Invalid language version\", CURRENT_TOKEN_POSITION);",
  b!"    }",
  b!"    else",
  b!"        throw exception(\"Invalid syntax\", CURRENT_TOKEN_POSITION);",
  b!"}",
  b!"",
  b!"static void parseProto( ProtoContext &ctx )",
  b!"{",
  b!"    do {",
  b!"        ctx.tokens.next();",
  b!"        if (ctx.tokens.current.code == TOKEN_MESSAGE)",
  b!"            parseMessage(ctx);",
  b!"        else",
  b!"        if (ctx.tokens.current.code == TOKEN_PACKAGE)",
  b!"            parsePackage(ctx);",
  b!"        else",
  b!"        if (ctx.tokens.current.code == TOKEN_COMMENT)",
  b!"            continue;",
  b!"        else",
  b!"        if (ctx.tokens.current.code == TOKEN_SYNTAX)",
  b!"            parseSyntax(ctx);",
  b!"        else",
  b!"        if (ctx.tokens.current.code == TOKEN_OPTION)",
  b!"            parseStandardOption(ctx, ctx.tree.options);",
  b!"        else",
  b!"        if (ctx.tokens.current.code == TOKEN_EOF)",
  b!"            break;",
  b!"        else",
  b!"        {",
  b!"            throw exception(\"Unexpected token\", TOKEN_POSITION(ctx.tokens.current));",
  b!"        }",
  b!"    } while (ctx.tokens.current.code != 0);",
  b!"}",
  b!"",
  b!"void Proto3::parse( std::istream &input, const std::string &fileName )",
  b!"{",
  b!"    std::ios_base::fmtflags flags = input.flags();",
  b!"    std::noskipws(input);",
  b!"    std::istream_iterator<char> end;",
  b!"    std::istream_iterator<char> begin(input);",
  b!"",
  b!"    InputStream< std::istream_iterator<char> > is(begin, end);",
  b!"    Tokenizer< std::istream_iterator<char> > tok(is);",
  b!"",
  b!"    ProtoContext ctx(tok, *this, is);",
  b!"    this->fileName = fileName;",
  b!"",
  b!"    try",
  b!"    {",
  b!"        parseProto(ctx);",
  b!"        if (flags & std::ios::skipws) std::skipws(input);",
  b!"    } catch (exception &ex)",
  b!"    {",
  b!"        if (flags & std::ios::skipws) std::skipws(input);",
  b!"        throw ex;",
  b!"    }",
  b!"",
  b!"    // check if we have unresolved types",
  b!"    for (auto &message : this->messages)",
  b!"    {",
  b!"        for (auto &field : message->fields)",
  b!"        {"]

/-- source/proto3.cc:801-856. -/
def proto3Lines9 : List Bytes := [
  b!"            if (field.type.id != TYPE_MESSAGE || field.type.ref != nullptr)",
  b!"                continue;",
  b!"",
  b!"            field.type.ref = findMessage(ctx, field.type.qname);",
  b!"            if (field.type.ref == nullptr)",
  b!"                throw exception(\"Unable to find message '\" + field.type.qname + \"'\");",
  b!"        }",
  b!"    }",
  b!"}",
  b!"",
  b!"} // protogen",
  b!"",
  b!"#ifdef BUILD_DEBUG",
  b!"",
  b!"std::ostream &operator<<( std::ostream &out, const protogen::Token &tt )",
  b!"{",
  b!"    out << '[' << TOKENS[tt.code] << \": \";",
  b!"    if (!tt.value.empty()) out << \"value='\" << tt.value << \"' \";",
  b!"    out << \"pos=\" << tt.line << ':' << tt.column << \"]\";",
  b!"    return out;",
  b!"}",
  b!"",
  b!"std::ostream &operator<<( std::ostream &out, protogen::Field &field )",
  b!"{",
  b!"    if (field.type.repeated)",
  b!"        out << \"repeated \";",
  b!"    if (field.type.id >= TOKEN_T_DOUBLE && field.type.id <= TOKEN_T_BYTES)",
  b!"        out << TYPES[field.type.id - TOKEN_T_DOUBLE];",
  b!"    else",
  b!"        out << field.type.qname;",
  b!"    out << ' ' << field.name << \" = \" << field.index << \";\";",
  b!"    return out;",
  b!"}",
  b!"",
  b!"std::ostream &operator<<( std::ostream &out, protogen::Message &message )",
  b!"{",
  b!"    out << \"message \" << message.name << \" {\" << std::endl;;",
  b!"",
  b!"    for (auto it = message.fields.begin(); it != message.fields.end(); ++it)",
  b!"    {",
  b!"        out << *it << std::endl;;",
  b!"    }",
  b!"    out << '}' << std::endl;",
  b!"    return out;",
  b!"}",
  b!"",
  b!"std::ostream &operator<<( std::ostream &out, protogen::Proto3 &proto )",
  b!"{",
  b!"    for (auto it = proto.messages.begin(); it != proto.messages.end(); ++it)",
  b!"    {",
  b!"        out << *it << '\\n';",
  b!"    }",
  b!"    return out;",
  b!"}",
  b!"",
  b!"#endif"]

/-- source/proto3.cc:1-856. -/
def proto3Lines : List Bytes :=
  proto3Lines1 ++ proto3Lines2 ++ proto3Lines3 ++ proto3Lines4 ++ proto3Lines5 ++ proto3Lines6 ++ proto3Lines7 ++ proto3Lines8 ++ proto3Lines9

end PG.Gen
