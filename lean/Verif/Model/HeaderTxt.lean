import Verif.Model.Gen
import Verif.Model.Template
/-
The files of the runtime, line by line: `source/cpp/*.hh` (every line ends with a line feed).
-/
set_option autoImplicit false
namespace PG.Gen

/-- source/cpp/protogen.hh:1-100. -/
def protogenLines1 : List Bytes := [
  b!"/*",
  b!" * Copyright 2023 Bruno Costa <https://github.com/brunexgeek>",
  b!" *",
  b!" * Licensed under the Apache License, Version 2.0 (the \"License\");",
  b!" * you may not use this file except in compliance with the License.",
  b!" * You may obtain a copy of the License at",
  b!" *",
  b!" *     http://www.apache.org/licenses/LICENSE-2.0",
  b!" *",
  b!" * Unless required by applicable law or agreed to in writing, software",
  b!" * distributed under the License is distributed on an \"AS IS\" BASIS,",
  b!" * WITHOUT WARRANTIES OR CONDITIONS OF ANY KIND, either express or implied.",
  b!" * See the License for the specific language governing permissions and",
  b!" * limitations under the License.",
  b!" */",
  b!"",
  b!"#ifndef PROTOGEN_X_Y_Z",
  b!"#define PROTOGEN_X_Y_Z",
  b!"",
  b!"#include <string>",
  b!"#include <cstring>",
  b!"#include <sstream>",
  b!"#include <vector>",
  b!"#include <iostream>",
  b!"#include <forward_list>",
  b!"#include <istream>",
  b!"#include <iomanip>",
  b!"#include <iterator>",
  b!"#include <memory>",
  b!"#include <algorithm>",
  b!"#include <cmath>",
  b!"",
  b!"namespace protogen_X_Y_Z {",
  b!"",
  b!"enum error_code",
  b!"{",
  b!"    PGERR_OK                = 0,",
  b!"    PGERR_IGNORE_FAILED     = 1,",
  b!"    PGERR_MISSING_FIELD     = 2,",
  b!"    PGERR_INVALID_SEPARATOR = 3,",
  b!"    PGERR_INVALID_VALUE     = 4,",
  b!"    PGERR_INVALID_OBJECT    = 5,",
  b!"    PGERR_INVALID_NAME      = 6,",
  b!"    PGERR_INVALID_ARRAY     = 7,",
  b!"};",
  b!"",
  b!"enum parse_error",
  b!"{",
  b!"    PGR_OK,",
  b!"    PGR_ERROR,",
  b!"    PGR_NIL,",
  b!"};",
  b!"",
  b!"struct ErrorInfo",
  b!"{",
  b!"    error_code code;",
  b!"    std::string message;",
  b!"    int line, column;",
  b!"",
  b!"    ErrorInfo() : code(error_code::PGERR_OK), line(0), column(0) {};",
  b!"    ErrorInfo( error_code code, const std::string &message ) : code(code),",
  b!"        message(message) { }",
  b!"    ErrorInfo( error_code code, const std::string &message, int line, int column ) :",
  b!"        code(code), message(message), line(line), column(column) { }",
  b!"    ErrorInfo( const ErrorInfo &that ) = default;",
  b!"    ErrorInfo( ErrorInfo &&that ) = default;",
  b!"    operator bool() const",
  b!"    {",
  b!"        return code == error_code::PGERR_OK;",
  b!"    }",
  b!"    bool operator ==( error_code value ) const",
  b!"    {",
  b!"        return code == value;",
  b!"    }",
  b!"    bool operator ==( const ErrorInfo &that ) const",
  b!"    {",
  b!"        return code == that.code && line == that.line && column == that.column;",
  b!"    }",
  b!"    ErrorInfo &operator=( const ErrorInfo &that ) = default;",
  b!"    void clear()",
  b!"    {",
  b!"        code = error_code::PGERR_OK;",
  b!"        message.clear();",
  b!"        line = column = 0;",
  b!"    }",
  b!"};",
  b!"",
  b!"struct Parameters",
  b!"{",
  b!"    /// If true, ensures the output JSON will have all non-ASCII characters escaped.",
  b!"    /// Default is false.",
  b!"    bool ensure_ascii = false;",
  b!"",
  b!"    bool serialize_null = false;",
  b!"",
  b!"    /// Information about the error that occurred during the last operation.",
  b!"    ErrorInfo error;",
  b!"};",
  b!"",
  b!"class ostream"]

/-- source/cpp/protogen.hh:101-200. -/
def protogenLines2 : List Bytes := [
  b!"{",
  b!"    public:",
  b!"        ostream() = default;",
  b!"        virtual ~ostream() = default;",
  b!"        virtual ostream &operator<<( const std::string &value ) = 0;",
  b!"        virtual ostream &operator<<( const char *value ) = 0;",
  b!"        virtual ostream &operator<<( char *value ) = 0;",
  b!"        virtual ostream &operator<<( char value ) = 0;",
  b!"        template<class T, typename std::enable_if<std::is_arithmetic<T>::value, int>::type = 0>",
  b!"        ostream &operator<<( T value )",
  b!"        {",
  b!"            this->operator<<( std::to_string(value) );",
  b!"            return *this;",
  b!"        }",
  b!"};",
  b!"",
  b!"template<typename I>",
  b!"class iterator_ostream : public ostream",
  b!"{",
  b!"    public:",
  b!"        iterator_ostream( I& first ) : beg_(first)",
  b!"        {",
  b!"        }",
  b!"        ostream & operator<<( char value ) override",
  b!"        {",
  b!"            *++beg_ = value;",
  b!"            return *this;",
  b!"        }",
  b!"        ostream & operator<<( const std::string &value ) override",
  b!"        {",
  b!"            for (auto it = value.begin(); it != value.end(); ++it)",
  b!"                *++beg_ = *it;",
  b!"            return *this;",
  b!"        }",
  b!"        ostream & operator<<( const char *value ) override",
  b!"        {",
  b!"            while (*value != 0) *++beg_ = *value++;",
  b!"            return *this;",
  b!"        }",
  b!"        ostream & operator<<( char *value ) override { return *this << (const char*) value; }",
  b!"",
  b!"    protected:",
  b!"        I beg_;",
  b!"};",
  b!"",
  b!"struct istream",
  b!"{",
  b!"    istream() = default;",
  b!"    virtual ~istream() = default;",
  b!"    virtual int peek() = 0;",
  b!"    virtual void next() = 0;",
  b!"    virtual bool eof() const = 0;",
  b!"    virtual int line() const = 0;",
  b!"    virtual int column() const = 0;",
  b!"};",
  b!"",
  b!"template<typename I>",
  b!"class iterator_istream : public istream",
  b!"{",
  b!"    public:",
  b!"        iterator_istream( const I& first, const I& last ) : beg_(first), end_(last), line_(1),",
  b!"            column_(1)",
  b!"        {",
  b!"            skip();",
  b!"        }",
  b!"        int peek() override",
  b!"        {",
  b!"            if (beg_ == end_) return 0;",
  b!"            return *beg_;",
  b!"        }",
  b!"        void next() override",
  b!"        {",
  b!"            if (beg_ == end_) return;",
  b!"            ++beg_;",
  b!"            ++column_;",
  b!"            skip();",
  b!"        }",
  b!"        bool eof() const override { return beg_ == end_; }",
  b!"        int line() const override { return line_; }",
  b!"        int column() const override { return column_; }",
  b!"    protected:",
  b!"        I beg_, end_;",
  b!"        int line_, column_;",
  b!"        void skip()",
  b!"        {",
  b!"            while (!(beg_ == end_) && *beg_ == '\\n')",
  b!"            {",
  b!"                ++line_;",
  b!"                column_ = 1;",
  b!"                ++beg_;",
  b!"            }",
  b!"        }",
  b!"};",
  b!"",
  b!"template<class T>",
  b!"class mem_const_iterator",
  b!"{",
  b!"    static_assert(std::is_arithmetic<T>::value, \"invalid template parameters\");",
  b!"    public:",
  b!"        mem_const_iterator( const T *begin, size_t count ) : cursor(begin), end(begin + count), empty(0)"]

/-- source/cpp/protogen.hh:201-300. -/
def protogenLines3 : List Bytes := [
  b!"        {",
  b!"        }",
  b!"        mem_const_iterator &operator++()",
  b!"        {",
  b!"            if (cursor < end) cursor++;",
  b!"            return *this;",
  b!"        }",
  b!"        const T &operator*() const",
  b!"        {",
  b!"            if (cursor >= end) return empty;",
  b!"            return *cursor;",
  b!"        }",
  b!"        bool operator==( const mem_const_iterator<T> &that ) const",
  b!"        {",
  b!"            return cursor == that.cursor;",
  b!"        }",
  b!"    protected:",
  b!"        const T *cursor;",
  b!"        const T *end;",
  b!"        T empty;",
  b!"};",
  b!"",
  b!"template<class T>",
  b!"class mem_iterator",
  b!"{",
  b!"    static_assert(std::is_arithmetic<T>::value, \"invalid template parameters\");",
  b!"    public:",
  b!"        mem_iterator( T *begin, size_t count ) : cursor(begin), end(begin + count), empty(0)",
  b!"        {",
  b!"        }",
  b!"        mem_iterator &operator++()",
  b!"        {",
  b!"            if (cursor < end) cursor++;",
  b!"            return *this;",
  b!"        }",
  b!"        T &operator*()",
  b!"        {",
  b!"            if (cursor >= end) return empty;",
  b!"            return *cursor;",
  b!"        }",
  b!"        bool operator==( const mem_iterator<T> &that ) const",
  b!"        {",
  b!"            return cursor == that.cursor;",
  b!"        }",
  b!"    protected:",
  b!"        T *cursor;",
  b!"        const T *end;",
  b!"        T empty;",
  b!"};",
  b!"",
  b!"namespace internal {",
  b!"",
  b!"using namespace ::protogen_X_Y_Z;",
  b!"",
  b!"enum class token_id",
  b!"{",
  b!"    NONE, EOS, OBJS, OBJE, COLON, COMMA, STRING, ARRS,",
  b!"    ARRE, NIL, BTRUE, BFALSE, NUMBER,",
  b!"};",
  b!"",
  b!"struct token",
  b!"{",
  b!"    token_id id;",
  b!"    std::string value;",
  b!"    int line, column;",
  b!"",
  b!"    token() : id(token_id::NONE), line(0), column(0) {}",
  b!"    token( const token &that ) { *this = that; }",
  b!"    token( token &&that ) { swap(that); }",
  b!"    token( token_id id, const std::string &value = \"\", int line = 0, int col = 0 ) : id(id), value(value),",
  b!"        line(line), column(col) {}",
  b!"    token &operator=( const token &that )",
  b!"    {",
  b!"        id = that.id;",
  b!"        value = that.value;",
  b!"        line = that.line;",
  b!"        column = that.column;",
  b!"        return *this;",
  b!"    }",
  b!"    void swap( token &that )",
  b!"    {",
  b!"        std::swap(id, that.id);",
  b!"        value.swap(that.value);",
  b!"        std::swap(line, that.line);",
  b!"        std::swap(column, that.column);",
  b!"    }",
  b!"};",
  b!"",
  b!"class tokenizer",
  b!"{",
  b!"    public:",
  b!"        tokenizer( istream &input, Parameters &params ) : input_(input), error_(params.error)",
  b!"        {",
  b!"            next();",
  b!"        }",
  b!"",
  b!"        int line() const { return input_.line(); }",
  b!"        int column() const { return input_.column(); }",
  b!"",
  b!"        token &next()"]

/-- source/cpp/protogen.hh:301-400. -/
def protogenLines4 : List Bytes := [
  b!"        {",
  b!"            #define RETURN_TOKEN(x) do { current_ = token(x, \"\", line, column); input_.next(); return current_; } while (false)",
  b!"            current_.id = token_id::NONE;",
  b!"            current_.value.clear();",
  b!"            while (!input_.eof())",
  b!"            {",
  b!"                int c = input_.peek();",
  b!"                int line = input_.line();",
  b!"                int column = input_.column();",
  b!"                switch (c)",
  b!"                {",
  b!"                    case ' ':",
  b!"                    case '\\t':",
  b!"                    case '\\r':",
  b!"                    case '\\n':",
  b!"                        input_.next();",
  b!"                        break;",
  b!"                    case '{':",
  b!"                        RETURN_TOKEN(token_id::OBJS);",
  b!"                    case '}':",
  b!"                        RETURN_TOKEN(token_id::OBJE);",
  b!"                    case '[':",
  b!"                        RETURN_TOKEN(token_id::ARRS);",
  b!"                    case ']':",
  b!"                        RETURN_TOKEN(token_id::ARRE);",
  b!"                    case ':':",
  b!"                        RETURN_TOKEN(token_id::COLON);",
  b!"                    case ',':",
  b!"                        RETURN_TOKEN(token_id::COMMA);",
  b!"                    case '\"':",
  b!"                        return current_ = parse_string();",
  b!"                    case '-':",
  b!"                    case '0':",
  b!"                    case '1':",
  b!"                    case '2':",
  b!"                    case '3':",
  b!"                    case '4':",
  b!"                    case '5':",
  b!"                    case '6':",
  b!"                    case '7':",
  b!"                    case '8':",
  b!"                    case '9':",
  b!"                        return current_ = parse_number();",
  b!"                    default:",
  b!"                        std::string value = parse_identifier();",
  b!"                        if (value == \"true\") return current_ = token(token_id::BTRUE, \"\", line, column);",
  b!"                        if (value == \"false\") return current_ = token(token_id::BFALSE, \"\", line, column);",
  b!"                        if (value == \"null\") return current_ = token(token_id::NIL, \"\", line, column);",
  b!"                        return current_ = token(token_id::NONE, \"\", line, column);",
  b!"                }",
  b!"            }",
  b!"            return current_ = token(token_id::EOS, \"\", input_.line(), input_.column());",
  b!"            #undef RETURN_TOKEN",
  b!"        }",
  b!"        token &peek() { return current_; }",
  b!"        bool expect( token_id type )",
  b!"        {",
  b!"            if (current_.id == type)",
  b!"            {",
  b!"                next();",
  b!"                return true;",
  b!"            }",
  b!"            return false;",
  b!"        }",
  b!"        int error( error_code code, const std::string &msg )",
  b!"        {",
  b!"            if (error_.code != error_code::PGERR_OK)",
  b!"                return PGR_ERROR;",
  b!"            error_.code = code;",
  b!"            error_.message = msg;",
  b!"            error_.line = current_.line;",
  b!"            error_.column = current_.column;",
  b!"            return PGR_ERROR;",
  b!"        }",
  b!"        void set_error(ErrorInfo &err)",
  b!"        {",
  b!"            error_ = err;",
  b!"        }",
  b!"        int ignore( ) { return ignore_value(); }",
  b!"",
  b!"    protected:",
  b!"        token current_;",
  b!"        istream &input_;",
  b!"        ErrorInfo &error_;",
  b!"",
  b!"        std::string parse_identifier()",
  b!"        {",
  b!"            std::string value;",
  b!"            while (!input_.eof())",
  b!"            {",
  b!"                int c = input_.peek();",
  b!"                if ((c >= 'A' && c <= 'Z') || (c >= 'a' && c <= 'z'))",
  b!"                {",
  b!"                    value += (char) c;",
  b!"                    input_.next();",
  b!"                }",
  b!"                else",
  b!"                    break;",
  b!"            }",
  b!"            return value;"]

/-- source/cpp/protogen.hh:401-500. -/
def protogenLines5 : List Bytes := [
  b!"        }",
  b!"",
  b!"        token parse_string()",
  b!"        {",
  b!"            int32_t lead = 0;",
  b!"            std::string value;",
  b!"            int line = input_.line();",
  b!"            int column = input_.column();",
  b!"            if (input_.peek() != '\"') goto ESCAPE;",
  b!"            while (!input_.eof())",
  b!"            {",
  b!"                input_.next();",
  b!"                int c = input_.peek();",
  b!"                if (c == '\"')",
  b!"                {",
  b!"                    input_.next();",
  b!"                    return token(token_id::STRING, value);",
  b!"                }",
  b!"                if (c == '\\\\')",
  b!"                {",
  b!"                    input_.next();",
  b!"                    c = input_.peek();",
  b!"                    switch (c)",
  b!"                    {",
  b!"                        case '\"':  value += '\"'; break;",
  b!"                        case '\\\\': value += '\\\\'; break;",
  b!"                        case '/':  value += '/'; break;",
  b!"                        case 'b':  value += '\\b'; break;",
  b!"                        case 'f':  value += '\\f'; break;",
  b!"                        case 'r':  value += '\\r'; break;",
  b!"                        case 'n':  value += '\\n'; break;",
  b!"                        case 't':  value += '\\t'; break;",
  b!"                        case 'u':",
  b!"                            if (!parse_escaped_utf8(value, lead))",
  b!"                                goto ESCAPE;",
  b!"                            break;",
  b!"                        default: goto ESCAPE;",
  b!"                    }",
  b!"                }",
  b!"                else",
  b!"                {",
  b!"                    if (c == 0)",
  b!"                        goto ESCAPE;",
  b!"                    value += (char) c;",
  b!"                }",
  b!"            }",
  b!"            ESCAPE:",
  b!"            return token(token_id::NONE, \"\", line, column);",
  b!"        }",
  b!"",
  b!"        bool parse_escaped_utf8(std::string &value, int32_t &lead)",
  b!"        {",
  b!"            char temp[5] = {0};",
  b!"            for (int i = 0; i < 4; ++i)",
  b!"            {",
  b!"                input_.next();",
  b!"                auto c = input_.peek();",
  b!"                if ((c >= '0' && c <= '9') || (c >= 'A' && c <= 'F') || (c >= 'a' && c <= 'f'))",
  b!"                    temp[i] = (char) c;",
  b!"                else",
  b!"                    return false;",
  b!"            }",
  b!"            int32_t codepoint = (int32_t) strtol(temp, nullptr, 16);",
  b!"",
  b!"            // first value in UTF-16 surrogate pair",
  b!"            if (codepoint >= 0xD800 && codepoint <= 0xDBFF)",
  b!"            {",
  b!"                lead = codepoint;",
  b!"                return true;",
  b!"            }",
  b!"            else",
  b!"            // second value in UTF-16 surrogate pair",
  b!"            if (codepoint >= 0xDC00 && codepoint <= 0xDFFF)",
  b!"            {",
  b!"                // check whether we have a lead (first value in the surrogate pair)",
  b!"                if (lead == 0)",
  b!"                    return false;",
  b!"                // compute the final codepoint",
  b!"                static const int32_t SURROGATE_OFFSET = 0x10000 - (0xD800 << 10) - 0xDC00;",
  b!"                codepoint = (lead << 10) + codepoint + SURROGATE_OFFSET;",
  b!"",
  b!"                // 4-byte UTF-8 = 11110xxx 10xxxxxx 10xxxxxx 10xxxxxx",
  b!"                value += (char) (0xF0 | ((codepoint >> 18) & 0x07));",
  b!"                value += (char) (0x80 | ((codepoint >> 12) & 0x3F));",
  b!"                value += (char) (0x80 | ((codepoint >> 6) & 0x3F));",
  b!"                value += (char) (0x80 | (codepoint & 0x3F));",
  b!"            }",
  b!"            else",
  b!"            // 2-byte UTF-8 = 110xxxxx 10xxxxxx",
  b!"            if (codepoint >= 0x80 && codepoint <= 0x7FF)",
  b!"            {",
  b!"                value += (char) (0xC0 | ((codepoint >> 6) & 0x1F));",
  b!"                value += (char) (0x80 | (codepoint & 0x3F));",
  b!"            }",
  b!"            else",
  b!"            // 3-byte UTF-8 = 1110xxxx 10xxxxxx 10xxxxxx",
  b!"            if (codepoint >= 0x800 && codepoint <= 0xFFFF)",
  b!"            {",
  b!"                value += (char) (0xE0 | ((codepoint >> 12) & 0x0F));",
  b!"                value += (char) (0x80 | ((codepoint >> 6) & 0x3F));"]

/-- source/cpp/protogen.hh:501-600. -/
def protogenLines6 : List Bytes := [
  b!"                value += (char) (0x80 | (codepoint & 0x3F));",
  b!"            }",
  b!"            else",
  b!"                return false;",
  b!"",
  b!"            // reset the surrogate pair lead",
  b!"            lead = 0;",
  b!"",
  b!"            return true;",
  b!"        }",
  b!"",
  b!"        bool parse_keyword( const std::string &keyword )",
  b!"        {",
  b!"            for (auto c : keyword)",
  b!"            {",
  b!"                if (input_.peek() != c) return false;",
  b!"                input_.next();",
  b!"            }",
  b!"            return true;",
  b!"        }",
  b!"",
  b!"        token parse_number() // TODO ensure number syntax according to RFC-4627 section 2.4",
  b!"        {",
  b!"            std::string value;",
  b!"            int line = input_.line();",
  b!"            int column = input_.column();",
  b!"            while (!input_.eof())",
  b!"            {",
  b!"                int c = input_.peek();",
  b!"                if (c == '.' || (c >= '0' && c <= '9') || c == 'e' || c == 'E' || c == '+' || c == '-')",
  b!"                {",
  b!"                    value += (char) c;",
  b!"                    input_.next();",
  b!"                }",
  b!"                else",
  b!"                    break;",
  b!"            }",
  b!"            return token(token_id::NUMBER, value, line, column);",
  b!"        }",
  b!"",
  b!"        int ignore_array()",
  b!"        {",
  b!"            if (!expect(token_id::ARRS))",
  b!"                return error(error_code::PGERR_IGNORE_FAILED, \"invalid array\");",
  b!"",
  b!"            while (peek().id != token_id::ARRE)",
  b!"            {",
  b!"                int result = ignore_value();",
  b!"                if (result != PGERR_OK) return result;",
  b!"                if (!expect(token_id::COMMA)) break;",
  b!"            }",
  b!"            if (!expect(token_id::ARRE))",
  b!"                return error(error_code::PGERR_IGNORE_FAILED, \"invalid array\");",
  b!"            return PGR_OK;",
  b!"        }",
  b!"",
  b!"        int ignore_object()",
  b!"        {",
  b!"            if (!expect(token_id::OBJS))",
  b!"                return error(error_code::PGERR_IGNORE_FAILED, \"invalid object\");",
  b!"",
  b!"            while (peek().id != token_id::OBJE)",
  b!"            {",
  b!"                if (!expect(token_id::STRING))",
  b!"                    return error(error_code::PGERR_IGNORE_FAILED, \"expected field name\");",
  b!"                if (!expect(token_id::COLON))",
  b!"                    return error(error_code::PGERR_IGNORE_FAILED, \"expected colon\");",
  b!"                int result = ignore_value();",
  b!"                if (result != PGERR_OK) return result;",
  b!"                if (!expect(token_id::COMMA)) break;",
  b!"            }",
  b!"            if (!expect(token_id::OBJE))",
  b!"                return error(error_code::PGERR_IGNORE_FAILED, \"invalid object\");",
  b!"            return PGR_OK;",
  b!"        }",
  b!"",
  b!"        int ignore_value()",
  b!"        {",
  b!"            switch (peek().id)",
  b!"            {",
  b!"                case token_id::NONE:",
  b!"                case token_id::EOS:",
  b!"                    return error(error_code::PGERR_IGNORE_FAILED, \"end of stream\");",
  b!"                case token_id::OBJS:",
  b!"                    return ignore_object();",
  b!"                case token_id::ARRS:",
  b!"                    return ignore_array();",
  b!"                case token_id::STRING:",
  b!"                case token_id::NUMBER:",
  b!"                case token_id::NIL:",
  b!"                case token_id::BTRUE:",
  b!"                case token_id::BFALSE:",
  b!"                {",
  b!"                    auto tt = next();",
  b!"                    if (tt.id == token_id::NONE || tt.id == token_id::EOS)",
  b!"                        return error(PGERR_IGNORE_FAILED, \"end of stream\");",
  b!"                    return PGERR_OK;",
  b!"                }",
  b!"                default:",
  b!"                    return error(error_code::PGERR_IGNORE_FAILED, \"invalid value\");"]

/-- source/cpp/protogen.hh:601-700. -/
def protogenLines7 : List Bytes := [
  b!"            }",
  b!"        }",
  b!"};",
  b!"",
  b!"} // namespace internal",
  b!"",
  b!"template <typename T>",
  b!"#if !defined(_WIN32)",
  b!"constexpr",
  b!"#endif",
  b!"T rol( T value, int count )",
  b!"{",
  b!"\tstatic_assert(std::is_unsigned<T>::value, \"unsupported signed type\");",
  b!"\treturn (T) ((value << count) | (value >> (-count & (sizeof(T) * 8 - 1))));",
  b!"}",
  b!"",
  b!"static inline std::string reveal( const std::string &value )",
  b!"{",
  b!"    uint8_t mask = rol<uint8_t>(0x93U, value.length() % 8);",
  b!"\tstd::string result;",
  b!"    result.reserve(value.length());",
  b!"\tfor (size_t i = 0; i < value.length(); ++i)",
  b!"\t\tresult += (char) ((uint8_t) value[i] ^ mask);",
  b!"\treturn result;",
  b!"}",
  b!"",
  b!"// Parent class for messages",
  b!"template<typename T, typename J>",
  b!"struct message",
  b!"{",
  b!"    typedef T underlying_type;",
  b!"    typedef J serializer_type;",
  b!"    virtual ~message() = default;",
  b!"    virtual bool deserialize( istream &in, Parameters *params = nullptr ) = 0;",
  b!"    virtual bool serialize( ostream &out, Parameters *params = nullptr ) const = 0;",
  b!"",
  b!"    virtual bool deserialize( std::istream &in, Parameters *params = nullptr )",
  b!"    {",
  b!"        bool skip = in.flags() & std::ios_base::skipws;",
  b!"        std::noskipws(in);",
  b!"        std::istream_iterator<char> end;",
  b!"        std::istream_iterator<char> begin(in);",
  b!"        iterator_istream<std::istream_iterator<char>> is(begin, end);",
  b!"        bool result = deserialize(is, params);",
  b!"        if (skip) std::skipws(in);",
  b!"        return result;",
  b!"    }",
  b!"",
  b!"    virtual bool deserialize( const std::string &in, Parameters *params = nullptr )",
  b!"    {",
  b!"        iterator_istream<std::string::const_iterator> is(in.begin(), in.end());",
  b!"        return deserialize(is, params);",
  b!"    }",
  b!"",
  b!"    virtual bool deserialize( const char *in, size_t len, Parameters *params = nullptr )",
  b!"    {",
  b!"        auto begin = mem_const_iterator<char>(in, len);",
  b!"        auto end = mem_const_iterator<char>(in + len, 0);",
  b!"        iterator_istream<mem_const_iterator<char>> is(begin, end);",
  b!"        return deserialize(is, params);",
  b!"    }",
  b!"",
  b!"    virtual bool deserialize( const std::vector<char> &in, Parameters *params = nullptr )",
  b!"    {",
  b!"        iterator_istream<std::vector<char>::const_iterator> is(in.begin(), in.end());",
  b!"        return deserialize(is, params);",
  b!"    }",
  b!"",
  b!"    virtual bool serialize( std::string &out, Parameters *params = nullptr ) const",
  b!"    {",
  b!"        typedef std::back_insert_iterator<std::string> ittype;",
  b!"        ittype begin(out);",
  b!"        iterator_ostream<ittype> os(begin);",
  b!"        return serialize(os, params);",
  b!"    }",
  b!"",
  b!"    virtual bool serialize( std::ostream &out, Parameters *params = nullptr ) const",
  b!"    {",
  b!"        typedef std::ostream_iterator<char> ittype;",
  b!"        ittype begin(out);",
  b!"        iterator_ostream<ittype> os(begin);",
  b!"        return serialize(os, params);",
  b!"    }",
  b!"",
  b!"    virtual bool serialize( char *in, size_t len, Parameters *params = nullptr )",
  b!"    {",
  b!"        auto begin = mem_iterator<char>(in, len);",
  b!"        iterator_ostream<mem_iterator<char>> os(begin);",
  b!"        return serialize(os, params);",
  b!"    }",
  b!"",
  b!"    virtual bool serialize( std::vector<char> &out, Parameters *params = nullptr ) const",
  b!"    {",
  b!"        typedef std::back_insert_iterator<std::vector<char>> ittype;",
  b!"        ittype begin(out);",
  b!"        iterator_ostream<ittype> os(begin);",
  b!"        return serialize(os, params);",
  b!"    }",
  b!"",
  b!"    virtual void clear() = 0;"]

/-- source/cpp/protogen.hh:701-709. -/
def protogenLines8 : List Bytes := [
  b!"    virtual bool empty() const  = 0;",
  b!"    virtual bool equal( const T &that ) const = 0;",
  b!"    bool operator==( const T &that ) const { return equal(that); }",
  b!"    bool operator!=( const T &that ) const { return !equal(that); }",
  b!"};",
  b!"",
  b!"} // namespace protogen_X_Y_Z",
  b!"",
  b!"#endif // PROTOGEN_X_Y_Z"]

/-- source/cpp/protogen.hh:1-709. -/
def protogenLines : List Bytes :=
  protogenLines1 ++ protogenLines2 ++ protogenLines3 ++ protogenLines4 ++ protogenLines5 ++ protogenLines6 ++ protogenLines7 ++ protogenLines8

/-- source/cpp/json.hh:1-100. -/
def jsonLines1 : List Bytes := [
  b!"#ifndef PROTOGEN_X_Y_Z__JSON",
  b!"#define PROTOGEN_X_Y_Z__JSON",
  b!"",
  b!"#include \"protogen.hh\" // AUTO-REMOVE",
  b!"#include <unordered_map> // used by 'field_index' functions",
  b!"",
  b!"namespace protogen_X_Y_Z {",
  b!"",
  b!"using namespace protogen_X_Y_Z::internal;",
  b!"",
  b!"struct json_context",
  b!"{",
  b!"    // Tokenizer object used for loading JSON during deserialization",
  b!"    tokenizer *tok = nullptr;",
  b!"    // Output stream for writing JSON during serialization",
  b!"    ostream *os = nullptr;",
  b!"    // Configuration parameters and error information",
  b!"    Parameters params;",
  b!"};",
  b!"",
  b!"static int set_error( ErrorInfo &error, error_code code, const std::string &msg )",
  b!"{",
  b!"    if (error.code != error_code::PGERR_OK)",
  b!"        return PGR_ERROR;",
  b!"    error.code = code;",
  b!"    error.message = msg;",
  b!"    error.line = error.column = 0;",
  b!"    return PGR_ERROR;",
  b!"}",
  b!"",
  b!"template<typename T, typename E = void> struct json;",
  b!"",
  b!"template<typename T, typename J = json<T> >",
  b!"static int read_object( json_context &ctx, T &object )",
  b!"{",
  b!"    if (ctx.tok->peek().id == token_id::NIL) return PGR_NIL;",
  b!"    if (!ctx.tok->expect(token_id::OBJS))",
  b!"        return ctx.tok->error(error_code::PGERR_INVALID_OBJECT, \"objects must start with '{'\");",
  b!"    if (!ctx.tok->expect(token_id::OBJE))",
  b!"    {",
  b!"        while (true)",
  b!"        {",
  b!"            std::string name = ctx.tok->peek().value;",
  b!"            if (!ctx.tok->expect(token_id::STRING))",
  b!"                return ctx.tok->error(error_code::PGERR_INVALID_NAME, \"object key must be string\");",
  b!"            if (!ctx.tok->expect(token_id::COLON))",
  b!"                return ctx.tok->error(error_code::PGERR_INVALID_SEPARATOR, \"field name and value must be separated by ':'\");",
  b!"            int result = J::read_field(ctx, name, object);",
  b!"            if (result == PGR_ERROR) return result;",
  b!"            if (result != PGR_OK)",
  b!"            {",
  b!"                result = ctx.tok->ignore();",
  b!"                if (result == PGR_ERROR) return result;",
  b!"            }",
  b!"            if (ctx.tok->expect(token_id::COMMA)) continue;",
  b!"            if (ctx.tok->expect(token_id::OBJE)) break;",
  b!"            return ctx.tok->error(error_code::PGERR_INVALID_OBJECT, \"invalid JSON object\");",
  b!"        };",
  b!"    }",
  b!"    return PGR_OK;",
  b!"}",
  b!"",
  b!"#define PG_X_Y_Z_ENTITY(N,O,S) \\",
  b!"    struct N : public O, public protogen_X_Y_Z::message< O, S > \\",
  b!"    { \\",
  b!"        typedef O value_type; \\",
  b!"        typedef S serializer_type; \\",
  b!"        N() = default; \\",
  b!"        N( const N& ) = default; \\",
  b!"        N( N &&that ) = default; \\",
  b!"        N &operator=( const N & ) = default; \\",
  b!"        using protogen_X_Y_Z::message<O, S>::serialize; \\",
  b!"        using protogen_X_Y_Z::message<O, S>::deserialize; \\",
  b!"        bool deserialize( protogen_X_Y_Z::istream& in, protogen_X_Y_Z::Parameters *params = nullptr ) override \\",
  b!"        { \\",
  b!"            protogen_X_Y_Z::json_context ctx; \\",
  b!"            if (params != nullptr) { \\",
  b!"                params->error.clear(); \\",
  b!"                ctx.params = *params; \\",
  b!"            } \\",
  b!"            protogen_X_Y_Z::tokenizer tok(in, ctx.params); \\",
  b!"            ctx.tok = &tok; \\",
  b!"            int result = S::read(ctx, *this); \\",
  b!"            if (result == protogen_X_Y_Z::PGR_OK) return true; \\",
  b!"            if (params != nullptr) params->error = std::move(ctx.params.error); \\",
  b!"            return false; \\",
  b!"        } \\",
  b!"        bool serialize( protogen_X_Y_Z::ostream &out, protogen_X_Y_Z::Parameters *params = nullptr ) const override \\",
  b!"        { \\",
  b!"            protogen_X_Y_Z::json_context ctx; \\",
  b!"            ctx.os = &out; \\",
  b!"            if (params != nullptr) { \\",
  b!"                params->error.clear(); \\",
  b!"                ctx.params = *params; \\",
  b!"            } \\",
  b!"            int result = S::write(ctx, *this); \\",
  b!"            if (result == protogen_X_Y_Z::PGR_OK) return true; \\",
  b!"            if (params != nullptr) params->error = std::move(ctx.params.error); \\",
  b!"            return false; \\",
  b!"        } \\"]

/-- source/cpp/json.hh:101-124. -/
def jsonLines2 : List Bytes := [
  b!"        void clear() override { S::clear(*this); } \\",
  b!"        bool empty() const override { return S::empty(*this); } \\",
  b!"        bool equal( const O &that ) const override { return S::equal(*this, that); } \\",
  b!"        void swap( O &that ) { S::swap(*this, that); } \\",
  b!"    };",
  b!"",
  b!"#define PG_X_Y_Z_ENTITY_SERIALIZER(N,O,S) \\",
  b!"    namespace protogen_X_Y_Z { \\",
  b!"    template<> \\",
  b!"    struct json<N> \\",
  b!"    { \\",
  b!"        static int read( json_context &ctx, O &value ) { return S::read(ctx, value); } \\",
  b!"        static int read_field( json_context &ctx, const std::string &name, O &value ) { return S::read_field(ctx, name, value); } \\",
  b!"        static int write( json_context &ctx, const O &value ) { return S::write(ctx, value); } \\",
  b!"        static bool empty( const O &value ) { return S::empty(value); } \\",
  b!"        static void clear( O &value ) { S::clear(value); } \\",
  b!"        static bool equal( const O &a, const O &b ) { return S::equal(a, b); } \\",
  b!"        static void swap( O &a, O &b ) { S::swap(a, b); } \\",
  b!"    };}",
  b!"",
  b!"} // namespace protogen_X_Y_Z",
  b!"",
  b!"#endif // PROTOGEN_X_Y_Z__JSON",
  b!""]

/-- source/cpp/json.hh:1-124. -/
def jsonLines : List Bytes :=
  jsonLines1 ++ jsonLines2

/-- source/cpp/json-array.hh:1-100. -/
def arrayLines1 : List Bytes := [
  b!"#include \"json.hh\" // AUTO-REMOVE",
  b!"",
  b!"#ifndef PROTOGEN_X_Y_Z__JSON_ARRAY",
  b!"#define PROTOGEN_X_Y_Z__JSON_ARRAY",
  b!"",
  b!"namespace protogen_X_Y_Z {",
  b!"",
  b!"template<typename T, typename _ = void>",
  b!"struct is_container : std::false_type {};",
  b!"",
  b!"template<typename... Ts>",
  b!"struct is_container_helper {};",
  b!"",
  b!"template<typename T>",
  b!"struct is_container<",
  b!"        T,",
  b!"        typename std::conditional<",
  b!"            false,",
  b!"            is_container_helper<",
  b!"                typename T::value_type,",
  b!"                typename T::size_type,",
  b!"                typename T::allocator_type,",
  b!"                typename T::iterator,",
  b!"                typename T::const_iterator,",
  b!"                decltype(std::declval<T>().size()),",
  b!"                decltype(std::declval<T>().begin()),",
  b!"                decltype(std::declval<T>().end()),",
  b!"                decltype(std::declval<T>().clear()),",
  b!"                decltype(std::declval<T>().empty())",
  b!"                >,",
  b!"            void",
  b!"            >::type",
  b!"        > : public std::true_type {};",
  b!"",
  b!"template<typename T>",
  b!"struct json<T, typename std::enable_if<is_container<T>::value>::type >",
  b!"{",
  b!"    static int read( json_context &ctx, T &value )",
  b!"    {",
  b!"        if (ctx.tok->peek().id == token_id::NIL) return PGR_NIL;",
  b!"        if (!ctx.tok->expect(token_id::ARRS))",
  b!"            return ctx.tok->error(error_code::PGERR_INVALID_ARRAY, \"invalid array\");",
  b!"        if (!ctx.tok->expect(token_id::ARRE))",
  b!"        {",
  b!"            while (true)",
  b!"            {",
  b!"                typename T::value_type temp;",
  b!"                int result = json<typename T::value_type>::read(ctx, temp);",
  b!"                if (result == PGR_ERROR) return result;",
  b!"                if (result == PGR_OK) value.push_back(temp);",
  b!"",
  b!"                if (!ctx.tok->expect(token_id::COMMA))",
  b!"                {",
  b!"                    if (ctx.tok->expect(token_id::ARRE))",
  b!"                        break;",
  b!"                    return ctx.tok->error(error_code::PGERR_INVALID_ARRAY, \"invalid array\");",
  b!"                }",
  b!"            }",
  b!"        }",
  b!"        return PGR_OK;",
  b!"    }",
  b!"    static int write( json_context &ctx, const T &value )",
  b!"    {",
  b!"        (*ctx.os) <<  '[';",
  b!"        size_t i = 0, t = value.size();",
  b!"        for (auto it = value.begin(); it != value.end(); ++it, ++i)",
  b!"        {",
  b!"            json<typename T::value_type>::write(ctx, *it);",
  b!"            if (i + 1 < t) (*ctx.os) <<  ',';",
  b!"        }",
  b!"        (*ctx.os) <<  ']';",
  b!"        return PGR_OK;",
  b!"    }",
  b!"    static bool empty( const T &value ) { return value.empty(); }",
  b!"    static void clear( T &value ) { value.clear(); }",
  b!"    static bool equal( const T &a, const T &b ) { return a == b; }",
  b!"    static void swap( T &a, T &b ) { std::swap(a, b); }",
  b!"};",
  b!"",
  b!"//",
  b!"// Deserialization of arrays",
  b!"//",
  b!"",
  b!"template<typename T, typename std::enable_if<is_container<T>::value, int>::type = 0>",
  b!"bool deserialize_array( T& container, protogen_X_Y_Z::istream& in, protogen_X_Y_Z::Parameters *params = nullptr )",
  b!"{",
  b!"    protogen_X_Y_Z::json_context ctx;",
  b!"    if (params != nullptr) {",
  b!"        params->error.clear();",
  b!"        ctx.params = *params;",
  b!"    }",
  b!"    protogen_X_Y_Z::tokenizer tok(in, ctx.params);",
  b!"    ctx.tok = &tok;",
  b!"    int result = json<T>::read(ctx, container);",
  b!"    if (result == protogen_X_Y_Z::PGR_OK) return true;",
  b!"    if (params != nullptr) params->error = std::move(ctx.params.error);",
  b!"    return false;",
  b!"}",
  b!"",
  b!"template<typename T, typename std::enable_if<is_container<T>::value, int>::type = 0>"]

/-- source/cpp/json-array.hh:101-162. -/
def arrayLines2 : List Bytes := [
  b!"bool deserialize_array( T& container, const std::string &in, Parameters *params = nullptr )",
  b!"{",
  b!"    iterator_istream<std::string::const_iterator> is(in.begin(), in.end());",
  b!"    return deserialize_array(container, is, params);",
  b!"}",
  b!"",
  b!"template<typename T, typename std::enable_if<is_container<T>::value, int>::type = 0>",
  b!"bool deserialize_array( T& container, const char *in, size_t len, Parameters *params = nullptr )",
  b!"{",
  b!"    auto begin = mem_iterator<char>(in, len);",
  b!"    auto end = mem_iterator<char>(in + len, 0);",
  b!"    iterator_istream<mem_iterator<char>> is(begin, end);",
  b!"    return deserialize_array(container, is, params);",
  b!"}",
  b!"",
  b!"template<typename T, typename std::enable_if<is_container<T>::value, int>::type = 0>",
  b!"bool deserialize_array( T& container, const std::vector<char> &in, Parameters *params = nullptr )",
  b!"{",
  b!"    iterator_istream<std::vector<char>::const_iterator> is(in.begin(), in.end());",
  b!"    return deserialize_array(container, is, params);",
  b!"}",
  b!"",
  b!"//",
  b!"// Serialization of arrays",
  b!"//",
  b!"",
  b!"template<typename T, typename std::enable_if<is_container<T>::value, int>::type = 0>",
  b!"bool serialize_array( const T& container, protogen_X_Y_Z::ostream &out, protogen_X_Y_Z::Parameters *params = nullptr )",
  b!"{",
  b!"    protogen_X_Y_Z::json_context ctx;",
  b!"    ctx.os = &out;",
  b!"    if (params != nullptr) {",
  b!"        params->error.clear();",
  b!"        ctx.params = *params;",
  b!"    }",
  b!"    int result = json<T>::write(ctx, container);",
  b!"    if (result == protogen_X_Y_Z::PGR_OK) return true;",
  b!"    if (params != nullptr) params->error = std::move(ctx.params.error);",
  b!"    return false;",
  b!"}",
  b!"",
  b!"template<typename T, typename std::enable_if<is_container<T>::value, int>::type = 0>",
  b!"bool serialize_array( const T& container, std::string &out, Parameters *params = nullptr )",
  b!"{",
  b!"    typedef std::back_insert_iterator<std::string> ittype;",
  b!"    ittype begin(out);",
  b!"    iterator_ostream<ittype> os(begin);",
  b!"    return serialize_array(container, os, params);",
  b!"}",
  b!"",
  b!"template<typename T, typename std::enable_if<is_container<T>::value, int>::type = 0>",
  b!"bool serialize_array( const T& container, std::vector<char> &out, Parameters *params = nullptr )",
  b!"{",
  b!"    typedef std::back_insert_iterator<std::vector<char>> ittype;",
  b!"    ittype begin(out);",
  b!"    iterator_ostream<ittype> os(begin);",
  b!"    return serialize_array(container, os, params);",
  b!"}",
  b!"",
  b!"} // namespace protogen_X_Y_Z",
  b!"",
  b!"#endif // PROTOGEN_X_Y_Z__JSON_ARRAY"]

/-- source/cpp/json-array.hh:1-162. -/
def arrayLines : List Bytes :=
  arrayLines1 ++ arrayLines2

/-- source/cpp/json-base64.hh:1-100. -/
def base64Lines1 : List Bytes := [
  b!"#include \"json.hh\" // AUTO-REMOVE",
  b!"",
  b!"#ifndef PROTOGEN_X_Y_Z__JSON_BASE64",
  b!"#define PROTOGEN_X_Y_Z__JSON_BASE64",
  b!"",
  b!"// Base64 encoder/decoder based on Joe DF's implementation",
  b!"// Original source at <https://github.com/joedf/base64.c> (MIT licensed)",
  b!"",
  b!"namespace protogen_X_Y_Z {",
  b!"",
  b!"template <>",
  b!"struct json< std::vector<uint8_t> >",
  b!"{",
  b!"    static int b64_int( int ch )",
  b!"    {",
  b!"        if (ch == '+') return 62;",
  b!"        if (ch == '/') return 63;",
  b!"        if (ch >= '0' && ch <= '9') return ch + 4;",
  b!"        if (ch >= 'A' && ch <= 'Z') return ch - 'A';",
  b!"        if (ch >= 'a' && ch <= 'z') return (ch - 'a') + 26;",
  b!"        if (ch == '=') return 64;",
  b!"        return 0;",
  b!"    }",
  b!"    static int write( json_context &ctx, const std::vector<uint8_t> &value )",
  b!"    {",
  b!"        static const char *B64_SYMBOLS = \"ABCDEFGHIJKLMNOPQRSTUVWXYZabcdefghijklmnopqrstuvwxyz0123456789+/\";",
  b!"        char o[5] = { 0 };",
  b!"        size_t i = 0;",
  b!"        size_t size = value.size();",
  b!"",
  b!"        (*ctx.os) <<  '\"';",
  b!"",
  b!"        for (i = 0; i + 2 < size; i += 3)",
  b!"        {",
  b!"            o[0] = B64_SYMBOLS[ (value[i] & 0xFF) >> 2 ];",
  b!"            o[1] = B64_SYMBOLS[ ((value[i] & 0x03) << 4) | ((value[i + 1] & 0xF0) >> 4) ];",
  b!"            o[2] = B64_SYMBOLS[ ((value[i+1] & 0x0F) << 2) | ((value[i+2] & 0xC0) >> 6) ];",
  b!"            o[3] = B64_SYMBOLS[ value[i+2] & 0x3F ];",
  b!"            (*ctx.os) <<  o;",
  b!"        }",
  b!"",
  b!"        if (size - i)",
  b!"        {",
  b!"            o[0] = B64_SYMBOLS[ (value[i] & 0xFF) >> 2 ];",
  b!"            o[1] = B64_SYMBOLS[ ((value[i] & 0x03) << 4) ];",
  b!"            o[2] = '=';",
  b!"            o[3] = '=';",
  b!"",
  b!"            if (size - i == 2)",
  b!"            {",
  b!"                o[1] = B64_SYMBOLS[ ((value[i] & 0x03) << 4) | ((value[i + 1] & 0xF0) >> 4) ];",
  b!"                o[2] = B64_SYMBOLS[ ((value[i+1] & 0x0F) << 2) ];",
  b!"            }",
  b!"",
  b!"            (*ctx.os) <<  o;",
  b!"        }",
  b!"        (*ctx.os) <<  '\"';",
  b!"        return PGR_OK;",
  b!"    }",
  b!"    static int read( json_context &ctx, std::vector<uint8_t> &value )",
  b!"    {",
  b!"        if (ctx.tok->peek().id == token_id::NIL) return PGR_NIL;",
  b!"        if (ctx.tok->peek().id != token_id::STRING)",
  b!"            return ctx.tok->error(error_code::PGERR_INVALID_OBJECT, \"invalid string\");",
  b!"",
  b!"        size_t k = 0;",
  b!"        int s[4];",
  b!"        std::string text = ctx.tok->peek().value;",
  b!"        ctx.tok->next();",
  b!"        const char *ptr = text.c_str();",
  b!"",
  b!"        while (true)",
  b!"        {",
  b!"            // read 4 characters",
  b!"            for (size_t j = 0; j < 4; ++j)",
  b!"            {",
  b!"                int ch = *ptr++;",
  b!"                if (ch == 0)",
  b!"                {",
  b!"                    if (j != 0) ctx.tok->error(error_code::PGERR_INVALID_OBJECT, \"invalid base64 data\");",
  b!"                    return PGR_OK;",
  b!"                }",
  b!"                s[j] = b64_int(ch);",
  b!"            }",
  b!"            // decode base64 tuple",
  b!"            value.push_back( (uint8_t) (((s[0] & 0xFF) << 2 ) | ((s[1] & 0x30) >> 4)) );",
  b!"            if (s[2] != 64)",
  b!"            {",
  b!"                value.push_back( (uint8_t) (((s[1] & 0x0F) << 4) | ((s[2] & 0x3C) >> 2)) );",
  b!"                if ((s[3]!=64))",
  b!"                {",
  b!"                    value.push_back( (uint8_t) (((s[2] & 0x03) << 6) | s[3]) );",
  b!"                    k+=3;",
  b!"                }",
  b!"                else",
  b!"                    k+=2;",
  b!"            }",
  b!"            else",
  b!"                k+=1;",
  b!"        }"]

/-- source/cpp/json-base64.hh:101-110. -/
def base64Lines2 : List Bytes := [
  b!"    }",
  b!"    static bool empty( const std::vector<uint8_t> &value ) { return value.empty(); }",
  b!"    static void clear( std::vector<uint8_t> &value ) { value.clear(); }",
  b!"    static bool equal( const std::vector<uint8_t> &a, const std::vector<uint8_t> &b ) { return a == b; }",
  b!"    static void swap( std::vector<uint8_t> &a, std::vector<uint8_t> &b ) { std::swap(a, b); }",
  b!"};",
  b!"",
  b!"} // namespace protogen_X_Y_Z",
  b!"",
  b!"#endif // PROTOGEN_X_Y_Z__JSON_BASE64"]

/-- source/cpp/json-base64.hh:1-110. -/
def base64Lines : List Bytes :=
  base64Lines1 ++ base64Lines2

/-- source/cpp/json-number.hh:1-100. -/
def numberLines1 : List Bytes := [
  b!"#include \"json.hh\" // AUTO-REMOVE",
  b!"",
  b!"#ifndef PROTOGEN_X_Y_Z__JSON_NUMBER",
  b!"#define PROTOGEN_X_Y_Z__JSON_NUMBER",
  b!"",
  b!"namespace protogen_X_Y_Z {",
  b!"",
  b!"template<typename T> class field",
  b!"{",
  b!"    static_assert(std::is_arithmetic<T>::value, \"invalid arithmetic type\");",
  b!"    protected:",
  b!"        T value_ = (T) 0;",
  b!"        bool empty_ = true;",
  b!"    public:",
  b!"        typedef T value_type;",
  b!"        field() = default;",
  b!"        field( const field<T> &that ) = default;",
  b!"        field( field<T> &&that )  = default;",
  b!"        void swap( field<T> &that ) { std::swap(this->value_, that.value_); std::swap(this->empty_, that.empty_); }",
  b!"        void swap( T &that ) { std::swap(this->value_, that); empty_ = false; }",
  b!"        bool empty() const { return empty_; }",
  b!"        void clear() { value_ = (T) 0; empty_ = true; }",
  b!"        field<T> &operator=( const field<T> &that ) { this->empty_ = that.empty_; if (!empty_) this->value_ = that.value_; return *this; }",
  b!"        field<T> &operator=( const T &that ) { this->empty_ = false; this->value_ = that; return *this; }",
  b!"        bool operator==( const T &that ) const { return !this->empty_ && this->value_ == that; }",
  b!"        bool operator!=( const T &that ) const { return !this->empty_ && this->value_ != that; }",
  b!"        bool operator==( const field<T> &that ) const { return this->empty_ == that.empty_ && this->value_ == that.value_;  }",
  b!"        bool operator!=( const field<T> &that ) const { return this->empty_ != that.empty_ || this->value_ != that.value_;  }",
  b!"        operator T() const { return this->value_; }",
  b!"};",
  b!"",
  b!"template<typename T, typename std::enable_if<std::is_floating_point<T>::value, int>::type = 0>",
  b!"static T string_to_number( const std::string &text )",
  b!"{",
  b!"    double value;",
  b!"#if defined(_WIN32) || defined(_WIN64)",
  b!"    static _locale_t loc = _create_locale(LC_NUMERIC, \"C\");",
  b!"    if (loc == nullptr) return 0;",
  b!"    value = _strtod_l(text.c_str(), nullptr, loc);",
  b!"#else",
  b!"    static locale_t loc = newlocale(LC_NUMERIC_MASK, \"C\", 0);",
  b!"    if (loc == 0) return 0;",
  b!"#ifdef __USE_GNU",
  b!"    value = strtod_l(text.c_str(), nullptr, loc);",
  b!"#else",
  b!"    locale_t old = uselocale(loc);",
  b!"    if (old == 0) return 0;",
  b!"    value = strtod(text.c_str(), nullptr);",
  b!"    uselocale(old);",
  b!"#endif",
  b!"#endif",
  b!"    return static_cast<T>(value);",
  b!"}",
  b!"",
  b!"template<typename T, typename std::enable_if<std::is_integral<T>::value && std::is_signed<T>::value, int>::type = 0>",
  b!"T string_to_number( const std::string &text )",
  b!"{",
  b!"#if defined(_WIN32) || defined(_WIN64)",
  b!"    return static_cast<T>( _strtoi64(text.c_str(), nullptr, 10) );",
  b!"#else",
  b!"    return static_cast<T>( strtol(text.c_str(), nullptr, 10) );",
  b!"#endif",
  b!"}",
  b!"",
  b!"template<typename T, typename std::enable_if<std::is_integral<T>::value && !std::is_signed<T>::value, int>::type = 0>",
  b!"T string_to_number( const std::string &text )",
  b!"{",
  b!"#if defined(_WIN32) || defined(_WIN64)",
  b!"    return static_cast<T>( _strtoui64(text.c_str(), nullptr, 10) );",
  b!"#else",
  b!"    return static_cast<T>( strtoul(text.c_str(), nullptr, 10) );",
  b!"#endif",
  b!"}",
  b!"",
  b!"template<typename T, typename std::enable_if<std::is_floating_point<T>::value, int>::type = 0>",
  b!"std::string number_to_string( const T &value )",
  b!"{",
  b!"    char tmp[320] = {0};",
  b!"#if defined(_WIN32) || defined(_WIN64)",
  b!"    static _locale_t loc = _create_locale(LC_NUMERIC, \"C\");",
  b!"    if (loc == nullptr) return \"0\";",
  b!"    _snprintf_l(tmp, sizeof(tmp) - 1, \"%f\", loc, value);",
  b!"#else",
  b!"    static locale_t loc = newlocale(LC_NUMERIC_MASK, \"C\", 0);",
  b!"    if (loc == 0) return \"0\";",
  b!"    locale_t old = uselocale(loc);",
  b!"    if (old == 0) return \"0\";",
  b!"    snprintf(tmp, sizeof(tmp) - 1, \"%f\", value);",
  b!"    uselocale(old);",
  b!"#endif",
  b!"    tmp[sizeof(tmp) - 1] = 0;",
  b!"    return tmp;",
  b!"}",
  b!"",
  b!"template<typename T, typename std::enable_if<std::is_integral<T>::value, int>::type = 0>",
  b!"std::string number_to_string( const T &value )",
  b!"{",
  b!"    return std::to_string(value);",
  b!"}",
  b!""]

/-- source/cpp/json-number.hh:101-192. -/
def numberLines2 : List Bytes := [
  b!"template<typename T, typename std::enable_if<std::is_floating_point<T>::value, int>::type = 0>",
  b!"int equal_number( const T &value1, const T &value2 )",
  b!"{",
  b!"    return std::nextafter(value1, std::numeric_limits<T>::lowest()) <= value2",
  b!"        && std::nextafter(value1, std::numeric_limits<T>::max()) >= value2;",
  b!"}",
  b!"",
  b!"template<typename T, typename std::enable_if<std::is_integral<T>::value, int>::type = 0>",
  b!"int equal_number( const T &value1, const T &value2 )",
  b!"{",
  b!"    return value1 == value2;",
  b!"}",
  b!"",
  b!"template<typename T>",
  b!"struct json<field<T>, typename std::enable_if<std::is_arithmetic<T>::value>::type>",
  b!"{",
  b!"    static int read( json_context &ctx, field<T> &value )",
  b!"    {",
  b!"        T temp;",
  b!"        json<T>::clear(temp);",
  b!"        int result = json<T>::read(ctx, temp);",
  b!"        if (result != PGR_NIL)",
  b!"            value = temp;",
  b!"        return result;",
  b!"    }",
  b!"    static int write( json_context &ctx, const field<T> &value )",
  b!"    {",
  b!"        if (value.empty())",
  b!"        {",
  b!"            *(ctx.os) << \"null\";",
  b!"            return PGR_OK;",
  b!"        }",
  b!"        T temp = (T) value;",
  b!"        return json<T>::write(ctx, temp);",
  b!"    }",
  b!"    static bool empty( const field<T> &value ) { return value.empty(); }",
  b!"    static void clear( field<T> &value ) { value.clear(); }",
  b!"    static bool equal( const field<T> &a, const field<T> &b ) { return a == b; }",
  b!"    static void swap( field<T> &a, field<T> &b ) { a.swap(b); }",
  b!"};",
  b!"",
  b!"template<typename T>",
  b!"struct json<T, typename std::enable_if<std::is_arithmetic<T>::value>::type>",
  b!"{",
  b!"    static int read( json_context &ctx, T &value )",
  b!"    {",
  b!"        auto &tt = ctx.tok->peek();",
  b!"        if (tt.id == token_id::NIL) return PGR_NIL;",
  b!"        if (tt.id != token_id::NUMBER)",
  b!"            return ctx.tok->error(error_code::PGERR_INVALID_VALUE, \"invalid numeric value\");",
  b!"        value = string_to_number<T>(tt.value);",
  b!"        ctx.tok->next();",
  b!"        return PGR_OK;",
  b!"    }",
  b!"    static int write( json_context &ctx, const T &value )",
  b!"    {",
  b!"        (*ctx.os) << number_to_string(value);",
  b!"        return PGR_OK;",
  b!"    }",
  b!"    static bool empty( const T &value ) { return equal_number(value, (T) 0); }",
  b!"    static void clear( T &value ) { value = (T) 0; }",
  b!"    static bool equal( const T &a, const T &b ) { return equal_number(a, b); }",
  b!"    static void swap( T &a, T &b ) { std::swap(a, b); }",
  b!"};",
  b!"",
  b!"template<>",
  b!"struct json<bool, void>",
  b!"{",
  b!"    static int read( json_context &ctx, bool &value )",
  b!"    {",
  b!"        auto &tt = ctx.tok->peek();",
  b!"        if (tt.id == token_id::NIL) return PGR_NIL;",
  b!"        if (tt.id != token_id::BTRUE && tt.id != token_id::BFALSE)",
  b!"            return ctx.tok->error(error_code::PGERR_INVALID_VALUE, \"invalid boolean value\");",
  b!"        value = tt.id == token_id::BTRUE;",
  b!"        ctx.tok->next();",
  b!"        return PGR_OK;",
  b!"    }",
  b!"    static int write( json_context &ctx, const bool &value )",
  b!"    {",
  b!"        (*ctx.os) <<  (value ? \"true\" : \"false\");",
  b!"        return PGR_OK;",
  b!"    }",
  b!"    static bool empty( const bool &value ) { return !value; }",
  b!"    static void clear( bool &value ) { value = false; }",
  b!"    static bool equal( const bool &a, const bool &b ) { return a == b; }",
  b!"    static void swap( bool &a, bool &b ) { std::swap(a, b); }",
  b!"};",
  b!"",
  b!"} // namespace protogen_X_Y_Z",
  b!"",
  b!"#endif // PROTOGEN_X_Y_Z__JSON_NUMBER"]

/-- source/cpp/json-number.hh:1-192. -/
def numberLines : List Bytes :=
  numberLines1 ++ numberLines2

/-- source/cpp/json-string.hh:1-100. -/
def stringLines1 : List Bytes := [
  b!"#include \"json.hh\" // AUTO-REMOVE",
  b!"",
  b!"#ifndef PROTOGEN_X_Y_Z__JSON_STRING",
  b!"#define PROTOGEN_X_Y_Z__JSON_STRING",
  b!"",
  b!"namespace protogen_X_Y_Z {",
  b!"",
  b!"class string_field",
  b!"{",
  b!"    protected:",
  b!"        std::string value_;",
  b!"        bool null_ = true;",
  b!"    public:",
  b!"        typedef std::string value_type;",
  b!"        string_field() = default;",
  b!"        string_field( const string_field &that ) = default;",
  b!"        string_field( string_field &&that )  = default;",
  b!"        string_field( const value_type &that ) : value_(that) { null_ = false; }",
  b!"        string_field( const char *that ) : value_(that) { null_ = false; }",
  b!"        void swap( string_field &that ) { std::swap(this->value_, that.value_); std::swap(this->null_, that.null_); }",
  b!"        void swap( value_type &that ) { std::swap(this->value_, that); null_ = false; }",
  b!"        bool empty() const { return null_ && value_.empty(); }",
  b!"        void empty(bool state) { null_ = state; if (state) value_.clear(); }",
  b!"        void clear() { value_.clear(); null_ = true; }",
  b!"        string_field &operator=( const string_field &that ) { this->null_ = that.null_; if (!null_) this->value_ = that.value_; return *this; }",
  b!"        string_field &operator=( const value_type &that ) { this->null_ = false; this->value_ = that; return *this; }",
  b!"        string_field &operator=( const char *that ) { this->null_ = false; this->value_ = that; return *this; }",
  b!"        bool operator==( const char *that ) const { return !this->null_ && this->value_ == that; }",
  b!"        bool operator!=( const char *that ) const { return !this->null_ && this->value_ != that; }",
  b!"        bool operator==( const value_type &that ) const { return !this->null_ && this->value_ == that; }",
  b!"        bool operator!=( const value_type &that ) const { return !this->null_ && this->value_ != that; }",
  b!"        bool operator==( const string_field &that ) const { return this->null_ == that.null_ && this->value_ == that.value_;  }",
  b!"        bool operator!=( const string_field &that ) const { return this->null_ != that.null_ || this->value_ != that.value_;  }",
  b!"        operator value_type&() { return this->value_; }",
  b!"        operator const value_type&() const { return this->value_; }",
  b!"        value_type &operator *() { return this->value_; }",
  b!"        const value_type &operator *() const { return this->value_; }",
  b!"};",
  b!"",
  b!"static void write_escaped_utf8(internal::ostream *out, uint32_t codepoint)",
  b!"{",
  b!"    char buffer[7];",
  b!"    snprintf(buffer, sizeof(buffer), \"\\\\u%04x\", codepoint);",
  b!"    (*out) << buffer;",
  b!"}",
  b!"",
  b!"template<>",
  b!"struct json<std::string, void>",
  b!"{",
  b!"    static int read( json_context &ctx, std::string &value )",
  b!"    {",
  b!"        auto tt = ctx.tok->peek();",
  b!"        if (tt.id == token_id::NIL) return PGR_NIL;",
  b!"        if (!ctx.tok->expect(token_id::STRING))",
  b!"            return ctx.tok->error(error_code::PGERR_INVALID_VALUE, \"invalid string value\");",
  b!"        value = tt.value;",
  b!"        return PGR_OK;",
  b!"    }",
  b!"    static int write( json_context &ctx, const std::string &value )",
  b!"    {",
  b!"        (*ctx.os) <<  '\"';",
  b!"        size_t size = value.size();",
  b!"        for (size_t i = 0; i < size;)",
  b!"        {",
  b!"            uint8_t byte1 = value[i];",
  b!"            // 1-byte character",
  b!"            if (byte1 <= 0x7F)",
  b!"            {",
  b!"                switch (byte1)",
  b!"                {",
  b!"                    case '\"':  (*ctx.os) <<  \"\\\\\\\"\"; break;",
  b!"                    case '\\\\': (*ctx.os) <<  \"\\\\\\\\\"; break;",
  b!"                    case '/':  (*ctx.os) <<  \"\\\\/\"; break;",
  b!"                    case '\\b': (*ctx.os) <<  \"\\\\b\"; break;",
  b!"                    case '\\f': (*ctx.os) <<  \"\\\\f\"; break;",
  b!"                    case '\\r': (*ctx.os) <<  \"\\\\r\"; break;",
  b!"                    case '\\n': (*ctx.os) <<  \"\\\\n\"; break;",
  b!"                    case '\\t': (*ctx.os) <<  \"\\\\t\"; break;",
  b!"                    default:   (*ctx.os) << (char) byte1;",
  b!"                }",
  b!"                i++;",
  b!"            }",
  b!"            else",
  b!"            {",
  b!"                // check whether we do not need to escape",
  b!"                if (!ctx.params.ensure_ascii)",
  b!"                {",
  b!"                    (*ctx.os) << (char) byte1;",
  b!"                    i++;",
  b!"                    continue;",
  b!"                }",
  b!"",
  b!"                // 2-byte character",
  b!"",
  b!"                if (i + 1 >= size)",
  b!"                    return set_error(ctx.params.error, error_code::PGERR_INVALID_VALUE, \"invalid UTF-8 code point\");",
  b!"",
  b!"                uint8_t byte2 = value[i + 1];",
  b!"                if (byte1 >= 0xC0 && byte1 <= 0xDF && (byte2 & 0xC0) == 0x80)",
  b!"                {"]

/-- source/cpp/json-string.hh:101-183. -/
def stringLines2 : List Bytes := [
  b!"                    uint32_t codepoint = ((byte1 & 0x1F) << 6) | (byte2 & 0x3F);",
  b!"                    write_escaped_utf8(ctx.os, codepoint);",
  b!"                    i += 2;",
  b!"                    continue;",
  b!"                }",
  b!"",
  b!"                // 3-byte character",
  b!"",
  b!"                if (i + 2 >= size)",
  b!"                    return set_error(ctx.params.error, error_code::PGERR_INVALID_VALUE, \"invalid UTF-8 code point\");",
  b!"",
  b!"                uint8_t byte3 = value[i + 2];",
  b!"                if (byte1 >= 0xE0 && byte1 <= 0xEF && i + 2 < size && (byte2 & 0xC0) == 0x80 && (byte3 & 0xC0) == 0x80)",
  b!"                {",
  b!"                    uint32_t codepoint = ((byte1 & 0x0F) << 12) | ((byte2 & 0x3F) << 6) | (byte3 & 0x3F);",
  b!"                    write_escaped_utf8(ctx.os, codepoint);",
  b!"                    i += 3;",
  b!"                    continue;",
  b!"                }",
  b!"",
  b!"                // 4-byte character",
  b!"",
  b!"                if (i + 3 >= size)",
  b!"                    return set_error(ctx.params.error, error_code::PGERR_INVALID_VALUE, \"invalid UTF-8 code point\");",
  b!"",
  b!"                uint8_t byte4 = value[i + 3];",
  b!"                if (byte1 >= 0xF0 && byte1 <= 0xF4 && i + 3 < size && (byte2 & 0xC0) == 0x80 && (byte3 & 0xC0) == 0x80 && (byte4 & 0xC0) == 0x80)",
  b!"                {",
  b!"                    uint32_t codepoint = ((byte1 & 0x07) << 18) | ((byte2 & 0x3F) << 12) | ((byte3 & 0x3F) << 6) | (byte4 & 0x3F);",
  b!"",
  b!"                    // break the codepoint into UTF-16 surrogate pair",
  b!"                    static const uint32_t LEAD_OFFSET = 0xD800 - (0x10000 >> 10);",
  b!"                    uint32_t lead = LEAD_OFFSET + (codepoint >> 10);",
  b!"                    uint32_t trail = 0xDC00 + (codepoint & 0x3FF);",
  b!"                    // write the surrogate pair",
  b!"                    write_escaped_utf8(ctx.os, lead);",
  b!"                    write_escaped_utf8(ctx.os, trail);",
  b!"                    i += 4;",
  b!"                    continue;",
  b!"                }",
  b!"",
  b!"                return set_error(ctx.params.error, error_code::PGERR_INVALID_VALUE, \"invalid UTF-8 code point\");",
  b!"            }",
  b!"        }",
  b!"        (*ctx.os) <<  '\"';",
  b!"        return PGR_OK;",
  b!"    }",
  b!"    static bool empty( const std::string &value ) { return value.empty(); }",
  b!"    static void clear( std::string &value ) { value.clear(); }",
  b!"    static bool equal( const std::string &a, const std::string &b ) { return a == b; }",
  b!"    static void swap( std::string &a, std::string &b ) { a.swap(b); }",
  b!"};",
  b!"",
  b!"template <>",
  b!"struct json<string_field, void>",
  b!"{",
  b!"    static int read( json_context &ctx, string_field &value )",
  b!"    {",
  b!"        std::string temp;",
  b!"        temp.clear();",
  b!"        int result = json<std::string, void>::read(ctx, temp);",
  b!"        value.empty(result == PGR_NIL);",
  b!"        value = temp;",
  b!"        return result;",
  b!"    }",
  b!"    static int write( json_context &ctx, const string_field &value )",
  b!"    {",
  b!"        if (value.empty())",
  b!"        {",
  b!"            *(ctx.os) << \"null\";",
  b!"            return PGR_OK;",
  b!"        }",
  b!"        return json<std::string, void>::write(ctx, value);",
  b!"    }",
  b!"    static bool empty( const string_field &value ) { return value.empty(); }",
  b!"    static void clear( string_field &value ) { value.clear(); }",
  b!"    static bool equal( const string_field &a, const string_field &b ) { return a == b; }",
  b!"    static void swap( string_field &a, string_field &b ) { a.swap(b); }",
  b!"};",
  b!"",
  b!"} // namespace protogen_X_Y_Z",
  b!"",
  b!"#endif // PROTOGEN_X_Y_Z__JSON_STRING"]

/-- source/cpp/json-string.hh:1-183. -/
def stringLines : List Bytes :=
  stringLines1 ++ stringLines2

/-- The lines of a file of the runtime (CMakeLists.txt:64-94). -/
def Part.lines : Part → List Bytes
  | .protogen => protogenLines
  | .json => jsonLines
  | .array => arrayLines
  | .base64 => base64Lines
  | .number => numberLines
  | .string => stringLines

end PG.Gen
