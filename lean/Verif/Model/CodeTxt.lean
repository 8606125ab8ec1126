import Verif.Model.Gen
import Verif.Model.Template
/-
The file `source/cpp/code.txt`, line by line, and the macros that `cppgen.cc` takes from what the template processor makes
of it (CMakeLists.txt:59-62).
-/
set_option autoImplicit false
namespace PG.Gen

/-- source/cpp/code.txt:1-249. -/
def codeLines : List Bytes := [
  b!"--- CODE_HEADER",
  b!"/*",
  b!" * This is free and unencumbered software released into the public domain.",
  b!" *",
  b!" * Anyone is free to copy, modify, publish, use, compile, sell, or",
  b!" * distribute this software, either in source code form or as a compiled",
  b!" * binary, for any purpose, commercial or non-commercial, and by any",
  b!" * means.",
  b!" *",
  b!" * In jurisdictions that recognize copyright laws, the author or authors",
  b!" * of this software dedicate any and all copyright interest in the",
  b!" * software to the public domain. We make this dedication for the benefit",
  b!" * of the public at large and to the detriment of our heirs and",
  b!" * successors. We intend this dedication to be an overt act of",
  b!" * relinquishment in perpetuity of all present and future rights to this",
  b!" * software under copyright law.",
  b!" *",
  b!" * THE SOFTWARE IS PROVIDED \"AS IS\", WITHOUT WARRANTY OF ANY KIND,",
  b!" * EXPRESS OR IMPLIED, INCLUDING BUT NOT LIMITED TO THE WARRANTIES OF",
  b!" * MERCHANTABILITY, FITNESS FOR A PARTICULAR PURPOSE AND NONINFRINGEMENT.",
  b!" * IN NO EVENT SHALL THE AUTHORS BE LIABLE FOR ANY CLAIM, DAMAGES OR",
  b!" * OTHER LIABILITY, WHETHER IN AN ACTION OF CONTRACT, TORT OR OTHERWISE,",
  b!" * ARISING FROM, OUT OF OR IN CONNECTION WITH THE SOFTWARE OR THE USE OR",
  b!" * OTHER DEALINGS IN THE SOFTWARE.",
  b!" *",
  b!" * For more information, please refer to <http://unlicense.org>",
  b!" */",
  b!"",
  b!"// AUTO-GENERATED FILE. DO NOT EDIT!",
  b!"// Generated by the protogen $1$ <https://github.com/brunexgeek/protogen>",
  b!"// Source: $2$",
  b!"",
  b!"#ifndef $3$",
  b!"#define $3$",
  b!"",
  b!"#include <string>",
  b!"#include <stdint.h>",
  b!"#include <iterator>",
  b!"#include <sstream>",
  b!"#include <iostream>",
  b!"#include <vector>",
  b!"#include <list>",
  b!"#include <utility>",
  b!"#include <stdexcept>",
  b!"#include <forward_list>",
  b!"------",
  b!"",
  b!"--- CODE_JSON_MODEL__HEADER",
  b!"namespace protogen$1$ {",
  b!"template<> struct json<$2$>",
  b!"{",
  b!"    static int read( json_context &ctx, $2$ &value ) { return read_object(ctx, value); }",
  b!"------",
  b!"",
  b!"--- CODE_JSON_MODEL__FOOTER",
  b!"};",
  b!"} // protogen$1$",
  b!"------",
  b!"",
  b!"",
  b!"--- CODE_JSON__READ_FIELD__EMPTY",
  b!"    static int read_field( json_context &ctx, const std::string &name, $1$ &value )",
  b!"    {",
  b!"        (void) ctx; (void) name; (void) value;",
  b!"        return PGR_NIL;",
  b!"    }",
  b!"------",
  b!"",
  b!"--- CODE_JSON__READ_FIELD__HEADER",
  b!"    static int read_field( json_context &ctx, const std::string &name, $1$ &value )",
  b!"    {",
  b!"        int idx = index(name);",
  b!"        if (idx < 0) return PGR_NIL;",
  b!"        switch (idx) {",
  b!"------",
  b!"",
  b!"--- CODE_JSON__READ_FIELD__ITEM",
  b!"            case $1$: return json<decltype(value.$2$)>::read(ctx, value.$2$);",
  b!"------",
  b!"",
  b!"--- CODE_JSON__READ_FIELD__FOOTER",
  b!"            default: return PGR_NIL;",
  b!"        }",
  b!"    }",
  b!"------",
  b!"",
  b!"",
  b!"--- CODE_JSON__WRITE__EMPTY",
  b!"    static int write( json_context &ctx, const $1$ &value )",
  b!"    {",
  b!"        (void) value;",
  b!"        (*ctx.os) << \"{}\";",
  b!"        return PGR_OK;",
  b!"    }",
  b!"------",
  b!"",
  b!"--- CODE_JSON__WRITE__HEADER",
  b!"    static int write( json_context &ctx, const $1$ &value )",
  b!"    {",
  b!"        bool f = true;",
  b!"        (*ctx.os) << '{';",
  b!"------",
  b!"",
  b!"--- CODE_JSON__WRITE__ITEM",
  b!"        if (ctx.params.serialize_null || !json<decltype(value.$1$)>::empty(value.$1$)) { (*ctx.os) << (f?\"\\\"\":\",\\\"\") << $2$ << \"\\\":\"; json<decltype(value.$1$)>::write(ctx, value.$1$); f=false; }",
  b!"------",
  b!"",
  b!"--- CODE_JSON__WRITE__FOOTER",
  b!"        (*ctx.os) << '}';",
  b!"        return PGR_OK;",
  b!"    }",
  b!"------",
  b!"",
  b!"",
  b!"--- CODE_JSON__EMPTY__EMPTY",
  b!"    static bool empty( const $1$ &value ) { (void) value; return true; }",
  b!"------",
  b!"",
  b!"--- CODE_JSON__EMPTY__HEADER",
  b!"    static bool empty( const $1$ &value )",
  b!"    {",
  b!"        return",
  b!"------",
  b!"",
  b!"--- CODE_JSON__EMPTY__ITEM",
  b!"            json<decltype(value.$1$)>::empty(value.$1$) &&",
  b!"------",
  b!"",
  b!"--- CODE_JSON__EMPTY__FOOTER",
  b!"            true;",
  b!"    }",
  b!"------",
  b!"",
  b!"",
  b!"--- CODE_JSON__CLEAR__EMPTY",
  b!"    static void clear( $1$ &value ) { (void) value; }",
  b!"------",
  b!"",
  b!"--- CODE_JSON__CLEAR__HEADER",
  b!"    static void clear( $1$ &value )",
  b!"    {",
  b!"------",
  b!"",
  b!"--- CODE_JSON__CLEAR__ITEM",
  b!"        json<decltype(value.$1$)>::clear(value.$1$);",
  b!"------",
  b!"",
  b!"--- CODE_JSON__CLEAR__FOOTER",
  b!"    }",
  b!"------",
  b!"",
  b!"",
  b!"--- CODE_JSON__EQUAL__EMPTY",
  b!"    static bool equal( const $1$ &a, const $1$ &b ) { (void) a; (void) b; return true; }",
  b!"------",
  b!"",
  b!"--- CODE_JSON__EQUAL__HEADER",
  b!"    static bool equal( const $1$ &a, const $1$ &b )",
  b!"    {",
  b!"        return",
  b!"------",
  b!"",
  b!"--- CODE_JSON__EQUAL__ITEM",
  b!"            json<decltype(a.$1$)>::equal(a.$1$, b.$1$) &&",
  b!"------",
  b!"",
  b!"--- CODE_JSON__EQUAL__FOOTER",
  b!"            true;",
  b!"    }",
  b!"------",
  b!"",
  b!"",
  b!"--- CODE_JSON__SWAP__EMPTY",
  b!"    static void swap( $1$ &a, $1$ &b ) { (void) a; (void) b; }",
  b!"------",
  b!"",
  b!"--- CODE_JSON__SWAP__HEADER",
  b!"    static void swap( $1$ &a, $1$ &b )",
  b!"    {",
  b!"------",
  b!"",
  b!"--- CODE_JSON__SWAP__ITEM",
  b!"        json<decltype(a.$1$)>::swap(a.$1$, b.$1$);",
  b!"------",
  b!"",
  b!"--- CODE_JSON__SWAP__FOOTER",
  b!"    }",
  b!"------",
  b!"",
  b!"",
  b!"--- CODE_JSON__IS_MISSING__EMPTY",
  b!"    static bool is_missing( json_context &ctx ) { (void) ctx; return false; }",
  b!"------",
  b!"",
  b!"--- CODE_JSON__IS_MISSING__HEADER",
  b!"    static bool is_missing( json_context &ctx )",
  b!"    {",
  b!"        std::string name;",
  b!"------",
  b!"",
  b!"--- CODE_JSON__IS_MISSING__ITEM",
  b!"        if (!(ctx.mask & $2$)) { name = $1$; } else",
  b!"------",
  b!"",
  b!"--- CODE_JSON__IS_MISSING__FOOTER",
  b!"        return false;",
  b!"        ctx.tok->error(PGERR_MISSING_FIELD, std::string(\"Missing field '\") + name + \"'\");",
  b!"        return true;",
  b!"",
  b!"    }",
  b!"------",
  b!"",
  b!"",
  b!"--- CODE_JSON__INDEX__EMPTY",
  b!"    static int index( const std::string &name ) { (void) name; return -1; }",
  b!"------",
  b!"",
  b!"--- CODE_JSON__INDEX__HEADER",
  b!"    static int index( const std::string &name )",
  b!"    {",
  b!"        const std::string &temp = name;",
  b!"        static const std::unordered_map<std::string, int> FIELDS = {",
  b!"------",
  b!"",
  b!"--- CODE_JSON__INDEX__HEADER_OBF",
  b!"    static int index( const std::string &name )",
  b!"    {",
  b!"        std::string temp = reveal(name);",
  b!"        static const std::unordered_map<std::string, int> FIELDS = {",
  b!"------",
  b!"",
  b!"--- CODE_JSON__INDEX__ITEM",
  b!"            {\"$1$\", $2$},",
  b!"------",
  b!"",
  b!"--- CODE_JSON__INDEX__FOOTER",
  b!"        };",
  b!"        auto it = FIELDS.find(temp);",
  b!"        return (it == FIELDS.end()) ? -1 : it->second;",
  b!"    }",
  b!"------",
  b!"",
  b!"--- CODE_ENTITY",
  b!"PG$3$_ENTITY($1$,$2$,protogen$3$::json<$2$>)",
  b!"------",
  b!"",
  b!"--- CODE_ENTITY_JSON",
  b!"PG$3$_ENTITY_SERIALIZER($1$,$2$,protogen$3$::json<$2$>)",
  b!"------"]

/-- source/cpp/code.txt. -/
def codeTxt : Bytes := codeLines.flatMap (· ++ [10])

/-- The macros that cppgen.cc refers to, and the templates of the model that stand for them. -/
def codeMacros : List (Bytes × Tpl) := [
  (b!"CODE_HEADER", .header),
  (b!"CODE_JSON_MODEL__HEADER", .jsonModelHeader),
  (b!"CODE_JSON_MODEL__FOOTER", .jsonModelFooter),
  (b!"CODE_JSON__READ_FIELD__EMPTY", .readFieldEmpty),
  (b!"CODE_JSON__READ_FIELD__HEADER", .readFieldHeader),
  (b!"CODE_JSON__READ_FIELD__ITEM", .readFieldItem),
  (b!"CODE_JSON__READ_FIELD__FOOTER", .readFieldFooter),
  (b!"CODE_JSON__WRITE__EMPTY", .writeEmpty),
  (b!"CODE_JSON__WRITE__HEADER", .writeHeader),
  (b!"CODE_JSON__WRITE__ITEM", .writeItem),
  (b!"CODE_JSON__WRITE__FOOTER", .writeFooter),
  (b!"CODE_JSON__EMPTY__EMPTY", .emptyEmpty),
  (b!"CODE_JSON__EMPTY__HEADER", .emptyHeader),
  (b!"CODE_JSON__EMPTY__ITEM", .emptyItem),
  (b!"CODE_JSON__EMPTY__FOOTER", .emptyFooter),
  (b!"CODE_JSON__CLEAR__EMPTY", .clearEmpty),
  (b!"CODE_JSON__CLEAR__HEADER", .clearHeader),
  (b!"CODE_JSON__CLEAR__ITEM", .clearItem),
  (b!"CODE_JSON__CLEAR__FOOTER", .clearFooter),
  (b!"CODE_JSON__EQUAL__EMPTY", .equalEmpty),
  (b!"CODE_JSON__EQUAL__HEADER", .equalHeader),
  (b!"CODE_JSON__EQUAL__ITEM", .equalItem),
  (b!"CODE_JSON__EQUAL__FOOTER", .equalFooter),
  (b!"CODE_JSON__SWAP__EMPTY", .swapEmpty),
  (b!"CODE_JSON__SWAP__HEADER", .swapHeader),
  (b!"CODE_JSON__SWAP__ITEM", .swapItem),
  (b!"CODE_JSON__SWAP__FOOTER", .swapFooter),
  (b!"CODE_JSON__INDEX__EMPTY", .indexEmpty),
  (b!"CODE_JSON__INDEX__HEADER", .indexHeader),
  (b!"CODE_JSON__INDEX__HEADER_OBF", .indexHeaderObf),
  (b!"CODE_JSON__INDEX__ITEM", .indexItem),
  (b!"CODE_JSON__INDEX__FOOTER", .indexFooter),
  (b!"CODE_ENTITY", .entity),
  (b!"CODE_ENTITY_JSON", .entityJson)]

end PG.Gen
