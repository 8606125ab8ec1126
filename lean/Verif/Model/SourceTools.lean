import Verif.Model.Gen
/-
The remaining sources, line by line: `source/template.cc`, `source/main.cc` and `source/exception.cc`.
-/
set_option autoImplicit false
namespace PG.Gen

/-- source/template.cc:1-100. -/
def templateLines1 : List Bytes := [
  b!"#include <fstream>",
  b!"#include <iostream>",
  b!"#include <string>",
  b!"#include <cmake.hh>",
  b!"",
  b!"void copy( std::istream &input, std::ostream &output, const std::string &name )",
  b!"{",
  b!"    std::string line;",
  b!"",
  b!"    output << \"#define \" << name << \" \\\\\\n\";",
  b!"    while (!input.eof())",
  b!"    {",
  b!"        std::getline(input, line);",
  b!"\t\tif (!input.good()) break;",
  b!"",
  b!"        if (line.length() > 0 && line[0] == '#' && line.find(\"AUTO-REMOVE\") != std::string::npos)",
  b!"            continue;",
  b!"",
  b!"        size_t pos;",
  b!"        while ((pos = line.find(\"_X_Y_Z\")) != std::string::npos)",
  b!"        {",
  b!"            line.replace(pos, 6, PROTOGEN_VERSION_NAMING);",
  b!"        }",
  b!"",
  b!"        output << \"    \\\"\";",
  b!"        for (auto c : line)",
  b!"        {",
  b!"            if (c == '\"')",
  b!"                output << \"\\\\\\\"\";",
  b!"            else",
  b!"            if (c == '\\\\')",
  b!"                output << \"\\\\\\\\\";",
  b!"            else",
  b!"                output << c;",
  b!"        }",
  b!"        output << \"\\\\n\\\" \\\\\\n\";",
  b!"    }",
  b!"    output << \"    \\\"\\\\n\\\"\\n\";",
  b!"}",
  b!"",
  b!"void process( std::istream &input, std::ostream &output, const std::string &guard )",
  b!"{",
  b!"    std::string line;",
  b!"    bool content = false;",
  b!"",
  b!"    output << \"#ifndef \" << guard << '\\n';",
  b!"    output << \"#define \" << guard << '\\n';",
  b!"",
  b!"    while (!input.eof())",
  b!"    {",
  b!"        std::getline(input, line);",
  b!"\t\tif (!input.good()) break;",
  b!"",
  b!"        if (!content)",
  b!"        {",
  b!"            if (line.find(\"--- \") != 0) continue;",
  b!"            line = line.substr(4);",
  b!"            output << \"#define \" << line << \" \\\\\\n\";",
  b!"            content = true;",
  b!"        }",
  b!"        else",
  b!"        {",
  b!"            if (line.find(\"------\") == 0)",
  b!"            {",
  b!"                output << \"\\n\";",
  b!"                content = false;",
  b!"                continue;",
  b!"            }",
  b!"            output << \"    \\\"\";",
  b!"            for (auto it = line.begin(); it != line.end(); ++it)",
  b!"            {",
  b!"                if (*it == '\"')",
  b!"                    output << \"\\\\\\\"\";",
  b!"                else",
  b!"                if (*it == '\\\\')",
  b!"                    output << \"\\\\\\\\\";",
  b!"                else",
  b!"                    output << *it;",
  b!"            }",
  b!"            output << \"\\\\n\\\" \\\\\\n\";",
  b!"        }",
  b!"    }",
  b!"",
  b!"    output << \"#endif // \" << guard << '\\n';",
  b!"}",
  b!"",
  b!"static bool ends_with(const std::string &text, const std::string &needle)",
  b!"{",
  b!"    auto pos = text.rfind(needle);",
  b!"    return pos != std::string::npos && pos + needle.length() == text.length();",
  b!"}",
  b!"",
  b!"int main( int argc, char **argv )",
  b!"{",
  b!"    if (argc != 3) return 1;",
  b!"",
  b!"    std::cout << \"Processing '\"<< argv[1] << \"' to generate '\" << argv[2] << \"'\" << std::endl;",
  b!"",
  b!"    std::ifstream input(argv[1]);",
  b!"    if (!input.good()) return 1;"]

/-- source/template.cc:101-125. -/
def templateLines2 : List Bytes := [
  b!"",
  b!"    std::ofstream output(argv[2]);",
  b!"    if (!output.good()) return 1;",
  b!"",
  b!"    std::string guard = argv[1];",
  b!"    #ifdef _WIN32",
  b!"    const char DIR_SEPARATOR = '\\\\';",
  b!"    #else",
  b!"    const char DIR_SEPARATOR = '/';",
  b!"    #endif",
  b!"    auto pos = guard.rfind(DIR_SEPARATOR);",
  b!"    if (pos != std::string::npos)",
  b!"        guard = guard.substr(pos+1);",
  b!"    guard = \"GENERATED__\" + guard;",
  b!"    for (auto it = guard.begin(); it != guard.end(); ++it)",
  b!"        if (!isalpha(*it)) *it = '_';",
  b!"",
  b!"    if (ends_with(argv[1], \".hh\"))",
  b!"        copy(input, output, guard);",
  b!"    else",
  b!"        process(input, output, guard);",
  b!"",
  b!"",
  b!"    return 0;",
  b!"}"]

/-- source/template.cc. -/
def templateLines : List Bytes :=
  templateLines1 ++ templateLines2

/-- source/main.cc:1-92. -/
def mainLines1 : List Bytes := [
  b!"/*",
  b!" * Copyright 2020 Bruno Ribeiro <https://github.com/brunexgeek>",
  b!" *",
  b!" * Licensed under the Apache License, Version 2.0 (the \"License\");",
  b!" * you may not use this file except in compliance with the License.",
  b!" * You may obtain a copy of the License at",
  b!" *",
  b!" *     http://www.apache.org/licenses/LICENSE-2.0",
  b!" *",
  b!" * Unless required by applicable law or agreed to in writing, software",
  b!" * distributed under the License is distributed on an \"AS IS\" BASIS,",
  b!" * WITHOUT WARRANTIES OR CONDITIONS OF ANY KIND, either express or implied.",
  b!" * See the License for the specific language governing permissions and",
  b!" * limitations under the License.",
  b!" */",
  b!"",
  b!"#include <protogen/proto3.hh>",
  b!"#include <protogen/protogen.hh>",
  b!"#include <fstream>",
  b!"#include <iostream>",
  b!"#include <limits.h>",
  b!"#include <stdlib.h>",
  b!"#include <algorithm>",
  b!"#include <cmake.hh>",
  b!"",
  b!"#ifdef _WIN32",
  b!"#include <Windows.h>",
  b!"#endif",
  b!"",
  b!"void main_usage()",
  b!"{",
  b!"    std::cerr << \"protogen \" << PROTOGEN_VERSION << std::endl;",
  b!"    std::cerr << \"Usage: protogen <proto3 file> [ <output file> ]\\n\";",
  b!"    exit(EXIT_FAILURE);",
  b!"}",
  b!"",
  b!"",
  b!"void main_error( const std::string &message )",
  b!"{",
  b!"    std::cerr << \"ERROR: \" << message << std::endl;",
  b!"    exit(EXIT_FAILURE);",
  b!"}",
  b!"",
  b!"",
  b!"int main( int argc, char **argv )",
  b!"{",
  b!"    if (argc != 2 && argc != 3) main_usage();",
  b!"",
  b!"    std::ifstream input(argv[1]);",
  b!"    if (!input.good()) main_error(std::string(\"Unable to open '\") + argv[1] + \"'\");",
  b!"",
  b!"    std::ostream *output = &std::cout;",
  b!"    std::ofstream out;",
  b!"    if (argc == 3)",
  b!"    {",
  b!"        out.open(argv[2], std::ios_base::ate);",
  b!"        if (!out.good()) main_error(std::string(\"Unable to open '\") + argv[2] + \"'\");",
  b!"        output = &out;",
  b!"    }",
  b!"",
  b!"    int result = 0;",
  b!"    #ifdef _WIN32",
  b!"\tchar fullPath[MAX_PATH] = { 0 };",
  b!"\tif (GetFullPathName(argv[1], MAX_PATH, fullPath, nullptr) == 0) return 1;",
  b!"\t#else",
  b!"\tchar fullPath[PATH_MAX] = { 0 };",
  b!"\tif (realpath(argv[1], fullPath) == nullptr) return 1;",
  b!"\t#endif",
  b!"",
  b!"    protogen::Proto3 proto;",
  b!"    try",
  b!"    {",
  b!"        proto.parse(input, fullPath);",
  b!"",
  b!"        for (auto &message : proto.messages)",
  b!"        {",
  b!"            std::sort(message->fields.begin(), message->fields.end(),",
  b!"                [](const protogen::Field &a, const protogen::Field &b) { return a.name < b.name; });",
  b!"        }",
  b!"",
  b!"        protogen::CppGenerator gen;",
  b!"        gen.generate(proto, *output);",
  b!"    } catch (protogen::exception &ex)",
  b!"    {",
  b!"        std::cerr << fullPath << ':' << ex.line << ':' << ex.column << \": error: \" << ex.cause() << std::endl;",
  b!"        result = 1;",
  b!"    }",
  b!"    input.close();",
  b!"    if (argc == 3) out.close();",
  b!"",
  b!"    return result;",
  b!"}"]

/-- source/main.cc. -/
def mainLines : List Bytes :=
  mainLines1

/-- source/exception.cc:1-49. -/
def exceptionLines1 : List Bytes := [
  b!"/*",
  b!" * Copyright 2020 Bruno Ribeiro <https://github.com/brunexgeek>",
  b!" *",
  b!" * Licensed under the Apache License, Version 2.0 (the \"License\");",
  b!" * you may not use this file except in compliance with the License.",
  b!" * You may obtain a copy of the License at",
  b!" *",
  b!" *     http://www.apache.org/licenses/LICENSE-2.0",
  b!" *",
  b!" * Unless required by applicable law or agreed to in writing, software",
  b!" * distributed under the License is distributed on an \"AS IS\" BASIS,",
  b!" * WITHOUT WARRANTIES OR CONDITIONS OF ANY KIND, either express or implied.",
  b!" * See the License for the specific language governing permissions and",
  b!" * limitations under the License.",
  b!" */",
  b!"",
  b!"#include <protogen/exception.hh>",
  b!"#include <sstream>",
  b!"",
  b!"namespace protogen {",
  b!"",
  b!"",
  b!"exception::exception( const std::string &message ) : message(message)",
  b!"{",
  b!"}",
  b!"",
  b!"exception::exception( const std::string &message, int line, int column ) :",
  b!"    line(line), column(column), message(message)",
  b!"{",
  b!"}",
  b!"",
  b!"exception::~exception()",
  b!"{",
  b!"}",
  b!"",
  b!"const char *exception::what() const throw()",
  b!"{",
  b!"    return message.c_str();",
  b!"}",
  b!"",
  b!"const std::string exception::cause() const",
  b!"{",
  b!"    std::stringstream ss;",
  b!"    ss << message << \" (\" << line << ':' << column << ')';",
  b!"    return ss.str();",
  b!"}",
  b!"",
  b!"",
  b!"} // namespace protogen"]

/-- source/exception.cc. -/
def exceptionLines : List Bytes :=
  exceptionLines1

end PG.Gen
