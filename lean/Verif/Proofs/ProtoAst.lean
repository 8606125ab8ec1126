import Verif.Spec.ProtoText
/-
The functions of proto3.cc as syntax trees, and that they are what its text is parsed to.
-/
set_option autoImplicit false
namespace PG.Cxx.Schema
open PG.Gen

/-- proto3.cc:188-191 the constructor of `InputStream` -/
def inNewFun : Fun := ⟨n!"", n!"InputStream", [(n!"const I &",
  n!"first"), (n!"const I &", n!"last")], (.cons (.expr (.assign (.member (.name n!"this") n!"cur_") (.name n!"first")))
  (.cons (.expr (.assign (.member (.name n!"this") n!"end_") (.name n!"last"))) (.cons (.expr (.assign (.member (.name
  n!"this") n!"last_") (.unary n!"-" (.int .i32 1)))) (.cons (.expr (.assign (.member (.name n!"this") n!"line_") (.int .i32
  1))) (.cons (.expr (.assign (.member (.name n!"this") n!"column_") (.int .i32 0))) (.cons (.expr (.assign (.member (.name
  n!"this") n!"ungot_") (.name n!"false"))) .nil))))))⟩

theorem inNewFun_text : Fun.of [] 60 (protoText 188 191) = some inNewFun := by decide +kernel

/-- proto3.cc:193-196 `InputStream::eof` -/
def inEofFun : Fun := ⟨n!"bool", n!"eof", [], (.cons (.ret (some (.binary n!"=="
  (.name n!"last_") (.unary n!"-" (.int .i32 2))))) .nil)⟩

theorem inEofFun_text : Fun.of [] 60 (protoText 193 196) = some inEofFun := by decide +kernel

/-- proto3.cc:198-220 `InputStream::get` -/
def inGetFun : Fun := ⟨n!"int", n!"get", [], (.cons (.ite (.name n!"ungot_")
  (.block (.cons (.expr (.assign (.name n!"ungot_") (.name n!"false"))) (.cons (.ret (some (.name n!"last_"))) .nil))) .skip)
  (.cons (.ite (.binary n!"==" (.name n!"last_") (.chr 10)) (.block (.cons (.expr (.incr n!"++" true (.name n!"line_")))
  (.cons (.expr (.assign (.name n!"column_") (.int .i32 0))) .nil))) .skip) (.cons (.ite (.binary n!"==" (.name n!"cur_")
  (.name n!"end_")) (.block (.cons (.expr (.assign (.name n!"last_") (.unary n!"-" (.int .i32 2)))) (.cons (.ret (some
  (.unary n!"-" (.int .i32 1)))) .nil))) .skip) (.cons (.expr (.assign (.name n!"last_") (.binary n!"&" (.unary n!"*" (.name
  n!"cur_")) (.int .i32 255)))) (.cons (.expr (.incr n!"++" true (.name n!"cur_"))) (.cons (.expr (.incr n!"++" true (.name
  n!"column_"))) (.cons (.ret (some (.name n!"last_"))) .nil)))))))⟩

theorem inGetFun_text : Fun.of [] 60 (protoText 198 220) = some inGetFun := by decide +kernel

/-- proto3.cc:222-229 `InputStream::unget` -/
def inUngetFun : Fun := ⟨n!"void", n!"unget", [], (.cons (.ite (.binary n!">="
  (.name n!"last_") (.int .i32 0)) (.block (.cons (.ite (.name n!"ungot_") (.expr (.call (.name n!"throw") (.cons (.call
  (.qual [n!"std", n!"runtime_error"]) (.cons (.str [117, 110, 97, 98, 108, 101, 32, 116, 111, 32, 117, 110, 103, 101, 116])
  .nil)) .nil))) .skip) (.cons (.expr (.assign (.name n!"ungot_") (.name n!"true"))) .nil))) .skip) .nil)⟩

theorem inUngetFun_text : Fun.of [] 60 (protoText 222 229) = some inUngetFun := by decide +kernel

/-- proto3.cc:231-231 `InputStream::cur` -/
def inCurFun : Fun := ⟨n!"int", n!"cur", [], (.cons (.ret (some (.unary n!"*"
  (.name n!"cur_")))) .nil)⟩

theorem inCurFun_text : Fun.of [] 60 (protoText 231 231) = some inCurFun := by decide +kernel

/-- proto3.cc:233-233 `InputStream::line` -/
def inLineFun : Fun := ⟨n!"int", n!"line", [], (.cons (.ret (some (.name
  n!"line_"))) .nil)⟩

theorem inLineFun_text : Fun.of [] 60 (protoText 233 233) = some inLineFun := by decide +kernel

/-- proto3.cc:235-235 `InputStream::column` -/
def inColFun : Fun := ⟨n!"int", n!"column", [], (.cons (.ret (some (.name
  n!"column_"))) .nil)⟩

theorem inColFun_text : Fun.of [] 60 (protoText 235 235) = some inColFun := by decide +kernel

/-- The body of a loop. -/
def inSkipFunBody1 : Stmt := (.block (.cons (.decl n!"int" n!"ch" (some (.call (.name n!"get")
  .nil))) (.cons (.ite (.unary n!"!" (.binary n!"||" (.binary n!"||" (.binary n!"||" (.binary n!"==" (.name n!"ch") (.chr
  32)) (.binary n!"==" (.name n!"ch") (.chr 9))) (.binary n!"==" (.name n!"ch") (.chr 10))) (.binary n!"==" (.name n!"ch")
  (.chr 13)))) (.block (.cons (.expr (.call (.name n!"unget") .nil)) (.cons .break .nil))) .skip) .nil)))

/-- proto3.cc:237-247 `InputStream::skipws` -/
def inSkipFun : Fun := ⟨n!"void", n!"skipws", [], (.cons (.while (.int .i32
  1) inSkipFunBody1) .nil)⟩

theorem inSkipFun_text : Fun.of [] 60 (protoText 237 247) = some inSkipFun := by decide +kernel

/-- proto3.cc:249-257 `InputStream::expect` -/
def inExpectFun : Fun := ⟨n!"bool", n!"expect", [(n!"int", n!"expect")],
  (.cons (.ite (.binary n!"!=" (.call (.name n!"get") .nil) (.name n!"expect")) (.block (.cons (.expr (.call (.name
  n!"unget") .nil)) (.cons (.ret (some (.name n!"false"))) .nil))) .skip) (.cons (.ret (some (.name n!"true"))) .nil))⟩

theorem inExpectFun_text : Fun.of [] 60 (protoText 249 257) = some inExpectFun := by decide +kernel

/-- proto3.cc:267-270 the constructor of `Token` -/
def tokNewFun : Fun := ⟨n!"", n!"Token", [(n!"int", n!"code"),
  (n!"const std :: string &", n!"value"), (n!"int", n!"line"), (n!"int", n!"column")], (.cons (.expr (.assign (.member (.name
  n!"this") n!"code") (.name n!"code"))) (.cons (.expr (.assign (.member (.name n!"this") n!"value") (.name n!"value")))
  (.cons (.expr (.assign (.member (.name n!"this") n!"line") (.name n!"line"))) (.cons (.expr (.assign (.member (.name
  n!"this") n!"column") (.name n!"column"))) .nil))))⟩

theorem tokNewFun_text : Fun.of [] 60 (protoText 267 270) = some tokNewFun := by decide +kernel

/-- proto3.cc:288-290 the constructor of `Tokenizer` -/
def lexNewFun : Fun := ⟨n!"", n!"Tokenizer",
  [(n!"InputStream < I > &", n!"is")], (.cons (.expr (.assign (.member (.name n!"this") n!"ungot") (.name n!"false"))) (.cons
  (.expr (.assign (.member (.name n!"this") n!"is") (.name n!"is"))) .nil))⟩

theorem lexNewFun_text : Fun.of [] 60 (protoText 288 290) = some lexNewFun := by decide +kernel

/-- proto3.cc:292-297 `Tokenizer::unget` -/
def lexUngetFun : Fun := ⟨n!"void", n!"unget", [], (.cons (.ite (.name
  n!"ungot") (.expr (.call (.name n!"throw") (.cons (.call (.name n!"exception") (.cons (.str [65, 108, 114, 101, 97, 100,
  121, 32, 117, 110, 103, 111, 116]) (.cons (.member (.name n!"current") n!"line") (.cons (.member (.name n!"current")
  n!"column") .nil)))) .nil))) .skip) (.cons (.expr (.assign (.name n!"ungot") (.name n!"true"))) .nil))⟩

theorem lexUngetFun_text : Fun.of [] 60 (protoText 292 297) = some lexUngetFun := by decide +kernel

/-- The body of a loop. -/
def lexNextFunBody1 : Stmt := (.block (.cons (.ite (.name n!"ungot") (.block (.cons (.expr
  (.assign (.name n!"ungot") (.name n!"false"))) (.cons (.ret (some (.name n!"current"))) .nil))) .skip) (.cons (.expr (.call
  (.member (.name n!"is") n!"skipws") .nil)) (.cons (.expr (.assign (.name n!"line") (.call (.member (.name n!"is") n!"line")
  .nil))) (.cons (.expr (.assign (.name n!"column") (.call (.member (.name n!"is") n!"column") .nil))) (.cons (.decl n!"int"
  n!"cur" (some (.call (.member (.name n!"is") n!"get") .nil))) (.cons (.ite (.binary n!"<" (.name n!"cur") (.int .i32 0))
  .break .skip) (.cons (.ite (.binary n!"||" (.binary n!"||" (.binary n!"&&" (.binary n!">=" (.name n!"cur") (.chr 65))
  (.binary n!"<=" (.name n!"cur") (.chr 90))) (.binary n!"&&" (.binary n!">=" (.name n!"cur") (.chr 97)) (.binary n!"<="
  (.name n!"cur") (.chr 122)))) (.binary n!"==" (.name n!"cur") (.chr 95))) (.block (.cons (.expr (.call (.member (.name
  n!"is") n!"unget") .nil)) (.cons (.expr (.assign (.name n!"current") (.call (.name n!"qname") (.cons (.name n!"line")
  (.cons (.name n!"column") .nil))))) .nil))) (.ite (.binary n!"&&" (.binary n!">=" (.name n!"cur") (.chr 48)) (.binary
  n!"<=" (.name n!"cur") (.chr 57))) (.expr (.assign (.name n!"current") (.call (.name n!"integer") (.cons (.name n!"cur")
  (.cons (.name n!"line") (.cons (.name n!"column") .nil)))))) (.ite (.binary n!"==" (.name n!"cur") (.chr 47)) (.block
  (.cons (.expr (.call (.name n!"comment") .nil)) (.cons .continue .nil))) (.ite (.binary n!"||" (.binary n!"==" (.name
  n!"cur") (.chr 10)) (.binary n!"==" (.name n!"cur") (.chr 13))) .continue (.ite (.binary n!"==" (.name n!"cur") (.chr 34))
  (.expr (.assign (.name n!"current") (.call (.name n!"literalString") (.cons (.name n!"line") (.cons (.name n!"column")
  .nil))))) (.ite (.binary n!"==" (.name n!"cur") (.chr 61)) (.expr (.assign (.name n!"current") (.call (.name n!"Token")
  (.cons (.int .i32 3) (.cons (.str []) (.cons (.name n!"line") (.cons (.name n!"column") .nil))))))) (.ite (.binary n!"=="
  (.name n!"cur") (.chr 123)) (.expr (.assign (.name n!"current") (.call (.name n!"Token") (.cons (.int .i32 34) (.cons (.str
  []) (.cons (.name n!"line") (.cons (.name n!"column") .nil))))))) (.ite (.binary n!"==" (.name n!"cur") (.chr 125)) (.expr
  (.assign (.name n!"current") (.call (.name n!"Token") (.cons (.int .i32 35) (.cons (.str []) (.cons (.name n!"line") (.cons
  (.name n!"column") .nil))))))) (.ite (.binary n!"==" (.name n!"cur") (.chr 59)) (.expr (.assign (.name n!"current") (.call
  (.name n!"Token") (.cons (.int .i32 28) (.cons (.str []) (.cons (.name n!"line") (.cons (.name n!"column") .nil)))))))
  (.ite (.binary n!"==" (.name n!"cur") (.chr 44)) (.expr (.assign (.name n!"current") (.call (.name n!"Token") (.cons (.int
  .i32 33) (.cons (.str []) (.cons (.name n!"line") (.cons (.name n!"column") .nil))))))) (.ite (.binary n!"==" (.name
  n!"cur") (.chr 60)) (.expr (.assign (.name n!"current") (.call (.name n!"Token") (.cons (.int .i32 30) (.cons (.str [])
  (.cons (.name n!"line") (.cons (.name n!"column") .nil))))))) (.ite (.binary n!"==" (.name n!"cur") (.chr 62)) (.expr
  (.assign (.name n!"current") (.call (.name n!"Token") (.cons (.int .i32 31) (.cons (.str []) (.cons (.name n!"line") (.cons
  (.name n!"column") .nil))))))) (.ite (.binary n!"==" (.name n!"cur") (.chr 91)) (.expr (.assign (.name n!"current") (.call
  (.name n!"Token") (.cons (.int .i32 39) (.cons (.str []) (.cons (.name n!"line") (.cons (.name n!"column") .nil)))))))
  (.ite (.binary n!"==" (.name n!"cur") (.chr 93)) (.expr (.assign (.name n!"current") (.call (.name n!"Token") (.cons (.int
  .i32 40) (.cons (.str []) (.cons (.name n!"line") (.cons (.name n!"column") .nil))))))) (.expr (.call (.name n!"throw")
  (.cons (.call (.name n!"exception") (.cons (.str [73, 110, 118, 97, 108, 105, 100, 32, 115, 121, 109, 98, 111, 108]) (.cons
  (.name n!"line") (.cons (.name n!"column") .nil)))) .nil))))))))))))))))) (.cons (.ret (some (.name n!"current")))
  .nil)))))))))

/-- proto3.cc:299-373 `Tokenizer::next` -/
def lexNextFun : Fun := ⟨n!"Token", n!"next", [], (.cons (.decl n!"int" n!"line"
  (some (.int .i32 1))) (.cons (.decl n!"int" n!"column" (some (.int .i32 1))) (.cons (.while (.name n!"true")
  lexNextFunBody1) (.cons (.ret (some (.assign (.name n!"current") (.call (.name n!"Token") (.cons (.int .i32 0) (.cons (.str
  []) (.cons (.name n!"line") (.cons (.name n!"column") .nil)))))))) .nil))))⟩

theorem lexNextFun_text : Fun.of [] 60 (protoText 299 373) = some lexNextFun := by decide +kernel

/-- The body of a loop. -/
def commentFunBody1 : Stmt := (.expr (.update n!"+" (.member (.name n!"temp") n!"value") (.cast
  n!"char" (.name n!"cur"))))

/-- The body of a loop. -/
def commentFunBody2 : Stmt := (.block (.cons (.expr (.assign (.name n!"cur") (.call (.member
  (.name n!"is") n!"get") .nil))) (.cons (.ite (.binary n!"&&" (.binary n!"==" (.name n!"cur") (.chr 42)) (.call (.member
  (.name n!"is") n!"expect") (.cons (.chr 47) .nil))) (.ret (some (.name n!"temp"))) .skip) (.cons (.ite (.binary n!"<"
  (.name n!"cur") (.int .i32 0)) (.ret (some (.call (.name n!"Token") .nil))) .skip) (.cons (.expr (.update n!"+" (.member
  (.name n!"temp") n!"value") (.cast n!"char" (.name n!"cur")))) .nil)))))

/-- proto3.cc:378-401 `comment` -/
def commentFun : Fun := ⟨n!"Token", n!"comment", [], (.cons (.made n!"Token" n!"temp"
  (.cons (.int .i32 26) (.cons (.str []) .nil))) (.cons (.decl n!"int" n!"cur" (some (.call (.member (.name n!"is") n!"get")
  .nil))) (.cons (.ite (.binary n!"==" (.name n!"cur") (.chr 47)) (.block (.cons (.while (.binary n!"!=" (.assign (.name
  n!"cur") (.call (.member (.name n!"is") n!"get") .nil)) (.chr 10)) commentFunBody1) (.cons (.ret (some (.name n!"temp")))
  .nil))) (.ite (.binary n!"==" (.name n!"cur") (.chr 42)) (.block (.cons (.while (.name n!"true") commentFunBody2) .nil))
  .skip)) (.cons (.ret (some (.call (.name n!"Token") .nil))) .nil))))⟩

theorem commentFun_text : Fun.of [] 60 (protoText 378 401) = some commentFun := by decide +kernel

/-- The body of a loop. -/
def qnameFunBody1 : Stmt := (.block (.cons (.expr (.assign (.name n!"type") (.int .i32 23)))
  (.cons (.decl n!"std :: string" n!"cur" (some (.call (.member (.name n!"this") n!"name") .nil))) (.cons (.ite (.binary
  n!"==" (.call (.member (.name n!"cur") n!"length") .nil) (.int .i32 0)) (.expr (.call (.name n!"throw") (.cons (.call
  (.name n!"exception") (.cons (.str [73, 110, 118, 97, 108, 105, 100, 32, 105, 100, 101, 110, 116, 105, 102, 105, 101, 114])
  (.cons (.name n!"line") (.cons (.name n!"column") .nil)))) .nil))) .skip) (.cons (.expr (.update n!"+" (.name n!"name")
  (.chr 46))) (.cons (.expr (.update n!"+" (.name n!"name") (.name n!"cur"))) .nil))))))

/-- The body of a loop. -/
def qnameFunBody2 : Stmt := (.block (.cons (.ite (.binary n!"==" (.name n!"name") (.member
  (.index (.name n!"KEYWORDS") (.name n!"i")) n!"keyword")) (.block (.cons (.expr (.assign (.name n!"type") (.member (.index
  (.name n!"KEYWORDS") (.name n!"i")) n!"code"))) (.cons .break .nil))) .skip) .nil))

/-- proto3.cc:403-433 `qname` -/
def qnameFun : Fun := ⟨n!"Token", n!"qname", [(n!"int", n!"line"), (n!"int", n!"column")],
  (.cons (.decl n!"int" n!"type" (some (.int .i32 2))) (.cons (.decl n!"std :: string" n!"name" (some (.call (.member (.name
  n!"this") n!"name") .nil))) (.cons (.while (.binary n!"==" (.call (.member (.name n!"is") n!"get") .nil) (.chr 46))
  qnameFunBody1) (.cons (.expr (.call (.member (.name n!"is") n!"unget") .nil)) (.cons (.ite (.binary n!"==" (.name n!"type")
  (.int .i32 2)) (.block (.cons (.for (.decl n!"int" n!"i" (some (.int .i32 0))) (.binary n!"!=" (.member (.index (.name
  n!"KEYWORDS") (.name n!"i")) n!"keyword") (.name n!"nullptr")) (.incr n!"++" true (.name n!"i")) qnameFunBody2) .nil))
  .skip) (.cons (.ret (some (.call (.name n!"Token") (.cons (.name n!"type") (.cons (.name n!"name") (.cons (.name n!"line")
  (.cons (.name n!"column") .nil))))))) .nil))))))⟩

theorem qnameFun_text : Fun.of [] 60 (protoText 403 433) = some qnameFun := by decide +kernel

/-- The body of a loop. -/
def nameFunBody1 : Stmt := (.block (.cons (.ite (.binary n!"||" (.binary n!"&&" (.name n!"first")
  (.unary n!"!" (.binary n!"||" (.binary n!"||" (.binary n!"&&" (.binary n!">=" (.name n!"cur") (.chr 65)) (.binary n!"<="
  (.name n!"cur") (.chr 90))) (.binary n!"&&" (.binary n!">=" (.name n!"cur") (.chr 97)) (.binary n!"<=" (.name n!"cur")
  (.chr 122)))) (.binary n!"==" (.name n!"cur") (.chr 95))))) (.unary n!"!" (.binary n!"||" (.binary n!"||" (.binary n!"||"
  (.binary n!"&&" (.binary n!">=" (.name n!"cur") (.chr 65)) (.binary n!"<=" (.name n!"cur") (.chr 90))) (.binary n!"&&"
  (.binary n!">=" (.name n!"cur") (.chr 97)) (.binary n!"<=" (.name n!"cur") (.chr 122)))) (.binary n!"==" (.name n!"cur")
  (.chr 95))) (.binary n!"&&" (.binary n!">=" (.name n!"cur") (.chr 48)) (.binary n!"<=" (.name n!"cur") (.chr 57))))))
  .break .skip) (.cons (.expr (.assign (.name n!"first") (.name n!"false"))) (.cons (.expr (.update n!"+" (.name n!"temp")
  (.cast n!"char" (.name n!"cur")))) .nil))))

/-- proto3.cc:435-448 `name` -/
def nameFun : Fun := ⟨n!"std :: string", n!"name", [], (.cons (.decl n!"std :: string"
  n!"temp" none) (.cons (.decl n!"bool" n!"first" (some (.name n!"true"))) (.cons (.decl n!"int" n!"cur" none) (.cons (.while
  (.binary n!">=" (.assign (.name n!"cur") (.call (.member (.name n!"is") n!"get") .nil)) (.int .i32 0)) nameFunBody1) (.cons
  (.expr (.call (.member (.name n!"is") n!"unget") .nil)) (.cons (.ret (some (.name n!"temp"))) .nil))))))⟩

theorem nameFun_text : Fun.of [] 60 (protoText 435 448) = some nameFun := by decide +kernel

/-- The body of a loop. -/
def integerFunBody1 : Stmt := (.block (.cons (.decl n!"int" n!"cur" (some (.call (.member (.name
  n!"is") n!"get") .nil))) (.cons (.ite (.unary n!"!" (.binary n!"&&" (.binary n!">=" (.name n!"cur") (.chr 48)) (.binary
  n!"<=" (.name n!"cur") (.chr 57)))) (.block (.cons (.expr (.call (.member (.name n!"is") n!"unget") .nil)) (.cons (.ret
  (some (.name n!"tt"))) .nil))) .skip) (.cons (.expr (.update n!"+" (.member (.name n!"tt") n!"value") (.cast n!"char"
  (.name n!"cur")))) .nil))))

/-- proto3.cc:450-467 `integer` -/
def integerFun : Fun := ⟨n!"Token", n!"integer", [(n!"int", n!"first"), (n!"int",
  n!"line"), (n!"int", n!"column")], (.cons (.made n!"Token" n!"tt" (.cons (.int .i32 25) (.cons (.str []) (.cons (.name
  n!"line") (.cons (.name n!"column") .nil))))) (.cons (.ite (.binary n!"!=" (.name n!"first") (.int .i32 0)) (.expr (.update
  n!"+" (.member (.name n!"tt") n!"value") (.cast n!"char" (.name n!"first")))) .skip) (.cons (.doWhile integerFunBody1
  (.name n!"true")) (.cons (.ret (some (.name n!"tt"))) .nil))))⟩

theorem integerFun_text : Fun.of [] 60 (protoText 450 467) = some integerFun := by decide +kernel

/-- The body of a loop. -/
def stringFunBody1 : Stmt := (.block (.cons (.decl n!"int" n!"cur" (some (.call (.member (.name
  n!"is") n!"get") .nil))) (.cons (.ite (.binary n!"||" (.binary n!"==" (.name n!"cur") (.chr 10)) (.binary n!"==" (.name
  n!"cur") (.int .i32 0))) (.ret (some (.call (.name n!"Token") .nil))) .skip) (.cons (.ite (.binary n!"==" (.name n!"cur")
  (.chr 34)) (.ret (some (.name n!"tt"))) .skip) (.cons (.expr (.update n!"+" (.member (.name n!"tt") n!"value") (.cast
  n!"char" (.name n!"cur")))) .nil)))))

/-- proto3.cc:469-482 `literalString` -/
def stringFun : Fun := ⟨n!"Token", n!"literalString", [(n!"int", n!"line"),
  (n!"int", n!"column")], (.cons (.made n!"Token" n!"tt" (.cons (.int .i32 24) (.cons (.str []) (.cons (.name n!"line")
  (.cons (.name n!"column") .nil))))) (.cons (.doWhile stringFunBody1 (.name n!"true")) (.cons (.ret (some (.name n!"tt")))
  .nil)))⟩

theorem stringFun_text : Fun.of [] 60 (protoText 469 482) = some stringFun := by decide +kernel

/-- proto3.cc:515-519 `Message::qualifiedName` -/
def qualFun : Fun := ⟨n!"std :: string Message ::", n!"qualifiedName", [],
  (.cons (.ite (.call (.member (.name n!"package") n!"empty") .nil) (.ret (some (.name n!"name"))) .skip) (.cons (.ret (some
  (.binary n!"+" (.binary n!"+" (.name n!"package") (.chr 46)) (.name n!"name")))) .nil))⟩

theorem qualFun_text : Fun.of [] 60 (protoText 515 519) = some qualFun := by decide +kernel

/-- proto3.cc:522-560 `parseOption` -/
def optionFun : Fun := ⟨n!"static OptionEntry", n!"parseOption",
  [(n!"ProtoContext &", n!"ctx")], (.cons (.decl n!"OptionEntry" n!"temp" none) (.cons (.expr (.assign (.member (.name
  n!"temp") n!"line") (.member (.member (.member (.name n!"ctx") n!"tokens") n!"current") n!"line"))) (.cons (.expr (.call
  (.member (.member (.name n!"ctx") n!"tokens") n!"next") .nil)) (.cons (.ite (.binary n!"&&" (.binary n!"!=" (.member
  (.member (.member (.name n!"ctx") n!"tokens") n!"current") n!"code") (.int .i32 2)) (.binary n!"!=" (.member (.member
  (.member (.name n!"ctx") n!"tokens") n!"current") n!"code") (.int .i32 23))) (.expr (.call (.name n!"throw") (.cons (.call
  (.name n!"exception") (.cons (.str [77, 105, 115, 115, 105, 110, 103, 32, 111, 112, 116, 105, 111, 110, 32, 110, 97, 109,
  101]) (.cons (.member (.member (.member (.name n!"ctx") n!"tokens") n!"current") n!"line") (.cons (.member (.member
  (.member (.name n!"ctx") n!"tokens") n!"current") n!"column") .nil)))) .nil))) .skip) (.cons (.expr (.assign (.member
  (.name n!"temp") n!"name") (.member (.member (.member (.name n!"ctx") n!"tokens") n!"current") n!"value"))) (.cons (.ite
  (.binary n!"!=" (.member (.call (.member (.member (.name n!"ctx") n!"tokens") n!"next") .nil) n!"code") (.int .i32 3))
  (.expr (.call (.name n!"throw") (.cons (.call (.name n!"exception") (.cons (.str [69, 120, 112, 101, 99, 116, 101, 100, 32,
  39, 61, 39]) (.cons (.member (.member (.member (.name n!"ctx") n!"tokens") n!"current") n!"line") (.cons (.member (.member
  (.member (.name n!"ctx") n!"tokens") n!"current") n!"column") .nil)))) .nil))) .skip) (.cons (.expr (.call (.member
  (.member (.name n!"ctx") n!"tokens") n!"next") .nil)) (.cons (.switch (.member (.member (.member (.name n!"ctx")
  n!"tokens") n!"current") n!"code") (.cons (some (.int .i32 37)) .nil (.cons (some (.int .i32 38)) (.cons (.expr (.assign
  (.member (.name n!"temp") n!"type") (.qual [n!"OptionType", n!"BOOLEAN"]))) (.cons .break .nil)) (.cons (some (.int .i32
  2)) .nil (.cons (some (.int .i32 23)) (.cons (.expr (.assign (.member (.name n!"temp") n!"type") (.qual [n!"OptionType",
  n!"IDENTIFIER"]))) (.cons .break .nil)) (.cons (some (.int .i32 25)) (.cons (.expr (.assign (.member (.name n!"temp")
  n!"type") (.qual [n!"OptionType", n!"INTEGER"]))) (.cons .break .nil)) (.cons (some (.int .i32 24)) (.cons (.expr (.assign
  (.member (.name n!"temp") n!"type") (.qual [n!"OptionType", n!"STRING"]))) (.cons .break .nil)) (.cons none (.cons (.expr
  (.call (.name n!"throw") (.cons (.call (.name n!"exception") (.cons (.str [73, 110, 118, 97, 108, 105, 100, 32, 111, 112,
  116, 105, 111, 110, 32, 118, 97, 108, 117, 101]) (.cons (.member (.member (.member (.name n!"ctx") n!"tokens") n!"current")
  n!"line") (.cons (.member (.member (.member (.name n!"ctx") n!"tokens") n!"current") n!"column") .nil)))) .nil))) .nil)
  .nil)))))))) (.cons (.expr (.assign (.member (.name n!"temp") n!"value") (.member (.member (.member (.name n!"ctx")
  n!"tokens") n!"current") n!"value"))) (.cons (.ret (some (.name n!"temp"))) .nil))))))))))⟩

theorem optionFun_text : Fun.of [] 60 (protoText 522 560) = some optionFun := by decide +kernel

/-- The body of a loop. -/
def optionsFunBody1 : Stmt := (.block (.cons (.ite (.binary n!"==" (.member (.call (.member
  (.member (.name n!"ctx") n!"tokens") n!"next") .nil) n!"code") (.int .i32 40)) .break .skip) (.cons (.expr (.call (.member
  (.member (.name n!"ctx") n!"tokens") n!"unget") .nil)) (.cons (.decl n!"OptionEntry" n!"option" (some (.call (.name
  n!"parseOption") (.cons (.name n!"ctx") .nil)))) (.cons (.ite (.binary n!"!=" (.member (.call (.member (.member (.name
  n!"ctx") n!"tokens") n!"next") .nil) n!"code") (.int .i32 33)) (.expr (.call (.member (.member (.name n!"ctx") n!"tokens")
  n!"unget") .nil)) .skip) (.cons (.expr (.assign (.index (.name n!"entries") (.member (.name n!"option") n!"name")) (.name
  n!"option"))) .nil))))))

/-- proto3.cc:562-574 `parseFieldOptions` -/
def optionsFun : Fun := ⟨n!"static void", n!"parseFieldOptions",
  [(n!"ProtoContext &", n!"ctx"), (n!"OptionMap &", n!"entries")], (.cons (.while (.name n!"true") optionsFunBody1) (.cons
  (.expr (.call (.member (.member (.name n!"ctx") n!"tokens") n!"unget") .nil)) .nil))⟩

theorem optionsFun_text : Fun.of [] 60 (protoText 562 574) = some optionsFun := by decide +kernel

/-- proto3.cc:577-588 `parseStandardOption` -/
def standardFun : Fun := ⟨n!"static void", n!"parseStandardOption",
  [(n!"ProtoContext &", n!"ctx"), (n!"OptionMap &", n!"entries")], (.cons (.decl n!"OptionEntry" n!"option" (some (.call
  (.name n!"parseOption") (.cons (.name n!"ctx") .nil)))) (.cons (.ite (.binary n!"!=" (.member (.call (.member (.member
  (.name n!"ctx") n!"tokens") n!"next") .nil) n!"code") (.int .i32 28)) (.expr (.call (.name n!"throw") (.cons (.call (.name
  n!"exception") (.cons (.str [69, 120, 112, 101, 99, 116, 101, 100, 32, 39, 61, 39]) (.cons (.member (.member (.member
  (.name n!"ctx") n!"tokens") n!"current") n!"line") (.cons (.member (.member (.member (.name n!"ctx") n!"tokens")
  n!"current") n!"column") .nil)))) .nil))) .skip) (.cons (.expr (.assign (.index (.name n!"entries") (.member (.name
  n!"option") n!"name")) (.name n!"option"))) .nil)))⟩

theorem standardFun_text : Fun.of [] 60 (protoText 577 588) = some standardFun := by decide +kernel

/-- The body of a loop. -/
def findFunBody1 : Stmt := (.ite (.binary n!"==" (.call (.member (.unary n!"*" (.name n!"it"))
  n!"qualifiedName") .nil) (.name n!"name")) (.ret (some (.unary n!"*" (.name n!"it")))) .skip)

/-- proto3.cc:591-596 `findMessage` -/
def findFun : Fun := ⟨n!"static std :: shared_ptr < Message >", n!"findMessage",
  [(n!"ProtoContext &", n!"ctx"), (n!"const std :: string &", n!"name")], (.cons (.for (.decl n!"auto" n!"it" (some (.call
  (.member (.member (.member (.name n!"ctx") n!"tree") n!"messages") n!"begin") .nil))) (.binary n!"!=" (.name n!"it") (.call
  (.member (.member (.member (.name n!"ctx") n!"tree") n!"messages") n!"end") .nil)) (.incr n!"++" true (.name n!"it"))
  findFunBody1) (.cons (.ret (some (.name n!"nullptr"))) .nil))⟩

theorem findFun_text : Fun.of [] 60 (protoText 591 596) = some findFun := by decide +kernel

/-- The body of a loop. -/
def fieldFunBody1 : Stmt := (.ite (.binary n!"==" (.member (.name n!"it") n!"index") (.member
  (.name n!"field") n!"index")) (.expr (.call (.name n!"throw") (.cons (.call (.name n!"exception") (.cons (.binary n!"+"
  (.binary n!"+" (.binary n!"+" (.binary n!"+" (.str [70, 105, 101, 108, 100, 32, 39]) (.member (.name n!"it") n!"name"))
  (.str [39, 32, 104, 97, 115, 32, 116, 104, 101, 32, 115, 97, 109, 101, 32, 105, 110, 100, 101, 120, 32, 97, 115, 32, 39]))
  (.member (.name n!"field") n!"name")) (.str [39])) (.cons (.member (.member (.member (.name n!"ctx") n!"tokens")
  n!"current") n!"line") (.cons (.member (.member (.member (.name n!"ctx") n!"tokens") n!"current") n!"column") .nil))))
  .nil))) .skip)

/-- proto3.cc:599-688 `parseField` -/
def fieldFun : Fun := ⟨n!"static void", n!"parseField", [(n!"ProtoContext &",
  n!"ctx"), (n!"Message &", n!"message")], (.cons (.decl n!"Field" n!"field" none) (.cons (.ite (.binary n!"==" (.member
  (.member (.member (.name n!"ctx") n!"tokens") n!"current") n!"code") (.int .i32 4)) (.block (.cons (.expr (.assign (.member
  (.member (.name n!"field") n!"type") n!"repeated") (.name n!"true"))) (.cons (.expr (.call (.member (.member (.name
  n!"ctx") n!"tokens") n!"next") .nil)) .nil))) (.ite (.binary n!"==" (.member (.member (.member (.name n!"ctx") n!"tokens")
  n!"current") n!"code") (.int .i32 41)) (.block (.cons (.expr (.assign (.member (.member (.name n!"field") n!"type")
  n!"optional") (.name n!"true"))) (.cons (.expr (.call (.member (.member (.name n!"ctx") n!"tokens") n!"next") .nil))
  .nil))) .skip)) (.cons (.ite (.binary n!"&&" (.binary n!">=" (.member (.member (.member (.name n!"ctx") n!"tokens")
  n!"current") n!"code") (.int .i32 6)) (.binary n!"<=" (.member (.member (.member (.name n!"ctx") n!"tokens") n!"current")
  n!"code") (.int .i32 20))) (.expr (.assign (.member (.member (.name n!"field") n!"type") n!"id") (.cast n!"FieldType"
  (.member (.member (.member (.name n!"ctx") n!"tokens") n!"current") n!"code")))) (.ite (.binary n!"||" (.binary n!"=="
  (.member (.member (.member (.name n!"ctx") n!"tokens") n!"current") n!"code") (.int .i32 2)) (.binary n!"==" (.member
  (.member (.member (.name n!"ctx") n!"tokens") n!"current") n!"code") (.int .i32 23))) (.block (.cons (.expr (.assign
  (.member (.member (.name n!"field") n!"type") n!"id") (.cast n!"FieldType" (.int .i32 21)))) (.cons (.ite (.unary n!"!"
  (.call (.member (.member (.name n!"message") n!"package") n!"empty") .nil)) (.block (.cons (.expr (.update n!"+" (.member
  (.member (.name n!"field") n!"type") n!"qname") (.member (.name n!"message") n!"package"))) (.cons (.expr (.update n!"+"
  (.member (.member (.name n!"field") n!"type") n!"qname") (.chr 46))) .nil))) .skip) (.cons (.expr (.update n!"+" (.member
  (.member (.name n!"field") n!"type") n!"qname") (.member (.member (.member (.name n!"ctx") n!"tokens") n!"current")
  n!"value"))) (.cons (.expr (.assign (.member (.member (.name n!"field") n!"type") n!"ref") (.call (.name n!"findMessage")
  (.cons (.name n!"ctx") (.cons (.member (.member (.name n!"field") n!"type") n!"qname") .nil))))) .nil))))) (.expr (.call
  (.name n!"throw") (.cons (.call (.name n!"exception") (.cons (.str [77, 105, 115, 115, 105, 110, 103, 32, 102, 105, 101,
  108, 100, 32, 116, 121, 112, 101]) (.cons (.member (.member (.member (.name n!"ctx") n!"tokens") n!"current") n!"line")
  (.cons (.member (.member (.member (.name n!"ctx") n!"tokens") n!"current") n!"column") .nil)))) .nil))))) (.cons (.decl
  n!"auto" n!"code" (some (.member (.call (.member (.member (.name n!"ctx") n!"tokens") n!"next") .nil) n!"code"))) (.cons
  (.ite (.binary n!"&&" (.binary n!"&&" (.binary n!"!=" (.name n!"code") (.int .i32 2)) (.binary n!"!=" (.name n!"code")
  (.int .i32 1))) (.binary n!"!=" (.name n!"code") (.int .i32 29))) (.expr (.call (.name n!"throw") (.cons (.call (.name
  n!"exception") (.cons (.str [77, 105, 115, 115, 105, 110, 103, 32, 102, 105, 101, 108, 100, 32, 110, 97, 109, 101]) (.cons
  (.member (.member (.member (.name n!"ctx") n!"tokens") n!"current") n!"line") (.cons (.member (.member (.member (.name
  n!"ctx") n!"tokens") n!"current") n!"column") .nil)))) .nil))) .skip) (.cons (.expr (.assign (.member (.name n!"field")
  n!"name") (.member (.member (.member (.name n!"ctx") n!"tokens") n!"current") n!"value"))) (.cons (.ite (.binary n!"!="
  (.member (.call (.member (.member (.name n!"ctx") n!"tokens") n!"next") .nil) n!"code") (.int .i32 3)) (.expr (.call (.name
  n!"throw") (.cons (.call (.name n!"exception") (.cons (.str [69, 120, 112, 101, 99, 116, 101, 100, 32, 39, 61, 39]) (.cons
  (.member (.member (.member (.name n!"ctx") n!"tokens") n!"current") n!"line") (.cons (.member (.member (.member (.name
  n!"ctx") n!"tokens") n!"current") n!"column") .nil)))) .nil))) .skip) (.cons (.ite (.binary n!"!=" (.member (.call (.member
  (.member (.name n!"ctx") n!"tokens") n!"next") .nil) n!"code") (.int .i32 25)) (.expr (.call (.name n!"throw") (.cons
  (.call (.name n!"exception") (.cons (.str [77, 105, 115, 115, 105, 110, 103, 32, 102, 105, 101, 108, 100, 32, 105, 110,
  100, 101, 120]) (.cons (.member (.member (.member (.name n!"ctx") n!"tokens") n!"current") n!"line") (.cons (.member
  (.member (.member (.name n!"ctx") n!"tokens") n!"current") n!"column") .nil)))) .nil))) .skip) (.cons (.expr (.assign
  (.member (.name n!"field") n!"index") (.cast n!"int" (.call (.name n!"strtol") (.cons (.call (.member (.member (.member
  (.member (.name n!"ctx") n!"tokens") n!"current") n!"value") n!"c_str") .nil) (.cons (.name n!"nullptr") (.cons (.int .i32
  10) .nil))))))) (.cons (.ite (.binary n!"||" (.binary n!"||" (.binary n!"||" (.binary n!"<=" (.member (.name n!"field")
  n!"index") (.int .i32 0)) (.binary n!">=" (.member (.name n!"field") n!"index") (.int .i32 536870911))) (.binary n!"=="
  (.member (.name n!"field") n!"index") (.int .i32 19999))) (.binary n!"==" (.member (.name n!"field") n!"index") (.int .i32
  19000))) (.expr (.call (.name n!"throw") (.cons (.call (.name n!"exception") (.cons (.str [73, 110, 118, 97, 108, 105, 100,
  32, 102, 105, 101, 108, 100, 32, 105, 110, 100, 101, 120]) (.cons (.member (.member (.member (.name n!"ctx") n!"tokens")
  n!"current") n!"line") (.cons (.member (.member (.member (.name n!"ctx") n!"tokens") n!"current") n!"column") .nil))))
  .nil))) .skip) (.cons (.expr (.call (.member (.member (.name n!"ctx") n!"tokens") n!"next") .nil)) (.cons (.ite (.binary
  n!"==" (.member (.member (.member (.name n!"ctx") n!"tokens") n!"current") n!"code") (.int .i32 39)) (.block (.cons (.expr
  (.call (.name n!"parseFieldOptions") (.cons (.name n!"ctx") (.cons (.member (.name n!"field") n!"options") .nil)))) (.cons
  (.ite (.binary n!"!=" (.member (.call (.member (.member (.name n!"ctx") n!"tokens") n!"next") .nil) n!"code") (.int .i32
  40)) (.expr (.call (.name n!"throw") (.cons (.call (.name n!"exception") (.cons (.str [69, 120, 112, 101, 99, 116, 101,
  100, 32, 39, 93, 39]) (.cons (.member (.member (.member (.name n!"ctx") n!"tokens") n!"current") n!"line") (.cons (.member
  (.member (.member (.name n!"ctx") n!"tokens") n!"current") n!"column") .nil)))) .nil))) .skip) (.cons (.expr (.call
  (.member (.member (.name n!"ctx") n!"tokens") n!"next") .nil)) .nil)))) .skip) (.cons (.ite (.binary n!"!=" (.member
  (.member (.member (.name n!"ctx") n!"tokens") n!"current") n!"code") (.int .i32 28)) (.expr (.call (.name n!"throw") (.cons
  (.call (.name n!"exception") (.cons (.str [69, 120, 112, 101, 99, 116, 101, 100, 32, 39, 59, 39]) (.cons (.member (.member
  (.member (.name n!"ctx") n!"tokens") n!"current") n!"line") (.cons (.member (.member (.member (.name n!"ctx") n!"tokens")
  n!"current") n!"column") .nil)))) .nil))) .skip) (.cons (.for (.decl n!"auto" n!"it" (some (.call (.member (.member (.name
  n!"message") n!"fields") n!"begin") .nil))) (.binary n!"!=" (.name n!"it") (.call (.member (.member (.name n!"message")
  n!"fields") n!"end") .nil)) (.incr n!"++" false (.name n!"it")) fieldFunBody1) (.cons (.expr (.call (.member (.member
  (.name n!"message") n!"fields") n!"push_back") (.cons (.name n!"field") .nil))) .nil)))))))))))))))⟩

theorem fieldFun_text : Fun.of [] 60 (protoText 599 688) = some fieldFun := by decide +kernel

/-- The body of a loop. -/
def messageFunBody1 : Stmt := (.block (.cons (.ite (.binary n!"==" (.member (.member (.member
  (.name n!"ctx") n!"tokens") n!"current") n!"code") (.int .i32 35)) .break .skip) (.cons (.ite (.binary n!"==" (.member
  (.member (.member (.name n!"ctx") n!"tokens") n!"current") n!"code") (.int .i32 36)) (.expr (.call (.name
  n!"parseStandardOption") (.cons (.name n!"ctx") (.cons (.member (.name n!"message") n!"options") .nil)))) (.expr (.call
  (.name n!"parseField") (.cons (.name n!"ctx") (.cons (.unary n!"*" (.name n!"message")) .nil))))) .nil)))

/-- proto3.cc:690-718 `parseMessage` -/
def messageFun : Fun := ⟨n!"static void", n!"parseMessage", [(n!"ProtoContext &",
  n!"ctx")], (.cons (.ite (.binary n!"==" (.member (.member (.member (.name n!"ctx") n!"tokens") n!"current") n!"code") (.int
  .i32 1)) (.block (.cons (.decl n!"auto" n!"code" (some (.member (.call (.member (.member (.name n!"ctx") n!"tokens")
  n!"next") .nil) n!"code"))) (.cons (.ite (.binary n!"||" (.binary n!"||" (.binary n!"==" (.name n!"code") (.int .i32 2))
  (.binary n!"==" (.name n!"code") (.int .i32 1))) (.binary n!"==" (.name n!"code") (.int .i32 29))) (.block (.cons (.decl
  n!"auto" n!"message" (some (.call (.inst n!"std::make_shared" n!"Message") .nil))) (.cons (.expr (.assign (.member (.name
  n!"message") n!"package") (.member (.name n!"ctx") n!"package"))) (.cons (.expr (.assign (.member (.name n!"message")
  n!"name") (.member (.member (.member (.name n!"ctx") n!"tokens") n!"current") n!"value"))) (.cons (.ite (.binary n!"!="
  (.member (.call (.member (.member (.name n!"ctx") n!"tokens") n!"next") .nil) n!"code") (.int .i32 34)) (.expr (.call
  (.name n!"throw") (.cons (.call (.name n!"exception") (.cons (.str [77, 105, 115, 115, 105, 110, 103, 32, 109, 101, 115,
  115, 97, 103, 101, 32, 98, 111, 100, 121]) (.cons (.member (.member (.member (.name n!"ctx") n!"tokens") n!"current")
  n!"line") (.cons (.member (.member (.member (.name n!"ctx") n!"tokens") n!"current") n!"column") .nil)))) .nil))) .skip)
  (.cons (.while (.binary n!"!=" (.member (.call (.member (.member (.name n!"ctx") n!"tokens") n!"next") .nil) n!"code")
  (.int .i32 0)) messageFunBody1) (.cons (.expr (.call (.member (.member (.member (.name n!"ctx") n!"tree") n!"messages")
  n!"push_back") (.cons (.name n!"message") .nil))) (.cons (.ret none) .nil)))))))) .skip) .nil))) .skip) (.cons (.expr
  (.call (.name n!"throw") (.cons (.call (.name n!"exception") (.cons (.str [73, 110, 118, 97, 108, 105, 100, 32, 109, 101,
  115, 115, 97, 103, 101]) (.cons (.member (.member (.member (.name n!"ctx") n!"tokens") n!"current") n!"line") (.cons
  (.member (.member (.member (.name n!"ctx") n!"tokens") n!"current") n!"column") .nil)))) .nil))) .nil))⟩

theorem messageFun_text : Fun.of [] 60 (protoText 690 718) = some messageFun := by decide +kernel

/-- proto3.cc:720-727 `parsePackage` -/
def packageFun : Fun := ⟨n!"static void", n!"parsePackage", [(n!"ProtoContext &",
  n!"ctx")], (.cons (.decl n!"Token" n!"tt" (some (.call (.member (.member (.name n!"ctx") n!"tokens") n!"next") .nil)))
  (.cons (.ite (.binary n!"&&" (.binary n!"||" (.binary n!"==" (.member (.name n!"tt") n!"code") (.int .i32 2)) (.binary
  n!"==" (.member (.name n!"tt") n!"code") (.int .i32 23))) (.binary n!"==" (.member (.call (.member (.member (.name n!"ctx")
  n!"tokens") n!"next") .nil) n!"code") (.int .i32 28))) (.expr (.assign (.member (.name n!"ctx") n!"package") (.member
  (.name n!"tt") n!"value"))) (.expr (.call (.name n!"throw") (.cons (.call (.name n!"exception") (.cons (.str [73, 110, 118,
  97, 108, 105, 100, 32, 112, 97, 99, 107, 97, 103, 101]) (.cons (.member (.member (.member (.name n!"ctx") n!"tokens")
  n!"current") n!"line") (.cons (.member (.member (.member (.name n!"ctx") n!"tokens") n!"current") n!"column") .nil))))
  .nil)))) .nil))⟩

theorem packageFun_text : Fun.of [] 60 (protoText 720 727) = some packageFun := by decide +kernel

/-- proto3.cc:729-743 `parseSyntax` -/
def syntaxFun : Fun := ⟨n!"static void", n!"parseSyntax", [(n!"ProtoContext &",
  n!"ctx")], (.cons (.ite (.binary n!"!=" (.member (.call (.member (.member (.name n!"ctx") n!"tokens") n!"next") .nil)
  n!"code") (.int .i32 3)) (.expr (.call (.name n!"throw") (.cons (.call (.name n!"exception") (.cons (.str [69, 120, 112,
  101, 99, 116, 101, 100, 32, 39, 61, 39]) (.cons (.member (.member (.member (.name n!"ctx") n!"tokens") n!"current")
  n!"line") (.cons (.member (.member (.member (.name n!"ctx") n!"tokens") n!"current") n!"column") .nil)))) .nil))) .skip)
  (.cons (.decl n!"Token" n!"tt" (some (.call (.member (.member (.name n!"ctx") n!"tokens") n!"next") .nil))) (.cons (.ite
  (.binary n!"&&" (.binary n!"==" (.member (.name n!"tt") n!"code") (.int .i32 24)) (.binary n!"==" (.member (.call (.member
  (.member (.name n!"ctx") n!"tokens") n!"next") .nil) n!"code") (.int .i32 28))) (.block (.cons (.ite (.binary n!"!="
  (.member (.name n!"tt") n!"value") (.str [112, 114, 111, 116, 111, 51])) (.expr (.call (.name n!"throw") (.cons (.call
  (.name n!"exception") (.cons (.str [73, 110, 118, 97, 108, 105, 100, 32, 108, 97, 110, 103, 117, 97, 103, 101, 32, 118,
  101, 114, 115, 105, 111, 110]) (.cons (.member (.member (.member (.name n!"ctx") n!"tokens") n!"current") n!"line") (.cons
  (.member (.member (.member (.name n!"ctx") n!"tokens") n!"current") n!"column") .nil)))) .nil))) .skip) .nil)) (.expr
  (.call (.name n!"throw") (.cons (.call (.name n!"exception") (.cons (.str [73, 110, 118, 97, 108, 105, 100, 32, 115, 121,
  110, 116, 97, 120]) (.cons (.member (.member (.member (.name n!"ctx") n!"tokens") n!"current") n!"line") (.cons (.member
  (.member (.member (.name n!"ctx") n!"tokens") n!"current") n!"column") .nil)))) .nil)))) .nil)))⟩

theorem syntaxFun_text : Fun.of [] 60 (protoText 729 743) = some syntaxFun := by decide +kernel

/-- The body of a loop. -/
def protoFunBody1 : Stmt := (.block (.cons (.expr (.call (.member (.member (.name n!"ctx")
  n!"tokens") n!"next") .nil)) (.cons (.ite (.binary n!"==" (.member (.member (.member (.name n!"ctx") n!"tokens")
  n!"current") n!"code") (.int .i32 1)) (.expr (.call (.name n!"parseMessage") (.cons (.name n!"ctx") .nil))) (.ite (.binary
  n!"==" (.member (.member (.member (.name n!"ctx") n!"tokens") n!"current") n!"code") (.int .i32 29)) (.expr (.call (.name
  n!"parsePackage") (.cons (.name n!"ctx") .nil))) (.ite (.binary n!"==" (.member (.member (.member (.name n!"ctx")
  n!"tokens") n!"current") n!"code") (.int .i32 26)) .continue (.ite (.binary n!"==" (.member (.member (.member (.name
  n!"ctx") n!"tokens") n!"current") n!"code") (.int .i32 22)) (.expr (.call (.name n!"parseSyntax") (.cons (.name n!"ctx")
  .nil))) (.ite (.binary n!"==" (.member (.member (.member (.name n!"ctx") n!"tokens") n!"current") n!"code") (.int .i32 36))
  (.expr (.call (.name n!"parseStandardOption") (.cons (.name n!"ctx") (.cons (.member (.member (.name n!"ctx") n!"tree")
  n!"options") .nil)))) (.ite (.binary n!"==" (.member (.member (.member (.name n!"ctx") n!"tokens") n!"current") n!"code")
  (.int .i32 0)) .break (.block (.cons (.expr (.call (.name n!"throw") (.cons (.call (.name n!"exception") (.cons (.str [85,
  110, 101, 120, 112, 101, 99, 116, 101, 100, 32, 116, 111, 107, 101, 110]) (.cons (.member (.member (.member (.name n!"ctx")
  n!"tokens") n!"current") n!"line") (.cons (.member (.member (.member (.name n!"ctx") n!"tokens") n!"current") n!"column")
  .nil)))) .nil))) .nil)))))))) .nil)))

/-- proto3.cc:745-771 `parseProto` -/
def protoFun : Fun := ⟨n!"static void", n!"parseProto", [(n!"ProtoContext &",
  n!"ctx")], (.cons (.doWhile protoFunBody1 (.binary n!"!=" (.member (.member (.member (.name n!"ctx") n!"tokens")
  n!"current") n!"code") (.int .i32 0))) .nil)⟩

theorem protoFun_text : Fun.of [] 60 (protoText 745 771) = some protoFun := by decide +kernel

/-- The body of a loop. -/
def parseFunBody1 : Stmt := (.block (.cons (.ite (.binary n!"||" (.binary n!"!=" (.member
  (.member (.index (.member (.index (.member (.name n!"this") n!"messages") (.name n!"message'")) n!"fields") (.name
  n!"field'")) n!"type") n!"id") (.name n!"TYPE_MESSAGE")) (.binary n!"!=" (.member (.member (.index (.member (.index
  (.member (.name n!"this") n!"messages") (.name n!"message'")) n!"fields") (.name n!"field'")) n!"type") n!"ref") (.name
  n!"nullptr"))) .continue .skip) (.cons (.expr (.assign (.member (.member (.index (.member (.index (.member (.name n!"this")
  n!"messages") (.name n!"message'")) n!"fields") (.name n!"field'")) n!"type") n!"ref") (.call (.name n!"findMessage")
  (.cons (.name n!"ctx") (.cons (.member (.member (.index (.member (.index (.member (.name n!"this") n!"messages") (.name
  n!"message'")) n!"fields") (.name n!"field'")) n!"type") n!"qname") .nil))))) (.cons (.ite (.binary n!"==" (.member
  (.member (.index (.member (.index (.member (.name n!"this") n!"messages") (.name n!"message'")) n!"fields") (.name
  n!"field'")) n!"type") n!"ref") (.name n!"nullptr")) (.expr (.call (.name n!"throw") (.cons (.call (.name n!"exception")
  (.cons (.binary n!"+" (.binary n!"+" (.str [85, 110, 97, 98, 108, 101, 32, 116, 111, 32, 102, 105, 110, 100, 32, 109, 101,
  115, 115, 97, 103, 101, 32, 39]) (.member (.member (.index (.member (.index (.member (.name n!"this") n!"messages") (.name
  n!"message'")) n!"fields") (.name n!"field'")) n!"type") n!"qname")) (.str [39])) .nil)) .nil))) .skip) .nil))))

/-- The body of a loop. -/
def parseFunBody2 : Stmt := (.block (.cons (.for (.decl n!"size_t" n!"field'" (some (.int .i32
  0))) (.binary n!"!=" (.name n!"field'") (.call (.member (.member (.index (.member (.name n!"this") n!"messages") (.name
  n!"message'")) n!"fields") n!"size") .nil)) (.incr n!"++" true (.name n!"field'")) parseFunBody1) .nil))

/-- proto3.cc:773-809 `Proto3::parse` -/
def parseFun : Fun := ⟨n!"void Proto3 ::", n!"parse", [(n!"std :: istream &",
  n!"input"), (n!"const std :: string &", n!"fileName")], (.cons (.decl n!"std :: ios_base :: fmtflags" n!"flags" (some
  (.call (.member (.name n!"input") n!"flags") .nil))) (.cons (.expr (.call (.qual [n!"std", n!"noskipws"]) (.cons (.name
  n!"input") .nil))) (.cons (.decl n!"std :: istream_iterator < char >" n!"end" none) (.cons (.made
  n!"std :: istream_iterator < char >" n!"begin" (.cons (.name n!"input") .nil)) (.cons (.made
  n!"InputStream < std :: istream_iterator < char > >" n!"is" (.cons (.name n!"begin") (.cons (.name n!"end") .nil))) (.cons
  (.made n!"Tokenizer < std :: istream_iterator < char > >" n!"tok" (.cons (.name n!"is") .nil)) (.cons (.made
  n!"ProtoContext" n!"ctx" (.cons (.name n!"tok") (.cons (.unary n!"*" (.name n!"this")) (.cons (.name n!"is") .nil))))
  (.cons (.expr (.assign (.member (.name n!"this") n!"fileName") (.name n!"fileName"))) (.cons (.attempt (.block (.cons
  (.expr (.call (.name n!"parseProto") (.cons (.name n!"ctx") .nil))) (.cons (.ite (.binary n!"&" (.name n!"flags") (.qual
  [n!"std", n!"ios", n!"skipws"])) (.expr (.call (.qual [n!"std", n!"skipws"]) (.cons (.name n!"input") .nil))) .skip)
  .nil))) n!"exception &" n!"ex" (.block (.cons (.ite (.binary n!"&" (.name n!"flags") (.qual [n!"std", n!"ios",
  n!"skipws"])) (.expr (.call (.qual [n!"std", n!"skipws"]) (.cons (.name n!"input") .nil))) .skip) (.cons (.expr (.call
  (.name n!"throw") (.cons (.name n!"ex") .nil))) .nil)))) (.cons (.for (.decl n!"size_t" n!"message'" (some (.int .i32 0)))
  (.binary n!"!=" (.name n!"message'") (.call (.member (.member (.name n!"this") n!"messages") n!"size") .nil)) (.incr n!"++"
  true (.name n!"message'")) parseFunBody2) .nil))))))))))⟩

theorem parseFun_text : Fun.of [] 60 (protoText 773 809) = some parseFun := by decide +kernel

end PG.Cxx.Schema
