import Verif.Spec.GenText
/-
The functions of cppgen.cc and printer.cc as syntax trees, and that they are what the texts are parsed to.
-/
set_option autoImplicit false
namespace PG.Cxx.Maker
open PG.Gen

/-- The body of a loop. -/
def packageFunBody1 : Stmt := (.block (.cons (.decl n!"auto" n!"c" (some (.unary n!"*" (.name
  n!"c'")))) (.cons (.block (.cons (.ite (.binary n!"==" (.name n!"c") (.chr 46)) (.expr (.update n!"+" (.name n!"name")
  (.str [58, 58]))) (.expr (.update n!"+" (.name n!"name") (.name n!"c")))) .nil)) .nil)))

/-- cppgen.cc:77-93 `nativePackage` -/
def packageFun : Fun := ⟨n!"static std :: string", n!"nativePackage",
  [(n!"const std :: string &", n!"package")], (.cons (.ite (.call (.member (.name n!"package") n!"empty") .nil) (.ret (some
  (.str [32]))) .skip) (.cons (.decl n!"std :: string" n!"name" none) (.cons (.expr (.call (.member (.name n!"name")
  n!"reserve") (.cons (.call (.member (.name n!"package") n!"length") .nil) .nil))) (.cons (.expr (.update n!"+" (.name
  n!"name") (.str [32, 58, 58]))) (.cons (.for (.decl n!"auto" n!"c'" (some (.call (.member (.name n!"package") n!"begin")
  .nil))) (.binary n!"!=" (.name n!"c'") (.call (.member (.name n!"package") n!"end") .nil)) (.incr n!"++" true (.name
  n!"c'")) packageFunBody1) (.cons (.ret (some (.name n!"name"))) .nil))))))⟩

theorem packageFun_text : Fun.of [] 60 (genText 77 93) = some packageFun := by decide +kernel

/-- cppgen.cc:98-117 `nativeType` -/
def typeFun : Fun := ⟨n!"static std :: string", n!"nativeType", [(n!"const Field &",
  n!"field")], (.cons (.ite (.binary n!"&&" (.binary n!">=" (.member (.member (.name n!"field") n!"type") n!"id") (.qual
  [n!"protogen", n!"TYPE_DOUBLE"])) (.binary n!"<=" (.member (.member (.name n!"field") n!"type") n!"id") (.qual
  [n!"protogen", n!"TYPE_STRING"]))) (.block (.cons (.decl n!"int" n!"index" (some (.binary n!"-" (.cast n!"int" (.member
  (.member (.name n!"field") n!"type") n!"id")) (.cast n!"int" (.qual [n!"protogen", n!"TYPE_DOUBLE"]))))) (.cons (.ret (some
  (.member (.index (.name n!"TYPE_MAPPING") (.name n!"index")) n!"nativeType"))) .nil))) (.ite (.binary n!"==" (.member
  (.member (.name n!"field") n!"type") n!"id") (.qual [n!"protogen", n!"TYPE_BYTES"])) (.ret (some (.str [117, 105, 110, 116,
  56, 95, 116]))) (.ite (.binary n!"==" (.member (.member (.name n!"field") n!"type") n!"id") (.qual [n!"protogen",
  n!"TYPE_MESSAGE"])) (.block (.cons (.ite (.binary n!"==" (.member (.member (.name n!"field") n!"type") n!"ref") (.name
  n!"nullptr")) (.expr (.call (.name n!"throw") (.cons (.call (.qual [n!"protogen", n!"exception"]) (.cons (.str [77, 101,
  115, 115, 97, 103, 101, 32, 116, 121, 112, 101, 32, 114, 101, 102, 101, 114, 101, 110, 99, 101, 32, 105, 115, 32, 110, 117,
  108, 108]) .nil)) .nil))) .skip) (.cons (.ret (some (.binary n!"+" (.binary n!"+" (.call (.name n!"nativePackage") (.cons
  (.member (.member (.member (.name n!"field") n!"type") n!"ref") n!"package") .nil)) (.str [58, 58])) (.member (.member
  (.member (.name n!"field") n!"type") n!"ref") n!"name")))) .nil))) (.expr (.call (.name n!"throw") (.cons (.call (.qual
  [n!"protogen", n!"exception"]) (.cons (.str [73, 110, 118, 97, 108, 105, 100, 32, 102, 105, 101, 108, 100, 32, 116, 121,
  112, 101]) .nil)) .nil)))))) .nil)⟩

theorem typeFun_text : Fun.of [] 60 (genText 98 117) = some typeFun := by decide +kernel

/-- cppgen.cc:122-167 `fieldNativeType` -/
def fieldTypeFun : Fun := ⟨n!"static std :: string", n!"fieldNativeType",
  [(n!"const Field &", n!"field"), (n!"bool", n!"useLists")], (.cons (.decl n!"std :: string" n!"valueType" none) (.cons
  (.ite (.binary n!"==" (.member (.member (.name n!"field") n!"type") n!"id") (.qual [n!"protogen", n!"TYPE_STRING"]))
  (.block (.cons (.expr (.assign (.name n!"valueType") (.str [112, 114, 111, 116, 111, 103, 101, 110]))) (.cons (.expr
  (.update n!"+" (.name n!"valueType") (.name n!"PROTOGEN_VERSION_NAMING"))) (.cons (.expr (.update n!"+" (.name
  n!"valueType") (.str [58, 58, 115, 116, 114, 105, 110, 103, 95, 102, 105, 101, 108, 100]))) .nil)))) (.ite (.binary n!"&&"
  (.binary n!">=" (.member (.member (.name n!"field") n!"type") n!"id") (.qual [n!"protogen", n!"TYPE_DOUBLE"])) (.binary
  n!"<=" (.member (.member (.name n!"field") n!"type") n!"id") (.qual [n!"protogen", n!"TYPE_BYTES"]))) (.block (.cons (.decl
  n!"int" n!"index" (some (.binary n!"-" (.cast n!"int" (.member (.member (.name n!"field") n!"type") n!"id")) (.cast n!"int"
  (.qual [n!"protogen", n!"TYPE_DOUBLE"]))))) (.cons (.expr (.assign (.name n!"valueType") (.member (.index (.name
  n!"TYPE_MAPPING") (.name n!"index")) n!"nativeType"))) .nil))) (.ite (.binary n!"==" (.member (.member (.name n!"field")
  n!"type") n!"id") (.qual [n!"protogen", n!"TYPE_MESSAGE"])) (.expr (.assign (.name n!"valueType") (.call (.name
  n!"nativeType") (.cons (.name n!"field") .nil)))) (.expr (.call (.name n!"throw") (.cons (.call (.qual [n!"protogen",
  n!"exception"]) (.cons (.str [73, 110, 118, 97, 108, 105, 100, 32, 102, 105, 101, 108, 100, 32, 116, 121, 112, 101]) .nil))
  .nil)))))) (.cons (.ite (.binary n!"||" (.member (.member (.name n!"field") n!"type") n!"repeated") (.binary n!"=="
  (.member (.member (.name n!"field") n!"type") n!"id") (.qual [n!"protogen", n!"TYPE_BYTES"]))) (.block (.cons (.decl
  n!"std :: string" n!"output" (some (.str [115, 116, 100, 58, 58]))) (.cons (.ite (.binary n!"||" (.binary n!"==" (.member
  (.member (.name n!"field") n!"type") n!"id") (.qual [n!"protogen", n!"TYPE_BYTES"])) (.unary n!"!" (.name n!"useLists")))
  (.expr (.update n!"+" (.name n!"output") (.str [118, 101, 99, 116, 111, 114, 60]))) (.expr (.update n!"+" (.name
  n!"output") (.str [108, 105, 115, 116, 60])))) (.cons (.expr (.update n!"+" (.name n!"output") (.name n!"valueType")))
  (.cons (.expr (.update n!"+" (.name n!"output") (.chr 62))) (.cons (.ret (some (.name n!"output"))) .nil)))))) .skip)
  (.cons (.ite (.binary n!"||" (.binary n!"==" (.member (.member (.name n!"field") n!"type") n!"id") (.qual [n!"protogen",
  n!"TYPE_MESSAGE"])) (.binary n!"==" (.member (.member (.name n!"field") n!"type") n!"id") (.qual [n!"protogen",
  n!"TYPE_STRING"]))) (.ret (some (.name n!"valueType"))) (.block (.cons (.decl n!"std :: string" n!"output" (some (.str
  [112, 114, 111, 116, 111, 103, 101, 110]))) (.cons (.expr (.update n!"+" (.name n!"output") (.name
  n!"PROTOGEN_VERSION_NAMING"))) (.cons (.expr (.update n!"+" (.name n!"output") (.str [58, 58, 102, 105, 101, 108, 100,
  60]))) (.cons (.expr (.update n!"+" (.name n!"output") (.name n!"valueType"))) (.cons (.expr (.update n!"+" (.name
  n!"output") (.chr 62))) (.cons (.ret (some (.name n!"output"))) .nil)))))))) .nil))))⟩

theorem fieldTypeFun_text : Fun.of [] 60 (genText 122 167) = some fieldTypeFun := by decide +kernel

/-- The body of a loop. -/
def namespaceFunBody1 : Stmt := (.block (.cons (.decl n!"auto" n!"c" (some (.unary n!"*" (.name
  n!"c'")))) (.cons (.block (.cons (.ite (.binary n!"==" (.name n!"c") (.chr 46)) (.block (.cons (.ite (.name n!"opening")
  (.expr (.call (.member (.name n!"ctx") n!"printer") (.cons (.str [110, 97, 109, 101, 115, 112, 97, 99, 101, 32, 36, 49, 36,
  32, 123, 10]) (.cons (.name n!"name") .nil)))) (.expr (.call (.member (.name n!"ctx") n!"printer") (.cons (.str [125, 32,
  47, 47, 32, 110, 97, 109, 101, 115, 112, 97, 99, 101, 32, 36, 49, 36, 10]) (.cons (.name n!"name") .nil))))) (.cons (.expr
  (.call (.member (.name n!"name") n!"clear") .nil)) .nil))) (.expr (.update n!"+" (.name n!"name") (.name n!"c")))) .nil))
  .nil)))

/-- cppgen.cc:169-188 `generateNamespace` -/
def namespaceFun : Fun := ⟨n!"static void", n!"generateNamespace",
  [(n!"GeneratorContext &", n!"ctx"), (n!"const Message &", n!"message"), (n!"bool", n!"opening")], (.cons (.ite (.call
  (.member (.member (.name n!"message") n!"package") n!"empty") .nil) (.ret none) .skip) (.cons (.decl n!"std :: string"
  n!"name" none) (.cons (.decl n!"std :: string" n!"package" (some (.binary n!"+" (.member (.name n!"message") n!"package")
  (.chr 46)))) (.cons (.for (.decl n!"auto" n!"c'" (some (.call (.member (.name n!"package") n!"begin") .nil))) (.binary
  n!"!=" (.name n!"c'") (.call (.member (.name n!"package") n!"end") .nil)) (.incr n!"++" true (.name n!"c'"))
  namespaceFunBody1) .nil))))⟩

theorem namespaceFun_text : Fun.of [] 60 (genText 169 188) = some namespaceFun := by decide +kernel

/-- The body of a loop. -/
def modelFunBody1 : Stmt := (.block (.cons (.decl n!"auto" n!"field" (some (.unary n!"*" (.name
  n!"field'")))) (.cons (.block (.cons (.decl n!"auto" n!"type" (some (.call (.name n!"fieldNativeType") (.cons (.name
  n!"field") (.cons (.member (.name n!"ctx") n!"cpp_use_lists") .nil))))) (.cons (.expr (.call (.member (.name n!"ctx")
  n!"printer") (.cons (.str [9, 9, 36, 49, 36, 32, 36, 50, 36, 59, 10]) (.cons (.name n!"type") (.cons (.member (.name
  n!"field") n!"name") .nil))))) .nil))) .nil)))

/-- cppgen.cc:190-205 `generateModel` for a message -/
def modelFun : Fun := ⟨n!"static void", n!"generateModel",
  [(n!"GeneratorContext &", n!"ctx"), (n!"const Message &", n!"message")], (.cons (.expr (.call (.name n!"generateNamespace")
  (.cons (.name n!"ctx") (.cons (.name n!"message") (.cons (.name n!"true") .nil))))) (.cons (.expr (.call (.member (.name
  n!"ctx") n!"printer") (.cons (.str [9, 115, 116, 114, 117, 99, 116, 32, 36, 49, 36, 95, 116, 121, 112, 101, 10, 9, 123,
  10]) (.cons (.member (.name n!"message") n!"name") .nil)))) (.cons (.for (.decl n!"auto" n!"field'" (some (.call (.member
  (.member (.name n!"message") n!"fields") n!"begin") .nil))) (.binary n!"!=" (.name n!"field'") (.call (.member (.member
  (.name n!"message") n!"fields") n!"end") .nil)) (.incr n!"++" true (.name n!"field'")) modelFunBody1) (.cons (.expr (.call
  (.member (.name n!"ctx") n!"printer") (.cons (.str [9, 125, 59, 10]) .nil))) (.cons (.expr (.call (.name
  n!"generateNamespace") (.cons (.name n!"ctx") (.cons (.name n!"message") (.cons (.name n!"false") .nil))))) .nil)))))⟩

theorem modelFun_text : Fun.of [] 60 (genText 190 205) = some modelFun := by decide +kernel

/-- cppgen.cc:208-212 `rol` -/
def rolFun : Fun := ⟨n!"T", n!"rol", [(n!"T", n!"value"), (n!"int", n!"count")], (.cons .skip
  (.cons (.ret (some (.cast n!"T" (.binary n!"|" (.binary n!"<<" (.name n!"value") (.name n!"count")) (.binary n!">>" (.name
  n!"value") (.binary n!"&" (.unary n!"-" (.name n!"count")) (.binary n!"-" (.binary n!"*" (.cast n!"int" (.call (.name
  n!"sizeof") (.cons (.name n!"T") .nil))) (.int .i32 8)) (.int .i32 1)))))))) .nil))⟩

theorem rolFun_text : Fun.of [] 60 (genText 208 212) = some rolFun := by decide +kernel

/-- The body of a loop. -/
def obfuscateFunBody1 : Stmt := (.block (.cons (.expr (.binary n!"<<" (.name n!"result") (.str
  [92, 120]))) (.cons (.expr (.binary n!"<<" (.binary n!"<<" (.name n!"result") (.qual [n!"std", n!"hex"])) (.binary n!"^"
  (.cast n!"uint8_t" (.index (.name n!"value") (.name n!"i"))) (.name n!"mask")))) .nil)))

/-- cppgen.cc:214-224 `obfuscate` -/
def obfuscateFun : Fun := ⟨n!"static inline std :: string", n!"obfuscate",
  [(n!"const std :: string &", n!"value")], (.cons (.decl n!"uint8_t" n!"mask" (some (.call (.inst n!"rol" n!"uint8_t")
  (.cons (.int .u32 147) (.cons (.binary n!"%" (.call (.member (.name n!"value") n!"length") .nil) (.int .i32 8)) .nil)))))
  (.cons (.decl n!"std :: stringstream" n!"result" none) (.cons (.for (.seq (.decl n!"size_t" n!"i" (some (.int .i32 0)))
  (.decl n!"size_t" n!"t" (some (.call (.member (.name n!"value") n!"length") .nil)))) (.binary n!"<" (.name n!"i") (.name
  n!"t")) (.incr n!"++" true (.name n!"i")) obfuscateFunBody1) (.cons (.ret (some (.call (.member (.name n!"result") n!"str")
  .nil))) .nil))))⟩

theorem obfuscateFun_text : Fun.of [] 60 (genText 214 224) = some obfuscateFun := by decide +kernel

/-- cppgen.cc:226-235 `get_option` for strings -/
def stringFun : Fun := ⟨n!"static std :: string", n!"get_option",
  [(n!"const protogen :: OptionMap &", n!"options"), (n!"const std :: string &", n!"name"), (n!"const std :: string &",
  n!"value")], (.cons (.ite (.binary n!"==" (.call (.member (.name n!"options") n!"count") (.cons (.name n!"name") .nil))
  (.int .i32 0)) (.ret (some (.name n!"value"))) .skip) (.cons (.decl n!"OptionEntry" n!"opt" (some (.call (.member (.name
  n!"options") n!"at") (.cons (.name n!"name") .nil)))) (.cons (.ite (.binary n!"!=" (.member (.name n!"opt") n!"type")
  (.qual [n!"OptionType", n!"STRING"])) (.expr (.call (.name n!"throw") (.cons (.call (.name n!"exception") (.cons (.binary
  n!"+" (.binary n!"+" (.str [84, 104, 101, 32, 118, 97, 108, 117, 101, 32, 102, 111, 114, 32, 39]) (.name n!"name")) (.str
  [39, 32, 109, 117, 115, 116, 32, 98, 101, 32, 97, 32, 115, 116, 114, 105, 110, 103])) (.cons (.member (.name n!"opt")
  n!"line") (.cons (.int .i32 1) .nil)))) .nil))) .skip) (.cons (.ret (some (.member (.name n!"opt") n!"value"))) .nil))))⟩

theorem stringFun_text : Fun.of [] 60 (genText 226 235) = some stringFun := by decide +kernel

/-- cppgen.cc:237-246 `get_option` for booleans -/
def boolFun : Fun := ⟨n!"static bool", n!"get_option",
  [(n!"const protogen :: OptionMap &", n!"options"), (n!"const std :: string &", n!"name"), (n!"bool", n!"value")], (.cons
  (.ite (.binary n!"==" (.call (.member (.name n!"options") n!"count") (.cons (.name n!"name") .nil)) (.int .i32 0)) (.ret
  (some (.name n!"value"))) .skip) (.cons (.decl n!"OptionEntry" n!"opt" (some (.call (.member (.name n!"options") n!"at")
  (.cons (.name n!"name") .nil)))) (.cons (.ite (.binary n!"!=" (.member (.name n!"opt") n!"type") (.qual [n!"OptionType",
  n!"BOOLEAN"])) (.expr (.call (.name n!"throw") (.cons (.call (.name n!"exception") (.cons (.binary n!"+" (.binary n!"+"
  (.str [84, 104, 101, 32, 118, 97, 108, 117, 101, 32, 102, 111, 114, 32, 39]) (.name n!"name")) (.str [39, 32, 109, 117,
  115, 116, 32, 98, 101, 32, 97, 32, 98, 111, 111, 108, 101, 97, 110])) (.cons (.member (.name n!"opt") n!"line") (.cons
  (.int .i32 1) .nil)))) .nil))) .skip) (.cons (.ret (some (.binary n!"==" (.member (.name n!"opt") n!"value") (.str [116,
  114, 117, 101])))) .nil))))⟩

theorem boolFun_text : Fun.of [] 60 (genText 237 246) = some boolFun := by decide +kernel

/-- cppgen.cc:248-251 `is_transient` -/
def transientFun : Fun := ⟨n!"static bool", n!"is_transient", [(n!"const Field &",
  n!"field")], (.cons (.ret (some (.call (.name n!"get_option") (.cons (.member (.name n!"field") n!"options") (.cons (.name
  n!"PROTOGEN_O_TRANSIENT") (.cons (.name n!"false") .nil)))))) .nil)⟩

theorem transientFun_text : Fun.of [] 60 (genText 248 251) = some transientFun := by decide +kernel

/-- The body of a loop. -/
def jsonNameFunBody1 : Stmt := (.block (.cons (.decl n!"auto" n!"c" (some (.unary n!"*" (.name
  n!"c'")))) (.cons (.ite (.binary n!"||" (.binary n!"==" (.name n!"c") (.chr 39)) (.binary n!"==" (.name n!"c") (.chr 34)))
  (.expr (.call (.name n!"throw") (.cons (.call (.name n!"exception") (.cons (.binary n!"+" (.binary n!"+" (.binary n!"+"
  (.binary n!"+" (.str [111, 112, 116, 105, 111, 110, 32, 39]) (.call (.qual [n!"std", n!"string"]) (.cons (.name
  n!"PROTOGEN_O_NAME") .nil))) (.str [39, 32, 105, 110, 32, 116, 104, 101, 32, 102, 105, 101, 108, 100, 32, 39])) (.member
  (.name n!"field") n!"name")) (.str [39, 32, 109, 117, 115, 116, 32, 110, 111, 116, 32, 99, 111, 110, 116, 97, 105, 110, 32,
  113, 117, 111, 116, 101, 115])) (.cons (.int .i32 1) (.cons (.int .i32 1) .nil)))) .nil))) .skip) .nil)))

/-- cppgen.cc:253-260 `get_json_name` -/
def jsonNameFun : Fun := ⟨n!"static std :: string", n!"get_json_name",
  [(n!"const Field &", n!"field")], (.cons (.decl n!"auto" n!"name" (some (.call (.name n!"get_option") (.cons (.member
  (.name n!"field") n!"options") (.cons (.name n!"PROTOGEN_O_NAME") (.cons (.member (.name n!"field") n!"name") .nil))))))
  (.cons (.for (.decl n!"auto" n!"c'" (some (.call (.member (.name n!"name") n!"begin") .nil))) (.binary n!"!=" (.name
  n!"c'") (.call (.member (.name n!"name") n!"end") .nil)) (.incr n!"++" true (.name n!"c'")) jsonNameFunBody1) (.cons (.ret
  (some (.name n!"name"))) .nil)))⟩

theorem jsonNameFun_text : Fun.of [] 60 (genText 253 260) = some jsonNameFun := by decide +kernel

/-- The body of a loop. -/
def readFunBody1 : Stmt := (.block (.cons (.decl n!"auto" n!"field" (some (.unary n!"*" (.name
  n!"field'")))) (.cons (.block (.cons (.ite (.call (.name n!"is_transient") (.cons (.name n!"field") .nil)) .continue .skip)
  (.cons (.expr (.call (.member (.name n!"ctx") n!"printer") (.cons (.name n!"CODE_JSON__READ_FIELD__ITEM") (.cons (.name
  n!"i") (.cons (.member (.name n!"field") n!"name") .nil))))) (.cons (.expr (.incr n!"++" true (.name n!"i"))) .nil))))
  .nil)))

/-- cppgen.cc:262-283 `generate_function__read_field` -/
def readFun : Fun := ⟨n!"static void",
  n!"generate_function__read_field", [(n!"GeneratorContext &", n!"ctx"), (n!"const Message &", n!"message"),
  (n!"const std :: string &", n!"typeName"), (n!"bool", n!"is_persistent")], (.cons (.ite (.binary n!"||" (.binary n!"=="
  (.call (.member (.member (.name n!"message") n!"fields") n!"size") .nil) (.int .i32 0)) (.unary n!"!" (.name
  n!"is_persistent"))) (.block (.cons (.expr (.call (.member (.name n!"ctx") n!"printer") (.cons (.name
  n!"CODE_JSON__READ_FIELD__EMPTY") (.cons (.name n!"typeName") .nil)))) (.cons (.ret none) .nil))) .skip) (.cons (.expr
  (.call (.member (.name n!"ctx") n!"printer") (.cons (.name n!"CODE_JSON__READ_FIELD__HEADER") (.cons (.name n!"typeName")
  .nil)))) (.cons (.decl n!"int" n!"i" (some (.int .i32 0))) (.cons (.for (.decl n!"auto" n!"field'" (some (.call (.member
  (.member (.name n!"message") n!"fields") n!"begin") .nil))) (.binary n!"!=" (.name n!"field'") (.call (.member (.member
  (.name n!"message") n!"fields") n!"end") .nil)) (.incr n!"++" true (.name n!"field'")) readFunBody1) (.cons (.expr (.call
  (.member (.name n!"ctx") n!"printer") (.cons (.name n!"CODE_JSON__READ_FIELD__FOOTER") .nil))) .nil)))))⟩

theorem readFun_text : Fun.of [] 60 (genText 262 283) = some readFun := by decide +kernel

/-- The body of a loop. -/
def writeFunBody1 : Stmt := (.block (.cons (.decl n!"auto" n!"field" (some (.unary n!"*" (.name
  n!"field'")))) (.cons (.block (.cons (.ite (.call (.name n!"is_transient") (.cons (.name n!"field") .nil)) .continue .skip)
  (.cons (.decl n!"auto" n!"name" (some (.call (.name n!"get_json_name") (.cons (.name n!"field") .nil)))) (.cons (.decl
  n!"std :: string" n!"label" (some (.cond (.member (.name n!"ctx") n!"number_names") (.call (.qual [n!"std", n!"to_string"])
  (.cons (.member (.name n!"field") n!"index") .nil)) (.name n!"name")))) (.cons (.ite (.member (.name n!"ctx")
  n!"obfuscate_strings") (.expr (.assign (.name n!"label") (.call (.qual [n!"Printer", n!"format"]) (.cons (.str [114, 101,
  118, 101, 97, 108, 40, 34, 36, 49, 36, 34, 41]) (.cons (.call (.name n!"obfuscate") (.cons (.name n!"label") .nil))
  .nil))))) (.expr (.assign (.name n!"label") (.call (.qual [n!"Printer", n!"format"]) (.cons (.str [34, 36, 49, 36, 34])
  (.cons (.name n!"label") .nil)))))) (.cons (.expr (.call (.member (.name n!"ctx") n!"printer") (.cons (.name
  n!"CODE_JSON__WRITE__ITEM") (.cons (.member (.name n!"field") n!"name") (.cons (.name n!"label") .nil))))) (.cons (.expr
  (.incr n!"++" true (.name n!"i"))) .nil))))))) .nil)))

/-- cppgen.cc:285-314 `generate_function__write` -/
def writeFun : Fun := ⟨n!"static void", n!"generate_function__write",
  [(n!"GeneratorContext &", n!"ctx"), (n!"const Message &", n!"message"), (n!"const std :: string &", n!"typeName"),
  (n!"bool", n!"is_persistent")], (.cons (.ite (.binary n!"||" (.binary n!"==" (.call (.member (.member (.name n!"message")
  n!"fields") n!"size") .nil) (.int .i32 0)) (.unary n!"!" (.name n!"is_persistent"))) (.block (.cons (.expr (.call (.member
  (.name n!"ctx") n!"printer") (.cons (.name n!"CODE_JSON__WRITE__EMPTY") (.cons (.name n!"typeName") .nil)))) (.cons (.ret
  none) .nil))) .skip) (.cons (.expr (.call (.member (.name n!"ctx") n!"printer") (.cons (.name n!"CODE_JSON__WRITE__HEADER")
  (.cons (.name n!"typeName") (.cons (.name n!"PROTOGEN_VERSION_NAMING") .nil))))) (.cons (.decl n!"int" n!"i" (some (.int
  .i32 0))) (.cons (.for (.decl n!"auto" n!"field'" (some (.call (.member (.member (.name n!"message") n!"fields") n!"begin")
  .nil))) (.binary n!"!=" (.name n!"field'") (.call (.member (.member (.name n!"message") n!"fields") n!"end") .nil)) (.incr
  n!"++" true (.name n!"field'")) writeFunBody1) (.cons (.expr (.call (.member (.name n!"ctx") n!"printer") (.cons (.name
  n!"CODE_JSON__WRITE__FOOTER") .nil))) .nil)))))⟩

theorem writeFun_text : Fun.of [] 60 (genText 285 314) = some writeFun := by decide +kernel

/-- The body of a loop. -/
def emptyFunBody1 : Stmt := (.block (.cons (.decl n!"auto" n!"field" (some (.unary n!"*" (.name
  n!"field'")))) (.cons (.block (.cons (.expr (.call (.member (.name n!"ctx") n!"printer") (.cons (.name
  n!"CODE_JSON__EMPTY__ITEM") (.cons (.member (.name n!"field") n!"name") .nil)))) (.cons (.expr (.incr n!"++" true (.name
  n!"i"))) .nil))) .nil)))

/-- cppgen.cc:316-334 `generate_function__empty` -/
def emptyFun : Fun := ⟨n!"static void", n!"generate_function__empty",
  [(n!"GeneratorContext &", n!"ctx"), (n!"const Message &", n!"message"), (n!"const std :: string &", n!"typeName")], (.cons
  (.ite (.binary n!"==" (.call (.member (.member (.name n!"message") n!"fields") n!"size") .nil) (.int .i32 0)) (.block
  (.cons (.expr (.call (.member (.name n!"ctx") n!"printer") (.cons (.name n!"CODE_JSON__EMPTY__EMPTY") (.cons (.name
  n!"typeName") .nil)))) (.cons (.ret none) .nil))) .skip) (.cons (.expr (.call (.member (.name n!"ctx") n!"printer") (.cons
  (.name n!"CODE_JSON__EMPTY__HEADER") (.cons (.name n!"typeName") .nil)))) (.cons (.decl n!"int" n!"i" (some (.int .i32 0)))
  (.cons (.for (.decl n!"auto" n!"field'" (some (.call (.member (.member (.name n!"message") n!"fields") n!"begin") .nil)))
  (.binary n!"!=" (.name n!"field'") (.call (.member (.member (.name n!"message") n!"fields") n!"end") .nil)) (.incr n!"++"
  true (.name n!"field'")) emptyFunBody1) (.cons (.expr (.call (.member (.name n!"ctx") n!"printer") (.cons (.name
  n!"CODE_JSON__EMPTY__FOOTER") .nil))) .nil)))))⟩

theorem emptyFun_text : Fun.of [] 60 (genText 316 334) = some emptyFun := by decide +kernel

/-- The body of a loop. -/
def clearFunBody1 : Stmt := (.block (.cons (.decl n!"auto" n!"field" (some (.unary n!"*" (.name
  n!"field'")))) (.cons (.block (.cons (.expr (.call (.member (.name n!"ctx") n!"printer") (.cons (.name
  n!"CODE_JSON__CLEAR__ITEM") (.cons (.member (.name n!"field") n!"name") .nil)))) (.cons (.expr (.incr n!"++" true (.name
  n!"i"))) .nil))) .nil)))

/-- cppgen.cc:336-354 `generate_function__clear` -/
def clearFun : Fun := ⟨n!"static void", n!"generate_function__clear",
  [(n!"GeneratorContext &", n!"ctx"), (n!"const Message &", n!"message"), (n!"const std :: string &", n!"typeName")], (.cons
  (.ite (.binary n!"==" (.call (.member (.member (.name n!"message") n!"fields") n!"size") .nil) (.int .i32 0)) (.block
  (.cons (.expr (.call (.member (.name n!"ctx") n!"printer") (.cons (.name n!"CODE_JSON__CLEAR__EMPTY") (.cons (.name
  n!"typeName") .nil)))) (.cons (.ret none) .nil))) .skip) (.cons (.expr (.call (.member (.name n!"ctx") n!"printer") (.cons
  (.name n!"CODE_JSON__CLEAR__HEADER") (.cons (.name n!"typeName") .nil)))) (.cons (.decl n!"int" n!"i" (some (.int .i32 0)))
  (.cons (.for (.decl n!"auto" n!"field'" (some (.call (.member (.member (.name n!"message") n!"fields") n!"begin") .nil)))
  (.binary n!"!=" (.name n!"field'") (.call (.member (.member (.name n!"message") n!"fields") n!"end") .nil)) (.incr n!"++"
  true (.name n!"field'")) clearFunBody1) (.cons (.expr (.call (.member (.name n!"ctx") n!"printer") (.cons (.name
  n!"CODE_JSON__CLEAR__FOOTER") .nil))) .nil)))))⟩

theorem clearFun_text : Fun.of [] 60 (genText 336 354) = some clearFun := by decide +kernel

/-- The body of a loop. -/
def equalFunBody1 : Stmt := (.block (.cons (.decl n!"auto" n!"field" (some (.unary n!"*" (.name
  n!"field'")))) (.cons (.block (.cons (.expr (.call (.member (.name n!"ctx") n!"printer") (.cons (.name
  n!"CODE_JSON__EQUAL__ITEM") (.cons (.member (.name n!"field") n!"name") .nil)))) (.cons (.expr (.incr n!"++" true (.name
  n!"i"))) .nil))) .nil)))

/-- cppgen.cc:356-374 `generate_function__equal` -/
def equalFun : Fun := ⟨n!"static void", n!"generate_function__equal",
  [(n!"GeneratorContext &", n!"ctx"), (n!"const Message &", n!"message"), (n!"const std :: string &", n!"typeName")], (.cons
  (.ite (.binary n!"==" (.call (.member (.member (.name n!"message") n!"fields") n!"size") .nil) (.int .i32 0)) (.block
  (.cons (.expr (.call (.member (.name n!"ctx") n!"printer") (.cons (.name n!"CODE_JSON__EQUAL__EMPTY") (.cons (.name
  n!"typeName") .nil)))) (.cons (.ret none) .nil))) .skip) (.cons (.expr (.call (.member (.name n!"ctx") n!"printer") (.cons
  (.name n!"CODE_JSON__EQUAL__HEADER") (.cons (.name n!"typeName") .nil)))) (.cons (.decl n!"int" n!"i" (some (.int .i32 0)))
  (.cons (.for (.decl n!"auto" n!"field'" (some (.call (.member (.member (.name n!"message") n!"fields") n!"begin") .nil)))
  (.binary n!"!=" (.name n!"field'") (.call (.member (.member (.name n!"message") n!"fields") n!"end") .nil)) (.incr n!"++"
  true (.name n!"field'")) equalFunBody1) (.cons (.expr (.call (.member (.name n!"ctx") n!"printer") (.cons (.name
  n!"CODE_JSON__EQUAL__FOOTER") .nil))) .nil)))))⟩

theorem equalFun_text : Fun.of [] 60 (genText 356 374) = some equalFun := by decide +kernel

/-- The body of a loop. -/
def swapFunBody1 : Stmt := (.block (.cons (.decl n!"auto" n!"field" (some (.unary n!"*" (.name
  n!"field'")))) (.cons (.block (.cons (.expr (.call (.member (.name n!"ctx") n!"printer") (.cons (.name
  n!"CODE_JSON__SWAP__ITEM") (.cons (.member (.name n!"field") n!"name") .nil)))) (.cons (.expr (.incr n!"++" true (.name
  n!"i"))) .nil))) .nil)))

/-- cppgen.cc:376-394 `generate_function__swap` -/
def swapFun : Fun := ⟨n!"static void", n!"generate_function__swap",
  [(n!"GeneratorContext &", n!"ctx"), (n!"const Message &", n!"message"), (n!"const std :: string &", n!"typeName")], (.cons
  (.ite (.binary n!"==" (.call (.member (.member (.name n!"message") n!"fields") n!"size") .nil) (.int .i32 0)) (.block
  (.cons (.expr (.call (.member (.name n!"ctx") n!"printer") (.cons (.name n!"CODE_JSON__SWAP__EMPTY") (.cons (.name
  n!"typeName") .nil)))) (.cons (.ret none) .nil))) .skip) (.cons (.expr (.call (.member (.name n!"ctx") n!"printer") (.cons
  (.name n!"CODE_JSON__SWAP__HEADER") (.cons (.name n!"typeName") .nil)))) (.cons (.decl n!"int" n!"i" (some (.int .i32 0)))
  (.cons (.for (.decl n!"auto" n!"field'" (some (.call (.member (.member (.name n!"message") n!"fields") n!"begin") .nil)))
  (.binary n!"!=" (.name n!"field'") (.call (.member (.member (.name n!"message") n!"fields") n!"end") .nil)) (.incr n!"++"
  true (.name n!"field'")) swapFunBody1) (.cons (.expr (.call (.member (.name n!"ctx") n!"printer") (.cons (.name
  n!"CODE_JSON__SWAP__FOOTER") .nil))) .nil)))))⟩

theorem swapFun_text : Fun.of [] 60 (genText 376 394) = some swapFun := by decide +kernel

/-- The body of a loop. -/
def indexFunBody1 : Stmt := (.block (.cons (.decl n!"auto" n!"field" (some (.unary n!"*" (.name
  n!"field'")))) (.cons (.block (.cons (.ite (.call (.name n!"is_transient") (.cons (.name n!"field") .nil)) .continue .skip)
  (.cons (.decl n!"auto" n!"name" (some (.call (.name n!"get_json_name") (.cons (.name n!"field") .nil)))) (.cons (.decl
  n!"std :: string" n!"label" (some (.cond (.member (.name n!"ctx") n!"number_names") (.call (.qual [n!"std", n!"to_string"])
  (.cons (.member (.name n!"field") n!"index") .nil)) (.name n!"name")))) (.cons (.ite (.member (.name n!"ctx")
  n!"obfuscate_strings") (.expr (.assign (.name n!"label") (.call (.name n!"obfuscate") (.cons (.name n!"label") .nil))))
  .skip) (.cons (.expr (.call (.member (.name n!"ctx") n!"printer") (.cons (.name n!"CODE_JSON__INDEX__ITEM") (.cons (.name
  n!"label") (.cons (.name n!"i") .nil))))) (.cons (.expr (.incr n!"++" true (.name n!"i"))) .nil))))))) .nil)))

/-- cppgen.cc:396-424 `generate_function__index` -/
def indexFun : Fun := ⟨n!"static void", n!"generate_function__index",
  [(n!"GeneratorContext &", n!"ctx"), (n!"const Message &", n!"message"), (n!"bool", n!"is_persistent")], (.cons (.ite
  (.binary n!"||" (.binary n!"==" (.call (.member (.member (.name n!"message") n!"fields") n!"size") .nil) (.int .i32 0))
  (.unary n!"!" (.name n!"is_persistent"))) (.block (.cons (.expr (.call (.member (.name n!"ctx") n!"printer") (.cons (.name
  n!"CODE_JSON__INDEX__EMPTY") .nil))) (.cons (.ret none) .nil))) .skip) (.cons (.ite (.member (.name n!"ctx")
  n!"obfuscate_strings") (.expr (.call (.member (.name n!"ctx") n!"printer") (.cons (.name n!"CODE_JSON__INDEX__HEADER_OBF")
  .nil))) (.expr (.call (.member (.name n!"ctx") n!"printer") (.cons (.name n!"CODE_JSON__INDEX__HEADER") .nil)))) (.cons
  (.decl n!"int" n!"i" (some (.int .i32 0))) (.cons (.for (.decl n!"auto" n!"field'" (some (.call (.member (.member (.name
  n!"message") n!"fields") n!"begin") .nil))) (.binary n!"!=" (.name n!"field'") (.call (.member (.member (.name n!"message")
  n!"fields") n!"end") .nil)) (.incr n!"++" true (.name n!"field'")) indexFunBody1) (.cons (.expr (.call (.member (.name
  n!"ctx") n!"printer") (.cons (.name n!"CODE_JSON__INDEX__FOOTER") .nil))) .nil)))))⟩

theorem indexFun_text : Fun.of [] 60 (genText 396 424) = some indexFun := by decide +kernel

/-- The body of a loop. -/
def wrapperFunBody1 : Stmt := (.block (.cons (.decl n!"auto" n!"field" (some (.unary n!"*" (.name
  n!"field'")))) (.cons (.block (.cons (.ite (.unary n!"!" (.call (.name n!"is_transient") (.cons (.name n!"field") .nil)))
  (.block (.cons (.expr (.assign (.name n!"is_persistent") (.name n!"true"))) (.cons .break .nil))) .skip) .nil)) .nil)))

/-- cppgen.cc:426-449 `generateModelWrapper` -/
def wrapperFun : Fun := ⟨n!"static void", n!"generateModelWrapper",
  [(n!"GeneratorContext &", n!"ctx"), (n!"const Message &", n!"message")], (.cons (.decl n!"std :: string" n!"typeName" (some
  (.binary n!"+" (.binary n!"+" (.binary n!"+" (.call (.name n!"nativePackage") (.cons (.member (.name n!"message")
  n!"package") .nil)) (.str [58, 58])) (.member (.name n!"message") n!"name")) (.str [95, 116, 121, 112, 101])))) (.cons
  (.decl n!"bool" n!"is_persistent" (some (.name n!"false"))) (.cons (.for (.decl n!"auto" n!"field'" (some (.call (.member
  (.member (.name n!"message") n!"fields") n!"begin") .nil))) (.binary n!"!=" (.name n!"field'") (.call (.member (.member
  (.name n!"message") n!"fields") n!"end") .nil)) (.incr n!"++" true (.name n!"field'")) wrapperFunBody1) (.cons (.expr
  (.call (.member (.name n!"ctx") n!"printer") (.cons (.name n!"CODE_JSON_MODEL__HEADER") (.cons (.name
  n!"PROTOGEN_VERSION_NAMING") (.cons (.name n!"typeName") .nil))))) (.cons (.expr (.call (.name
  n!"generate_function__read_field") (.cons (.name n!"ctx") (.cons (.name n!"message") (.cons (.name n!"typeName") (.cons
  (.name n!"is_persistent") .nil)))))) (.cons (.expr (.call (.name n!"generate_function__write") (.cons (.name n!"ctx")
  (.cons (.name n!"message") (.cons (.name n!"typeName") (.cons (.name n!"is_persistent") .nil)))))) (.cons (.expr (.call
  (.name n!"generate_function__empty") (.cons (.name n!"ctx") (.cons (.name n!"message") (.cons (.name n!"typeName")
  .nil))))) (.cons (.expr (.call (.name n!"generate_function__clear") (.cons (.name n!"ctx") (.cons (.name n!"message")
  (.cons (.name n!"typeName") .nil))))) (.cons (.expr (.call (.name n!"generate_function__equal") (.cons (.name n!"ctx")
  (.cons (.name n!"message") (.cons (.name n!"typeName") .nil))))) (.cons (.expr (.call (.name n!"generate_function__swap")
  (.cons (.name n!"ctx") (.cons (.name n!"message") (.cons (.name n!"typeName") .nil))))) (.cons (.expr (.call (.name
  n!"generate_function__index") (.cons (.name n!"ctx") (.cons (.name n!"message") (.cons (.name n!"is_persistent") .nil)))))
  (.cons (.expr (.call (.member (.name n!"ctx") n!"printer") (.cons (.name n!"CODE_JSON_MODEL__FOOTER") (.cons (.name
  n!"PROTOGEN_VERSION_NAMING") .nil)))) .nil))))))))))))⟩

theorem wrapperFun_text : Fun.of [] 60 (genText 426 449) = some wrapperFun := by decide +kernel

/-- cppgen.cc:451-457 `generateEntity` -/
def entityFun : Fun := ⟨n!"static void", n!"generateEntity",
  [(n!"GeneratorContext &", n!"ctx"), (n!"const Message &", n!"message")], (.cons (.decl n!"std :: string" n!"originalType"
  (some (.binary n!"+" (.binary n!"+" (.binary n!"+" (.call (.name n!"nativePackage") (.cons (.member (.name n!"message")
  n!"package") .nil)) (.str [58, 58])) (.member (.name n!"message") n!"name")) (.str [95, 116, 121, 112, 101])))) (.cons
  (.expr (.call (.name n!"generateNamespace") (.cons (.name n!"ctx") (.cons (.name n!"message") (.cons (.name n!"true")
  .nil))))) (.cons (.expr (.call (.member (.name n!"ctx") n!"printer") (.cons (.name n!"CODE_ENTITY") (.cons (.member (.name
  n!"message") n!"name") (.cons (.name n!"originalType") (.cons (.name n!"PROTOGEN_VERSION_NAMING") .nil)))))) (.cons (.expr
  (.call (.name n!"generateNamespace") (.cons (.name n!"ctx") (.cons (.name n!"message") (.cons (.name n!"false") .nil)))))
  .nil))))⟩

theorem entityFun_text : Fun.of [] 60 (genText 451 457) = some entityFun := by decide +kernel

/-- cppgen.cc:459-463 `generateEntityWrapper` -/
def entityWrapperFun : Fun := ⟨n!"static void", n!"generateEntityWrapper",
  [(n!"GeneratorContext &", n!"ctx"), (n!"const Message &", n!"message")], (.cons (.decl n!"std :: string" n!"typeName" (some
  (.binary n!"+" (.binary n!"+" (.call (.name n!"nativePackage") (.cons (.member (.name n!"message") n!"package") .nil))
  (.str [58, 58])) (.member (.name n!"message") n!"name")))) (.cons (.expr (.call (.member (.name n!"ctx") n!"printer")
  (.cons (.name n!"CODE_ENTITY_JSON") (.cons (.name n!"typeName") (.cons (.binary n!"+" (.name n!"typeName") (.str [95, 116,
  121, 112, 101])) (.cons (.name n!"PROTOGEN_VERSION_NAMING") .nil)))))) .nil))⟩

theorem entityWrapperFun_text : Fun.of [] 60 (genText 459 463) = some entityWrapperFun := by decide +kernel

/-- cppgen.cc:465-480 `generateMessage` -/
def messageFun : Fun := ⟨n!"static void", n!"generateMessage",
  [(n!"GeneratorContext &", n!"ctx"), (n!"const Message &", n!"message")], (.cons (.ite (.binary n!">" (.call (.member
  (.member (.name n!"message") n!"fields") n!"size") .nil) (.qual [n!"protogen", n!"CppGenerator", n!"MAX_FIELDS"])) (.expr
  (.call (.name n!"throw") (.cons (.call (.qual [n!"protogen", n!"exception"]) (.cons (.binary n!"+" (.binary n!"+" (.binary
  n!"+" (.binary n!"+" (.str [109, 111, 114, 101, 32, 116, 104, 97, 110, 32]) (.call (.qual [n!"std", n!"to_string"]) (.cons
  (.qual [n!"protogen", n!"CppGenerator", n!"MAX_FIELDS"]) .nil))) (.str [32, 102, 105, 101, 108, 100, 115, 32, 105, 110, 32,
  109, 101, 115, 115, 97, 103, 101, 32, 39])) (.member (.name n!"message") n!"name")) (.str [39])) .nil)) .nil))) .skip)
  (.cons (.expr (.call (.member (.name n!"ctx") n!"printer") (.cons (.str [10, 47, 47, 10, 47, 47, 32, 36, 49, 36, 10, 47,
  47, 10]) (.cons (.member (.name n!"message") n!"name") .nil)))) (.cons (.expr (.call (.name n!"generateModel") (.cons
  (.name n!"ctx") (.cons (.name n!"message") .nil)))) (.cons (.expr (.call (.name n!"generateModelWrapper") (.cons (.name
  n!"ctx") (.cons (.name n!"message") .nil)))) (.cons (.expr (.call (.name n!"generateEntity") (.cons (.name n!"ctx") (.cons
  (.name n!"message") .nil)))) (.cons (.expr (.call (.name n!"generateEntityWrapper") (.cons (.name n!"ctx") (.cons (.name
  n!"message") .nil)))) .nil))))))⟩

theorem messageFun_text : Fun.of [] 60 (genText 465 480) = some messageFun := by decide +kernel

/-- The body of a loop. -/
def guardFunBody1 : Stmt := (.block (.cons (.ite (.binary n!"||" (.binary n!"||" (.binary n!"||"
  (.binary n!"&&" (.binary n!">=" (.unary n!"*" (.name n!"it")) (.chr 65)) (.binary n!"<=" (.unary n!"*" (.name n!"it"))
  (.chr 90))) (.binary n!"&&" (.binary n!">=" (.unary n!"*" (.name n!"it")) (.chr 97)) (.binary n!"<=" (.unary n!"*" (.name
  n!"it")) (.chr 122)))) (.binary n!"&&" (.binary n!">=" (.unary n!"*" (.name n!"it")) (.chr 48)) (.binary n!"<=" (.unary
  n!"*" (.name n!"it")) (.chr 57)))) (.binary n!"==" (.unary n!"*" (.name n!"it")) (.chr 95))) (.expr (.update n!"+" (.name
  n!"out") (.unary n!"*" (.name n!"it")))) (.expr (.update n!"+" (.name n!"out") (.chr 95)))) .nil))

/-- cppgen.cc:482-496 `makeGuard` -/
def guardFun : Fun := ⟨n!"static std :: string", n!"makeGuard",
  [(n!"const std :: string &", n!"fileName")], (.cons (.decl n!"std :: string" n!"out" (some (.str [71, 85, 65, 82, 68,
  95]))) (.cons (.for (.decl n!"auto" n!"it" (some (.call (.member (.name n!"fileName") n!"begin") .nil))) (.binary n!"!="
  (.name n!"it") (.call (.member (.name n!"fileName") n!"end") .nil)) (.incr n!"++" true (.name n!"it")) guardFunBody1)
  (.cons (.ret (some (.name n!"out"))) .nil)))⟩

theorem guardFun_text : Fun.of [] 60 (genText 482 496) = some guardFun := by decide +kernel

/-- The body of a loop. -/
def containsFunBody1 : Stmt := (.ite (.binary n!"==" (.index (.name n!"items") (.name
  n!"current'")) (.name n!"message")) (.ret (some (.name n!"true"))) .skip)

/-- cppgen.cc:501-507 `contains` -/
def containsFun : Fun := ⟨n!"static bool", n!"contains", [(n!"const MessageList &",
  n!"items"), (n!"const std :: shared_ptr < protogen :: Message > &", n!"message")], (.cons (.for (.decl n!"size_t"
  n!"current'" (some (.int .i32 0))) (.binary n!"!=" (.name n!"current'") (.call (.member (.name n!"items") n!"size") .nil))
  (.incr n!"++" true (.name n!"current'")) containsFunBody1) (.cons (.ret (some (.name n!"false"))) .nil))⟩

theorem containsFun_text : Fun.of [] 60 (genText 501 507) = some containsFun := by decide +kernel

/-- The body of a loop. -/
def sortFunBody1 : Stmt := (.block (.cons (.ite (.binary n!"&&" (.binary n!"!=" (.member (.member
  (.index (.member (.name n!"message") n!"fields") (.name n!"field'")) n!"type") n!"ref") (.name n!"nullptr")) (.unary n!"!"
  (.call (.name n!"contains") (.cons (.name n!"output") (.cons (.member (.member (.index (.member (.name n!"message")
  n!"fields") (.name n!"field'")) n!"type") n!"ref") .nil))))) (.expr (.call (.name n!"sort") (.cons (.name n!"output")
  (.cons (.name n!"pending") (.cons (.member (.member (.index (.member (.name n!"message") n!"fields") (.name n!"field'"))
  n!"type") n!"ref") .nil))))) .skip) .nil))

/-- cppgen.cc:509-525 `sort` for a message -/
def sortFun : Fun := ⟨n!"static void", n!"sort", [(n!"MessageList &",
  n!"output"), (n!"MessageSet &", n!"pending"), (n!"std :: shared_ptr < protogen :: Message >", n!"message")], (.cons (.ite
  (.binary n!">" (.call (.member (.name n!"pending") n!"count") (.cons (.name n!"message") .nil)) (.int .i32 0)) (.expr
  (.call (.name n!"throw") (.cons (.call (.name n!"exception") (.cons (.binary n!"+" (.binary n!"+" (.str [99, 105, 114, 99,
  117, 108, 97, 114, 32, 114, 101, 102, 101, 114, 101, 110, 99, 101, 32, 119, 105, 116, 104, 32, 39]) (.member (.name
  n!"message") n!"name")) (.str [39])) .nil)) .nil))) .skip) (.cons (.ite (.call (.name n!"contains") (.cons (.name
  n!"output") (.cons (.name n!"message") .nil))) (.ret none) .skip) (.cons (.expr (.call (.member (.name n!"pending")
  n!"insert") (.cons (.name n!"message") .nil))) (.cons (.for (.decl n!"size_t" n!"field'" (some (.int .i32 0))) (.binary
  n!"!=" (.name n!"field'") (.call (.member (.member (.name n!"message") n!"fields") n!"size") .nil)) (.incr n!"++" true
  (.name n!"field'")) sortFunBody1) (.cons (.expr (.call (.member (.name n!"pending") n!"erase") (.cons (.name n!"message")
  .nil))) (.cons (.expr (.call (.member (.name n!"output") n!"push_back") (.cons (.name n!"message") .nil))) .nil))))))⟩

theorem sortFun_text : Fun.of [] 60 (genText 509 525) = some sortFun := by decide +kernel

/-- The body of a loop. -/
def sortAllFunBody1 : Stmt := (.expr (.call (.name n!"sort") (.cons (.name n!"messages") (.cons
  (.name n!"pending") (.cons (.index (.member (.member (.name n!"ctx") n!"root") n!"messages") (.name n!"message'"))
  .nil)))))

/-- cppgen.cc:527-535 `sort` -/
def sortAllFun : Fun := ⟨n!"static void", n!"sort", [(n!"GeneratorContext &", n!"ctx")],
  (.cons (.decl n!"std :: vector < std :: shared_ptr < protogen :: Message > >" n!"messages" none) (.cons (.decl
  n!"std :: unordered_set < std :: shared_ptr < protogen :: Message > >" n!"pending" none) (.cons (.for (.decl n!"size_t"
  n!"message'" (some (.int .i32 0))) (.binary n!"!=" (.name n!"message'") (.call (.member (.member (.member (.name n!"ctx")
  n!"root") n!"messages") n!"size") .nil)) (.incr n!"++" true (.name n!"message'")) sortAllFunBody1) (.cons (.expr (.call
  (.member (.member (.member (.name n!"ctx") n!"root") n!"messages") n!"swap") (.cons (.name n!"messages") .nil))) .nil))))⟩

theorem sortAllFun_text : Fun.of [] 60 (genText 527 535) = some sortAllFun := by decide +kernel

/-- The body of a loop. -/
def inclusionsFunBody1 : Stmt := (.block (.cons (.ite (.member (.member (.index (.member (.index
  (.member (.member (.name n!"ctx") n!"root") n!"messages") (.name n!"message'")) n!"fields") (.name n!"field'")) n!"type")
  n!"repeated") (.block (.cons (.ite (.binary n!"==" (.member (.member (.index (.member (.index (.member (.member (.name
  n!"ctx") n!"root") n!"messages") (.name n!"message'")) n!"fields") (.name n!"field'")) n!"type") n!"id") (.qual
  [n!"protogen", n!"TYPE_BYTES"])) (.expr (.assign (.name n!"has_base64") (.name n!"true"))) .skip) (.cons (.expr (.assign
  (.name n!"has_array") (.name n!"true"))) .nil))) .skip) (.cons (.ite (.binary n!"==" (.member (.member (.index (.member
  (.index (.member (.member (.name n!"ctx") n!"root") n!"messages") (.name n!"message'")) n!"fields") (.name n!"field'"))
  n!"type") n!"id") (.qual [n!"protogen", n!"TYPE_STRING"])) (.expr (.assign (.name n!"has_string") (.name n!"true"))) (.ite
  (.binary n!"&&" (.binary n!">=" (.member (.member (.index (.member (.index (.member (.member (.name n!"ctx") n!"root")
  n!"messages") (.name n!"message'")) n!"fields") (.name n!"field'")) n!"type") n!"id") (.qual [n!"protogen",
  n!"TYPE_DOUBLE"])) (.binary n!"<=" (.member (.member (.index (.member (.index (.member (.member (.name n!"ctx") n!"root")
  n!"messages") (.name n!"message'")) n!"fields") (.name n!"field'")) n!"type") n!"id") (.qual [n!"protogen",
  n!"TYPE_BOOL"]))) (.expr (.assign (.name n!"has_number") (.name n!"true"))) .skip)) (.cons (.ite (.binary n!"&&" (.binary
  n!"&&" (.binary n!"&&" (.name n!"has_array") (.name n!"has_base64")) (.name n!"has_string")) (.name n!"has_number")) .break
  .skip) .nil))))

/-- The body of a loop. -/
def inclusionsFunBody2 : Stmt := (.block (.cons (.for (.decl n!"size_t" n!"field'" (some (.int
  .i32 0))) (.binary n!"!=" (.name n!"field'") (.call (.member (.member (.index (.member (.member (.name n!"ctx") n!"root")
  n!"messages") (.name n!"message'")) n!"fields") n!"size") .nil)) (.incr n!"++" true (.name n!"field'")) inclusionsFunBody1)
  .nil))

/-- cppgen.cc:537-576 `generateInclusions` -/
def inclusionsFun : Fun := ⟨n!"static void", n!"generateInclusions",
  [(n!"GeneratorContext &", n!"ctx")], (.cons (.decl n!"bool" n!"has_array" (some (.name n!"false"))) (.cons (.decl n!"bool"
  n!"has_base64" (some (.name n!"false"))) (.cons (.decl n!"bool" n!"has_string" (some (.name n!"false"))) (.cons (.decl
  n!"bool" n!"has_number" (some (.name n!"false"))) (.cons (.for (.decl n!"size_t" n!"message'" (some (.int .i32 0)))
  (.binary n!"!=" (.name n!"message'") (.call (.member (.member (.member (.name n!"ctx") n!"root") n!"messages") n!"size")
  .nil)) (.incr n!"++" true (.name n!"message'")) inclusionsFunBody2) (.cons (.expr (.call (.member (.name n!"ctx")
  n!"printer") (.cons (.name n!"GENERATED__protogen_hh") .nil))) (.cons (.expr (.call (.member (.name n!"ctx") n!"printer")
  (.cons (.name n!"GENERATED__json_hh") .nil))) (.cons (.ite (.name n!"has_array") (.expr (.call (.member (.name n!"ctx")
  n!"printer") (.cons (.name n!"GENERATED__json_array_hh") .nil))) .skip) (.cons (.ite (.name n!"has_base64") (.expr (.call
  (.member (.name n!"ctx") n!"printer") (.cons (.name n!"GENERATED__json_base___hh") .nil))) .skip) (.cons (.ite (.name
  n!"has_number") (.expr (.call (.member (.name n!"ctx") n!"printer") (.cons (.name n!"GENERATED__json_number_hh") .nil)))
  .skip) (.cons (.ite (.name n!"has_string") (.expr (.call (.member (.name n!"ctx") n!"printer") (.cons (.name
  n!"GENERATED__json_string_hh") .nil))) .skip) .nil)))))))))))⟩

theorem inclusionsFun_text : Fun.of [] 60 (genText 537 576) = some inclusionsFun := by decide +kernel

/-- The body of a loop. -/
def fileFunBody1 : Stmt := (.expr (.call (.name n!"generateMessage") (.cons (.name n!"ctx")
  (.cons (.unary n!"*" (.index (.member (.member (.name n!"ctx") n!"root") n!"messages") (.name n!"message'"))) .nil))))

/-- cppgen.cc:578-590 `generateModel` -/
def fileFun : Fun := ⟨n!"static void", n!"generateModel", [(n!"GeneratorContext &",
  n!"ctx")], (.cons (.decl n!"std :: string" n!"guard" (some (.call (.name n!"makeGuard") (.cons (.member (.member (.name
  n!"ctx") n!"root") n!"fileName") .nil)))) (.cons (.expr (.call (.member (.name n!"ctx") n!"printer") (.cons (.name
  n!"CODE_HEADER") (.cons (.name n!"PROTOGEN_VERSION") (.cons (.member (.member (.name n!"ctx") n!"root") n!"fileName")
  (.cons (.name n!"guard") .nil)))))) (.cons (.expr (.call (.name n!"sort") (.cons (.name n!"ctx") .nil))) (.cons (.for
  (.decl n!"size_t" n!"message'" (some (.int .i32 0))) (.binary n!"!=" (.name n!"message'") (.call (.member (.member (.member
  (.name n!"ctx") n!"root") n!"messages") n!"size") .nil)) (.incr n!"++" true (.name n!"message'")) fileFunBody1) (.cons
  (.expr (.call (.member (.name n!"ctx") n!"printer") (.cons (.str [35, 101, 110, 100, 105, 102, 32, 47, 47, 32, 36, 49, 36,
  10]) (.cons (.name n!"guard") .nil)))) .nil)))))⟩

theorem fileFun_text : Fun.of [] 60 (genText 578 590) = some fileFun := by decide +kernel

/-- cppgen.cc:592-603 `CppGenerator::generate` -/
def generateFun : Fun := ⟨n!"void CppGenerator ::", n!"generate",
  [(n!"Proto3 &", n!"root"), (n!"std :: ostream &", n!"out")], (.cons (.made n!"Printer" n!"printer" (.cons (.name n!"out")
  .nil)) (.cons (.made n!"GeneratorContext" n!"ctx" (.cons (.name n!"printer") (.cons (.name n!"root") .nil))) (.cons (.expr
  (.assign (.member (.name n!"ctx") n!"obfuscate_strings") (.call (.name n!"get_option") (.cons (.member (.member (.name
  n!"ctx") n!"root") n!"options") (.cons (.name n!"PROTOGEN_O_OBFUSCATE_STRINGS") (.cons (.name n!"false") .nil)))))) (.cons
  (.expr (.assign (.member (.name n!"ctx") n!"cpp_use_lists") (.call (.name n!"get_option") (.cons (.member (.member (.name
  n!"ctx") n!"root") n!"options") (.cons (.name n!"PROTOGEN_O_CPP_USE_LISTS") (.cons (.name n!"false") .nil)))))) (.cons
  (.expr (.assign (.member (.name n!"ctx") n!"number_names") (.call (.name n!"get_option") (.cons (.member (.member (.name
  n!"ctx") n!"root") n!"options") (.cons (.name n!"PROTOGEN_O_NUMBER_NAMES") (.cons (.name n!"false") .nil)))))) (.cons
  (.expr (.call (.name n!"generateInclusions") (.cons (.name n!"ctx") .nil))) (.cons (.expr (.call (.name n!"generateModel")
  (.cons (.name n!"ctx") .nil))) .nil)))))))⟩

theorem generateFun_text : Fun.of [] 60 (genText 592 603) = some generateFun := by decide +kernel

/-- The body of a loop. -/
def printFunBody1 : Stmt := (.block (.cons (.ite (.binary n!"==" (.unary n!"*" (.name n!"ptr"))
  (.chr 36)) (.block (.cons (.decl n!"const char *" n!"end" (some (.call (.name n!"strchr") (.cons (.binary n!"+" (.name
  n!"ptr") (.int .i32 1)) (.cons (.chr 36) .nil))))) (.cons (.ite (.binary n!"==" (.name n!"end") (.name n!"nullptr")) (.ret
  none) .skip) (.cons (.decl n!"char *" n!"last" (some (.name n!"nullptr"))) (.cons (.decl n!"int" n!"index" (some (.binary
  n!"-" (.cast n!"int" (.call (.name n!"strtol") (.cons (.binary n!"+" (.name n!"ptr") (.int .i32 1)) (.cons (.unary n!"&"
  (.name n!"last")) (.cons (.int .i32 10) .nil))))) (.int .i32 1)))) (.cons (.ite (.binary n!"!=" (.name n!"last") (.name
  n!"end")) (.ret none) .skip) (.cons (.expr (.assign (.name n!"ptr") (.binary n!"+" (.name n!"end") (.int .i32 1)))) (.cons
  (.ite (.binary n!"||" (.binary n!"<" (.name n!"index") (.int .i32 0)) (.binary n!">=" (.name n!"index") (.cast n!"int"
  (.call (.member (.name n!"vars") n!"size") .nil)))) .continue .skip) (.cons (.expr (.binary n!"<<" (.name n!"out") (.index
  (.name n!"vars") (.name n!"index")))) (.cons .continue .nil)))))))))) .skip) (.cons (.ite (.binary n!"==" (.unary n!"*"
  (.name n!"ptr")) (.chr 9)) (.expr (.binary n!"<<" (.name n!"out") (.str [32, 32, 32, 32]))) (.ite (.binary n!"!=" (.unary
  n!"*" (.name n!"ptr")) (.chr 8)) (.expr (.binary n!"<<" (.name n!"out") (.unary n!"*" (.name n!"ptr")))) .skip)) (.cons
  (.expr (.incr n!"++" true (.name n!"ptr"))) .nil))))

/-- printer.cc:39-66 `Printer::print` -/
def printFun : Fun := ⟨n!"void Printer ::", n!"print", [(n!"std :: ostream &",
  n!"out"), (n!"const char *", n!"format"), (n!"const std :: vector < std :: string > &", n!"vars")], (.cons (.decl
  n!"const char *" n!"ptr" (some (.name n!"format"))) (.cons (.while (.binary n!"!=" (.unary n!"*" (.name n!"ptr")) (.int
  .i32 0)) printFunBody1) .nil))⟩

theorem printFun_text : Fun.of [] 60 (printText 39 66) = some printFun := by decide +kernel

end PG.Cxx.Maker
