import Verif.Spec.Cxx
import Verif.Model.HeaderTxt
/-
The functions of the small classes of protogen.hh as syntax trees, and that they are what the text of the runtime is parsed to.
-/
set_option autoImplicit false
namespace PG.Cxx
open PG.Gen

/-- protogen.hh:60-60 `ErrorInfo()` -/
def errNewFun : Fun := ⟨n!"", n!"ErrorInfo", [], (.cons (.expr (.assign (.member
  (.name n!"this") n!"code") (.qual [n!"error_code", n!"PGERR_OK"]))) (.cons (.expr (.assign (.member (.name n!"this")
  n!"line") (.int .i32 0))) (.cons (.expr (.assign (.member (.name n!"this") n!"column") (.int .i32 0))) .nil)))⟩

theorem errNewFun_text : Fun.of [] 60 (slice protogenLines 60 60) = some errNewFun := by decide +kernel

/-- protogen.hh:61-62 `ErrorInfo(code, message)` -/
def errNew2Fun : Fun := ⟨n!"", n!"ErrorInfo", [(n!"error_code",
  n!"code"), (n!"const std :: string &", n!"message")], (.cons (.expr (.assign (.member (.name n!"this") n!"code") (.name
  n!"code"))) (.cons (.expr (.assign (.member (.name n!"this") n!"message") (.name n!"message"))) .nil))⟩

theorem errNew2Fun_text : Fun.of [] 60 (slice protogenLines 61 62) = some errNew2Fun := by decide +kernel

/-- protogen.hh:63-64 `ErrorInfo(code, message, line, column)` -/
def errNew4Fun : Fun := ⟨n!"", n!"ErrorInfo",
  [(n!"error_code", n!"code"), (n!"const std :: string &", n!"message"), (n!"int", n!"line"), (n!"int", n!"column")], (.cons
  (.expr (.assign (.member (.name n!"this") n!"code") (.name n!"code"))) (.cons (.expr (.assign (.member (.name n!"this")
  n!"message") (.name n!"message"))) (.cons (.expr (.assign (.member (.name n!"this") n!"line") (.name n!"line"))) (.cons
  (.expr (.assign (.member (.name n!"this") n!"column") (.name n!"column"))) .nil))))⟩

theorem errNew4Fun_text : Fun.of [] 60 (slice protogenLines 63 64) = some errNew4Fun := by decide +kernel

/-- protogen.hh:67-70 conversion of `ErrorInfo` to `bool` -/
def errBoolFun : Fun := ⟨n!"bool", n!"operator", [], (.cons
  (.ret (some (.binary n!"==" (.name n!"code") (.qual [n!"error_code", n!"PGERR_OK"])))) .nil)⟩

theorem errBoolFun_text : Fun.of [] 60 (slice protogenLines 67 70) = some errBoolFun := by decide +kernel

/-- protogen.hh:71-74 `operator==` for a code -/
def errEqCodeFun : Fun := ⟨n!"bool", n!"operator==", [(n!"error_code",
  n!"value")], (.cons (.ret (some (.binary n!"==" (.name n!"code") (.name n!"value")))) .nil)⟩

theorem errEqCodeFun_text : Fun.of [] 60 (slice protogenLines 71 74) = some errEqCodeFun := by decide +kernel

/-- protogen.hh:75-78 `operator==` for an `ErrorInfo` -/
def errEqFun : Fun := ⟨n!"bool", n!"operator==",
  [(n!"const ErrorInfo &", n!"that")], (.cons (.ret (some (.binary n!"&&" (.binary n!"&&" (.binary n!"==" (.name n!"code")
  (.member (.name n!"that") n!"code")) (.binary n!"==" (.name n!"line") (.member (.name n!"that") n!"line"))) (.binary n!"=="
  (.name n!"column") (.member (.name n!"that") n!"column"))))) .nil)⟩

theorem errEqFun_text : Fun.of [] 60 (slice protogenLines 75 78) = some errEqFun := by decide +kernel

/-- protogen.hh:80-85 `ErrorInfo::clear` -/
def errClearFun : Fun := ⟨n!"void", n!"clear", [], (.cons (.expr (.assign (.name
  n!"code") (.qual [n!"error_code", n!"PGERR_OK"]))) (.cons (.expr (.call (.member (.name n!"message") n!"clear") .nil))
  (.cons (.expr (.assign (.name n!"line") (.assign (.name n!"column") (.int .i32 0)))) .nil)))⟩

theorem errClearFun_text : Fun.of [] 60 (slice protogenLines 80 85) = some errClearFun := by decide +kernel

/-- protogen.hh:110-114 `ostream::operator<<` for numbers -/
def outNumberFun : Fun := ⟨n!"ostream &", n!"operator<<",
  [(n!"T", n!"value")], (.cons (.expr (.call (.member (.name n!"this") n!"operator<<") (.cons (.call (.qual [n!"std",
  n!"to_string"]) (.cons (.name n!"value") .nil)) .nil))) (.cons (.ret (some (.unary n!"*" (.name n!"this")))) .nil))⟩

theorem outNumberFun_text : Fun.of [] 60 (slice protogenLines 110 114) = some outNumberFun := by decide +kernel

/-- protogen.hh:121-123 the constructor of `iterator_ostream` -/
def outNewFun : Fun := ⟨n!"", n!"iterator_ostream",
  [(n!"I &", n!"first")], (.cons (.expr (.assign (.member (.name n!"this") n!"beg_") (.name n!"first"))) .nil)⟩

theorem outNewFun_text : Fun.of [] 60 (slice protogenLines 121 123) = some outNewFun := by decide +kernel

/-- protogen.hh:124-128 `operator<<` for a character -/
def outCharFun : Fun := ⟨n!"ostream &", n!"operator<<", [(n!"char",
  n!"value")], (.cons (.expr (.assign (.unary n!"*" (.incr n!"++" true (.name n!"beg_"))) (.name n!"value"))) (.cons (.ret
  (some (.unary n!"*" (.name n!"this")))) .nil))⟩

theorem outCharFun_text : Fun.of [] 60 (slice protogenLines 124 128) = some outCharFun := by decide +kernel

/-- The body of a loop. -/
def outStringFunBody1 : Stmt := (.expr (.assign (.unary n!"*" (.incr n!"++" true (.name
  n!"beg_"))) (.unary n!"*" (.name n!"it"))))

/-- protogen.hh:129-134 `operator<<` for a string -/
def outStringFun : Fun := ⟨n!"ostream &", n!"operator<<",
  [(n!"const std :: string &", n!"value")], (.cons (.for (.decl n!"auto" n!"it" (some (.call (.member (.name n!"value")
  n!"begin") .nil))) (.binary n!"!=" (.name n!"it") (.call (.member (.name n!"value") n!"end") .nil)) (.incr n!"++" true
  (.name n!"it")) outStringFunBody1) (.cons (.ret (some (.unary n!"*" (.name n!"this")))) .nil))⟩

theorem outStringFun_text : Fun.of [] 60 (slice protogenLines 129 134) = some outStringFun := by decide +kernel

/-- The body of a loop. -/
def outConstCharsFunBody1 : Stmt := (.expr (.assign (.unary n!"*" (.incr n!"++" true (.name
  n!"beg_"))) (.unary n!"*" (.incr n!"++" false (.name n!"value")))))

/-- protogen.hh:135-139 `operator<<` for constant characters -/
def outConstCharsFun : Fun := ⟨n!"ostream &",
  n!"operator<<", [(n!"const char *", n!"value")], (.cons (.while (.binary n!"!=" (.unary n!"*" (.name n!"value")) (.int .i32
  0)) outConstCharsFunBody1) (.cons (.ret (some (.unary n!"*" (.name n!"this")))) .nil))⟩

theorem outConstCharsFun_text : Fun.of [] 60 (slice protogenLines 135 139) = some outConstCharsFun := by decide +kernel

/-- protogen.hh:140-140 `operator<<` for characters -/
def outCharsFun : Fun := ⟨n!"ostream &", n!"operator<<",
  [(n!"char *", n!"value")], (.cons (.ret (some (.binary n!"<<" (.unary n!"*" (.name n!"this")) (.cast n!"const char *"
  (.name n!"value"))))) .nil)⟩

theorem outCharsFun_text : Fun.of [] 60 (slice protogenLines 140 140) = some outCharsFun := by decide +kernel

/-- protogen.hh:161-165 the constructor of `iterator_istream` -/
def inNewFun : Fun := ⟨n!"", n!"iterator_istream",
  [(n!"const I &", n!"first"), (n!"const I &", n!"last")], (.cons (.expr (.assign (.member (.name n!"this") n!"beg_") (.name
  n!"first"))) (.cons (.expr (.assign (.member (.name n!"this") n!"end_") (.name n!"last"))) (.cons (.expr (.assign (.member
  (.name n!"this") n!"line_") (.int .i32 1))) (.cons (.expr (.assign (.member (.name n!"this") n!"column_") (.int .i32 1)))
  (.cons (.expr (.call (.name n!"skip") .nil)) .nil)))))⟩

theorem inNewFun_text : Fun.of [] 60 (slice protogenLines 161 165) = some inNewFun := by decide +kernel

/-- protogen.hh:179-179 `line` -/
def inLineFun : Fun := ⟨n!"int", n!"line", [], (.cons (.ret (some (.name n!"line_")))
  .nil)⟩

theorem inLineFun_text : Fun.of [] 60 (slice protogenLines 179 179) = some inLineFun := by decide +kernel

/-- protogen.hh:180-180 `column` -/
def inColFun : Fun := ⟨n!"int", n!"column", [], (.cons (.ret (some (.name n!"column_")))
  .nil)⟩

theorem inColFun_text : Fun.of [] 60 (slice protogenLines 180 180) = some inColFun := by decide +kernel

/-- protogen.hh:200-202 the constructor of `mem_const_iterator` -/
def constNewFun : Fun := ⟨n!"", n!"mem_const_iterator",
  [(n!"const T *", n!"begin"), (n!"size_t", n!"count")], (.cons (.expr (.assign (.member (.name n!"this") n!"cursor") (.name
  n!"begin"))) (.cons (.expr (.assign (.member (.name n!"this") n!"end") (.binary n!"+" (.name n!"begin") (.name
  n!"count")))) (.cons (.expr (.assign (.member (.name n!"this") n!"empty") (.int .i32 0))) .nil)))⟩

theorem constNewFun_text : Fun.of [] 60 (slice protogenLines 200 202) = some constNewFun := by decide +kernel

/-- protogen.hh:203-207 `++` of `mem_const_iterator` -/
def constIncFun : Fun := ⟨n!"mem_const_iterator &", n!"operator++",
  [], (.cons (.ite (.binary n!"<" (.name n!"cursor") (.name n!"end")) (.expr (.incr n!"++" false (.name n!"cursor"))) .skip)
  (.cons (.ret (some (.unary n!"*" (.name n!"this")))) .nil))⟩

theorem constIncFun_text : Fun.of [] 60 (slice protogenLines 203 207) = some constIncFun := by decide +kernel

/-- protogen.hh:208-212 `*` of `mem_const_iterator` -/
def constStarFun : Fun := ⟨n!"const T &", n!"operator*", [], (.cons
  (.ite (.binary n!">=" (.name n!"cursor") (.name n!"end")) (.ret (some (.name n!"empty"))) .skip) (.cons (.ret (some (.unary
  n!"*" (.name n!"cursor")))) .nil))⟩

theorem constStarFun_text : Fun.of [] 60 (slice protogenLines 208 212) = some constStarFun := by decide +kernel

/-- protogen.hh:213-216 `==` of `mem_const_iterator` -/
def constEqFun : Fun := ⟨n!"bool", n!"operator==",
  [(n!"const mem_const_iterator < T > &", n!"that")], (.cons (.ret (some (.binary n!"==" (.name n!"cursor") (.member (.name
  n!"that") n!"cursor")))) .nil)⟩

theorem constEqFun_text : Fun.of [] 60 (slice protogenLines 213 216) = some constEqFun := by decide +kernel

/-- protogen.hh:228-230 the constructor of `mem_iterator` -/
def memNewFun : Fun := ⟨n!"", n!"mem_iterator", [(n!"T *",
  n!"begin"), (n!"size_t", n!"count")], (.cons (.expr (.assign (.member (.name n!"this") n!"cursor") (.name n!"begin")))
  (.cons (.expr (.assign (.member (.name n!"this") n!"end") (.binary n!"+" (.name n!"begin") (.name n!"count")))) (.cons
  (.expr (.assign (.member (.name n!"this") n!"empty") (.int .i32 0))) .nil)))⟩

theorem memNewFun_text : Fun.of [] 60 (slice protogenLines 228 230) = some memNewFun := by decide +kernel

/-- protogen.hh:231-235 `++` of `mem_iterator` -/
def memIncFun : Fun := ⟨n!"mem_iterator &", n!"operator++", [], (.cons
  (.ite (.binary n!"<" (.name n!"cursor") (.name n!"end")) (.expr (.incr n!"++" false (.name n!"cursor"))) .skip) (.cons
  (.ret (some (.unary n!"*" (.name n!"this")))) .nil))⟩

theorem memIncFun_text : Fun.of [] 60 (slice protogenLines 231 235) = some memIncFun := by decide +kernel

/-- protogen.hh:236-240 `*` of `mem_iterator` -/
def memStarFun : Fun := ⟨n!"T &", n!"operator*", [], (.cons (.ite (.binary
  n!">=" (.name n!"cursor") (.name n!"end")) (.ret (some (.name n!"empty"))) .skip) (.cons (.ret (some (.unary n!"*" (.name
  n!"cursor")))) .nil))⟩

theorem memStarFun_text : Fun.of [] 60 (slice protogenLines 236 240) = some memStarFun := by decide +kernel

/-- protogen.hh:241-244 `==` of `mem_iterator` -/
def memEqFun : Fun := ⟨n!"bool", n!"operator==",
  [(n!"const mem_iterator < T > &", n!"that")], (.cons (.ret (some (.binary n!"==" (.name n!"cursor") (.member (.name
  n!"that") n!"cursor")))) .nil)⟩

theorem memEqFun_text : Fun.of [] 60 (slice protogenLines 241 244) = some memEqFun := by decide +kernel

/-- protogen.hh:267-267 `token()` -/
def tokNewFun : Fun := ⟨n!"", n!"token", [], (.cons (.expr (.assign (.member (.name
  n!"this") n!"id") (.qual [n!"token_id", n!"NONE"]))) (.cons (.expr (.assign (.member (.name n!"this") n!"line") (.int .i32
  0))) (.cons (.expr (.assign (.member (.name n!"this") n!"column") (.int .i32 0))) .nil)))⟩

theorem tokNewFun_text : Fun.of [] 60 (slice protogenLines 267 267) = some tokNewFun := by decide +kernel

/-- protogen.hh:268-268 `token(const token&)` -/
def tokCopyFun : Fun := ⟨n!"", n!"token", [(n!"const token &", n!"that")],
  (.cons (.expr (.assign (.unary n!"*" (.name n!"this")) (.name n!"that"))) .nil)⟩

theorem tokCopyFun_text : Fun.of [] 60 (slice protogenLines 268 268) = some tokCopyFun := by decide +kernel

/-- protogen.hh:269-269 `token(token&&)` -/
def tokMoveFun : Fun := ⟨n!"", n!"token", [(n!"token &&", n!"that")], (.cons
  (.expr (.call (.name n!"swap") (.cons (.name n!"that") .nil))) .nil)⟩

theorem tokMoveFun_text : Fun.of [] 60 (slice protogenLines 269 269) = some tokMoveFun := by decide +kernel

/-- protogen.hh:270-271 `token(id, value, line, col)` -/
def tokNew4Fun : Fun := ⟨n!"", n!"token", [(n!"token_id", n!"id"),
  (n!"const std :: string &", n!"value"), (n!"int", n!"line"), (n!"int", n!"col")], (.cons (.expr (.assign (.member (.name
  n!"this") n!"id") (.name n!"id"))) (.cons (.expr (.assign (.member (.name n!"this") n!"value") (.name n!"value"))) (.cons
  (.expr (.assign (.member (.name n!"this") n!"line") (.name n!"line"))) (.cons (.expr (.assign (.member (.name n!"this")
  n!"column") (.name n!"col"))) .nil))))⟩

theorem tokNew4Fun_text : Fun.of [] 60 (slice protogenLines 270 271) = some tokNew4Fun := by decide +kernel

/-- protogen.hh:272-279 `operator=` of `token` -/
def tokAssignFun : Fun := ⟨n!"token &", n!"operator=",
  [(n!"const token &", n!"that")], (.cons (.expr (.assign (.name n!"id") (.member (.name n!"that") n!"id"))) (.cons (.expr
  (.assign (.name n!"value") (.member (.name n!"that") n!"value"))) (.cons (.expr (.assign (.name n!"line") (.member (.name
  n!"that") n!"line"))) (.cons (.expr (.assign (.name n!"column") (.member (.name n!"that") n!"column"))) (.cons (.ret (some
  (.unary n!"*" (.name n!"this")))) .nil)))))⟩

theorem tokAssignFun_text : Fun.of [] 60 (slice protogenLines 272 279) = some tokAssignFun := by decide +kernel

/-- protogen.hh:280-286 `token::swap` -/
def tokSwapFun : Fun := ⟨n!"void", n!"swap", [(n!"token &", n!"that")], (.cons
  (.expr (.call (.qual [n!"std", n!"swap"]) (.cons (.name n!"id") (.cons (.member (.name n!"that") n!"id") .nil)))) (.cons
  (.expr (.call (.member (.name n!"value") n!"swap") (.cons (.member (.name n!"that") n!"value") .nil))) (.cons (.expr (.call
  (.qual [n!"std", n!"swap"]) (.cons (.name n!"line") (.cons (.member (.name n!"that") n!"line") .nil)))) (.cons (.expr
  (.call (.qual [n!"std", n!"swap"]) (.cons (.name n!"column") (.cons (.member (.name n!"that") n!"column") .nil))))
  .nil))))⟩

theorem tokSwapFun_text : Fun.of [] 60 (slice protogenLines 280 286) = some tokSwapFun := by decide +kernel

/-- protogen.hh:292-295 the constructor of `tokenizer` -/
def lexNewFun : Fun := ⟨n!"", n!"tokenizer", [(n!"istream &",
  n!"input"), (n!"Parameters &", n!"params")], (.cons (.expr (.assign (.member (.name n!"this") n!"input_") (.name
  n!"input"))) (.cons (.expr (.assign (.member (.name n!"this") n!"error_") (.member (.name n!"params") n!"error"))) (.cons
  (.expr (.call (.name n!"next") .nil)) .nil)))⟩

theorem lexNewFun_text : Fun.of [] 60 (slice protogenLines 292 295) = some lexNewFun := by decide +kernel

/-- protogen.hh:297-297 `tokenizer::line` -/
def lexLineFun : Fun := ⟨n!"int", n!"line", [], (.cons (.ret (some (.call
  (.member (.name n!"input_") n!"line") .nil))) .nil)⟩

theorem lexLineFun_text : Fun.of [] 60 (slice protogenLines 297 297) = some lexLineFun := by decide +kernel

/-- protogen.hh:298-298 `tokenizer::column` -/
def lexColFun : Fun := ⟨n!"int", n!"column", [], (.cons (.ret (some (.call
  (.member (.name n!"input_") n!"column") .nil))) .nil)⟩

theorem lexColFun_text : Fun.of [] 60 (slice protogenLines 298 298) = some lexColFun := by decide +kernel

/-- protogen.hh:355-355 `tokenizer::peek` -/
def lexPeekFun : Fun := ⟨n!"token &", n!"peek", [], (.cons (.ret (some (.name
  n!"current_"))) .nil)⟩

theorem lexPeekFun_text : Fun.of [] 60 (slice protogenLines 355 355) = some lexPeekFun := by decide +kernel

/-- protogen.hh:375-378 `tokenizer::set_error` -/
def lexSetFun : Fun := ⟨n!"void", n!"set_error", [(n!"ErrorInfo &",
  n!"err")], (.cons (.expr (.assign (.name n!"error_") (.name n!"err"))) .nil)⟩

theorem lexSetFun_text : Fun.of [] 60 (slice protogenLines 375 378) = some lexSetFun := by decide +kernel

/-- protogen.hh:379-379 `tokenizer::ignore` -/
def lexIgnoreFun : Fun := ⟨n!"int", n!"ignore", [], (.cons (.ret (some (.call
  (.name n!"ignore_value") .nil))) .nil)⟩

theorem lexIgnoreFun_text : Fun.of [] 60 (slice protogenLines 379 379) = some lexIgnoreFun := by decide +kernel

/-- The body of a loop. -/
def lexKeyFunBody1 : Stmt := (.block (.cons (.decl n!"auto" n!"c" (some (.unary n!"*" (.name
  n!"c'")))) (.cons (.block (.cons (.ite (.binary n!"!=" (.call (.member (.name n!"input_") n!"peek") .nil) (.name n!"c"))
  (.ret (some (.name n!"false"))) .skip) (.cons (.expr (.call (.member (.name n!"input_") n!"next") .nil)) .nil))) .nil)))

/-- protogen.hh:512-520 `parse_keyword` -/
def lexKeyFun : Fun := ⟨n!"bool", n!"parse_keyword", [(n!"const std :: string &",
  n!"keyword")], (.cons (.for (.decl n!"auto" n!"c'" (some (.call (.member (.name n!"keyword") n!"begin") .nil))) (.binary
  n!"!=" (.name n!"c'") (.call (.member (.name n!"keyword") n!"end") .nil)) (.incr n!"++" true (.name n!"c'"))
  lexKeyFunBody1) (.cons (.ret (some (.name n!"true"))) .nil))⟩

theorem lexKeyFun_text : Fun.of [] 60 (slice protogenLines 512 520) = some lexKeyFun := by decide +kernel

end PG.Cxx
