import Verif.Spec.CxxDriver
/-
`main` of main.cc and `exception::what` as syntax trees, and that they are what the texts are parsed to.
-/
set_option autoImplicit false
namespace PG.Cxx.Tools
open PG.Gen

/-- The body of a loop. -/
def driverFunBody1 : Stmt := (.block (.cons (.expr (.call (.qual [n!"std", n!"sort"]) (.cons
  (.call (.member (.member (.index (.member (.name n!"proto") n!"messages") (.name n!"message'")) n!"fields") n!"begin")
  .nil) (.cons (.call (.member (.member (.index (.member (.name n!"proto") n!"messages") (.name n!"message'")) n!"fields")
  n!"end") .nil) (.cons (.name n!"lambda") .nil))))) .nil))

/-- main.cc:45-92 `main` -/
def driverFun : Fun := ⟨n!"int", n!"main", [(n!"int", n!"argc"), (n!"char * *", n!"argv")],
  (.cons (.ite (.binary n!"&&" (.binary n!"!=" (.name n!"argc") (.int .i32 2)) (.binary n!"!=" (.name n!"argc") (.int .i32
  3))) (.expr (.call (.name n!"main_usage") .nil)) .skip) (.cons (.made n!"std :: ifstream" n!"input" (.cons (.index (.name
  n!"argv") (.int .i32 1)) .nil)) (.cons (.ite (.unary n!"!" (.call (.member (.name n!"input") n!"good") .nil)) (.expr (.call
  (.name n!"main_error") (.cons (.binary n!"+" (.binary n!"+" (.call (.qual [n!"std", n!"string"]) (.cons (.str [85, 110, 97,
  98, 108, 101, 32, 116, 111, 32, 111, 112, 101, 110, 32, 39]) .nil)) (.index (.name n!"argv") (.int .i32 1))) (.str [39]))
  .nil))) .skip) (.cons (.decl n!"std :: ostream *" n!"output" (some (.unary n!"&" (.qual [n!"std", n!"cout"])))) (.cons
  (.decl n!"std :: ofstream" n!"out" none) (.cons (.ite (.binary n!"==" (.name n!"argc") (.int .i32 3)) (.block (.cons (.expr
  (.call (.member (.name n!"out") n!"open") (.cons (.index (.name n!"argv") (.int .i32 2)) (.cons (.qual [n!"std",
  n!"ios_base", n!"ate"]) .nil)))) (.cons (.ite (.unary n!"!" (.call (.member (.name n!"out") n!"good") .nil)) (.expr (.call
  (.name n!"main_error") (.cons (.binary n!"+" (.binary n!"+" (.call (.qual [n!"std", n!"string"]) (.cons (.str [85, 110, 97,
  98, 108, 101, 32, 116, 111, 32, 111, 112, 101, 110, 32, 39]) .nil)) (.index (.name n!"argv") (.int .i32 2))) (.str [39]))
  .nil))) .skip) (.cons (.expr (.assign (.name n!"output") (.unary n!"&" (.name n!"out")))) .nil)))) .skip) (.cons (.decl
  n!"int" n!"result" (some (.int .i32 0))) (.cons (.array n!"char" n!"fullPath" (.name n!"PATH_MAX") (some (.braces (.cons
  (.int .i32 0) .nil)))) (.cons (.ite (.binary n!"==" (.call (.name n!"realpath") (.cons (.index (.name n!"argv") (.int .i32
  1)) (.cons (.name n!"fullPath") .nil))) (.name n!"nullptr")) (.ret (some (.int .i32 1))) .skip) (.cons (.decl
  n!"protogen :: Proto3" n!"proto" none) (.cons (.attempt (.block (.cons (.expr (.call (.member (.name n!"proto") n!"parse")
  (.cons (.name n!"input") (.cons (.name n!"fullPath") .nil)))) (.cons (.for (.decl n!"size_t" n!"message'" (some (.int .i32
  0))) (.binary n!"!=" (.name n!"message'") (.call (.member (.member (.name n!"proto") n!"messages") n!"size") .nil)) (.incr
  n!"++" true (.name n!"message'")) driverFunBody1) (.cons (.decl n!"protogen :: CppGenerator" n!"gen" none) (.cons (.expr
  (.call (.member (.name n!"gen") n!"generate") (.cons (.name n!"proto") (.cons (.unary n!"*" (.name n!"output")) .nil))))
  .nil))))) n!"protogen :: exception &" n!"ex" (.block (.cons (.expr (.binary n!"<<" (.binary n!"<<" (.binary n!"<<" (.binary
  n!"<<" (.binary n!"<<" (.binary n!"<<" (.binary n!"<<" (.binary n!"<<" (.qual [n!"std", n!"cerr"]) (.name n!"fullPath"))
  (.chr 58)) (.member (.name n!"ex") n!"line")) (.chr 58)) (.member (.name n!"ex") n!"column")) (.str [58, 32, 101, 114, 114,
  111, 114, 58, 32])) (.call (.member (.name n!"ex") n!"cause") .nil)) (.qual [n!"std", n!"endl"]))) (.cons (.expr (.assign
  (.name n!"result") (.int .i32 1))) .nil)))) (.cons (.expr (.call (.member (.name n!"input") n!"close") .nil)) (.cons (.ite
  (.binary n!"==" (.name n!"argc") (.int .i32 3)) (.expr (.call (.member (.name n!"out") n!"close") .nil)) .skip) (.cons
  (.ret (some (.name n!"result"))) .nil))))))))))))))⟩


/-- main.cc:78 The function without a name in `main` -/
def lessFun : Fun := ⟨n!"auto", n!"lambda",
  [(n!"const protogen :: Field &", n!"a"), (n!"const protogen :: Field &", n!"b")], (.cons (.ret (some (.binary n!"<"
  (.member (.name n!"a") n!"name") (.member (.name n!"b") n!"name")))) .nil)⟩

theorem driverFun_text : withLambda 60 (mainText 45 92) = some (driverFun, lessFun) := by decide +kernel

/-- exception.cc:36-39 `exception::what` -/
def whatFun : Fun := ⟨n!"const char * exception ::", n!"what", [], (.cons (.ret
  (some (.call (.member (.name n!"message") n!"c_str") .nil))) .nil)⟩

theorem whatFun_text : withoutThrow 60 (exceptionText 36 39) = some whatFun := by decide +kernel

end PG.Cxx.Tools
