import Verif.Spec.ToolText
import Verif.Spec.ProtoText
/-
The functions of template.cc, main.cc, exception.cc and the output operators of proto3.cc as syntax trees, and that they are what
the texts are parsed to.
-/
set_option autoImplicit false
namespace PG.Cxx.Tools
open PG.Gen

/-- The body of a loop. -/
def copyFunBody1 : Stmt := (.block (.cons (.expr (.call (.member (.name n!"line") n!"replace")
  (.cons (.name n!"pos") (.cons (.int .i32 6) (.cons (.name n!"PROTOGEN_VERSION_NAMING") .nil))))) .nil))

/-- The body of a loop. -/
def copyFunBody2 : Stmt := (.block (.cons (.decl n!"auto" n!"c" (some (.unary n!"*" (.name
  n!"c'")))) (.cons (.block (.cons (.ite (.binary n!"==" (.name n!"c") (.chr 34)) (.expr (.binary n!"<<" (.name n!"output")
  (.str [92, 34]))) (.ite (.binary n!"==" (.name n!"c") (.chr 92)) (.expr (.binary n!"<<" (.name n!"output") (.str [92,
  92]))) (.expr (.binary n!"<<" (.name n!"output") (.name n!"c"))))) .nil)) .nil)))

/-- The body of a loop. -/
def copyFunBody3 : Stmt := (.block (.cons (.expr (.call (.qual [n!"std", n!"getline"]) (.cons
  (.name n!"input") (.cons (.name n!"line") .nil)))) (.cons (.ite (.unary n!"!" (.call (.member (.name n!"input") n!"good")
  .nil)) .break .skip) (.cons (.ite (.binary n!"&&" (.binary n!"&&" (.binary n!">" (.call (.member (.name n!"line")
  n!"length") .nil) (.int .i32 0)) (.binary n!"==" (.index (.name n!"line") (.int .i32 0)) (.chr 35))) (.binary n!"!=" (.call
  (.member (.name n!"line") n!"find") (.cons (.str [65, 85, 84, 79, 45, 82, 69, 77, 79, 86, 69]) .nil)) (.qual [n!"std",
  n!"string", n!"npos"]))) .continue .skip) (.cons (.decl n!"size_t" n!"pos" none) (.cons (.while (.binary n!"!=" (.assign
  (.name n!"pos") (.call (.member (.name n!"line") n!"find") (.cons (.str [95, 88, 95, 89, 95, 90]) .nil))) (.qual [n!"std",
  n!"string", n!"npos"])) copyFunBody1) (.cons (.expr (.binary n!"<<" (.name n!"output") (.str [32, 32, 32, 32, 34]))) (.cons
  (.for (.decl n!"auto" n!"c'" (some (.call (.member (.name n!"line") n!"begin") .nil))) (.binary n!"!=" (.name n!"c'")
  (.call (.member (.name n!"line") n!"end") .nil)) (.incr n!"++" true (.name n!"c'")) copyFunBody2) (.cons (.expr (.binary
  n!"<<" (.name n!"output") (.str [92, 110, 34, 32, 92, 10]))) .nil)))))))))

/-- template.cc:6-39 `copy` -/
def copyFun : Fun := ⟨n!"void", n!"copy", [(n!"std :: istream &", n!"input"),
  (n!"std :: ostream &", n!"output"), (n!"const std :: string &", n!"name")], (.cons (.decl n!"std :: string" n!"line" none)
  (.cons (.expr (.binary n!"<<" (.binary n!"<<" (.binary n!"<<" (.name n!"output") (.str [35, 100, 101, 102, 105, 110, 101,
  32])) (.name n!"name")) (.str [32, 92, 10]))) (.cons (.while (.unary n!"!" (.call (.member (.name n!"input") n!"eof")
  .nil)) copyFunBody3) (.cons (.expr (.binary n!"<<" (.name n!"output") (.str [32, 32, 32, 32, 34, 92, 110, 34, 10])))
  .nil))))⟩

theorem copyFun_text : Fun.of [] 60 (templateText 6 39) = some copyFun := by decide +kernel

/-- The body of a loop. -/
def processFunBody1 : Stmt := (.block (.cons (.ite (.binary n!"==" (.unary n!"*" (.name n!"it"))
  (.chr 34)) (.expr (.binary n!"<<" (.name n!"output") (.str [92, 34]))) (.ite (.binary n!"==" (.unary n!"*" (.name n!"it"))
  (.chr 92)) (.expr (.binary n!"<<" (.name n!"output") (.str [92, 92]))) (.expr (.binary n!"<<" (.name n!"output") (.unary
  n!"*" (.name n!"it")))))) .nil))

/-- The body of a loop. -/
def processFunBody2 : Stmt := (.block (.cons (.expr (.call (.qual [n!"std", n!"getline"]) (.cons
  (.name n!"input") (.cons (.name n!"line") .nil)))) (.cons (.ite (.unary n!"!" (.call (.member (.name n!"input") n!"good")
  .nil)) .break .skip) (.cons (.ite (.unary n!"!" (.name n!"content")) (.block (.cons (.ite (.binary n!"!=" (.call (.member
  (.name n!"line") n!"find") (.cons (.str [45, 45, 45, 32]) .nil)) (.int .i32 0)) .continue .skip) (.cons (.expr (.assign
  (.name n!"line") (.call (.member (.name n!"line") n!"substr") (.cons (.int .i32 4) .nil)))) (.cons (.expr (.binary n!"<<"
  (.binary n!"<<" (.binary n!"<<" (.name n!"output") (.str [35, 100, 101, 102, 105, 110, 101, 32])) (.name n!"line")) (.str
  [32, 92, 10]))) (.cons (.expr (.assign (.name n!"content") (.name n!"true"))) .nil))))) (.block (.cons (.ite (.binary
  n!"==" (.call (.member (.name n!"line") n!"find") (.cons (.str [45, 45, 45, 45, 45, 45]) .nil)) (.int .i32 0)) (.block
  (.cons (.expr (.binary n!"<<" (.name n!"output") (.str [10]))) (.cons (.expr (.assign (.name n!"content") (.name
  n!"false"))) (.cons .continue .nil)))) .skip) (.cons (.expr (.binary n!"<<" (.name n!"output") (.str [32, 32, 32, 32,
  34]))) (.cons (.for (.decl n!"auto" n!"it" (some (.call (.member (.name n!"line") n!"begin") .nil))) (.binary n!"!=" (.name
  n!"it") (.call (.member (.name n!"line") n!"end") .nil)) (.incr n!"++" true (.name n!"it")) processFunBody1) (.cons (.expr
  (.binary n!"<<" (.name n!"output") (.str [92, 110, 34, 32, 92, 10]))) .nil)))))) .nil))))

/-- template.cc:41-85 `process` -/
def processFun : Fun := ⟨n!"void", n!"process", [(n!"std :: istream &", n!"input"),
  (n!"std :: ostream &", n!"output"), (n!"const std :: string &", n!"guard")], (.cons (.decl n!"std :: string" n!"line" none)
  (.cons (.decl n!"bool" n!"content" (some (.name n!"false"))) (.cons (.expr (.binary n!"<<" (.binary n!"<<" (.binary n!"<<"
  (.name n!"output") (.str [35, 105, 102, 110, 100, 101, 102, 32])) (.name n!"guard")) (.chr 10))) (.cons (.expr (.binary
  n!"<<" (.binary n!"<<" (.binary n!"<<" (.name n!"output") (.str [35, 100, 101, 102, 105, 110, 101, 32])) (.name n!"guard"))
  (.chr 10))) (.cons (.while (.unary n!"!" (.call (.member (.name n!"input") n!"eof") .nil)) processFunBody2) (.cons (.expr
  (.binary n!"<<" (.binary n!"<<" (.binary n!"<<" (.name n!"output") (.str [35, 101, 110, 100, 105, 102, 32, 47, 47, 32]))
  (.name n!"guard")) (.chr 10))) .nil))))))⟩

theorem processFun_text : Fun.of [] 60 (templateText 41 85) = some processFun := by decide +kernel

/-- template.cc:87-91 `ends_with` -/
def endsFun : Fun := ⟨n!"static bool", n!"ends_with", [(n!"const std :: string &",
  n!"text"), (n!"const std :: string &", n!"needle")], (.cons (.decl n!"auto" n!"pos" (some (.call (.member (.name n!"text")
  n!"rfind") (.cons (.name n!"needle") .nil)))) (.cons (.ret (some (.binary n!"&&" (.binary n!"!=" (.name n!"pos") (.qual
  [n!"std", n!"string", n!"npos"])) (.binary n!"==" (.binary n!"+" (.name n!"pos") (.call (.member (.name n!"needle")
  n!"length") .nil)) (.call (.member (.name n!"text") n!"length") .nil))))) .nil))⟩

theorem endsFun_text : Fun.of [] 60 (templateText 87 91) = some endsFun := by decide +kernel

/-- The body of a loop. -/
def templateFunBody1 : Stmt := (.ite (.unary n!"!" (.call (.name n!"isalpha") (.cons (.unary
  n!"*" (.name n!"it")) .nil))) (.expr (.assign (.unary n!"*" (.name n!"it")) (.chr 95))) .skip)

/-- template.cc:93-125 `main` -/
def templateFun : Fun := ⟨n!"int", n!"main", [(n!"int", n!"argc"), (n!"char * *",
  n!"argv")], (.cons (.ite (.binary n!"!=" (.name n!"argc") (.int .i32 3)) (.ret (some (.int .i32 1))) .skip) (.cons (.expr
  (.binary n!"<<" (.binary n!"<<" (.binary n!"<<" (.binary n!"<<" (.binary n!"<<" (.binary n!"<<" (.qual [n!"std", n!"cout"])
  (.str [80, 114, 111, 99, 101, 115, 115, 105, 110, 103, 32, 39])) (.index (.name n!"argv") (.int .i32 1))) (.str [39, 32,
  116, 111, 32, 103, 101, 110, 101, 114, 97, 116, 101, 32, 39])) (.index (.name n!"argv") (.int .i32 2))) (.str [39])) (.qual
  [n!"std", n!"endl"]))) (.cons (.made n!"std :: ifstream" n!"input" (.cons (.index (.name n!"argv") (.int .i32 1)) .nil))
  (.cons (.ite (.unary n!"!" (.call (.member (.name n!"input") n!"good") .nil)) (.ret (some (.int .i32 1))) .skip) (.cons
  (.made n!"std :: ofstream" n!"output" (.cons (.index (.name n!"argv") (.int .i32 2)) .nil)) (.cons (.ite (.unary n!"!"
  (.call (.member (.name n!"output") n!"good") .nil)) (.ret (some (.int .i32 1))) .skip) (.cons (.decl n!"std :: string"
  n!"guard" (some (.index (.name n!"argv") (.int .i32 1)))) (.cons (.decl n!"const char" n!"DIR_SEPARATOR" (some (.chr 47)))
  (.cons (.decl n!"auto" n!"pos" (some (.call (.member (.name n!"guard") n!"rfind") (.cons (.name n!"DIR_SEPARATOR") .nil))))
  (.cons (.ite (.binary n!"!=" (.name n!"pos") (.qual [n!"std", n!"string", n!"npos"])) (.expr (.assign (.name n!"guard")
  (.call (.member (.name n!"guard") n!"substr") (.cons (.binary n!"+" (.name n!"pos") (.int .i32 1)) .nil)))) .skip) (.cons
  (.expr (.assign (.name n!"guard") (.binary n!"+" (.str [71, 69, 78, 69, 82, 65, 84, 69, 68, 95, 95]) (.name n!"guard"))))
  (.cons (.for (.decl n!"auto" n!"it" (some (.call (.member (.name n!"guard") n!"begin") .nil))) (.binary n!"!=" (.name
  n!"it") (.call (.member (.name n!"guard") n!"end") .nil)) (.incr n!"++" true (.name n!"it")) templateFunBody1) (.cons (.ite
  (.call (.name n!"ends_with") (.cons (.index (.name n!"argv") (.int .i32 1)) (.cons (.str [46, 104, 104]) .nil))) (.expr
  (.call (.name n!"copy") (.cons (.name n!"input") (.cons (.name n!"output") (.cons (.name n!"guard") .nil))))) (.expr (.call
  (.name n!"process") (.cons (.name n!"input") (.cons (.name n!"output") (.cons (.name n!"guard") .nil)))))) (.cons (.ret
  (some (.int .i32 0))) .nil))))))))))))))⟩

theorem templateFun_text : Fun.of [] 60 (templateText 93 125) = some templateFun := by decide +kernel

/-- main.cc:30-35 `main_usage` -/
def usageFun : Fun := ⟨n!"void", n!"main_usage", [], (.cons (.expr (.binary n!"<<"
  (.binary n!"<<" (.binary n!"<<" (.qual [n!"std", n!"cerr"]) (.str [112, 114, 111, 116, 111, 103, 101, 110, 32])) (.name
  n!"PROTOGEN_VERSION")) (.qual [n!"std", n!"endl"]))) (.cons (.expr (.binary n!"<<" (.qual [n!"std", n!"cerr"]) (.str [85,
  115, 97, 103, 101, 58, 32, 112, 114, 111, 116, 111, 103, 101, 110, 32, 60, 112, 114, 111, 116, 111, 51, 32, 102, 105, 108,
  101, 62, 32, 91, 32, 60, 111, 117, 116, 112, 117, 116, 32, 102, 105, 108, 101, 62, 32, 93, 10]))) (.cons (.expr (.call
  (.name n!"exit") (.cons (.name n!"EXIT_FAILURE") .nil))) .nil)))⟩

theorem usageFun_text : Fun.of [] 60 (mainText 30 35) = some usageFun := by decide +kernel

/-- main.cc:38-42 `main_error` -/
def errorFun : Fun := ⟨n!"void", n!"main_error", [(n!"const std :: string &",
  n!"message")], (.cons (.expr (.binary n!"<<" (.binary n!"<<" (.binary n!"<<" (.qual [n!"std", n!"cerr"]) (.str [69, 82, 82,
  79, 82, 58, 32])) (.name n!"message")) (.qual [n!"std", n!"endl"]))) (.cons (.expr (.call (.name n!"exit") (.cons (.name
  n!"EXIT_FAILURE") .nil))) .nil))⟩

theorem errorFun_text : Fun.of [] 60 (mainText 38 42) = some errorFun := by decide +kernel

/-- exception.cc:23-25 `exception::exception` -/
def newFun1 : Fun := ⟨n!"exception ::", n!"exception",
  [(n!"const std :: string &", n!"message")], (.cons (.expr (.assign (.member (.name n!"this") n!"message") (.name
  n!"message"))) .nil)⟩

theorem newFun1_text : Fun.of [] 60 (exceptionText 23 25) = some newFun1 := by decide +kernel

/-- exception.cc:27-30 `exception::exception` -/
def newFun3 : Fun := ⟨n!"exception ::", n!"exception",
  [(n!"const std :: string &", n!"message"), (n!"int", n!"line"), (n!"int", n!"column")], (.cons (.expr (.assign (.member
  (.name n!"this") n!"line") (.name n!"line"))) (.cons (.expr (.assign (.member (.name n!"this") n!"column") (.name
  n!"column"))) (.cons (.expr (.assign (.member (.name n!"this") n!"message") (.name n!"message"))) .nil)))⟩

theorem newFun3_text : Fun.of [] 60 (exceptionText 27 30) = some newFun3 := by decide +kernel

/-- exception.cc:41-46 `exception::cause` -/
def causeFun : Fun := ⟨n!"const std :: string exception ::", n!"cause", [],
  (.cons (.decl n!"std :: stringstream" n!"ss" none) (.cons (.expr (.binary n!"<<" (.binary n!"<<" (.binary n!"<<" (.binary
  n!"<<" (.binary n!"<<" (.binary n!"<<" (.name n!"ss") (.name n!"message")) (.str [32, 40])) (.name n!"line")) (.chr 58))
  (.name n!"column")) (.chr 41))) (.cons (.ret (some (.call (.member (.name n!"ss") n!"str") .nil))) .nil)))⟩

theorem causeFun_text : Fun.of [] 60 (exceptionText 41 46) = some causeFun := by decide +kernel

/-- proto3.cc:815-821 `operator<<` -/
def tokenShowFun : Fun := ⟨n!"std :: ostream &", n!"operator<<",
  [(n!"std :: ostream &", n!"out"), (n!"const protogen :: Token &", n!"tt")], (.cons (.expr (.binary n!"<<" (.binary n!"<<"
  (.binary n!"<<" (.name n!"out") (.chr 91)) (.index (.name n!"TOKENS") (.member (.name n!"tt") n!"code"))) (.str [58, 32])))
  (.cons (.ite (.unary n!"!" (.call (.member (.member (.name n!"tt") n!"value") n!"empty") .nil)) (.expr (.binary n!"<<"
  (.binary n!"<<" (.binary n!"<<" (.name n!"out") (.str [118, 97, 108, 117, 101, 61, 39])) (.member (.name n!"tt")
  n!"value")) (.str [39, 32]))) .skip) (.cons (.expr (.binary n!"<<" (.binary n!"<<" (.binary n!"<<" (.binary n!"<<" (.binary
  n!"<<" (.name n!"out") (.str [112, 111, 115, 61])) (.member (.name n!"tt") n!"line")) (.chr 58)) (.member (.name n!"tt")
  n!"column")) (.str [93]))) (.cons (.ret (some (.name n!"out"))) .nil))))⟩

theorem tokenShowFun_text : Fun.of [] 60 (protoText 815 821) = some tokenShowFun := by decide +kernel

/-- proto3.cc:823-833 `operator<<` -/
def fieldShowFun : Fun := ⟨n!"std :: ostream &", n!"operator<<",
  [(n!"std :: ostream &", n!"out"), (n!"protogen :: Field &", n!"field")], (.cons (.ite (.member (.member (.name n!"field")
  n!"type") n!"repeated") (.expr (.binary n!"<<" (.name n!"out") (.str [114, 101, 112, 101, 97, 116, 101, 100, 32]))) .skip)
  (.cons (.ite (.binary n!"&&" (.binary n!">=" (.member (.member (.name n!"field") n!"type") n!"id") (.int .i32 6)) (.binary
  n!"<=" (.member (.member (.name n!"field") n!"type") n!"id") (.int .i32 20))) (.expr (.binary n!"<<" (.name n!"out")
  (.index (.name n!"TYPES") (.binary n!"-" (.member (.member (.name n!"field") n!"type") n!"id") (.int .i32 6))))) (.expr
  (.binary n!"<<" (.name n!"out") (.member (.member (.name n!"field") n!"type") n!"qname")))) (.cons (.expr (.binary n!"<<"
  (.binary n!"<<" (.binary n!"<<" (.binary n!"<<" (.binary n!"<<" (.name n!"out") (.chr 32)) (.member (.name n!"field")
  n!"name")) (.str [32, 61, 32])) (.member (.name n!"field") n!"index")) (.str [59]))) (.cons (.ret (some (.name n!"out")))
  .nil))))⟩

theorem fieldShowFun_text : Fun.of [] 60 (protoText 823 833) = some fieldShowFun := by decide +kernel

/-- The body of a loop. -/
def messageShowFunBody1 : Stmt := (.block (.cons (.expr (.binary n!"<<" (.binary n!"<<" (.name
  n!"out") (.unary n!"*" (.name n!"it"))) (.qual [n!"std", n!"endl"]))) (.cons .skip .nil)))

/-- proto3.cc:835-845 `operator<<` -/
def messageShowFun : Fun := ⟨n!"std :: ostream &", n!"operator<<",
  [(n!"std :: ostream &", n!"out"), (n!"protogen :: Message &", n!"message")], (.cons (.expr (.binary n!"<<" (.binary n!"<<"
  (.binary n!"<<" (.binary n!"<<" (.name n!"out") (.str [109, 101, 115, 115, 97, 103, 101, 32])) (.member (.name n!"message")
  n!"name")) (.str [32, 123])) (.qual [n!"std", n!"endl"]))) (.cons .skip (.cons (.for (.decl n!"auto" n!"it" (some (.call
  (.member (.member (.name n!"message") n!"fields") n!"begin") .nil))) (.binary n!"!=" (.name n!"it") (.call (.member
  (.member (.name n!"message") n!"fields") n!"end") .nil)) (.incr n!"++" true (.name n!"it")) messageShowFunBody1) (.cons
  (.expr (.binary n!"<<" (.binary n!"<<" (.name n!"out") (.chr 125)) (.qual [n!"std", n!"endl"]))) (.cons (.ret (some (.name
  n!"out"))) .nil)))))⟩

theorem messageShowFun_text : Fun.of [] 60 (protoText 835 845) = some messageShowFun := by decide +kernel

/-- The body of a loop. -/
def treeShowFunBody1 : Stmt := (.block (.cons (.expr (.binary n!"<<" (.binary n!"<<" (.name
  n!"out") (.unary n!"*" (.name n!"it"))) (.chr 10))) .nil))

/-- proto3.cc:847-854 `operator<<` -/
def treeShowFun : Fun := ⟨n!"std :: ostream &", n!"operator<<",
  [(n!"std :: ostream &", n!"out"), (n!"protogen :: Proto3 &", n!"proto")], (.cons (.for (.decl n!"auto" n!"it" (some (.call
  (.member (.member (.name n!"proto") n!"messages") n!"begin") .nil))) (.binary n!"!=" (.name n!"it") (.call (.member
  (.member (.name n!"proto") n!"messages") n!"end") .nil)) (.incr n!"++" true (.name n!"it")) treeShowFunBody1) (.cons (.ret
  (some (.name n!"out"))) .nil))⟩

theorem treeShowFun_text : Fun.of [] 60 (protoText 847 854) = some treeShowFun := by decide +kernel

end PG.Cxx.Tools
