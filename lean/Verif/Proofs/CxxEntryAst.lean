import Verif.Spec.CxxEntry
import Verif.Model.HeaderTxt
/-
The entry points as syntax trees, and that they are what the text of the runtime is parsed to.
-/
set_option autoImplicit false
namespace PG.Cxx
open PG.Gen

/-- json.hh:74-87 `deserialize(istream&)` -/
def deserFun : Fun := ⟨n!"bool", n!"deserialize",
  [(n!"protogen_X_Y_Z :: istream &", n!"in"), (n!"protogen_X_Y_Z :: Parameters *", n!"params")], (.cons (.decl
  n!"protogen_X_Y_Z :: json_context" n!"ctx" none) (.cons (.ite (.binary n!"!=" (.name n!"params") (.name n!"nullptr"))
  (.block (.cons (.expr (.call (.member (.member (.name n!"params") n!"error") n!"clear") .nil)) (.cons (.expr (.assign
  (.member (.name n!"ctx") n!"params") (.unary n!"*" (.name n!"params")))) .nil))) .skip) (.cons (.made
  n!"protogen_X_Y_Z :: tokenizer" n!"tok" (.cons (.name n!"in") (.cons (.member (.name n!"ctx") n!"params") .nil))) (.cons
  (.expr (.assign (.member (.name n!"ctx") n!"tok") (.unary n!"&" (.name n!"tok")))) (.cons (.decl n!"int" n!"result" (some
  (.call (.qual [n!"S", n!"read"]) (.cons (.name n!"ctx") (.cons (.unary n!"*" (.name n!"this")) .nil))))) (.cons (.ite
  (.binary n!"==" (.name n!"result") (.qual [n!"protogen_X_Y_Z", n!"PGR_OK"])) (.ret (some (.name n!"true"))) .skip) (.cons
  (.ite (.binary n!"!=" (.name n!"params") (.name n!"nullptr")) (.expr (.assign (.member (.name n!"params") n!"error") (.call
  (.qual [n!"std", n!"move"]) (.cons (.member (.member (.name n!"ctx") n!"params") n!"error") .nil)))) .skip) (.cons (.ret
  (some (.name n!"false"))) .nil))))))))⟩

theorem deserFun_text : Fun.of [] 60 (slice (jsonLines.map splice) 74 87) = some deserFun := by decide +kernel

/-- json.hh:88-100 `serialize(ostream&)` -/
def serFun : Fun := ⟨n!"bool", n!"serialize", [(n!"protogen_X_Y_Z :: ostream &",
  n!"out"), (n!"protogen_X_Y_Z :: Parameters *", n!"params")], (.cons (.decl n!"protogen_X_Y_Z :: json_context" n!"ctx" none)
  (.cons (.expr (.assign (.member (.name n!"ctx") n!"os") (.unary n!"&" (.name n!"out")))) (.cons (.ite (.binary n!"!="
  (.name n!"params") (.name n!"nullptr")) (.block (.cons (.expr (.call (.member (.member (.name n!"params") n!"error")
  n!"clear") .nil)) (.cons (.expr (.assign (.member (.name n!"ctx") n!"params") (.unary n!"*" (.name n!"params")))) .nil)))
  .skip) (.cons (.decl n!"int" n!"result" (some (.call (.qual [n!"S", n!"write"]) (.cons (.name n!"ctx") (.cons (.unary n!"*"
  (.name n!"this")) .nil))))) (.cons (.ite (.binary n!"==" (.name n!"result") (.qual [n!"protogen_X_Y_Z", n!"PGR_OK"])) (.ret
  (some (.name n!"true"))) .skip) (.cons (.ite (.binary n!"!=" (.name n!"params") (.name n!"nullptr")) (.expr (.assign
  (.member (.name n!"params") n!"error") (.call (.qual [n!"std", n!"move"]) (.cons (.member (.member (.name n!"ctx")
  n!"params") n!"error") .nil)))) .skip) (.cons (.ret (some (.name n!"false"))) .nil)))))))⟩

theorem serFun_text : Fun.of [] 60 (slice (jsonLines.map splice) 88 100) = some serFun := by decide +kernel

/-- json.hh:101-101 `clear` -/
def entClearFun : Fun := ⟨n!"void", n!"clear", [], (.cons (.expr (.call (.qual [n!"S",
  n!"clear"]) (.cons (.unary n!"*" (.name n!"this")) .nil))) .nil)⟩

theorem entClearFun_text : Fun.of [] 60 (slice (jsonLines.map splice) 101 101) = some entClearFun := by decide +kernel

/-- json.hh:102-102 `empty` -/
def entEmptyFun : Fun := ⟨n!"bool", n!"empty", [], (.cons (.ret (some (.call (.qual [n!"S",
  n!"empty"]) (.cons (.unary n!"*" (.name n!"this")) .nil)))) .nil)⟩

theorem entEmptyFun_text : Fun.of [] 60 (slice (jsonLines.map splice) 102 102) = some entEmptyFun := by decide +kernel

/-- json.hh:103-103 `equal` -/
def entEqualFun : Fun := ⟨n!"bool", n!"equal", [(n!"const O &", n!"that")], (.cons (.ret
  (some (.call (.qual [n!"S", n!"equal"]) (.cons (.unary n!"*" (.name n!"this")) (.cons (.name n!"that") .nil))))) .nil)⟩

theorem entEqualFun_text : Fun.of [] 60 (slice (jsonLines.map splice) 103 103) = some entEqualFun := by decide +kernel

/-- json.hh:104-104 `swap` -/
def entSwapFun : Fun := ⟨n!"void", n!"swap", [(n!"O &", n!"that")], (.cons (.expr (.call
  (.qual [n!"S", n!"swap"]) (.cons (.unary n!"*" (.name n!"this")) (.cons (.name n!"that") .nil)))) .nil)⟩

theorem entSwapFun_text : Fun.of [] 60 (slice (jsonLines.map splice) 104 104) = some entSwapFun := by decide +kernel

/-- json.hh:112-112 `json<N>::read` -/
def swReadFun : Fun := ⟨n!"static int", n!"read", [(n!"json_context &", n!"ctx"),
  (n!"O &", n!"value")], (.cons (.ret (some (.call (.qual [n!"S", n!"read"]) (.cons (.name n!"ctx") (.cons (.name n!"value")
  .nil))))) .nil)⟩

theorem swReadFun_text : Fun.of [] 60 (slice (jsonLines.map splice) 112 112) = some swReadFun := by decide +kernel

/-- json.hh:113-113 `json<N>::read_field` -/
def swReadFieldFun : Fun := ⟨n!"static int", n!"read_field",
  [(n!"json_context &", n!"ctx"), (n!"const std :: string &", n!"name"), (n!"O &", n!"value")], (.cons (.ret (some (.call
  (.qual [n!"S", n!"read_field"]) (.cons (.name n!"ctx") (.cons (.name n!"name") (.cons (.name n!"value") .nil)))))) .nil)⟩

theorem swReadFieldFun_text : Fun.of [] 60 (slice (jsonLines.map splice) 113 113) = some swReadFieldFun := by decide +kernel

/-- json.hh:114-114 `json<N>::write` -/
def swWriteFun : Fun := ⟨n!"static int", n!"write", [(n!"json_context &", n!"ctx"),
  (n!"const O &", n!"value")], (.cons (.ret (some (.call (.qual [n!"S", n!"write"]) (.cons (.name n!"ctx") (.cons (.name
  n!"value") .nil))))) .nil)⟩

theorem swWriteFun_text : Fun.of [] 60 (slice (jsonLines.map splice) 114 114) = some swWriteFun := by decide +kernel

/-- json.hh:115-115 `json<N>::empty` -/
def swEmptyFun : Fun := ⟨n!"static bool", n!"empty", [(n!"const O &", n!"value")],
  (.cons (.ret (some (.call (.qual [n!"S", n!"empty"]) (.cons (.name n!"value") .nil)))) .nil)⟩

theorem swEmptyFun_text : Fun.of [] 60 (slice (jsonLines.map splice) 115 115) = some swEmptyFun := by decide +kernel

/-- json.hh:116-116 `json<N>::clear` -/
def swClearFun : Fun := ⟨n!"static void", n!"clear", [(n!"O &", n!"value")], (.cons
  (.expr (.call (.qual [n!"S", n!"clear"]) (.cons (.name n!"value") .nil))) .nil)⟩

theorem swClearFun_text : Fun.of [] 60 (slice (jsonLines.map splice) 116 116) = some swClearFun := by decide +kernel

/-- json.hh:117-117 `json<N>::equal` -/
def swEqualFun : Fun := ⟨n!"static bool", n!"equal", [(n!"const O &", n!"a"),
  (n!"const O &", n!"b")], (.cons (.ret (some (.call (.qual [n!"S", n!"equal"]) (.cons (.name n!"a") (.cons (.name n!"b")
  .nil))))) .nil)⟩

theorem swEqualFun_text : Fun.of [] 60 (slice (jsonLines.map splice) 117 117) = some swEqualFun := by decide +kernel

/-- json.hh:118-118 `json<N>::swap` -/
def swSwapFun : Fun := ⟨n!"static void", n!"swap", [(n!"O &", n!"a"), (n!"O &",
  n!"b")], (.cons (.expr (.call (.qual [n!"S", n!"swap"]) (.cons (.name n!"a") (.cons (.name n!"b") .nil)))) .nil)⟩

theorem swSwapFun_text : Fun.of [] 60 (slice (jsonLines.map splice) 118 118) = some swSwapFun := by decide +kernel

/-- json-array.hh:85-98 `deserialize_array(istream&)` -/
def deserArrFun : Fun := ⟨n!"bool", n!"deserialize_array",
  [(n!"T &", n!"container"), (n!"protogen_X_Y_Z :: istream &", n!"in"), (n!"protogen_X_Y_Z :: Parameters *", n!"params")],
  (.cons (.decl n!"protogen_X_Y_Z :: json_context" n!"ctx" none) (.cons (.ite (.binary n!"!=" (.name n!"params") (.name
  n!"nullptr")) (.block (.cons (.expr (.call (.member (.member (.name n!"params") n!"error") n!"clear") .nil)) (.cons (.expr
  (.assign (.member (.name n!"ctx") n!"params") (.unary n!"*" (.name n!"params")))) .nil))) .skip) (.cons (.made
  n!"protogen_X_Y_Z :: tokenizer" n!"tok" (.cons (.name n!"in") (.cons (.member (.name n!"ctx") n!"params") .nil))) (.cons
  (.expr (.assign (.member (.name n!"ctx") n!"tok") (.unary n!"&" (.name n!"tok")))) (.cons (.decl n!"int" n!"result" (some
  (.call (.statik n!"T" n!"read") (.cons (.name n!"ctx") (.cons (.name n!"container") .nil))))) (.cons (.ite (.binary n!"=="
  (.name n!"result") (.qual [n!"protogen_X_Y_Z", n!"PGR_OK"])) (.ret (some (.name n!"true"))) .skip) (.cons (.ite (.binary
  n!"!=" (.name n!"params") (.name n!"nullptr")) (.expr (.assign (.member (.name n!"params") n!"error") (.call (.qual
  [n!"std", n!"move"]) (.cons (.member (.member (.name n!"ctx") n!"params") n!"error") .nil)))) .skip) (.cons (.ret (some
  (.name n!"false"))) .nil))))))))⟩

theorem deserArrFun_text : Fun.of [] 60 (slice arrayLines 85 98) = some deserArrFun := by decide +kernel

/-- json-array.hh:101-105 `deserialize_array` from a string -/
def deserArrStrFun : Fun := ⟨n!"bool", n!"deserialize_array",
  [(n!"T &", n!"container"), (n!"const std :: string &", n!"in"), (n!"Parameters *", n!"params")], (.cons (.made
  n!"iterator_istream < std :: string :: const_iterator >" n!"is" (.cons (.call (.member (.name n!"in") n!"begin") .nil)
  (.cons (.call (.member (.name n!"in") n!"end") .nil) .nil))) (.cons (.ret (some (.call (.name n!"deserialize_array") (.cons
  (.name n!"container") (.cons (.name n!"is") (.cons (.name n!"params") .nil)))))) .nil))⟩

theorem deserArrStrFun_text : Fun.of [] 60 (slice arrayLines 101 105) = some deserArrStrFun := by decide +kernel

/-- json-array.hh:108-114 `deserialize_array` from memory -/
def deserArrMemFun : Fun := ⟨n!"bool", n!"deserialize_array",
  [(n!"T &", n!"container"), (n!"const char *", n!"in"), (n!"size_t", n!"len"), (n!"Parameters *", n!"params")], (.cons
  (.decl n!"auto" n!"begin" (some (.call (.inst n!"mem_iterator" n!"char") (.cons (.name n!"in") (.cons (.name n!"len")
  .nil))))) (.cons (.decl n!"auto" n!"end" (some (.call (.inst n!"mem_iterator" n!"char") (.cons (.binary n!"+" (.name
  n!"in") (.name n!"len")) (.cons (.int .i32 0) .nil))))) (.cons (.made n!"iterator_istream < mem_iterator < char > >" n!"is"
  (.cons (.name n!"begin") (.cons (.name n!"end") .nil))) (.cons (.ret (some (.call (.name n!"deserialize_array") (.cons
  (.name n!"container") (.cons (.name n!"is") (.cons (.name n!"params") .nil)))))) .nil))))⟩

theorem deserArrMemFun_text : Fun.of [] 60 (slice arrayLines 108 114) = some deserArrMemFun := by decide +kernel

/-- json-array.hh:117-121 `deserialize_array` from a vector -/
def deserArrVecFun : Fun := ⟨n!"bool", n!"deserialize_array",
  [(n!"T &", n!"container"), (n!"const std :: vector < char > &", n!"in"), (n!"Parameters *", n!"params")], (.cons (.made
  n!"iterator_istream < std :: vector < char > :: const_iterator >" n!"is" (.cons (.call (.member (.name n!"in") n!"begin")
  .nil) (.cons (.call (.member (.name n!"in") n!"end") .nil) .nil))) (.cons (.ret (some (.call (.name n!"deserialize_array")
  (.cons (.name n!"container") (.cons (.name n!"is") (.cons (.name n!"params") .nil)))))) .nil))⟩

theorem deserArrVecFun_text : Fun.of [] 60 (slice arrayLines 117 121) = some deserArrVecFun := by decide +kernel

/-- json-array.hh:128-140 `serialize_array(ostream&)` -/
def serArrFun : Fun := ⟨n!"bool", n!"serialize_array",
  [(n!"const T &", n!"container"), (n!"protogen_X_Y_Z :: ostream &", n!"out"), (n!"protogen_X_Y_Z :: Parameters *",
  n!"params")], (.cons (.decl n!"protogen_X_Y_Z :: json_context" n!"ctx" none) (.cons (.expr (.assign (.member (.name
  n!"ctx") n!"os") (.unary n!"&" (.name n!"out")))) (.cons (.ite (.binary n!"!=" (.name n!"params") (.name n!"nullptr"))
  (.block (.cons (.expr (.call (.member (.member (.name n!"params") n!"error") n!"clear") .nil)) (.cons (.expr (.assign
  (.member (.name n!"ctx") n!"params") (.unary n!"*" (.name n!"params")))) .nil))) .skip) (.cons (.decl n!"int" n!"result"
  (some (.call (.statik n!"T" n!"write") (.cons (.name n!"ctx") (.cons (.name n!"container") .nil))))) (.cons (.ite (.binary
  n!"==" (.name n!"result") (.qual [n!"protogen_X_Y_Z", n!"PGR_OK"])) (.ret (some (.name n!"true"))) .skip) (.cons (.ite
  (.binary n!"!=" (.name n!"params") (.name n!"nullptr")) (.expr (.assign (.member (.name n!"params") n!"error") (.call
  (.qual [n!"std", n!"move"]) (.cons (.member (.member (.name n!"ctx") n!"params") n!"error") .nil)))) .skip) (.cons (.ret
  (some (.name n!"false"))) .nil)))))))⟩

theorem serArrFun_text : Fun.of [] 60 (slice arrayLines 128 140) = some serArrFun := by decide +kernel

/-- json-array.hh:143-149 `serialize_array` to a string -/
def serArrStrFun : Fun := ⟨n!"bool", n!"serialize_array",
  [(n!"const T &", n!"container"), (n!"std :: string &", n!"out"), (n!"Parameters *", n!"params")], (.cons (.decl
  n!"typedef std :: back_insert_iterator < std :: string >" n!"ittype" none) (.cons (.made n!"ittype" n!"begin" (.cons (.name
  n!"out") .nil)) (.cons (.made n!"iterator_ostream < ittype >" n!"os" (.cons (.name n!"begin") .nil)) (.cons (.ret (some
  (.call (.name n!"serialize_array") (.cons (.name n!"container") (.cons (.name n!"os") (.cons (.name n!"params") .nil))))))
  .nil))))⟩

theorem serArrStrFun_text : Fun.of [] 60 (slice arrayLines 143 149) = some serArrStrFun := by decide +kernel

/-- json-array.hh:152-158 `serialize_array` to a vector -/
def serArrVecFun : Fun := ⟨n!"bool", n!"serialize_array",
  [(n!"const T &", n!"container"), (n!"std :: vector < char > &", n!"out"), (n!"Parameters *", n!"params")], (.cons (.decl
  n!"typedef std :: back_insert_iterator < std :: vector < char > >" n!"ittype" none) (.cons (.made n!"ittype" n!"begin"
  (.cons (.name n!"out") .nil)) (.cons (.made n!"iterator_ostream < ittype >" n!"os" (.cons (.name n!"begin") .nil)) (.cons
  (.ret (some (.call (.name n!"serialize_array") (.cons (.name n!"container") (.cons (.name n!"os") (.cons (.name n!"params")
  .nil)))))) .nil))))⟩

theorem serArrVecFun_text : Fun.of [] 60 (slice arrayLines 152 158) = some serArrVecFun := by decide +kernel

/-- protogen.hh:637-647 `deserialize(std::istream&)` -/
def deserStdFun : Fun := ⟨n!"virtual bool", n!"deserialize",
  [(n!"std :: istream &", n!"in"), (n!"Parameters *", n!"params")], (.cons (.decl n!"bool" n!"skip" (some (.binary n!"&"
  (.call (.member (.name n!"in") n!"flags") .nil) (.qual [n!"std", n!"ios_base", n!"skipws"])))) (.cons (.expr (.call (.qual
  [n!"std", n!"noskipws"]) (.cons (.name n!"in") .nil))) (.cons (.decl n!"std :: istream_iterator < char >" n!"end" none)
  (.cons (.made n!"std :: istream_iterator < char >" n!"begin" (.cons (.name n!"in") .nil)) (.cons (.made
  n!"iterator_istream < std :: istream_iterator < char > >" n!"is" (.cons (.name n!"begin") (.cons (.name n!"end") .nil)))
  (.cons (.decl n!"bool" n!"result" (some (.call (.name n!"deserialize") (.cons (.name n!"is") (.cons (.name n!"params")
  .nil))))) (.cons (.ite (.name n!"skip") (.expr (.call (.qual [n!"std", n!"skipws"]) (.cons (.name n!"in") .nil))) .skip)
  (.cons (.ret (some (.name n!"result"))) .nil))))))))⟩

theorem deserStdFun_text : Fun.of [] 60 (slice protogenLines 637 647) = some deserStdFun := by decide +kernel

/-- protogen.hh:649-653 `deserialize` from a string -/
def deserStrFun : Fun := ⟨n!"virtual bool", n!"deserialize",
  [(n!"const std :: string &", n!"in"), (n!"Parameters *", n!"params")], (.cons (.made
  n!"iterator_istream < std :: string :: const_iterator >" n!"is" (.cons (.call (.member (.name n!"in") n!"begin") .nil)
  (.cons (.call (.member (.name n!"in") n!"end") .nil) .nil))) (.cons (.ret (some (.call (.name n!"deserialize") (.cons
  (.name n!"is") (.cons (.name n!"params") .nil))))) .nil))⟩

theorem deserStrFun_text : Fun.of [] 60 (slice protogenLines 649 653) = some deserStrFun := by decide +kernel

/-- protogen.hh:655-661 `deserialize` from memory -/
def deserMemFun : Fun := ⟨n!"virtual bool", n!"deserialize",
  [(n!"const char *", n!"in"), (n!"size_t", n!"len"), (n!"Parameters *", n!"params")], (.cons (.decl n!"auto" n!"begin" (some
  (.call (.inst n!"mem_const_iterator" n!"char") (.cons (.name n!"in") (.cons (.name n!"len") .nil))))) (.cons (.decl
  n!"auto" n!"end" (some (.call (.inst n!"mem_const_iterator" n!"char") (.cons (.binary n!"+" (.name n!"in") (.name n!"len"))
  (.cons (.int .i32 0) .nil))))) (.cons (.made n!"iterator_istream < mem_const_iterator < char > >" n!"is" (.cons (.name
  n!"begin") (.cons (.name n!"end") .nil))) (.cons (.ret (some (.call (.name n!"deserialize") (.cons (.name n!"is") (.cons
  (.name n!"params") .nil))))) .nil))))⟩

theorem deserMemFun_text : Fun.of [] 60 (slice protogenLines 655 661) = some deserMemFun := by decide +kernel

/-- protogen.hh:663-667 `deserialize` from a vector -/
def deserVecFun : Fun := ⟨n!"virtual bool", n!"deserialize",
  [(n!"const std :: vector < char > &", n!"in"), (n!"Parameters *", n!"params")], (.cons (.made
  n!"iterator_istream < std :: vector < char > :: const_iterator >" n!"is" (.cons (.call (.member (.name n!"in") n!"begin")
  .nil) (.cons (.call (.member (.name n!"in") n!"end") .nil) .nil))) (.cons (.ret (some (.call (.name n!"deserialize") (.cons
  (.name n!"is") (.cons (.name n!"params") .nil))))) .nil))⟩

theorem deserVecFun_text : Fun.of [] 60 (slice protogenLines 663 667) = some deserVecFun := by decide +kernel

/-- protogen.hh:669-675 `serialize` to a string -/
def serStrFun : Fun := ⟨n!"virtual bool", n!"serialize",
  [(n!"std :: string &", n!"out"), (n!"Parameters *", n!"params")], (.cons (.decl
  n!"typedef std :: back_insert_iterator < std :: string >" n!"ittype" none) (.cons (.made n!"ittype" n!"begin" (.cons (.name
  n!"out") .nil)) (.cons (.made n!"iterator_ostream < ittype >" n!"os" (.cons (.name n!"begin") .nil)) (.cons (.ret (some
  (.call (.name n!"serialize") (.cons (.name n!"os") (.cons (.name n!"params") .nil))))) .nil))))⟩

theorem serStrFun_text : Fun.of [] 60 (slice protogenLines 669 675) = some serStrFun := by decide +kernel

/-- protogen.hh:677-683 `serialize(std::ostream&)` -/
def serStdFun : Fun := ⟨n!"virtual bool", n!"serialize",
  [(n!"std :: ostream &", n!"out"), (n!"Parameters *", n!"params")], (.cons (.decl
  n!"typedef std :: ostream_iterator < char >" n!"ittype" none) (.cons (.made n!"ittype" n!"begin" (.cons (.name n!"out")
  .nil)) (.cons (.made n!"iterator_ostream < ittype >" n!"os" (.cons (.name n!"begin") .nil)) (.cons (.ret (some (.call
  (.name n!"serialize") (.cons (.name n!"os") (.cons (.name n!"params") .nil))))) .nil))))⟩

theorem serStdFun_text : Fun.of [] 60 (slice protogenLines 677 683) = some serStdFun := by decide +kernel

/-- protogen.hh:685-690 `serialize` to memory -/
def serMemFun : Fun := ⟨n!"virtual bool", n!"serialize", [(n!"char *",
  n!"in"), (n!"size_t", n!"len"), (n!"Parameters *", n!"params")], (.cons (.decl n!"auto" n!"begin" (some (.call (.inst
  n!"mem_iterator" n!"char") (.cons (.name n!"in") (.cons (.name n!"len") .nil))))) (.cons (.made
  n!"iterator_ostream < mem_iterator < char > >" n!"os" (.cons (.name n!"begin") .nil)) (.cons (.ret (some (.call (.name
  n!"serialize") (.cons (.name n!"os") (.cons (.name n!"params") .nil))))) .nil)))⟩

theorem serMemFun_text : Fun.of [] 60 (slice protogenLines 685 690) = some serMemFun := by decide +kernel

/-- protogen.hh:692-698 `serialize` to a vector -/
def serVecFun : Fun := ⟨n!"virtual bool", n!"serialize",
  [(n!"std :: vector < char > &", n!"out"), (n!"Parameters *", n!"params")], (.cons (.decl
  n!"typedef std :: back_insert_iterator < std :: vector < char > >" n!"ittype" none) (.cons (.made n!"ittype" n!"begin"
  (.cons (.name n!"out") .nil)) (.cons (.made n!"iterator_ostream < ittype >" n!"os" (.cons (.name n!"begin") .nil)) (.cons
  (.ret (some (.call (.name n!"serialize") (.cons (.name n!"os") (.cons (.name n!"params") .nil))))) .nil))))⟩

theorem serVecFun_text : Fun.of [] 60 (slice protogenLines 692 698) = some serVecFun := by decide +kernel

/-- protogen.hh:703-703 `operator==` -/
def msgEqFun : Fun := ⟨n!"bool", n!"operator==", [(n!"const T &", n!"that")], (.cons
  (.ret (some (.call (.name n!"equal") (.cons (.name n!"that") .nil)))) .nil)⟩

theorem msgEqFun_text : Fun.of [] 60 (slice protogenLines 703 703) = some msgEqFun := by decide +kernel

/-- protogen.hh:704-704 `operator!=` -/
def msgNeFun : Fun := ⟨n!"bool", n!"operator!=", [(n!"const T &", n!"that")], (.cons
  (.ret (some (.unary n!"!" (.call (.name n!"equal") (.cons (.name n!"that") .nil))))) .nil)⟩

theorem msgNeFun_text : Fun.of [] 60 (slice protogenLines 704 704) = some msgNeFun := by decide +kernel

end PG.Cxx
