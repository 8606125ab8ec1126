import Verif.Spec.Cxx
import Verif.Model.HeaderTxt
/-
The conversions between numbers and texts, and the comparison of numbers, as syntax trees, and that they are what the text of the
runtime is parsed to.
-/
set_option autoImplicit false
namespace PG.Cxx
open PG.Gen

/-- json-number.hh:33-53 `string_to_number` of a floating point type -/
def parseFltFun : Fun := ⟨n!"static T",
  n!"string_to_number", [(n!"const std :: string &", n!"text")], (.cons (.decl n!"double" n!"value" none) (.cons (.decl
  n!"static locale_t" n!"loc" (some (.call (.name n!"newlocale") (.cons (.name n!"LC_NUMERIC_MASK") (.cons (.str [67]) (.cons
  (.int .i32 0) .nil)))))) (.cons (.ite (.binary n!"==" (.name n!"loc") (.int .i32 0)) (.ret (some (.int .i32 0))) .skip)
  (.cons (.decl n!"locale_t" n!"old" (some (.call (.name n!"uselocale") (.cons (.name n!"loc") .nil)))) (.cons (.ite (.binary
  n!"==" (.name n!"old") (.int .i32 0)) (.ret (some (.int .i32 0))) .skip) (.cons (.expr (.assign (.name n!"value") (.call
  (.name n!"strtod") (.cons (.call (.member (.name n!"text") n!"c_str") .nil) (.cons (.name n!"nullptr") .nil))))) (.cons
  (.expr (.call (.name n!"uselocale") (.cons (.name n!"old") .nil))) (.cons (.ret (some (.call (.inst n!"static_cast" n!"T")
  (.cons (.name n!"value") .nil)))) .nil))))))))⟩

theorem parseFltFun_text : Fun.of [] 60 (slice numberLines 33 53) = some parseFltFun := by decide +kernel

/-- json-number.hh:33-53 `string_to_number` of a floating point type -/
def parseFltGnuFun : Fun := ⟨n!"static T",
  n!"string_to_number", [(n!"const std :: string &", n!"text")], (.cons (.decl n!"double" n!"value" none) (.cons (.decl
  n!"static locale_t" n!"loc" (some (.call (.name n!"newlocale") (.cons (.name n!"LC_NUMERIC_MASK") (.cons (.str [67]) (.cons
  (.int .i32 0) .nil)))))) (.cons (.ite (.binary n!"==" (.name n!"loc") (.int .i32 0)) (.ret (some (.int .i32 0))) .skip)
  (.cons (.expr (.assign (.name n!"value") (.call (.name n!"strtod_l") (.cons (.call (.member (.name n!"text") n!"c_str")
  .nil) (.cons (.name n!"nullptr") (.cons (.name n!"loc") .nil)))))) (.cons (.ret (some (.call (.inst n!"static_cast" n!"T")
  (.cons (.name n!"value") .nil)))) .nil)))))⟩

theorem parseFltGnuFun_text : Fun.of [b!"__USE_GNU"] 60 (slice numberLines 33 53) = some parseFltGnuFun := by decide +kernel

/-- json-number.hh:56-63 `string_to_number` of a signed type -/
def parseSignedFun : Fun := ⟨n!"T", n!"string_to_number",
  [(n!"const std :: string &", n!"text")], (.cons (.ret (some (.call (.inst n!"static_cast" n!"T") (.cons (.call (.name
  n!"strtol") (.cons (.call (.member (.name n!"text") n!"c_str") .nil) (.cons (.name n!"nullptr") (.cons (.int .i32 10)
  .nil)))) .nil)))) .nil)⟩

theorem parseSignedFun_text : Fun.of [] 60 (slice numberLines 56 63) = some parseSignedFun := by decide +kernel

/-- json-number.hh:66-73 `string_to_number` of an unsigned type -/
def parseUnsignedFun : Fun := ⟨n!"T",
  n!"string_to_number", [(n!"const std :: string &", n!"text")], (.cons (.ret (some (.call (.inst n!"static_cast" n!"T")
  (.cons (.call (.name n!"strtoul") (.cons (.call (.member (.name n!"text") n!"c_str") .nil) (.cons (.name n!"nullptr")
  (.cons (.int .i32 10) .nil)))) .nil)))) .nil)⟩

theorem parseUnsignedFun_text : Fun.of [] 60 (slice numberLines 66 73) = some parseUnsignedFun := by decide +kernel

/-- json-number.hh:76-93 `number_to_string` of a floating point type -/
def showFltFun : Fun := ⟨n!"std :: string",
  n!"number_to_string", [(n!"const T &", n!"value")], (.cons (.array n!"char" n!"tmp" (.int .i32 320) (some (.braces (.cons
  (.int .i32 0) .nil)))) (.cons (.decl n!"static locale_t" n!"loc" (some (.call (.name n!"newlocale") (.cons (.name
  n!"LC_NUMERIC_MASK") (.cons (.str [67]) (.cons (.int .i32 0) .nil)))))) (.cons (.ite (.binary n!"==" (.name n!"loc") (.int
  .i32 0)) (.ret (some (.str [48]))) .skip) (.cons (.decl n!"locale_t" n!"old" (some (.call (.name n!"uselocale") (.cons
  (.name n!"loc") .nil)))) (.cons (.ite (.binary n!"==" (.name n!"old") (.int .i32 0)) (.ret (some (.str [48]))) .skip)
  (.cons (.expr (.call (.name n!"snprintf") (.cons (.name n!"tmp") (.cons (.binary n!"-" (.call (.name n!"sizeof") (.cons
  (.name n!"tmp") .nil)) (.int .i32 1)) (.cons (.str [37, 102]) (.cons (.name n!"value") .nil)))))) (.cons (.expr (.call
  (.name n!"uselocale") (.cons (.name n!"old") .nil))) (.cons (.expr (.assign (.index (.name n!"tmp") (.binary n!"-" (.call
  (.name n!"sizeof") (.cons (.name n!"tmp") .nil)) (.int .i32 1))) (.int .i32 0))) (.cons (.ret (some (.name n!"tmp")))
  .nil)))))))))⟩

theorem showFltFun_text : Fun.of [] 60 (slice numberLines 76 93) = some showFltFun := by decide +kernel

/-- json-number.hh:96-99 `number_to_string` of an integer type -/
def showIntFun : Fun := ⟨n!"std :: string",
  n!"number_to_string", [(n!"const T &", n!"value")], (.cons (.ret (some (.call (.qual [n!"std", n!"to_string"]) (.cons
  (.name n!"value") .nil)))) .nil)⟩

theorem showIntFun_text : Fun.of [] 60 (slice numberLines 96 99) = some showIntFun := by decide +kernel

/-- json-number.hh:102-106 `equal_number` of a floating point type -/
def nearFltFun : Fun := ⟨n!"int", n!"equal_number",
  [(n!"const T &", n!"value1"), (n!"const T &", n!"value2")], (.cons (.ret (some (.binary n!"&&" (.binary n!"<=" (.call
  (.qual [n!"std", n!"nextafter"]) (.cons (.name n!"value1") (.cons (.call (.qual [n!"std", n!"numeric_limits", n!"lowest"])
  .nil) .nil))) (.name n!"value2")) (.binary n!">=" (.call (.qual [n!"std", n!"nextafter"]) (.cons (.name n!"value1") (.cons
  (.call (.qual [n!"std", n!"numeric_limits", n!"max"]) .nil) .nil))) (.name n!"value2"))))) .nil)⟩

theorem nearFltFun_text : Fun.of [] 60 (slice numberLines 102 106) = some nearFltFun := by decide +kernel

/-- json-number.hh:109-112 `equal_number` of an integer type -/
def nearIntFun : Fun := ⟨n!"int", n!"equal_number",
  [(n!"const T &", n!"value1"), (n!"const T &", n!"value2")], (.cons (.ret (some (.binary n!"==" (.name n!"value1") (.name
  n!"value2")))) .nil)⟩

theorem nearIntFun_text : Fun.of [] 60 (slice numberLines 109 112) = some nearIntFun := by decide +kernel

end PG.Cxx
