import Verif.Spec.Cxx
import Verif.Model.HeaderTxt
/-
The functions of the field classes and those of the specializations of `json` that are one call each, as syntax trees, and that
they are what the text of the runtime is parsed to.
-/
set_option autoImplicit false
namespace PG.Cxx
open PG.Gen

/-- json-number.hh:19-19 `swap` with a `field<T>` -/
def numSwapFun : Fun := ⟨n!"void", n!"swap", [(n!"field < T > &",
  n!"that")], (.cons (.expr (.call (.qual [n!"std", n!"swap"]) (.cons (.member (.name n!"this") n!"value_") (.cons (.member
  (.name n!"that") n!"value_") .nil)))) (.cons (.expr (.call (.qual [n!"std", n!"swap"]) (.cons (.member (.name n!"this")
  n!"empty_") (.cons (.member (.name n!"that") n!"empty_") .nil)))) .nil))⟩

theorem numSwapFun_text : Fun.of [] 60 (slice numberLines 19 19) = some numSwapFun := by decide +kernel

/-- json-number.hh:20-20 `swap` with a `T` -/
def numSwapTFun : Fun := ⟨n!"void", n!"swap", [(n!"T &", n!"that")], (.cons
  (.expr (.call (.qual [n!"std", n!"swap"]) (.cons (.member (.name n!"this") n!"value_") (.cons (.name n!"that") .nil))))
  (.cons (.expr (.assign (.name n!"empty_") (.name n!"false"))) .nil))⟩

theorem numSwapTFun_text : Fun.of [] 60 (slice numberLines 20 20) = some numSwapTFun := by decide +kernel

/-- json-number.hh:21-21 `empty` -/
def numEmptyFun : Fun := ⟨n!"bool", n!"empty", [], (.cons (.ret (some (.name
  n!"empty_"))) .nil)⟩

theorem numEmptyFun_text : Fun.of [] 60 (slice numberLines 21 21) = some numEmptyFun := by decide +kernel

/-- json-number.hh:22-22 `clear` -/
def numClearFun : Fun := ⟨n!"void", n!"clear", [], (.cons (.expr (.assign (.name
  n!"value_") (.cast n!"T" (.int .i32 0)))) (.cons (.expr (.assign (.name n!"empty_") (.name n!"true"))) .nil))⟩

theorem numClearFun_text : Fun.of [] 60 (slice numberLines 22 22) = some numClearFun := by decide +kernel

/-- json-number.hh:23-23 `operator=` for a `field<T>` -/
def numAssignFun : Fun := ⟨n!"field < T > &", n!"operator=",
  [(n!"const field < T > &", n!"that")], (.cons (.expr (.assign (.member (.name n!"this") n!"empty_") (.member (.name
  n!"that") n!"empty_"))) (.cons (.ite (.unary n!"!" (.name n!"empty_")) (.expr (.assign (.member (.name n!"this")
  n!"value_") (.member (.name n!"that") n!"value_"))) .skip) (.cons (.ret (some (.unary n!"*" (.name n!"this")))) .nil)))⟩

theorem numAssignFun_text : Fun.of [] 60 (slice numberLines 23 23) = some numAssignFun := by decide +kernel

/-- json-number.hh:24-24 `operator=` for a `T` -/
def numAssignTFun : Fun := ⟨n!"field < T > &", n!"operator=",
  [(n!"const T &", n!"that")], (.cons (.expr (.assign (.member (.name n!"this") n!"empty_") (.name n!"false"))) (.cons (.expr
  (.assign (.member (.name n!"this") n!"value_") (.name n!"that"))) (.cons (.ret (some (.unary n!"*" (.name n!"this"))))
  .nil)))⟩

theorem numAssignTFun_text : Fun.of [] 60 (slice numberLines 24 24) = some numAssignTFun := by decide +kernel

/-- json-number.hh:25-25 `operator==` for a `T` -/
def numEqTFun : Fun := ⟨n!"bool", n!"operator==", [(n!"const T &",
  n!"that")], (.cons (.ret (some (.binary n!"&&" (.unary n!"!" (.member (.name n!"this") n!"empty_")) (.binary n!"=="
  (.member (.name n!"this") n!"value_") (.name n!"that"))))) .nil)⟩

theorem numEqTFun_text : Fun.of [] 60 (slice numberLines 25 25) = some numEqTFun := by decide +kernel

/-- json-number.hh:26-26 `operator!=` for a `T` -/
def numNeTFun : Fun := ⟨n!"bool", n!"operator!=", [(n!"const T &",
  n!"that")], (.cons (.ret (some (.binary n!"&&" (.unary n!"!" (.member (.name n!"this") n!"empty_")) (.binary n!"!="
  (.member (.name n!"this") n!"value_") (.name n!"that"))))) .nil)⟩

theorem numNeTFun_text : Fun.of [] 60 (slice numberLines 26 26) = some numNeTFun := by decide +kernel

/-- json-number.hh:27-27 `operator==` for a `field<T>` -/
def numEqFun : Fun := ⟨n!"bool", n!"operator==",
  [(n!"const field < T > &", n!"that")], (.cons (.ret (some (.binary n!"&&" (.binary n!"==" (.member (.name n!"this")
  n!"empty_") (.member (.name n!"that") n!"empty_")) (.binary n!"==" (.member (.name n!"this") n!"value_") (.member (.name
  n!"that") n!"value_"))))) .nil)⟩

theorem numEqFun_text : Fun.of [] 60 (slice numberLines 27 27) = some numEqFun := by decide +kernel

/-- json-number.hh:28-28 `operator!=` for a `field<T>` -/
def numNeFun : Fun := ⟨n!"bool", n!"operator!=",
  [(n!"const field < T > &", n!"that")], (.cons (.ret (some (.binary n!"||" (.binary n!"!=" (.member (.name n!"this")
  n!"empty_") (.member (.name n!"that") n!"empty_")) (.binary n!"!=" (.member (.name n!"this") n!"value_") (.member (.name
  n!"that") n!"value_"))))) .nil)⟩

theorem numNeFun_text : Fun.of [] 60 (slice numberLines 28 28) = some numNeFun := by decide +kernel

/-- json-number.hh:29-29 conversion to `T` -/
def numGetFun : Fun := ⟨n!"T", n!"operator", [], (.cons (.ret (some (.member
  (.name n!"this") n!"value_"))) .nil)⟩

theorem numGetFun_text : Fun.of [] 60 (slice numberLines 29 29) = some numGetFun := by decide +kernel

/-- json-number.hh:136-136 `json<field<T>>::empty` -/
def fieldEmptyFun : Fun := ⟨n!"static bool", n!"empty",
  [(n!"const field < T > &", n!"value")], (.cons (.ret (some (.call (.member (.name n!"value") n!"empty") .nil))) .nil)⟩

theorem fieldEmptyFun_text : Fun.of [] 60 (slice numberLines 136 136) = some fieldEmptyFun := by decide +kernel

/-- json-number.hh:137-137 `json<field<T>>::clear` -/
def fieldClearFun : Fun := ⟨n!"static void", n!"clear",
  [(n!"field < T > &", n!"value")], (.cons (.expr (.call (.member (.name n!"value") n!"clear") .nil)) .nil)⟩

theorem fieldClearFun_text : Fun.of [] 60 (slice numberLines 137 137) = some fieldClearFun := by decide +kernel

/-- json-number.hh:138-138 `json<field<T>>::equal` -/
def fieldEqualFun : Fun := ⟨n!"static bool", n!"equal",
  [(n!"const field < T > &", n!"a"), (n!"const field < T > &", n!"b")], (.cons (.ret (some (.binary n!"==" (.name n!"a")
  (.name n!"b")))) .nil)⟩

theorem fieldEqualFun_text : Fun.of [] 60 (slice numberLines 138 138) = some fieldEqualFun := by decide +kernel

/-- json-number.hh:139-139 `json<field<T>>::swap` -/
def fieldSwapFun : Fun := ⟨n!"static void", n!"swap",
  [(n!"field < T > &", n!"a"), (n!"field < T > &", n!"b")], (.cons (.expr (.call (.member (.name n!"a") n!"swap") (.cons
  (.name n!"b") .nil))) .nil)⟩

theorem fieldSwapFun_text : Fun.of [] 60 (slice numberLines 139 139) = some fieldSwapFun := by decide +kernel

/-- json-number.hh:160-160 `json<T>::empty` -/
def rawEmptyFun : Fun := ⟨n!"static bool", n!"empty", [(n!"const T &",
  n!"value")], (.cons (.ret (some (.call (.name n!"equal_number") (.cons (.name n!"value") (.cons (.cast n!"T" (.int .i32 0))
  .nil))))) .nil)⟩

theorem rawEmptyFun_text : Fun.of [] 60 (slice numberLines 160 160) = some rawEmptyFun := by decide +kernel

/-- json-number.hh:161-161 `json<T>::clear` -/
def rawClearFun : Fun := ⟨n!"static void", n!"clear", [(n!"T &", n!"value")],
  (.cons (.expr (.assign (.name n!"value") (.cast n!"T" (.int .i32 0)))) .nil)⟩

theorem rawClearFun_text : Fun.of [] 60 (slice numberLines 161 161) = some rawClearFun := by decide +kernel

/-- json-number.hh:162-162 `json<T>::equal` -/
def rawEqualFun : Fun := ⟨n!"static bool", n!"equal", [(n!"const T &",
  n!"a"), (n!"const T &", n!"b")], (.cons (.ret (some (.call (.name n!"equal_number") (.cons (.name n!"a") (.cons (.name
  n!"b") .nil))))) .nil)⟩

theorem rawEqualFun_text : Fun.of [] 60 (slice numberLines 162 162) = some rawEqualFun := by decide +kernel

/-- json-number.hh:163-163 `json<T>::swap` -/
def rawSwapFun : Fun := ⟨n!"static void", n!"swap", [(n!"T &", n!"a"),
  (n!"T &", n!"b")], (.cons (.expr (.call (.qual [n!"std", n!"swap"]) (.cons (.name n!"a") (.cons (.name n!"b") .nil))))
  .nil)⟩

theorem rawSwapFun_text : Fun.of [] 60 (slice numberLines 163 163) = some rawSwapFun := by decide +kernel

/-- json-number.hh:184-184 `json<bool>::empty` -/
def boolEmptyFun : Fun := ⟨n!"static bool", n!"empty", [(n!"const bool &",
  n!"value")], (.cons (.ret (some (.unary n!"!" (.name n!"value")))) .nil)⟩

theorem boolEmptyFun_text : Fun.of [] 60 (slice numberLines 184 184) = some boolEmptyFun := by decide +kernel

/-- json-number.hh:185-185 `json<bool>::clear` -/
def boolClearFun : Fun := ⟨n!"static void", n!"clear", [(n!"bool &",
  n!"value")], (.cons (.expr (.assign (.name n!"value") (.name n!"false"))) .nil)⟩

theorem boolClearFun_text : Fun.of [] 60 (slice numberLines 185 185) = some boolClearFun := by decide +kernel

/-- json-number.hh:186-186 `json<bool>::equal` -/
def boolEqualFun : Fun := ⟨n!"static bool", n!"equal", [(n!"const bool &",
  n!"a"), (n!"const bool &", n!"b")], (.cons (.ret (some (.binary n!"==" (.name n!"a") (.name n!"b")))) .nil)⟩

theorem boolEqualFun_text : Fun.of [] 60 (slice numberLines 186 186) = some boolEqualFun := by decide +kernel

/-- json-number.hh:187-187 `json<bool>::swap` -/
def boolSwapFun : Fun := ⟨n!"static void", n!"swap", [(n!"bool &", n!"a"),
  (n!"bool &", n!"b")], (.cons (.expr (.call (.qual [n!"std", n!"swap"]) (.cons (.name n!"a") (.cons (.name n!"b") .nil))))
  .nil)⟩

theorem boolSwapFun_text : Fun.of [] 60 (slice numberLines 187 187) = some boolSwapFun := by decide +kernel

/-- json-string.hh:18-18 construction from a string -/
def strNewFun : Fun := ⟨n!"", n!"string_field",
  [(n!"const value_type &", n!"that")], (.cons (.expr (.assign (.member (.name n!"this") n!"value_") (.name n!"that")))
  (.cons (.expr (.assign (.name n!"null_") (.name n!"false"))) .nil))⟩

theorem strNewFun_text : Fun.of [] 60 (slice stringLines 18 18) = some strNewFun := by decide +kernel

/-- json-string.hh:19-19 construction from characters -/
def strOfCharsFun : Fun := ⟨n!"", n!"string_field",
  [(n!"const char *", n!"that")], (.cons (.expr (.assign (.member (.name n!"this") n!"value_") (.name n!"that"))) (.cons
  (.expr (.assign (.name n!"null_") (.name n!"false"))) .nil))⟩

theorem strOfCharsFun_text : Fun.of [] 60 (slice stringLines 19 19) = some strOfCharsFun := by decide +kernel

/-- json-string.hh:20-20 `swap` with a `string_field` -/
def strSwapFun : Fun := ⟨n!"void", n!"swap", [(n!"string_field &",
  n!"that")], (.cons (.expr (.call (.qual [n!"std", n!"swap"]) (.cons (.member (.name n!"this") n!"value_") (.cons (.member
  (.name n!"that") n!"value_") .nil)))) (.cons (.expr (.call (.qual [n!"std", n!"swap"]) (.cons (.member (.name n!"this")
  n!"null_") (.cons (.member (.name n!"that") n!"null_") .nil)))) .nil))⟩

theorem strSwapFun_text : Fun.of [] 60 (slice stringLines 20 20) = some strSwapFun := by decide +kernel

/-- json-string.hh:21-21 `swap` with a string -/
def strSwapTFun : Fun := ⟨n!"void", n!"swap", [(n!"value_type &",
  n!"that")], (.cons (.expr (.call (.qual [n!"std", n!"swap"]) (.cons (.member (.name n!"this") n!"value_") (.cons (.name
  n!"that") .nil)))) (.cons (.expr (.assign (.name n!"null_") (.name n!"false"))) .nil))⟩

theorem strSwapTFun_text : Fun.of [] 60 (slice stringLines 21 21) = some strSwapTFun := by decide +kernel

/-- json-string.hh:22-22 `empty()` -/
def strEmptyFun : Fun := ⟨n!"bool", n!"empty", [], (.cons (.ret (some (.binary n!"&&"
  (.name n!"null_") (.call (.member (.name n!"value_") n!"empty") .nil)))) .nil)⟩

theorem strEmptyFun_text : Fun.of [] 60 (slice stringLines 22 22) = some strEmptyFun := by decide +kernel

/-- json-string.hh:23-23 `empty(bool)` -/
def strSetEmptyFun : Fun := ⟨n!"void", n!"empty", [(n!"bool", n!"state")], (.cons
  (.expr (.assign (.name n!"null_") (.name n!"state"))) (.cons (.ite (.name n!"state") (.expr (.call (.member (.name
  n!"value_") n!"clear") .nil)) .skip) .nil))⟩

theorem strSetEmptyFun_text : Fun.of [] 60 (slice stringLines 23 23) = some strSetEmptyFun := by decide +kernel

/-- json-string.hh:24-24 `clear` -/
def strClearFun : Fun := ⟨n!"void", n!"clear", [], (.cons (.expr (.call (.member (.name
  n!"value_") n!"clear") .nil)) (.cons (.expr (.assign (.name n!"null_") (.name n!"true"))) .nil))⟩

theorem strClearFun_text : Fun.of [] 60 (slice stringLines 24 24) = some strClearFun := by decide +kernel

/-- json-string.hh:25-25 `operator=` for a `string_field` -/
def strAssignFun : Fun := ⟨n!"string_field &", n!"operator=",
  [(n!"const string_field &", n!"that")], (.cons (.expr (.assign (.member (.name n!"this") n!"null_") (.member (.name
  n!"that") n!"null_"))) (.cons (.ite (.unary n!"!" (.name n!"null_")) (.expr (.assign (.member (.name n!"this") n!"value_")
  (.member (.name n!"that") n!"value_"))) .skip) (.cons (.ret (some (.unary n!"*" (.name n!"this")))) .nil)))⟩

theorem strAssignFun_text : Fun.of [] 60 (slice stringLines 25 25) = some strAssignFun := by decide +kernel

/-- json-string.hh:26-26 `operator=` for a string -/
def strAssignTFun : Fun := ⟨n!"string_field &", n!"operator=",
  [(n!"const value_type &", n!"that")], (.cons (.expr (.assign (.member (.name n!"this") n!"null_") (.name n!"false")))
  (.cons (.expr (.assign (.member (.name n!"this") n!"value_") (.name n!"that"))) (.cons (.ret (some (.unary n!"*" (.name
  n!"this")))) .nil)))⟩

theorem strAssignTFun_text : Fun.of [] 60 (slice stringLines 26 26) = some strAssignTFun := by decide +kernel

/-- json-string.hh:27-27 `operator=` for characters -/
def strAssignCFun : Fun := ⟨n!"string_field &", n!"operator=",
  [(n!"const char *", n!"that")], (.cons (.expr (.assign (.member (.name n!"this") n!"null_") (.name n!"false"))) (.cons
  (.expr (.assign (.member (.name n!"this") n!"value_") (.name n!"that"))) (.cons (.ret (some (.unary n!"*" (.name
  n!"this")))) .nil)))⟩

theorem strAssignCFun_text : Fun.of [] 60 (slice stringLines 27 27) = some strAssignCFun := by decide +kernel

/-- json-string.hh:28-28 `operator==` for characters -/
def strEqCFun : Fun := ⟨n!"bool", n!"operator==",
  [(n!"const char *", n!"that")], (.cons (.ret (some (.binary n!"&&" (.unary n!"!" (.member (.name n!"this") n!"null_"))
  (.binary n!"==" (.member (.name n!"this") n!"value_") (.name n!"that"))))) .nil)⟩

theorem strEqCFun_text : Fun.of [] 60 (slice stringLines 28 28) = some strEqCFun := by decide +kernel

/-- json-string.hh:29-29 `operator!=` for characters -/
def strNeCFun : Fun := ⟨n!"bool", n!"operator!=",
  [(n!"const char *", n!"that")], (.cons (.ret (some (.binary n!"&&" (.unary n!"!" (.member (.name n!"this") n!"null_"))
  (.binary n!"!=" (.member (.name n!"this") n!"value_") (.name n!"that"))))) .nil)⟩

theorem strNeCFun_text : Fun.of [] 60 (slice stringLines 29 29) = some strNeCFun := by decide +kernel

/-- json-string.hh:30-30 `operator==` for a string -/
def strEqTFun : Fun := ⟨n!"bool", n!"operator==",
  [(n!"const value_type &", n!"that")], (.cons (.ret (some (.binary n!"&&" (.unary n!"!" (.member (.name n!"this")
  n!"null_")) (.binary n!"==" (.member (.name n!"this") n!"value_") (.name n!"that"))))) .nil)⟩

theorem strEqTFun_text : Fun.of [] 60 (slice stringLines 30 30) = some strEqTFun := by decide +kernel

/-- json-string.hh:31-31 `operator!=` for a string -/
def strNeTFun : Fun := ⟨n!"bool", n!"operator!=",
  [(n!"const value_type &", n!"that")], (.cons (.ret (some (.binary n!"&&" (.unary n!"!" (.member (.name n!"this")
  n!"null_")) (.binary n!"!=" (.member (.name n!"this") n!"value_") (.name n!"that"))))) .nil)⟩

theorem strNeTFun_text : Fun.of [] 60 (slice stringLines 31 31) = some strNeTFun := by decide +kernel

/-- json-string.hh:32-32 `operator==` for a `string_field` -/
def strEqFun : Fun := ⟨n!"bool", n!"operator==",
  [(n!"const string_field &", n!"that")], (.cons (.ret (some (.binary n!"&&" (.binary n!"==" (.member (.name n!"this")
  n!"null_") (.member (.name n!"that") n!"null_")) (.binary n!"==" (.member (.name n!"this") n!"value_") (.member (.name
  n!"that") n!"value_"))))) .nil)⟩

theorem strEqFun_text : Fun.of [] 60 (slice stringLines 32 32) = some strEqFun := by decide +kernel

/-- json-string.hh:33-33 `operator!=` for a `string_field` -/
def strNeFun : Fun := ⟨n!"bool", n!"operator!=",
  [(n!"const string_field &", n!"that")], (.cons (.ret (some (.binary n!"||" (.binary n!"!=" (.member (.name n!"this")
  n!"null_") (.member (.name n!"that") n!"null_")) (.binary n!"!=" (.member (.name n!"this") n!"value_") (.member (.name
  n!"that") n!"value_"))))) .nil)⟩

theorem strNeFun_text : Fun.of [] 60 (slice stringLines 33 33) = some strNeFun := by decide +kernel

/-- json-string.hh:34-34 conversion to a string -/
def strRefFun : Fun := ⟨n!"value_type &", n!"operator", [], (.cons (.ret
  (some (.member (.name n!"this") n!"value_"))) .nil)⟩

theorem strRefFun_text : Fun.of [] 60 (slice stringLines 34 34) = some strRefFun := by decide +kernel

/-- json-string.hh:35-35 conversion to a constant string -/
def strGetFun : Fun := ⟨n!"const value_type &", n!"operator",
  [], (.cons (.ret (some (.member (.name n!"this") n!"value_"))) .nil)⟩

theorem strGetFun_text : Fun.of [] 60 (slice stringLines 35 35) = some strGetFun := by decide +kernel

/-- json-string.hh:36-36 `operator*` -/
def strStarFun : Fun := ⟨n!"value_type &", n!"operator*", [], (.cons (.ret (some
  (.member (.name n!"this") n!"value_"))) .nil)⟩

theorem strStarFun_text : Fun.of [] 60 (slice stringLines 36 36) = some strStarFun := by decide +kernel

/-- json-string.hh:37-37 `operator*` of a constant object -/
def strStarConstFun : Fun := ⟨n!"const value_type &",
  n!"operator*", [], (.cons (.ret (some (.member (.name n!"this") n!"value_"))) .nil)⟩

theorem strStarConstFun_text : Fun.of [] 60 (slice stringLines 37 37) = some strStarConstFun := by decide +kernel

/-- json-string.hh:148-148 `json<std::string>::empty` -/
def stringEmptyFun : Fun := ⟨n!"static bool", n!"empty",
  [(n!"const std :: string &", n!"value")], (.cons (.ret (some (.call (.member (.name n!"value") n!"empty") .nil))) .nil)⟩

theorem stringEmptyFun_text : Fun.of [] 60 (slice stringLines 148 148) = some stringEmptyFun := by decide +kernel

/-- json-string.hh:149-149 `json<std::string>::clear` -/
def stringClearFun : Fun := ⟨n!"static void", n!"clear",
  [(n!"std :: string &", n!"value")], (.cons (.expr (.call (.member (.name n!"value") n!"clear") .nil)) .nil)⟩

theorem stringClearFun_text : Fun.of [] 60 (slice stringLines 149 149) = some stringClearFun := by decide +kernel

/-- json-string.hh:150-150 `json<std::string>::equal` -/
def stringEqualFun : Fun := ⟨n!"static bool", n!"equal",
  [(n!"const std :: string &", n!"a"), (n!"const std :: string &", n!"b")], (.cons (.ret (some (.binary n!"==" (.name n!"a")
  (.name n!"b")))) .nil)⟩

theorem stringEqualFun_text : Fun.of [] 60 (slice stringLines 150 150) = some stringEqualFun := by decide +kernel

/-- json-string.hh:151-151 `json<std::string>::swap` -/
def stringSwapFun : Fun := ⟨n!"static void", n!"swap",
  [(n!"std :: string &", n!"a"), (n!"std :: string &", n!"b")], (.cons (.expr (.call (.member (.name n!"a") n!"swap") (.cons
  (.name n!"b") .nil))) .nil)⟩

theorem stringSwapFun_text : Fun.of [] 60 (slice stringLines 151 151) = some stringSwapFun := by decide +kernel

/-- json-string.hh:175-175 `json<string_field>::empty` -/
def strFieldEmptyFun : Fun := ⟨n!"static bool", n!"empty",
  [(n!"const string_field &", n!"value")], (.cons (.ret (some (.call (.member (.name n!"value") n!"empty") .nil))) .nil)⟩

theorem strFieldEmptyFun_text : Fun.of [] 60 (slice stringLines 175 175) = some strFieldEmptyFun := by decide +kernel

/-- json-string.hh:176-176 `json<string_field>::clear` -/
def strFieldClearFun : Fun := ⟨n!"static void", n!"clear",
  [(n!"string_field &", n!"value")], (.cons (.expr (.call (.member (.name n!"value") n!"clear") .nil)) .nil)⟩

theorem strFieldClearFun_text : Fun.of [] 60 (slice stringLines 176 176) = some strFieldClearFun := by decide +kernel

/-- json-string.hh:177-177 `json<string_field>::equal` -/
def strFieldEqualFun : Fun := ⟨n!"static bool", n!"equal",
  [(n!"const string_field &", n!"a"), (n!"const string_field &", n!"b")], (.cons (.ret (some (.binary n!"==" (.name n!"a")
  (.name n!"b")))) .nil)⟩

theorem strFieldEqualFun_text : Fun.of [] 60 (slice stringLines 177 177) = some strFieldEqualFun := by decide +kernel

/-- json-string.hh:178-178 `json<string_field>::swap` -/
def strFieldSwapFun : Fun := ⟨n!"static void", n!"swap",
  [(n!"string_field &", n!"a"), (n!"string_field &", n!"b")], (.cons (.expr (.call (.member (.name n!"a") n!"swap") (.cons
  (.name n!"b") .nil))) .nil)⟩

theorem strFieldSwapFun_text : Fun.of [] 60 (slice stringLines 178 178) = some strFieldSwapFun := by decide +kernel

/-- json-array.hh:74-74 `json<T>::empty` of a container -/
def listEmptyFun : Fun := ⟨n!"static bool", n!"empty",
  [(n!"const T &", n!"value")], (.cons (.ret (some (.call (.member (.name n!"value") n!"empty") .nil))) .nil)⟩

theorem listEmptyFun_text : Fun.of [] 60 (slice arrayLines 74 74) = some listEmptyFun := by decide +kernel

/-- json-array.hh:75-75 `json<T>::clear` of a container -/
def listClearFun : Fun := ⟨n!"static void", n!"clear", [(n!"T &",
  n!"value")], (.cons (.expr (.call (.member (.name n!"value") n!"clear") .nil)) .nil)⟩

theorem listClearFun_text : Fun.of [] 60 (slice arrayLines 75 75) = some listClearFun := by decide +kernel

/-- json-array.hh:76-76 `json<T>::equal` of a container -/
def listEqualFun : Fun := ⟨n!"static bool", n!"equal",
  [(n!"const T &", n!"a"), (n!"const T &", n!"b")], (.cons (.ret (some (.binary n!"==" (.name n!"a") (.name n!"b")))) .nil)⟩

theorem listEqualFun_text : Fun.of [] 60 (slice arrayLines 76 76) = some listEqualFun := by decide +kernel

/-- json-array.hh:77-77 `json<T>::swap` of a container -/
def listSwapFun : Fun := ⟨n!"static void", n!"swap", [(n!"T &",
  n!"a"), (n!"T &", n!"b")], (.cons (.expr (.call (.qual [n!"std", n!"swap"]) (.cons (.name n!"a") (.cons (.name n!"b")
  .nil)))) .nil)⟩

theorem listSwapFun_text : Fun.of [] 60 (slice arrayLines 77 77) = some listSwapFun := by decide +kernel

/-- json-base64.hh:102-102 `empty` of bytes -/
def bytesEmptyFun : Fun := ⟨n!"static bool", n!"empty",
  [(n!"const std :: vector < uint8_t > &", n!"value")], (.cons (.ret (some (.call (.member (.name n!"value") n!"empty")
  .nil))) .nil)⟩

theorem bytesEmptyFun_text : Fun.of [] 60 (slice base64Lines 102 102) = some bytesEmptyFun := by decide +kernel

/-- json-base64.hh:103-103 `clear` of bytes -/
def bytesClearFun : Fun := ⟨n!"static void", n!"clear",
  [(n!"std :: vector < uint8_t > &", n!"value")], (.cons (.expr (.call (.member (.name n!"value") n!"clear") .nil)) .nil)⟩

theorem bytesClearFun_text : Fun.of [] 60 (slice base64Lines 103 103) = some bytesClearFun := by decide +kernel

/-- json-base64.hh:104-104 `equal` of bytes -/
def bytesEqualFun : Fun := ⟨n!"static bool", n!"equal",
  [(n!"const std :: vector < uint8_t > &", n!"a"), (n!"const std :: vector < uint8_t > &", n!"b")], (.cons (.ret (some
  (.binary n!"==" (.name n!"a") (.name n!"b")))) .nil)⟩

theorem bytesEqualFun_text : Fun.of [] 60 (slice base64Lines 104 104) = some bytesEqualFun := by decide +kernel

/-- json-base64.hh:105-105 `swap` of bytes -/
def bytesSwapFun : Fun := ⟨n!"static void", n!"swap",
  [(n!"std :: vector < uint8_t > &", n!"a"), (n!"std :: vector < uint8_t > &", n!"b")], (.cons (.expr (.call (.qual [n!"std",
  n!"swap"]) (.cons (.name n!"a") (.cons (.name n!"b") .nil)))) .nil)⟩

theorem bytesSwapFun_text : Fun.of [] 60 (slice base64Lines 105 105) = some bytesSwapFun := by decide +kernel

end PG.Cxx
