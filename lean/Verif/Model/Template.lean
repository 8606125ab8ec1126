import Verif.Model.Token
/-
The template processor of the build: source/template.cc.
-/
set_option autoImplicit false
namespace PG.Gen

/-- template.cc:11-14 and 49-52: the lines that `std::getline` delivers with the stream still good.  A last line that is
not followed by a line feed sets `eof`, so it is not among them. -/
def completeLines : Bytes → Bytes → List Bytes
  | _, [] => []
  | line, c :: rest => if c = 10 then line :: completeLines [] rest else completeLines (line ++ [c]) rest

/-- `line.find(needle) != npos` (C++ library). -/
def contains (needle : Bytes) : Bytes → Bool
  | [] => needle.isPrefixOf []
  | c :: rest => needle.isPrefixOf (c :: rest) || contains needle rest

/-- The placeholder of template.cc:20. -/
def placeholder : Bytes := b!"_X_Y_Z"
/-- source/cmake.hh.in:8 `PROTOGEN_VERSION_NAMING` with CMakeLists.txt:6-8. -/
def namingText : Bytes := b!"_3_0_0"

/-- template.cc:20-22: the first occurrence of the placeholder replaced, if there is one. -/
def replaceFirst : Bytes → Option Bytes
  | [] => none
  | c :: rest =>
    if placeholder.isPrefixOf (c :: rest) then some (namingText ++ (c :: rest).drop 6)
    else (replaceFirst rest).map (c :: ·)

theorem replaceFirst_count {s t : Bytes} (h : replaceFirst s = some t) : t.count c!"X" < s.count c!"X" := by
  induction s generalizing t with
  | nil => cases h
  | cons c rest ih =>
    rw [replaceFirst] at h
    split at h
    · rename_i hp
      injection h with h
      subst h
      obtain ⟨r, hr⟩ := List.isPrefixOf_iff_prefix.mp hp
      rw [← hr]
      simp [placeholder, namingText, List.count_cons]
    · cases hr : replaceFirst rest with
      | none => rw [hr] at h; cases h
      | some r =>
        rw [hr] at h
        injection h with h
        subst h
        have := ih hr
        simp only [List.count_cons]
        omega

/-- template.cc:19-23, the loop. -/
def replaceAll (line : Bytes) : Bytes :=
  match h : replaceFirst line with
  | none => line
  | some next => have := replaceFirst_count h; replaceAll next
termination_by line.count c!"X"

/-- template.cc:26-35 and 70-79: quotes and backslashes get a backslash. -/
def escapeLine (line : Bytes) : Bytes :=
  line.flatMap fun c => if c = c!"\"" then b!"\\\"" else if c = c!"\\" then b!"\\\\" else [c]

/-- template.cc:25-36 and 69-80: a line as a part of a string literal, followed by a continuation. -/
def quoteLine (line : Bytes) : Bytes := b!"    \"" ++ escapeLine line ++ b!"\\n\" \\\n"

/-- template.cc:16-17: lines that are dropped. -/
def removable (line : Bytes) : Bool := line.head? == some c!"#" && contains b!"AUTO-REMOVE" line

/-- template.cc:6-39 `copy`. -/
def copyText (name input : Bytes) : Bytes :=
  b!"#define " ++ name ++ b!" \\\n" ++
  ((completeLines [] input).filter fun l => !removable l).flatMap (fun l => quoteLine (replaceAll l)) ++
  b!"    \"\\n\"\n"

/-- template.cc:49-82, the loop of `process`; `content` tells whether a section is open. -/
def processLines : Bool → List Bytes → Bytes
  | _, [] => []
  | false, line :: rest =>
    if b!"--- ".isPrefixOf line then b!"#define " ++ line.drop 4 ++ b!" \\\n" ++ processLines true rest
    else processLines false rest
  | true, line :: rest =>
    if b!"------".isPrefixOf line then b!"\n" ++ processLines false rest
    else quoteLine line ++ processLines true rest

/-- template.cc:41-85 `process`. -/
def processText (guard input : Bytes) : Bytes :=
  b!"#ifndef " ++ guard ++ b!"\n#define " ++ guard ++ b!"\n" ++ processLines false (completeLines [] input) ++
  b!"#endif // " ++ guard ++ b!"\n"

/-- template.cc:87-91 `ends_with`: the last occurrence is at the end. -/
def endsWith (text needle : Bytes) : Bool := needle.isSuffixOf text

/-- template.cc:109-114: the part after the last `/`. -/
def baseName (path : Bytes) : Bytes := (path.reverse.takeWhile (· ≠ c!"/")).reverse

/-- template.cc:115-117: the name of the macro or the guard; `isalpha` in the "C" locale. -/
def guardName (path : Bytes) : Bytes :=
  (b!"GENERATED__" ++ baseName path).map fun c =>
    if (c!"A" ≤ c ∧ c ≤ c!"Z") ∨ (c!"a" ≤ c ∧ c ≤ c!"z") then c else c!"_"

/-- template.cc:93-125 `main`, from the path and the contents of the input to the contents of the output. -/
def templateMain (path input : Bytes) : Bytes :=
  if endsWith path b!".hh" then copyText (guardName path) input else processText (guardName path) input

end PG.Gen
