import Verif.Model.HeaderTxt
import Verif.Props.Printer
import Verif.Props.Template
/-
C82: the files of the runtime as they reach the generated file.
-/
set_option autoImplicit false
namespace PG.Gen
open PG.Proto

/-- The names of the files (CMakeLists.txt:64-94). -/
def Part.file : Part → Bytes
  | .protogen => b!"protogen.hh"
  | .json => b!"json.hh"
  | .array => b!"json-array.hh"
  | .base64 => b!"json-base64.hh"
  | .number => b!"json-number.hh"
  | .string => b!"json-string.hh"

/-- The macros that the generator prints (cppgen.cc:566-575). -/
def Part.macro : Part → Bytes
  | .protogen => b!"GENERATED__protogen_hh"
  | .json => b!"GENERATED__json_hh"
  | .array => b!"GENERATED__json_array_hh"
  | .base64 => b!"GENERATED__json_base___hh"
  | .number => b!"GENERATED__json_number_hh"
  | .string => b!"GENERATED__json_string_hh"

/-- The text of a file of the runtime as it is meant to appear: without the lines marked for removal, with the version in
place of the placeholder, and an empty line at the end. -/
def shipped : Runtime := fun p => withVersion (joined (p.lines.filter fun l => !removable l)) ++ [10]

/-! ### Checking the files line by line -/

theorem header_lines (p : Part) : ∀ l ∈ p.lines,
    (l.all fun c => c ≠ 10 && c ≠ 8 && c ≠ c!"$") = true ∧ mayHaveTrigraph l = false := by
  have key : ∀ p : Part, (p.lines.all fun l => (l.all fun c => c ≠ 10 && c ≠ 8 && c ≠ c!"$") && !mayHaveTrigraph l) = true := by
    intro p
    cases p <;> decide +kernel
  intro l hl
  have := List.all_eq_true.mp (key p) l hl
  rwa [Bool.and_eq_true, Bool.not_eq_true'] at this

theorem header_char {p : Part} {l : Bytes} (hl : l ∈ p.lines) {c : Byte} (hc : c ∈ l) : c ≠ 10 ∧ c ≠ 8 ∧ c ≠ c!"$" := by
  have := List.all_eq_true.mp (header_lines p l hl).1 c hc
  simpa [and_assoc] using this

theorem withVersion_chars {q : Byte → Prop} (hq : ∀ c ∈ b!"_3_0_0", q c) {s : Bytes} (h : ∀ c ∈ s, q c) :
    ∀ c ∈ withVersion s, q c := by
  induction hn : s.length using Nat.strongRecOn generalizing s with
  | ind k ih =>
    subst hn
    match s with
    | [] => exact h
    | c :: r =>
      by_cases hp : placeholder.isPrefixOf (c :: r) = true
      · obtain ⟨t, ht⟩ := List.isPrefixOf_iff_prefix.mp hp
        rw [← ht] at ih h ⊢
        rw [withVersion_prefix]
        intro d hd
        rcases List.mem_append.mp hd with hd | hd
        · exact hq d hd
        · exact ih t.length (by simp [placeholder]; omega) (fun c hc => h c (List.mem_append_right _ hc)) rfl d hd
      · rw [withVersion_cons (Bool.eq_false_iff.mpr hp)]
        intro d hd
        rcases List.mem_cons.mp hd with rfl | hd
        · exact h _ List.mem_cons_self
        · exact ih r.length (by simp) (fun c hc => h c (List.mem_cons_of_mem _ hc)) rfl d hd

theorem shipped_chars (p : Part) : ∀ c ∈ shipped p, c ≠ c!"$" ∧ c ≠ 8 := by
  intro c hc
  rcases List.mem_append.mp hc with hc | hc
  · refine withVersion_chars (q := fun c => c ≠ c!"$" ∧ c ≠ 8) (by decide) (fun c hc => ?_) c hc
    obtain ⟨l, hl, hc⟩ := List.mem_flatMap.mp hc
    rcases List.mem_append.mp hc with hc | hc
    · have := header_char (List.mem_filter.mp hl).1 hc
      exact ⟨this.2.2, this.2.1⟩
    · rw [List.mem_singleton.mp hc]; decide
  · rw [List.mem_singleton.mp hc]; decide

/-- **C82.** The template processor makes of each file of the runtime the macro that the generator prints, and its value is
the text of the file without the marked lines, with the version in place, and an empty line. -/
theorem C82_embedded (dir : Bytes) (p : Part) :
    macros (templateMain (dir ++ c!"/" :: p.file) (joined p.lines)) = [(p.macro, shipped p)] := by
  have hs : c!"/" ∉ p.file := by cases p <;> decide
  have hg : guardName (dir ++ c!"/" :: p.file) = p.macro := by
    rw [(C50_guard_of_file dir p.file hs).1]
    cases p <;> decide +kernel
  have he : endsWith (dir ++ c!"/" :: p.file) b!".hh" = true := by
    unfold endsWith
    rw [List.isSuffixOf_iff_suffix]
    have : b!".hh" <:+ p.file := by cases p <;> decide +kernel
    exact this.trans ((List.suffix_cons _ _).trans (List.suffix_append _ _))
  unfold templateMain
  rw [if_pos he, hg]
  have := C50_header (name := p.macro) (by cases p <;> (unfold MacroName; decide)) (ls := p.lines)
    (fun l hl c hc => (header_char hl hc).1) (fun l hl => (header_lines p l hl).2) (last := []) nofun _ rfl
  rw [List.append_nil] at this
  exact this

/-- A tab is printed as four spaces. -/
def tabless (s : Bytes) : Bytes := s.flatMap fun c => if c = 9 then b!"    " else [c]

/-- **C82.** … and the generator prints this text; only its tabs become spaces. -/
theorem C82_printed (p : Part) : Call.text shipped ⟨.runtime p, []⟩ = tabless (shipped p) :=
  C40_runtime_text shipped p (shipped_chars p)

/-- **C82.** No placeholder is left in what is printed. -/
theorem C82_version_in_place (p : Part) : ¬ b!"_X_Y_Z" <:+: shipped p := by
  have key : ∀ p : Part, contains b!"_X_Y_Z" (shipped p) = false := by
    intro p
    cases p <;> decide +kernel
  intro h
  rw [← contains_iff, key] at h
  cases h

/-- **C82.** The names the templates of the generator rely on are defined by the parts that are always included, with the
same version and the same numbers of parameters. -/
theorem C82_defined :
    b!"\n#define PG_3_0_0_ENTITY(N,O,S) \\\n" <:+: shipped .json ∧
    b!"\n#define PG_3_0_0_ENTITY_SERIALIZER(N,O,S) \\\n" <:+: shipped .json ∧
    b!"\nnamespace protogen_3_0_0 {\n" <:+: shipped .protogen ∧
    b!"\nnamespace protogen_3_0_0 {\n" <:+: shipped .json := by
  refine ⟨?_, ?_, ?_, ?_⟩ <;> (rw [← contains_iff]; decide +kernel)

end PG.Gen
