import Verif.Proofs.Template
import Verif.Spec.Gen
import Verif.Model.CodeTxt
import Verif.Props.Printer
/-
C50: the template processor.
-/
set_option autoImplicit false
namespace PG.Gen

theorem contains_iff (needle s : Bytes) : contains needle s = true ↔ needle <:+: s := by
  induction s with
  | nil =>
    rw [contains, List.isPrefixOf_iff_prefix]
    constructor
    · intro h; exact h.isInfix
    · rintro ⟨a, b, e⟩
      simp only [List.append_eq_nil_iff] at e
      exact ⟨[], by simp [e.1.2]⟩
  | cons c s ih =>
    rw [contains, Bool.or_eq_true, List.isPrefixOf_iff_prefix, ih, List.infix_cons_iff]

/-- A line that the processor has to leave out: a directive with this mark. -/
def Marked (l : Bytes) : Prop := l.head? = some c!"#" ∧ b!"AUTO-REMOVE" <:+: l

theorem removable_iff (l : Bytes) : removable l = true ↔ Marked l := by
  unfold removable Marked
  rw [Bool.and_eq_true, beq_iff_eq, contains_iff]

theorem prefix_before {p a r : Bytes} {x : Byte} (hx : x ∉ p) (h : p <+: a ++ x :: r) : p <+: a := by
  induction p generalizing a with
  | nil => exact List.nil_prefix
  | cons y p ih =>
    cases a with
    | nil =>
      rw [List.nil_append, List.cons_prefix_cons] at h
      exact absurd (by rw [h.1]; exact List.mem_cons_self) hx
    | cons z a =>
      rw [List.cons_append, List.cons_prefix_cons] at h
      rw [List.cons_prefix_cons]
      exact ⟨h.1, ih (fun hm => hx (List.mem_cons_of_mem y hm)) h.2⟩

theorem withVersion_line (l r : Bytes) : withVersion (l ++ 10 :: r) = withVersion l ++ 10 :: withVersion r := by
  match hl : l with
  | [] => exact withVersion_cons (by simp [placeholder, List.isPrefixOf])
  | c :: l' =>
    by_cases hp : placeholder.isPrefixOf (c :: l') = true
    · obtain ⟨k, hk⟩ := List.isPrefixOf_iff_prefix.mp hp
      have : k.length < l.length := by rw [hl, ← hk]; simp [placeholder]; omega
      rw [← hk, List.append_assoc, withVersion_prefix, withVersion_prefix, withVersion_line k r, List.append_assoc]
    · have hp' : placeholder.isPrefixOf (c :: (l' ++ 10 :: r)) = false := by
        rw [Bool.eq_false_iff]
        intro h
        rw [List.isPrefixOf_iff_prefix] at h hp
        exact hp (prefix_before (x := 10) (a := c :: l') (by decide) h)
      rw [List.cons_append, withVersion_cons hp', withVersion_cons (Bool.eq_false_iff.mpr hp)]
      have : l'.length < l.length := by rw [hl]; simp
      rw [withVersion_line l' r]
      rfl
termination_by l.length

theorem withVersion_joined (ls : List Bytes) : withVersion (joined ls) = joined (ls.map withVersion) := by
  induction ls with
  | nil => rfl
  | cons l ls ih =>
    simp only [joined, List.flatMap_cons, List.map_cons, List.append_assoc, List.cons_append, List.nil_append] at ih ⊢
    rw [withVersion_line, ih]

theorem withVersion_head (s : Bytes) : (withVersion s).head? = s.head? := by
  cases s with
  | nil => rfl
  | cons c r =>
    by_cases hp : placeholder.isPrefixOf (c :: r) = true
    · obtain ⟨k, hk⟩ := List.isPrefixOf_iff_prefix.mp hp
      rw [← hk]; rfl
    · rw [withVersion_cons (Bool.eq_false_iff.mpr hp)]; rfl

theorem trigraph_tail {c : Byte} {s : Bytes} (h : mayHaveTrigraph (c :: s) = false) : mayHaveTrigraph s = false := by
  cases s with
  | nil => rfl
  | cons d s => rw [mayHaveTrigraph, Bool.or_eq_false_iff] at h; exact h.2

theorem trigraph_cons {c : Byte} {s t : Bytes} (h : mayHaveTrigraph (c :: s) = false) (hh : t.head? = s.head?)
    (ht : mayHaveTrigraph t = false) : mayHaveTrigraph (c :: t) = false := by
  cases t with
  | nil => rfl
  | cons d t =>
    cases s with
    | nil => cases hh
    | cons e s =>
      injection hh with hh
      subst hh
      rw [mayHaveTrigraph, Bool.or_eq_false_iff] at h ⊢
      exact ⟨h.1, ht⟩

theorem withVersion_trigraph {s : Bytes} (h : mayHaveTrigraph s = false) : mayHaveTrigraph (withVersion s) = false := by
  match hs : s with
  | [] => rfl
  | c :: r =>
    by_cases hp : placeholder.isPrefixOf (c :: r) = true
    · obtain ⟨k, hk⟩ := List.isPrefixOf_iff_prefix.mp hp
      have hlen : k.length < s.length := by rw [hs, ← hk]; simp [placeholder]; omega
      rw [← hk] at h
      have hz : mayHaveTrigraph (c!"Z" :: k) = false :=
        trigraph_tail (trigraph_tail (trigraph_tail (trigraph_tail (trigraph_tail h))))
      have h' := withVersion_trigraph (trigraph_tail hz)
      rw [← hk, withVersion_prefix]
      have skip : ∀ (a : Byte) (s : Bytes), a ≠ c!"?" → mayHaveTrigraph s = false → mayHaveTrigraph (a :: s) = false := by
        intro a s ha hs
        cases s with
        | nil => rfl
        | cons b s => rw [mayHaveTrigraph]; simp [ha, hs]
      simp only [List.cons_append, List.nil_append]
      exact skip _ _ (by decide) (skip _ _ (by decide) (skip _ _ (by decide) (skip _ _ (by decide) (skip _ _ (by decide)
        (skip _ _ (by decide) h')))))
    · rw [withVersion_cons (Bool.eq_false_iff.mpr hp)]
      have hlen : r.length < s.length := by rw [hs]; simp
      exact trigraph_cons h (withVersion_head r) (withVersion_trigraph (trigraph_tail h))
termination_by s.length

theorem withVersion_no_lf {s : Bytes} (h : ∀ c ∈ s, c ≠ 10) : ∀ c ∈ withVersion s, c ≠ 10 := by
  match hs : s with
  | [] => exact nofun
  | c :: r =>
    by_cases hp : placeholder.isPrefixOf (c :: r) = true
    · obtain ⟨k, hk⟩ := List.isPrefixOf_iff_prefix.mp hp
      have hlen : k.length < s.length := by rw [hs, ← hk]; simp [placeholder]; omega
      rw [← hk] at h ⊢
      rw [withVersion_prefix]
      intro d hd
      rcases List.mem_append.mp hd with hd | hd
      · exact (by decide : ∀ c ∈ b!"_3_0_0", c ≠ 10) d hd
      · exact withVersion_no_lf (fun e he => h e (List.mem_append_right _ he)) d hd
    · rw [withVersion_cons (Bool.eq_false_iff.mpr hp)]
      have hlen : r.length < s.length := by rw [hs]; simp
      intro d hd
      rcases List.mem_cons.mp hd with rfl | hd
      · exact h d List.mem_cons_self
      · exact withVersion_no_lf (fun e he => h e (List.mem_cons_of_mem c he)) d hd
termination_by s.length

/-- Lines of text. -/
def Lines (ls : List Bytes) : Prop := ∀ l ∈ ls, ∀ c ∈ l, c ≠ 10
/-- … without anything like a trigraph. -/
def NoTrigraphs (ls : List Bytes) : Prop := ∀ l ∈ ls, mayHaveTrigraph l = false

/-- **C50.** What the processor makes of a header: one macro whose value consists of the lines without the marked ones,
with the version in place, and an empty line. -/
theorem C50_header {name : Bytes} (hn : MacroName name) {ls : List Bytes} (hl : Lines ls) (ht : NoTrigraphs ls)
    {last : Bytes} (hlast : ∀ c ∈ last, c ≠ 10) (kept : List Bytes) (hk : kept = ls.filter fun l => !removable l) :
    macros (copyText name (joined ls ++ last)) = [(name, withVersion (joined kept) ++ [10])] := by
  unfold copyText
  rw [completeLines_joined hl hlast, ← hk]
  have e : kept.flatMap (fun l => quoteLine (replaceAll l)) = (kept.map withVersion).flatMap quoteLine := by
    rw [List.flatMap_map]
    congr 1
    funext l
    rw [replaceAll_eq]
  rw [e]
  have hmem : ∀ l ∈ kept, l ∈ ls := by
    intro l h
    rw [hk] at h
    exact (List.mem_filter.mp h).1
  have := macros_define hn (ls := kept.map withVersion) (by
      intro l h
      obtain ⟨k, hk', rfl⟩ := List.mem_map.mp h
      exact ⟨withVersion_no_lf (hl k (hmem k hk')), withVersion_trigraph (ht k (hmem k hk'))⟩)
    (tail := b!"    \"\\n\"") (by decide) (Or.inr ⟨b!"    \"\\n", c!"\"", rfl, by decide⟩) (v := [10]) (by decide) []
  rw [withVersion_joined]
  simpa [macros, splice, linesOf] using this

/-- **C50 (partial).** If the text ends with a line feed, has no marked lines and nothing like a trigraph, the value of the
macro is the text, with the placeholder replaced, and an empty line.  Missing: a last line without line feed, which is
lost; the additional empty line is always there; trigraphs. -/
theorem C50_reproduced_partial {name : Bytes} (hn : MacroName name) {ls : List Bytes} (hl : Lines ls) (ht : NoTrigraphs ls)
    (hm : ∀ l ∈ ls, ¬ Marked l) : macros (copyText name (joined ls)) = [(name, withVersion (joined ls) ++ [10])] := by
  have := C50_header hn hl ht (last := []) nofun ls (by
    rw [List.filter_eq_self.mpr]
    intro l h
    rw [Bool.not_eq_true', Bool.eq_false_iff]
    exact fun hr => hm l h ((removable_iff l).mp hr))
  rwa [List.append_nil] at this

example : macros (copyText b!"X" b!"say(\"a\\tb\");\n#include AUTO-REMOVE\nns_X_Y_Z::f\nlast") =
    [(b!"X", b!"say(\"a\\tb\");\nns_3_0_0::f\n\n")] :=
  C50_header (name := b!"X") (by unfold MacroName; decide)
    (ls := [b!"say(\"a\\tb\");", b!"#include AUTO-REMOVE", b!"ns_X_Y_Z::f"]) (by unfold Lines; decide)
    (by unfold NoTrigraphs; decide) (last := b!"last") (by decide) [b!"say(\"a\\tb\");", b!"ns_X_Y_Z::f"] (by decide)

theorem withVersion_length (s : Bytes) : (withVersion s).length = s.length := by
  induction h : s.length using Nat.strongRecOn generalizing s with
  | ind k ih =>
    subst h
    match s with
    | [] => rfl
    | c :: r =>
      by_cases hp : placeholder.isPrefixOf (c :: r) = true
      · obtain ⟨q, hq⟩ := List.isPrefixOf_iff_prefix.mp hp
        rw [← hq] at ih ⊢
        rw [withVersion_prefix, List.length_append, List.length_append,
          ih q.length (by simp [placeholder]; omega) q rfl]
        rfl
      · rw [withVersion_cons (Bool.eq_false_iff.mpr hp), List.length_cons, List.length_cons,
          ih r.length (by simp) r rfl]

theorem joined_filter_length (p : Bytes → Bool) (ls : List Bytes) :
    (joined (ls.filter p)).length ≤ (joined ls).length ∧
    ((joined (ls.filter p)).length = (joined ls).length → ∀ l ∈ ls, p l = true) := by
  induction ls with
  | nil => exact ⟨Nat.le_refl _, nofun⟩
  | cons l ls ih =>
    rw [List.filter_cons]
    cases hp : p l with
    | true =>
      simp only [if_true, joined, List.flatMap_cons, List.length_append, List.length_cons, List.length_nil] at ih ⊢
      refine ⟨by omega, fun h k hk => ?_⟩
      rcases List.mem_cons.mp hk with rfl | hk
      · exact hp
      · exact ih.2 (by omega) k hk
    | false =>
      simp only [Bool.false_eq_true, if_false, joined, List.flatMap_cons, List.length_append, List.length_cons,
        List.length_nil] at ih ⊢
      exact ⟨by omega, fun h => by omega⟩

/-- **C50 (exactly).** A header without trigraphs is reproduced, up to the empty line that is added to every header, if and
only if its last line ends with a line feed and none of its lines is marked for removal. -/
theorem C50_reproduced_iff {name : Bytes} (hn : MacroName name) {ls : List Bytes} (hl : Lines ls) (ht : NoTrigraphs ls)
    {last : Bytes} (hlast : ∀ c ∈ last, c ≠ 10) :
    macros (copyText name (joined ls ++ last)) = [(name, withVersion (joined ls ++ last) ++ [10])] ↔
      last = [] ∧ ∀ l ∈ ls, ¬ Marked l := by
  constructor
  · intro h
    rw [C50_header hn hl ht hlast _ rfl] at h
    simp only [List.cons.injEq, Prod.mk.injEq, true_and, and_true, List.append_left_inj] at h
    have e := congrArg List.length h
    rw [withVersion_length, withVersion_length, List.length_append] at e
    have hf := joined_filter_length (fun l => !removable l) ls
    have h0 : last.length = 0 := by omega
    refine ⟨List.length_eq_zero_iff.mp h0, fun l hmem hm => ?_⟩
    have := hf.2 (by omega) l hmem
    rw [(removable_iff l).mpr hm] at this
    cases this
  · rintro ⟨rfl, hm⟩
    rw [List.append_nil]
    exact C50_reproduced_partial hn hl ht hm

/-- **C50 (negation).** A last line without a line feed is lost, and an empty line is added. -/
theorem C50_last_line_lost (name : Bytes) {ls : List Bytes} (hl : Lines ls) {last : Bytes} (hlast : ∀ c ∈ last, c ≠ 10) :
    copyText name (joined ls ++ last) = copyText name (joined ls) := by
  have h0 := completeLines_joined hl (last := []) nofun
  rw [List.append_nil] at h0
  unfold copyText
  rw [completeLines_joined hl hlast, h0]

/-- **C50 (negation).** Witness. -/
theorem C50_is_false : macros (copyText b!"X" b!"int x;") = [(b!"X", b!"\n")] := by decide

/-! ### The file of templates -/

/-- A section of the file: lines before it, its name, its lines, and what follows the closing dashes. -/
structure Section where
  before : List Bytes
  name : Bytes
  body : List Bytes
  after : Bytes

/-- The lines of a section. -/
def Section.lines (s : Section) : List Bytes := s.before ++ [b!"--- " ++ s.name] ++ s.body ++ [b!"------" ++ s.after]

/-- Well formed. -/
def Section.WF (s : Section) : Prop :=
  (∀ l ∈ s.before, ¬ b!"--- " <+: l) ∧ MacroName s.name ∧ (∀ l ∈ s.body, ¬ b!"------" <+: l) ∧
  Lines s.before ∧ Lines s.body ∧ NoTrigraphs s.body ∧ ∀ c ∈ s.after, c ≠ 10

theorem processLines_skip {ls rest : List Bytes} (h : ∀ l ∈ ls, ¬ b!"--- " <+: l) :
    processLines false (ls ++ rest) = processLines false rest := by
  induction ls with
  | nil => rfl
  | cons l ls ih =>
    rw [List.cons_append, processLines, if_neg (by rw [List.isPrefixOf_iff_prefix]; exact h l List.mem_cons_self),
      ih fun k hk => h k (List.mem_cons_of_mem l hk)]

theorem processLines_body {ls rest : List Bytes} (h : ∀ l ∈ ls, ¬ b!"------" <+: l) :
    processLines true (ls ++ rest) = ls.flatMap quoteLine ++ processLines true rest := by
  induction ls with
  | nil => rfl
  | cons l ls ih =>
    rw [List.cons_append, processLines, if_neg (by rw [List.isPrefixOf_iff_prefix]; exact h l List.mem_cons_self),
      ih fun k hk => h k (List.mem_cons_of_mem l hk), List.flatMap_cons, List.append_assoc]

theorem processLines_section {s : Section} (h : s.WF) (rest : List Bytes) :
    processLines false (s.lines ++ rest) =
      b!"#define " ++ s.name ++ b!" \\\n" ++ s.body.flatMap quoteLine ++ [] ++ 10 :: processLines false rest := by
  unfold Section.lines
  simp only [List.append_assoc]
  have h1 : ∀ rest, processLines false ((b!"--- " ++ s.name) :: rest) =
      b!"#define " ++ s.name ++ b!" \\\n" ++ processLines true rest := fun rest => rfl
  have h2 : ∀ rest, processLines true ((b!"------" ++ s.after) :: rest) = 10 :: processLines false rest := fun rest => rfl
  rw [processLines_skip h.1]
  simp only [List.cons_append, List.nil_append] at h1 h2 ⊢
  rw [h1, processLines_body h.2.2.1, h2]
  simp

theorem takeWhile_self {p : Byte → Bool} {l : Bytes} (h : ∀ c ∈ l, p c = true) : l.takeWhile p = l := by
  induction l with
  | nil => rfl
  | cons c l ih => rw [List.takeWhile_cons, if_pos (h c List.mem_cons_self), ih fun d hd => h d (List.mem_cons_of_mem c hd)]

theorem dropWhile_nil {p : Byte → Bool} {l : Bytes} (h : ∀ c ∈ l, p c = true) : l.dropWhile p = [] := by
  induction l with
  | nil => rfl
  | cons c l ih => rw [List.dropWhile_cons, if_pos (h c List.mem_cons_self), ih fun d hd => h d (List.mem_cons_of_mem c hd)]

theorem macros_skip {l r : Bytes} (h : ∀ c ∈ l, c ≠ 10) (hb : l ≠ []) (he : ∀ a, l ≠ a ++ [c!"\\"]) :
    macros (l ++ 10 :: r) = (macroOf l).toList ++ macros r := by
  unfold macros
  have : splice (l ++ 10 :: r) = l ++ 10 :: splice r := by
    obtain ⟨a, c, rfl⟩ : ∃ a c, l = a ++ [c] := ⟨l.dropLast, l.getLast hb, (List.dropLast_concat_getLast hb).symm⟩
    have e : a ++ [c] ++ 10 :: r = a ++ c :: 10 :: r := by simp
    rw [e, splice_append (fun d hd => h d (List.mem_append_left _ hd)) (h c (by simp)), splice.eq_def]
    simp only
    rw [if_neg fun e => he a (by rw [e.1]), splice_lf]
    simp
  rw [this, linesOf_append h, List.filterMap_cons]
  cases macroOf l <;> rfl

/-- **C50.** What the processor makes of a file of templates: a macro for every section, whose value consists of its
lines.  The first macro is the guard. -/
theorem C50_sections {guard : Bytes} (hg : MacroName guard) {ss : List Section} (h : ∀ s ∈ ss, s.WF) {rest : List Bytes}
    (hr : ∀ l ∈ rest, ¬ b!"--- " <+: l) (hl : Lines rest) :
    macros (processText guard (joined (ss.flatMap Section.lines ++ rest))) =
      (guard, []) :: ss.map fun s => (s.name, joined s.body) := by
  have hlines : Lines (ss.flatMap Section.lines ++ rest) := by
    intro l hm
    rcases List.mem_append.mp hm with hm | hm
    · obtain ⟨s, hs, hm⟩ := List.mem_flatMap.mp hm
      obtain ⟨_, hn, _, hb, hbody, _, ha⟩ := h s hs
      simp only [Section.lines, List.mem_append, List.mem_cons, List.not_mem_nil, or_false] at hm
      rcases hm with ((hm | rfl) | hm) | rfl
      · exact hb l hm
      · intro c hc
        rcases List.mem_append.mp hc with hc | hc
        · exact (by decide : ∀ c ∈ b!"--- ", c ≠ 10) c hc
        · exact (hn.2 c hc).2.1
      · exact hbody l hm
      · intro c hc
        rcases List.mem_append.mp hc with hc | hc
        · exact (by decide : ∀ c ∈ b!"------", c ≠ 10) c hc
        · exact ha c hc
    · exact hl l hm
  have hc := completeLines_joined hlines (last := []) nofun
  rw [List.append_nil] at hc
  unfold processText
  rw [hc]
  have hgl : ∀ c ∈ guard, c ≠ 10 := fun c hc => (hg.2 c hc).2.1
  have hend : ∀ (p : Bytes), (∀ a, p ++ guard ≠ a ++ [c!"\\"]) := by
    intro p a e
    have : guard.getLast? = some c!"\\" := by
      have h1 := congrArg List.getLast? e
      rw [List.getLast?_append, List.getLast?_append] at h1
      cases hgl : guard.getLast? with
      | none => rw [List.getLast?_eq_none_iff] at hgl; exact absurd hgl hg.1
      | some x => rw [hgl] at h1; simpa using h1
    exact (hg.2 _ (List.mem_of_getLast? this)).2.2 rfl
  have hne : ∀ p : Bytes, p ++ guard ≠ [] := by
    intro p e
    rw [List.append_eq_nil_iff] at e
    exact hg.1 e.2
  have hno : ∀ p : Bytes, (∀ c ∈ p, c ≠ 10) → ∀ c ∈ p ++ guard, c ≠ 10 := by
    intro p hp c hc
    rcases List.mem_append.mp hc with hc | hc
    · exact hp c hc
    · exact hgl c hc
  -- the sections
  have hsec : ∀ (ss : List Section), (∀ s ∈ ss, s.WF) → ∀ tail : Bytes,
      macros (processLines false (ss.flatMap Section.lines ++ rest) ++ tail) =
        (ss.map fun s => (s.name, joined s.body)) ++ macros tail := by
    intro ss
    induction ss with
    | nil =>
      intro _ tail
      have := processLines_skip (rest := []) hr
      rw [List.append_nil] at this
      rw [List.flatMap_nil, List.nil_append, this]
      rfl
    | cons s ss ih =>
      intro h tail
      have hs := h s List.mem_cons_self
      have ih := ih (fun k hk => h k (List.mem_cons_of_mem s hk)) tail
      rw [List.flatMap_cons, List.append_assoc, processLines_section hs]
      have e : b!"#define " ++ s.name ++ b!" \\\n" ++ s.body.flatMap quoteLine ++ [] ++
          10 :: processLines false (ss.flatMap Section.lines ++ rest) ++ tail =
          b!"#define " ++ s.name ++ b!" \\\n" ++ s.body.flatMap quoteLine ++ [] ++
          10 :: (processLines false (ss.flatMap Section.lines ++ rest) ++ tail) := by
        rw [List.append_assoc (_ ++ [])]
        rfl
      rw [e, macros_define hs.2.1 (ls := s.body) (fun l hl => ⟨hs.2.2.2.2.1 l hl, hs.2.2.2.2.2.1 l hl⟩) (tail := []) nofun
        (Or.inl rfl) (v := []) rfl, ih, List.append_nil]
      rfl
  have e : b!"#ifndef " ++ guard ++ b!"\n#define " ++ guard ++ b!"\n" ++
      processLines false (ss.flatMap Section.lines ++ rest) ++ b!"#endif // " ++ guard ++ b!"\n" =
      (b!"#ifndef " ++ guard) ++ 10 :: ((b!"#define " ++ guard) ++ 10 ::
        (processLines false (ss.flatMap Section.lines ++ rest) ++ ((b!"#endif // " ++ guard) ++ 10 :: []))) := by simp
  rw [e, macros_skip (hno _ (by decide)) (hne _) (hend _), macros_skip (hno _ (by decide)) (hne _) (hend _), hsec ss h,
    macros_skip (hno _ (by decide)) (hne _) (hend _)]
  have m1 : macroOf (b!"#ifndef " ++ guard) = none := by simp [macroOf, List.isPrefixOf]
  have m3 : macroOf (b!"#endif // " ++ guard) = none := by simp [macroOf, List.isPrefixOf]
  have m2 : macroOf (b!"#define " ++ guard) = some (guard, []) := by
    have hsp : ∀ c ∈ guard, (decide (c ≠ c!" ")) = true := fun c hc => decide_eq_true (hg.2 c hc).1
    unfold macroOf
    rw [if_pos (by rw [List.isPrefixOf_iff_prefix]; exact List.prefix_append _ _)]
    have e : (b!"#define " ++ guard).drop 8 = guard := rfl
    simp only [e]
    rw [takeWhile_self hsp, dropWhile_nil hsp]
    rfl
  rw [m1, m2, m3]
  simp [macros, splice, linesOf]

/-- **C50 (negation).** A section that is not closed swallows the rest of the output: its macro is not a string. -/
theorem C50_unclosed_section : macros (processText b!"G" b!"--- A\nx\n") = [(b!"G", [])] := by decide

/-- **C50.** The name of the macro is an identifier. -/
theorem C50_guard_is_identifier (path : Bytes) : CIdent (guardName path) := by
  refine ⟨c!"G", (b!"ENERATED__" ++ baseName path).map _, rfl, by decide, fun c hc => ?_⟩
  obtain ⟨x, _, rfl⟩ := List.mem_map.mp hc
  split
  · rename_i h
    rcases h with h | h
    · exact Or.inl h
    · exact Or.inr (Or.inl h)
  · exact Or.inr (Or.inr (Or.inr rfl))

/-- C50.  The name comes from the file name alone, letter by letter, whatever directory the file is in. -/
theorem C50_guard_of_file (dir name : Bytes) (h : c!"/" ∉ name) :
    guardName (dir ++ c!"/" :: name) = guardName name ∧
    guardName name = b!"GENERATED__" ++ name.map fun c =>
      if (65 ≤ c ∧ c ≤ 90) ∨ (97 ≤ c ∧ c ≤ 122) then c else c!"_" := by
  have key : ∀ r : Bytes, (r = [] ∨ ∃ t, r = c!"/" :: t) → (name.reverse ++ r).takeWhile (· ≠ c!"/") = name.reverse := by
    intro r hr
    rw [List.takeWhile_append_of_pos (by
      intro x hx
      have : x ∈ name := by simpa using hx
      have : x ≠ c!"/" := fun e => h (e ▸ this)
      simpa using this)]
    rcases hr with rfl | ⟨t, rfl⟩ <;> simp
  have h1 : baseName (dir ++ c!"/" :: name) = name := by
    unfold baseName
    rw [List.reverse_append, List.reverse_cons, List.append_assoc, key ([c!"/"] ++ dir.reverse) (.inr ⟨_, rfl⟩), List.reverse_reverse]
  have h2 : baseName name = name := by
    unfold baseName
    have := key [] (.inl rfl)
    rw [List.append_nil] at this
    rw [this, List.reverse_reverse]
  refine ⟨by unfold guardName; rw [h1, h2], ?_⟩
  unfold guardName
  rw [h2, List.map_append]
  rfl

example : guardName b!"/repo/source/cpp/json-base64.hh" = b!"GENERATED__json_base___hh" := by decide

/-! ### The file of this program -/

/-- **C50.** The templates of the generator are what the processor makes of `code.txt`: every macro that the generator uses
is defined by it, once, and has the text that the model of the generator has. -/
theorem C50_code_txt (rt : Runtime) : ∀ e ∈ codeMacros,
    (macros (templateMain b!"/repo/source/cpp/code.txt" codeTxt)).filter (·.1 = e.1) = [(e.1, e.2.text rt)] := by
  have h : (codeMacros.all fun e => decide
      ((macros (templateMain b!"/repo/source/cpp/code.txt" codeTxt)).filter (·.1 = e.1) = [(e.1, e.2.text fun _ => [])])) =
      true := by decide +kernel
  intro e he
  have := of_decide_eq_true (List.all_eq_true.mp h e he)
  rw [this]
  have ht : ∀ e ∈ codeMacros, ∀ p, e.2 ≠ Tpl.runtime p := by
    intro e he p
    have : (codeMacros.all fun e => match e.2 with | .runtime _ => false | _ => true) = true := by decide
    have := List.all_eq_true.mp this e he
    intro hp
    rw [hp] at this
    cases this
  have : e.2.text (fun _ => []) = e.2.text rt := by
    cases hc : e.2 with
    | runtime p => exact absurd hc (ht e he p)
    | _ => rfl
  rw [this]

/-- **C50.** The guard of the processed file is an additional macro, and all names are different. -/
theorem C50_code_txt_distinct :
    ((macros (templateMain b!"/repo/source/cpp/code.txt" codeTxt)).map (·.1)).Nodup := by decide +kernel

end PG.Gen
