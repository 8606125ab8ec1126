import Verif.Spec.Macro
import Verif.Model.Template
/-
The template processor: source/template.cc.
-/
set_option autoImplicit false
namespace PG.Gen

/-! ### The placeholder -/

theorem withVersion_prefix (r : Bytes) : withVersion (placeholder ++ r) = b!"_3_0_0" ++ withVersion r := rfl

theorem withVersion_cons {c : Byte} {r : Bytes} (h : placeholder.isPrefixOf (c :: r) = false) :
    withVersion (c :: r) = c :: withVersion r := by
  rw [withVersion.eq_def]
  split
  · rename_i e; cases e
  · rename_i rest e
    injection e with e1 e2
    subst e1; subst e2
    rw [Bool.eq_false_iff] at h
    exact absurd (by rw [List.isPrefixOf_iff_prefix]; exact ⟨rest, rfl⟩) h
  · rename_i e
    injection e with e1 e2
    subst e1; subst e2
    rfl

theorem withVersion_naming (r : Bytes) : withVersion (namingText ++ r) = namingText ++ withVersion r := by
  have h : ∀ (c : Byte) (s : Bytes), (∀ d ∈ s.head?, d ≠ 88) → s ≠ [] → withVersion (c :: s) = c :: withVersion s := by
    intro c s hs hne
    refine withVersion_cons ?_
    obtain ⟨d, s, rfl⟩ := List.exists_cons_of_ne_nil hne
    have := hs d (by simp)
    simp only [placeholder, List.isPrefixOf]
    have e : ((88 : Byte) == d) = false := by simpa using fun e => this e.symm
    rw [e]; simp
  simp only [namingText, List.cons_append, List.nil_append]
  rw [h _ _ (by simp) (by simp), h _ _ (by simp) (by simp), h _ _ (by simp) (by simp), h _ _ (by simp) (by simp),
    h _ _ (by simp) (by simp), withVersion_cons (by simp [placeholder, List.isPrefixOf])]

/-- A text whose parts do not begin like the name of the version. -/
def Apart (q : Bytes) : Prop := ∀ q', q' <:+ q → q' ≠ [] → q'.isPrefixOf namingText = false

theorem prefix_naming {q r : Bytes} (hl : q.length ≤ 6) (h : q <+: namingText ++ r) : q.isPrefixOf namingText = true := by
  rw [List.isPrefixOf_iff_prefix]
  exact List.prefix_of_prefix_length_le h (List.prefix_append _ _) (by simpa [namingText] using hl)

theorem replaceFirst_prefix {q : Bytes} (hq : Apart q) (hl : q.length ≤ 6) {s t : Bytes} (h : replaceFirst s = some t)
    (hp : q <+: t) : q <+: s := by
  induction s generalizing q t with
  | nil => cases h
  | cons c rest ih =>
    rw [replaceFirst] at h
    split at h
    · injection h with h
      subst h
      cases q with
      | nil => exact List.nil_prefix
      | cons d q =>
        have := prefix_naming hl hp
        rw [hq _ (List.suffix_refl _) (by simp)] at this
        cases this
    · cases hr : replaceFirst rest with
      | none => rw [hr] at h; cases h
      | some r =>
        rw [hr] at h
        injection h with h
        subst h
        cases q with
        | nil => exact List.nil_prefix
        | cons d q =>
          rw [List.cons_prefix_cons] at hp ⊢
          exact ⟨hp.1, ih (fun q' hs hn => hq q' (hs.trans (List.suffix_cons _ _)) hn)
            (by simp only [List.length_cons] at hl; omega) hr hp.2⟩

theorem apart_tail : Apart b!"X_Y_Z" := by
  intro q' hs hn
  simp only [List.suffix_cons_iff, List.suffix_nil] at hs
  rcases hs with rfl | rfl | rfl | rfl | rfl | rfl
  · decide
  · decide
  · decide
  · decide
  · decide
  · exact absurd rfl hn

theorem withVersion_replaceFirst {s t : Bytes} (h : replaceFirst s = some t) : withVersion t = withVersion s := by
  induction s generalizing t with
  | nil => cases h
  | cons c rest ih =>
    rw [replaceFirst] at h
    split at h
    · rename_i hp
      injection h with h
      subst h
      obtain ⟨r, hr⟩ := List.isPrefixOf_iff_prefix.mp hp
      rw [← hr, withVersion_prefix]
      show withVersion (namingText ++ r) = _
      exact withVersion_naming r
    · rename_i hp
      cases hr : replaceFirst rest with
      | none => rw [hr] at h; cases h
      | some r =>
        rw [hr] at h
        injection h with h
        subst h
        rw [withVersion_cons (c := c) (r := rest) (Bool.eq_false_iff.mpr hp), withVersion_cons (c := c) (r := r) ?_, ih hr]
        rw [Bool.eq_false_iff]
        intro hp'
        refine hp ?_
        rw [List.isPrefixOf_iff_prefix] at hp' ⊢
        rw [show placeholder = c!"_" :: b!"X_Y_Z" from rfl, List.cons_prefix_cons] at hp' ⊢
        exact ⟨hp'.1, replaceFirst_prefix apart_tail (by decide) hr hp'.2⟩

theorem withVersion_none {s : Bytes} (h : replaceFirst s = none) : withVersion s = s := by
  induction s with
  | nil => rfl
  | cons c rest ih =>
    rw [replaceFirst] at h
    split at h
    · cases h
    · rename_i hp
      rw [withVersion_cons (Bool.eq_false_iff.mpr hp), ih (by simpa using h)]

theorem replaceAll_eq (s : Bytes) : replaceAll s = withVersion s := by
  rw [replaceAll.eq_def]
  split
  · rename_i h; rw [withVersion_none h]
  · rename_i next h
    have := replaceFirst_count h
    rw [replaceAll_eq next, withVersion_replaceFirst h]
termination_by s.count c!"X"

/-! ### Lines -/

/-- A text made of lines. -/
def joined (ls : List Bytes) : Bytes := ls.flatMap (· ++ [10])

theorem completeLines_append {l : Bytes} (h : ∀ c ∈ l, c ≠ 10) (acc rest : Bytes) :
    completeLines acc (l ++ 10 :: rest) = (acc ++ l) :: completeLines [] rest := by
  induction l generalizing acc with
  | nil => simp [completeLines]
  | cons c l ih =>
    rw [List.cons_append, completeLines, if_neg (h c List.mem_cons_self),
      ih (fun d hd => h d (List.mem_cons_of_mem c hd))]
    simp

theorem completeLines_partial {l : Bytes} (h : ∀ c ∈ l, c ≠ 10) (acc : Bytes) : completeLines acc l = [] := by
  induction l generalizing acc with
  | nil => rfl
  | cons c l ih =>
    rw [completeLines, if_neg (h c List.mem_cons_self), ih fun d hd => h d (List.mem_cons_of_mem c hd)]

theorem completeLines_joined {ls : List Bytes} (h : ∀ l ∈ ls, ∀ c ∈ l, c ≠ 10) {last : Bytes} (hl : ∀ c ∈ last, c ≠ 10) :
    completeLines [] (joined ls ++ last) = ls := by
  induction ls with
  | nil => exact completeLines_partial hl []
  | cons l ls ih =>
    simp only [joined, List.flatMap_cons, List.append_assoc, List.cons_append, List.nil_append] at ih ⊢
    rw [completeLines_append (h l List.mem_cons_self), ih fun k hk => h k (List.mem_cons_of_mem l hk)]
    rfl

/-- Every text is some lines and a rest without line feeds. -/
theorem lines_exist (s : Bytes) : ∃ ls last, s = joined ls ++ last ∧ (∀ l ∈ ls, ∀ c ∈ l, c ≠ 10) ∧ ∀ c ∈ last, c ≠ 10 := by
  induction s with
  | nil => exact ⟨[], [], rfl, nofun, nofun⟩
  | cons c s ih =>
    obtain ⟨ls, last, e, h1, h2⟩ := ih
    by_cases hc : c = 10
    · subst hc
      refine ⟨[] :: ls, last, by simp [joined, e], ?_, h2⟩
      intro l hl
      rcases List.mem_cons.mp hl with rfl | hl
      · nofun
      · exact h1 l hl
    · cases ls with
      | nil =>
        refine ⟨[], c :: last, by simp [joined, e], nofun, ?_⟩
        intro d hd
        rcases List.mem_cons.mp hd with rfl | hd
        · exact hc
        · exact h2 d hd
      | cons l ls =>
        refine ⟨(c :: l) :: ls, last, by simp [joined, e], ?_, h2⟩
        intro k hk
        rcases List.mem_cons.mp hk with rfl | hk
        · intro d hd
          rcases List.mem_cons.mp hd with rfl | hd
          · exact hc
          · exact h1 l List.mem_cons_self d hd
        · exact h1 k (List.mem_cons_of_mem l hk)

/-! ### Splicing -/

theorem splice_append {a : Bytes} (h : ∀ c ∈ a, c ≠ 10) {c : Byte} (hc : c ≠ 10) (r : Bytes) :
    splice (a ++ c :: r) = a ++ splice (c :: r) := by
  induction a with
  | nil => rfl
  | cons x a ih =>
    have ih := ih fun d hd => h d (List.mem_cons_of_mem x hd)
    cases a with
    | nil =>
      simp only [List.cons_append, List.nil_append]
      rw [splice.eq_def]
      simp only
      rw [if_neg fun e => hc e.2]
    | cons y a =>
      simp only [List.cons_append] at ih ⊢
      rw [splice.eq_def]
      simp only
      rw [if_neg fun e => h y (by simp) e.2, ih]

theorem splice_join {c : Byte} (r : Bytes) (hc : c ≠ c!"\\") : splice (c :: c!"\\" :: 10 :: r) = c :: splice r := by
  rw [splice.eq_def]
  simp only
  rw [if_neg fun e => hc e.1, splice.eq_def]
  simp

theorem splice_lf (r : Bytes) : splice (10 :: r) = 10 :: splice r := by
  cases r with
  | nil => rfl
  | cons d r => rw [splice, if_neg fun e => by cases e.1]

theorem linesOf_append {l : Bytes} (h : ∀ c ∈ l, c ≠ 10) (rest : Bytes) : linesOf (l ++ 10 :: rest) = l :: linesOf rest := by
  induction l with
  | nil => simp [linesOf]
  | cons c l ih =>
    rw [List.cons_append, linesOf, if_neg (h c List.mem_cons_self), ih fun d hd => h d (List.mem_cons_of_mem c hd)]

/-! ### Quoted lines -/

theorem escapeLine_no_lf {l : Bytes} (h : ∀ c ∈ l, c ≠ 10) : ∀ c ∈ escapeLine l, c ≠ 10 := by
  intro c hc
  obtain ⟨d, hd, hc⟩ := List.mem_flatMap.mp hc
  split at hc
  · exact (by decide : ∀ c ∈ b!"\\\"", c ≠ 10) c hc
  · split at hc
    · exact (by decide : ∀ c ∈ b!"\\\\", c ≠ 10) c hc
    · simp only [List.mem_cons, List.not_mem_nil, or_false] at hc
      rw [hc]; exact h d hd

theorem escapeLine_cons (c : Byte) (l : Bytes) : escapeLine (c :: l) =
    (if c = c!"\"" then b!"\\\"" else if c = c!"\\" then b!"\\\\" else [c]) ++ escapeLine l := by
  simp [escapeLine]

theorem literal_escape {l : Bytes} (h : ∀ c ∈ l, c ≠ 10) (r : Bytes) :
    literal .plain (escapeLine l ++ r) = (literal .plain r).map (l ++ ·) := by
  induction l with
  | nil => simp [escapeLine]
  | cons c l ih =>
    have ih := ih fun d hd => h d (List.mem_cons_of_mem c hd)
    have hc := h c List.mem_cons_self
    rw [escapeLine_cons, List.append_assoc]
    have hm : ∀ o : Option Bytes, (o.map (l ++ ·)).map (c :: ·) = o.map (c :: l ++ ·) := by
      intro o; cases o <;> rfl
    split
    · rename_i e
      subst e
      have : literal .plain (b!"\\\"" ++ (escapeLine l ++ r)) = (literal .plain (escapeLine l ++ r)).map (c!"\"" :: ·) := by
        simp [literal, plainNext, simpleEscape]
      rw [this, ih, hm]
    · rename_i hq
      split
      · rename_i e
        subst e
        have : literal .plain (b!"\\\\" ++ (escapeLine l ++ r)) = (literal .plain (escapeLine l ++ r)).map (c!"\\" :: ·) := by
          simp [literal, plainNext, simpleEscape]
        rw [this, ih, hm]
      · rename_i hb
        have : literal .plain ([c] ++ (escapeLine l ++ r)) = (literal .plain (escapeLine l ++ r)).map (c :: ·) := by
          rw [List.cons_append, List.nil_append, literal, plainNext, if_neg (fun e => e.elim hq hc), if_neg hb]
        rw [this, ih, hm]

theorem trigraph_escape {l : Bytes} (h : mayHaveTrigraph l = false) : mayHaveTrigraph (escapeLine l ++ b!"\\n") = false := by
  have skip : ∀ (a : Byte) (s : Bytes), a ≠ c!"?" → mayHaveTrigraph (a :: s) = mayHaveTrigraph s := by
    intro a s ha
    cases s with
    | nil => rfl
    | cons b s => rw [mayHaveTrigraph]; simp [ha]
  have skip2 : ∀ (a b : Byte) (s : Bytes), b ≠ c!"?" → mayHaveTrigraph (a :: b :: s) = mayHaveTrigraph (b :: s) := by
    intro a b s hb
    rw [mayHaveTrigraph]; simp [hb]
  induction l with
  | nil => decide
  | cons c l ih =>
    have hl : mayHaveTrigraph l = false := by
      cases l with
      | nil => rfl
      | cons d l =>
        rw [mayHaveTrigraph, Bool.or_eq_false_iff] at h
        exact h.2
    have ih := ih hl
    rw [escapeLine_cons, List.append_assoc]
    split
    · simp only [List.cons_append, List.nil_append]
      rw [skip _ _ (by decide), skip _ _ (by decide), ih]
    · split
      · simp only [List.cons_append, List.nil_append]
        rw [skip _ _ (by decide), skip _ _ (by decide), ih]
      · simp only [List.cons_append, List.nil_append]
        by_cases hc : c = c!"?"
        · cases l with
          | nil => subst hc; decide
          | cons d l =>
            have hd : d ≠ c!"?" := by
              rintro rfl
              rw [mayHaveTrigraph, hc] at h
              simp at h
            rw [escapeLine_cons] at ih ⊢
            split
            · rename_i e
              rw [if_pos e] at ih
              simp only [List.cons_append, List.nil_append] at ih ⊢
              rw [skip2 _ _ _ (by decide), ih]
            · rename_i e
              rw [if_neg e] at ih
              split
              · rename_i e'
                rw [if_pos e'] at ih
                simp only [List.cons_append, List.nil_append] at ih ⊢
                rw [skip2 _ _ _ (by decide), ih]
              · rename_i e'
                rw [if_neg e'] at ih
                simp only [List.cons_append, List.nil_append] at ih ⊢
                rw [skip2 _ _ _ hd, ih]
        · rw [skip _ _ hc, ih]

theorem literalValue_line {l : Bytes} (h : ∀ c ∈ l, c ≠ 10) (ht : mayHaveTrigraph l = false) :
    literalValue (escapeLine l ++ b!"\\n") = some (l ++ [10]) := by
  rw [literalValue, trigraph_escape ht]
  simp only [Bool.false_eq_true, if_false]
  rw [literal_escape h]
  rfl

theorem literals_escape {l : Bytes} (acc r : Bytes) :
    literals (some acc) false (escapeLine l ++ r) = literals (some (acc ++ escapeLine l)) false r := by
  induction l generalizing acc with
  | nil => simp [escapeLine]
  | cons c l ih =>
    rw [escapeLine_cons]
    split
    · simp only [List.append_assoc, List.cons_append, List.nil_append]
      rw [literals, if_neg (by decide)]
      simp only [decide_true]
      rw [literals, ih]
      simp
    · rename_i hq
      split
      · simp only [List.append_assoc, List.cons_append, List.nil_append]
        rw [literals, if_neg (by decide)]
        simp only [decide_true]
        rw [literals, ih]
        simp
      · rename_i hb
        simp only [List.append_assoc, List.cons_append, List.nil_append]
        rw [literals, if_neg hq, decide_eq_false hb, ih]
        simp

/-- A quoted line after splicing. -/
def splicedLine (l : Bytes) : Bytes := b!"    \"" ++ escapeLine l ++ b!"\\n\" "

theorem splice_quote {l : Bytes} (h : ∀ c ∈ l, c ≠ 10) (r : Bytes) : splice (quoteLine l ++ r) = splicedLine l ++ splice r := by
  have e : quoteLine l ++ r = (b!"    \"" ++ escapeLine l ++ b!"\\n\"") ++ c!" " :: c!"\\" :: 10 :: r := by
    simp [quoteLine]
  rw [e, splice_append ?_ (by decide), splice_join _ (by decide)]
  · simp [splicedLine]
  · intro c hc
    simp only [List.mem_append] at hc
    rcases hc with (hc | hc) | hc
    · exact (by decide : ∀ c ∈ b!"    \"", c ≠ 10) c hc
    · exact escapeLine_no_lf h c hc
    · exact (by decide : ∀ c ∈ b!"\\n\"", c ≠ 10) c hc

theorem splicedLine_no_lf {l : Bytes} (h : ∀ c ∈ l, c ≠ 10) : ∀ c ∈ splicedLine l, c ≠ 10 := by
  intro c hc
  simp only [splicedLine, List.mem_append] at hc
  rcases hc with (hc | hc) | hc
  · exact (by decide : ∀ c ∈ b!"    \"", c ≠ 10) c hc
  · exact escapeLine_no_lf h c hc
  · exact (by decide : ∀ c ∈ b!"\\n\" ", c ≠ 10) c hc

theorem literals_line {l : Bytes} (h : ∀ c ∈ l, c ≠ 10) (ht : mayHaveTrigraph l = false) (r : Bytes) :
    literals none false (splicedLine l ++ r) = (literals none false r).map (l ++ [10] ++ ·) := by
  have e : splicedLine l ++ r = c!" " :: c!" " :: c!" " :: c!" " :: c!"\"" :: (escapeLine l ++ (b!"\\n\" " ++ r)) := by
    simp [splicedLine]
  rw [e]
  rw [literals, if_pos (by rfl), literals, if_pos (by rfl), literals, if_pos (by rfl), literals, if_pos (by rfl),
    literals, if_neg (by decide), if_pos (by rfl), literals_escape, List.nil_append]
  have e2 : ∀ acc, literals (some acc) false (b!"\\n\" " ++ r) =
      (literalValue (acc ++ b!"\\n")).bind fun v => (literals none false r).map (v ++ ·) := by
    intro acc
    simp only [List.cons_append, List.nil_append]
    rw [literals, if_neg (by decide)]
    simp only [decide_true]
    rw [literals, literals, if_pos (by rfl), literals, if_pos (by rfl)]
    simp
  rw [e2, literalValue_line h ht]
  rfl

theorem literals_lines {ls : List Bytes} (h : ∀ l ∈ ls, (∀ c ∈ l, c ≠ 10) ∧ mayHaveTrigraph l = false) (r : Bytes) :
    literals none false (ls.flatMap splicedLine ++ r) = (literals none false r).map (joined ls ++ ·) := by
  induction ls with
  | nil => simp [joined]
  | cons l ls ih =>
    have hl := h l List.mem_cons_self
    rw [List.flatMap_cons, List.append_assoc, literals_line hl.1 hl.2,
      ih fun k hk => h k (List.mem_cons_of_mem l hk)]
    cases literals none false r <;> simp [joined]

theorem splice_lines {ls : List Bytes} (h : ∀ l ∈ ls, ∀ c ∈ l, c ≠ 10) (r : Bytes) :
    splice (ls.flatMap quoteLine ++ r) = ls.flatMap splicedLine ++ splice r := by
  induction ls with
  | nil => rfl
  | cons l ls ih =>
    simp only [List.flatMap_cons, List.append_assoc]
    rw [splice_quote (h l List.mem_cons_self), ih fun k hk => h k (List.mem_cons_of_mem l hk)]

/-- A name that can be defined. -/
def MacroName (n : Bytes) : Prop := n ≠ [] ∧ ∀ c ∈ n, c ≠ c!" " ∧ c ≠ 10 ∧ c ≠ c!"\\"

theorem takeWhile_name {n r : Bytes} (h : ∀ c ∈ n, c ≠ c!" ") :
    (n ++ c!" " :: r).takeWhile (· ≠ c!" ") = n ∧ (n ++ c!" " :: r).dropWhile (· ≠ c!" ") = c!" " :: r := by
  induction n with
  | nil => simp
  | cons c n ih =>
    have hc := h c List.mem_cons_self
    have ih := ih fun d hd => h d (List.mem_cons_of_mem c hd)
    rw [List.cons_append, List.takeWhile_cons_of_pos (by simp [hc]), List.dropWhile_cons_of_pos (by simp [hc]), ih.1, ih.2]
    exact ⟨rfl, rfl⟩

theorem macroOf_define {n : Bytes} (h : MacroName n) (r : Bytes) :
    macroOf (b!"#define " ++ n ++ c!" " :: r) = (literals none false r).map fun v => (n, v) := by
  unfold macroOf
  rw [if_pos (by rw [List.isPrefixOf_iff_prefix, List.append_assoc]; exact List.prefix_append _ _)]
  have e : (b!"#define " ++ n ++ c!" " :: r).drop 8 = n ++ c!" " :: r := by
    rw [List.append_assoc]; rfl
  obtain ⟨h1, h2⟩ := takeWhile_name (r := r) fun c hc => (h.2 c hc).1
  simp only [e, h1, h2]
  rw [literals, if_pos (by rfl)]

/-- A definition after splicing. -/
theorem macros_define {n : Bytes} (h : MacroName n) {ls : List Bytes}
    (hl : ∀ l ∈ ls, (∀ c ∈ l, c ≠ 10) ∧ mayHaveTrigraph l = false) {tail : Bytes} (ht : ∀ c ∈ tail, c ≠ 10)
    (hb : tail = [] ∨ ∃ a c, tail = a ++ [c] ∧ c ≠ c!"\\")
    {v : Bytes} (hv : literals none false tail = some v) (r : Bytes) :
    macros (b!"#define " ++ n ++ b!" \\\n" ++ ls.flatMap quoteLine ++ tail ++ 10 :: r) =
      (n, joined ls ++ v) :: macros r := by
  have hn : ∀ c ∈ b!"#define " ++ n, c ≠ 10 := by
    intro c hc
    rcases List.mem_append.mp hc with hc | hc
    · exact (by decide : ∀ c ∈ b!"#define ", c ≠ 10) c hc
    · exact (h.2 c hc).2.1
  have hs : splice (b!"#define " ++ n ++ b!" \\\n" ++ ls.flatMap quoteLine ++ tail ++ 10 :: r) =
      (b!"#define " ++ n ++ c!" " :: (ls.flatMap splicedLine ++ tail)) ++ 10 :: splice r := by
    have e : b!"#define " ++ n ++ b!" \\\n" ++ ls.flatMap quoteLine ++ tail ++ 10 :: r =
        (b!"#define " ++ n) ++ c!" " :: c!"\\" :: 10 :: (ls.flatMap quoteLine ++ (tail ++ 10 :: r)) := by simp
    rw [e, splice_append hn (by decide), splice_join _ (by decide), splice_lines fun l hl' => (hl l hl').1]
    have : splice (tail ++ 10 :: r) = tail ++ 10 :: splice r := by
      rcases hb with rfl | ⟨a, c, rfl, hc⟩
      · exact splice_lf r
      · have e : a ++ [c] ++ 10 :: r = a ++ c :: 10 :: r := by simp
        rw [e, splice_append (fun d hd => ht d (List.mem_append_left _ hd)) (ht c (by simp)), splice.eq_def]
        simp only
        rw [if_neg fun e => hc e.1, splice_lf]
        simp
    rw [this]
    simp
  unfold macros
  rw [hs, linesOf_append ?_, List.filterMap_cons, macroOf_define h, literals_lines hl, hv]
  · rfl
  · intro c hc
    rcases List.mem_append.mp hc with hc | hc
    · exact hn c hc
    · rcases List.mem_cons.mp hc with rfl | hc
      · decide
      · rcases List.mem_append.mp hc with hc | hc
        · obtain ⟨l, hl', hc⟩ := List.mem_flatMap.mp hc
          exact splicedLine_no_lf (hl l hl').1 c hc
        · exact ht c hc

end PG.Gen
