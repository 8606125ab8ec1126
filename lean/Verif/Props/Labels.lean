import Verif.Proofs.GenLabel
import Verif.Spec.Meaning
/-
C34 and C35: the labels of the fields in the generated code.
-/
set_option autoImplicit false
namespace PG.Gen
open PG.Proto

/-! ### What the generated expressions mean -/

/-- The index that the generated function `index` finds for a name: the entries of the table are `{"…", n}`
(code.txt:214-241), and the name is revealed first if the strings are obfuscated. -/
def tableIndex (obfuscate : Bool) (table : List (Bytes × Nat)) (name : Bytes) : Option Nat :=
  (table.find? fun e => cString e.1 == some (if obfuscate then reveal name else name)).map (·.2)

theorem between_eq (pre suf s : Bytes) : between pre suf (pre ++ s ++ suf) = some s := by
  unfold between
  have h1 : pre.isPrefixOf (pre ++ s ++ suf) = true := by
    rw [List.isPrefixOf_iff_prefix, List.append_assoc]; exact List.prefix_append _ _
  have h2 : suf.isSuffixOf (pre ++ s ++ suf) = true := by
    rw [List.isSuffixOf_iff_suffix]; exact List.suffix_append _ _
  have h3 : pre.length + suf.length ≤ (pre ++ s ++ suf).length := by simp
  rw [if_pos (by simp only [h1, h2, decide_eq_true h3, Bool.and_self])]
  congr 1
  rw [List.append_assoc, List.drop_left]
  have : (pre ++ (s ++ suf)).length - pre.length - suf.length = s.length := by simp
  rw [this, List.take_left]

/-! ### C34 -/

theorem decNat_inj {m n : Nat} (h : decNat m = decNat n) : m = n := by
  rw [← decNat_val m, ← decNat_val n, h]

/-- **C34.** With `number_names` the JSON names of the fields of a message are the decimal field numbers … -/
theorem C34_names {ctx : Ctx} (hn : ctx.numberNames = true) {N : Nat} {text : Bytes} {t : Tree} (h : parse N text = .ok t)
    {m : Message} (hm : m ∈ t.messages) {f : Field} (hf : f ∈ m.fields) :
    ∃ n : Nat, f.index = n ∧ jsonNameIn ctx f = decNat n ∧ 0 < n := by
  have hg := (C45_valid_and_distinct h m hm).1 f hf
  obtain ⟨n, e⟩ : ∃ n : Nat, f.index = n ∧ 0 < n := by
    unfold GoodIndex at hg
    exact ⟨f.index.toNat, by omega, by omega⟩
  refine ⟨n, e.1, ?_, e.2⟩
  rw [jsonNameIn, if_pos hn, e.1]
  unfold decInt
  rw [if_neg (by omega)]
  congr 1

/-- **C34.** … and pairwise distinct. -/
theorem C34_distinct {ctx : Ctx} (hn : ctx.numberNames = true) {N : Nat} {text : Bytes} {t : Tree}
    (h : parse N text = .ok t) {m : Message} (hm : m ∈ t.messages) :
    (m.fields.map (jsonNameIn ctx)).Pairwise (· ≠ ·) := by
  have hd := (C45_valid_and_distinct h m hm).2
  rw [List.pairwise_map] at hd ⊢
  refine List.Pairwise.imp_of_mem (fun {a b} ha hb hab e => ?_) hd
  obtain ⟨i, h1, h2, _⟩ := C34_names hn h hm ha
  obtain ⟨j, h3, h4, _⟩ := C34_names hn h hm hb
  rw [h2, h4] at e
  exact hab (by rw [h1, h3, decNat_inj e])

/-- The printed code contains that of every message. -/
theorem output_contains {N : Nat} {text : Bytes} {t : Tree} (h : parse N text = .ok t) {fileName : Bytes}
    (hok : (output fileName t).res = .ok ()) {m : Message} (hm : m ∈ t.messages) {c : Call}
    (hc : c ∈ messageCalls (sortTree t).messages (ctxOf t.options) { m with fields := sortByName m.fields }) :
    c ∈ (output fileName t).calls := by
  have hs := sortTree_same t
  have hl := hs.linked (parse_linked h)
  obtain ⟨h1, order, h2, h3⟩ := generate_ok hok
  rw [output, generate_eq h1 h2 hl h3, fileCalls, List.mem_append, List.mem_append, List.mem_append]
  refine Or.inr (Or.inl (Or.inr ?_))
  obtain ⟨i, hi, hmi⟩ := List.mem_iff_getElem.mp hm
  rw [List.mem_flatMap]
  refine ⟨i, (sortAll_ok h2).2.2 i (by rw [← hs.1]; exact hi), ?_⟩
  have : (sortTree t).messages[i]? = some { m with fields := sortByName m.fields } := by
    simp only [sortTree, List.getElem?_map, List.getElem?_eq_getElem hi, hmi, Option.map_some]
  rw [this, Option.map_some, Option.getD_some]
  exact hc

/-- The writer of a message writes every persistent field with its label. -/
theorem writes_label {N : Nat} {text : Bytes} {t : Tree} (h : parse N text = .ok t) {fileName : Bytes}
    (hok : (output fileName t).res = .ok ()) {m : Message} (hm : m ∈ t.messages) {f : Field} (hf : f ∈ m.fields)
    (hp : Persistent f = true) :
    ⟨.writeItem, [f.name, labelText (ctxOf t.options) (jsonNameIn (ctxOf t.options) f)]⟩ ∈ (output fileName t).calls := by
  refine output_contains h hok hm ?_
  have hmem : f ∈ (sortByName m.fields).filter Persistent := List.mem_filter.mpr ⟨mem_sortByName.mpr hf, hp⟩
  have hne : (sortByName m.fields).filter Persistent ≠ [] := List.ne_nil_of_mem hmem
  unfold messageCalls
  simp only [List.mem_append, if_neg hne, List.mem_map]
  exact Or.inl (Or.inl (Or.inr (Or.inl (Or.inl (Or.inl (Or.inl (Or.inl (Or.inl (Or.inr (Or.inl (Or.inr ⟨f, hmem, rfl⟩)))))))))))

theorem decNat_digits' (n : Nat) : ∀ c ∈ decNat n, 48 ≤ c ∧ c ≤ 57 := by
  intro c hc
  have := decNat_digits n c hc
  simpa [isDigit] using this

/-- A name that needs no escapes in a literal. -/
def PlainName (s : Bytes) : Prop := ∀ c ∈ s, c ≠ c!"\"" ∧ c ≠ 10 ∧ c ≠ c!"\\" ∧ c ≠ c!"?" ∧ c ≠ 0

theorem cString_plain {s : Bytes} (h : PlainName s) : cString s = some s := by
  rw [cString, literalValue, no_trigraph fun c hc => (h c hc).2.2.2.1]
  have := literal_inner s fun c hc => ⟨(h c hc).1, (h c hc).2.1, (h c hc).2.2.1⟩
  simp only [Bool.false_eq_true, if_false]
  rw [this, Option.map_some, takeWhile_eq_self fun c hc => (h c hc).2.2.2.2]

theorem labelValue_quoted (s : Bytes) : labelValue (b!"\"" ++ s ++ b!"\"") = cString s := by
  unfold labelValue
  have : between b!"reveal(\"" b!"\")" (b!"\"" ++ s ++ b!"\"") = none := by
    unfold between
    rw [if_neg]
    simp [List.isPrefixOf]
  rw [this]
  dsimp only
  rw [between_eq]
  rfl

theorem labelValue_revealed (s : Bytes) : labelValue (b!"reveal(\"" ++ s ++ b!"\")") = (cString s).map reveal := by
  unfold labelValue
  rw [between_eq]

/-- **C34.** The generated writer uses these names, unless the strings are obfuscated as well (C35). -/
theorem C34_written {N : Nat} {text : Bytes} {t : Tree} (h : parse N text = .ok t) {fileName : Bytes}
    (hok : (output fileName t).res = .ok ()) (hn : (ctxOf t.options).numberNames = true)
    (ho : (ctxOf t.options).obfuscate = false) {m : Message} (hm : m ∈ t.messages) {f : Field} (hf : f ∈ m.fields)
    (hp : Persistent f = true) :
    ∃ n : Nat, f.index = n ∧ ∃ e, ⟨.writeItem, [f.name, e]⟩ ∈ (output fileName t).calls ∧ labelValue e = some (decNat n) := by
  obtain ⟨n, h1, h2, _⟩ := C34_names hn h hm hf
  refine ⟨n, h1, _, writes_label h hok hm hf hp, ?_⟩
  rw [h2]
  simp only [labelText, ho, Bool.false_eq_true, if_false]
  rw [labelValue_quoted, cString_plain]
  intro c hc
  have := decNat_digits' n c hc
  refine ⟨?_, ?_, ?_, ?_, ?_⟩ <;> (rintro rfl; revert this; decide)

/-- A schema with numbered names. -/
def numberedText : Bytes := b!"option number_names = true; message M { int32 size = 7; string price = 12 [name=\"x\"]; }"
/-- Its tree. -/
def numberedTree : Tree := treeOf (parse 200 numberedText)
theorem numbered_parse : parse 200 numberedText = .ok numberedTree := by decide +kernel
theorem numbered_ok : (output b!"n.proto" numberedTree).res = .ok () := by decide +kernel

example : numberedTree.messages.map (fun m => m.fields.map (jsonNameIn (ctxOf numberedTree.options))) =
    [[b!"7", b!"12"]] := by decide +kernel
example : ∀ m ∈ numberedTree.messages, (m.fields.map (jsonNameIn (ctxOf numberedTree.options))).Pairwise (· ≠ ·) :=
  fun _ hm => C34_distinct (by decide +kernel) numbered_parse hm

/-! ### C35 -/

/-- **C35.** The revealed label is the JSON name exactly if no character of the name is equal to the mask. -/
theorem C35_label_iff {ctx : Ctx} (ho : ctx.obfuscate = true) (name : Bytes) :
    labelValue (labelText ctx name) = some name ↔ ∀ c ∈ name, c ≠ obfMask name.length := by
  simp only [labelText, ho, if_true]
  rw [labelValue_revealed, cString_obfuscate, Option.map_some, Option.some.injEq]
  constructor
  · intro h c hc e
    have hz : (0 : Byte) ∈ reveal name := List.mem_map.mpr ⟨c, hc, xor_eq_zero.mpr e⟩
    have hl : ((reveal name).takeWhile (· ≠ 0)).length = name.length := by rw [← reveal_length, h]
    have hp := List.takeWhile_prefix (l := reveal name) (· ≠ (0 : Byte))
    have := hp.eq_of_length (by rw [hl, reveal_length])
    rw [← this] at hz
    have hall : ∀ (l : Bytes), (0 : Byte) ∉ l.takeWhile (· ≠ 0) := by
      intro l
      induction l with
      | nil => simp
      | cons d l ih =>
        by_cases hd : d = 0
        · rw [List.takeWhile_cons_of_neg (by simp [hd])]; simp
        · rw [List.takeWhile_cons_of_pos (by simp [hd])]
          simp only [List.mem_cons, not_or]
          exact ⟨fun e => hd e.symm, ih⟩
    exact hall _ hz
  · intro h
    rw [takeWhile_eq_self (reveal_no_zero h), reveal_reveal]

/-- **C35.** The table of names has an entry that is found for the name exactly under the same condition. -/
theorem C35_key_iff (name : Bytes) :
    cString (obfuscateText name) = some (reveal name) ↔ ∀ c ∈ name, c ≠ obfMask name.length := by
  rw [← C35_label_iff (ctx := ⟨false, true, false⟩) rfl name]
  simp only [labelText, if_true]
  rw [labelValue_revealed, cString_obfuscate, Option.map_some, Option.some.injEq, Option.some.injEq]
  constructor
  · intro h; rw [h, reveal_reveal]
  · intro h
    have := congrArg reveal h
    rwa [reveal_reveal] at this

/-- The masks, by the length of the name modulo eight. -/
def masks : List Byte := [0x93, 0x27, 0x4E, 0x9C, 0x39, 0x72, 0xE4, 0xC9]

/-- **C35.** The mask of a name of any length, from the table. -/
theorem C35_masks (n : Nat) : masks[n % 8]? = some (obfMask n) := by
  unfold obfMask
  have h : n % 8 < 8 := Nat.mod_lt _ (by decide)
  generalize n % 8 = k at h
  match k, h with
  | 0, _ | 1, _ | 2, _ | 3, _ | 4, _ | 5, _ | 6, _ | 7, _ => decide

/-- **C35.** For ASCII names without apostrophes, obfuscation changes the label of exactly those of 2, 10, 18, … characters
with an `N`, those of 4, 12, 20, … characters with a `9`, and those of 5, 13, 21, … characters with an `r`. -/
theorem C35_words (name : Bytes) (hw : ∀ c ∈ name, c < 0x80 ∧ c ≠ c!"'") {ctx : Ctx} (ho : ctx.obfuscate = true) :
    labelValue (labelText ctx name) = some name ↔
      ¬ (name.length % 8 = 2 ∧ c!"N" ∈ name ∨ name.length % 8 = 4 ∧ c!"9" ∈ name ∨ name.length % 8 = 5 ∧ c!"r" ∈ name) := by
  rw [C35_label_iff ho]
  have hm := C35_masks name.length
  have h : name.length % 8 < 8 := Nat.mod_lt _ (by decide)
  generalize name.length % 8 = k at h hm
  generalize obfMask name.length = m at hm
  have no : ¬ (m < 0x80 ∧ m ≠ c!"'") → ∀ d ∈ name, d ≠ m := fun hc d hd e => hc (e ▸ hw d hd)
  have ne : (∀ d ∈ name, d ≠ m) ↔ ¬ m ∈ name := ⟨fun h hc => h _ hc rfl, fun h d hd e => h (e ▸ hd)⟩
  match k, h with
  | 0, _ | 1, _ | 3, _ | 6, _ | 7, _ => injection hm with hm; subst hm; simpa using no (by decide)
  | 2, _ | 4, _ | 5, _ => injection hm with hm; subst hm; simpa using ne

/-- The hypothesis is met on both sides. -/
example : (∀ c ∈ b!"error", c < 0x80 ∧ c ≠ c!"'") ∧ labelValue (labelText ⟨false, true, false⟩ b!"error") ≠ some b!"error" ∧
    labelValue (labelText ⟨false, true, false⟩ b!"errors") = some b!"errors" := by decide +kernel

/-- A name for which obfuscation is transparent. -/
def Transparent (name : Bytes) : Prop := PlainName name ∧ ∀ c ∈ name, c ≠ obfMask name.length

theorem reveal_inj {a b : Bytes} (h : reveal a = reveal b) : a = b := by
  rw [← reveal_reveal a, h, reveal_reveal]

/-- **C35 (partial).** Labels and look-ups are the same with and without obfuscation, for names without characters equal
to the mask (and without characters that a literal treats specially).  Missing: the other names, for which it is false. -/
theorem C35_transparent_partial (names : List (Bytes × Nat)) (h : ∀ n ∈ names, Transparent n.1) (ctx : Ctx) :
    (∀ n ∈ names, labelValue (labelText { ctx with obfuscate := true } n.1) = some n.1 ∧
      labelValue (labelText { ctx with obfuscate := false } n.1) = some n.1) ∧
    ∀ x, tableIndex true (names.map fun n => (keyText { ctx with obfuscate := true } n.1, n.2)) x =
        (names.find? fun n => n.1 == x).map (·.2) ∧
      tableIndex false (names.map fun n => (keyText { ctx with obfuscate := false } n.1, n.2)) x =
        (names.find? fun n => n.1 == x).map (·.2) := by
  refine ⟨fun n hn => ⟨(C35_label_iff rfl n.1).mpr (h n hn).2, ?_⟩, fun x => ?_⟩
  · simp only [labelText, Bool.false_eq_true, if_false]
    rw [labelValue_quoted, cString_plain (h n hn).1]
  · unfold tableIndex
    constructor
    · induction names with
      | nil => rfl
      | cons n names ih =>
        have hn := h n List.mem_cons_self
        have ih := ih fun k hk => h k (List.mem_cons_of_mem n hk)
        simp only [keyText, if_true, List.map_cons, List.find?_cons] at ih ⊢
        rw [(C35_key_iff n.1).mpr hn.2]
        have e : (some (reveal n.1) == some (reveal x)) = (n.1 == x) := by
          rw [Bool.eq_iff_iff]
          simp only [beq_iff_eq, Option.some.injEq]
          exact ⟨reveal_inj, fun e => by rw [e]⟩
        rw [e]
        cases n.1 == x
        · exact ih
        · rfl
    · induction names with
      | nil => rfl
      | cons n names ih =>
        have hn := h n List.mem_cons_self
        have ih := ih fun k hk => h k (List.mem_cons_of_mem n hk)
        simp only [keyText, Bool.false_eq_true, if_false, List.map_cons, List.find?_cons] at ih ⊢
        rw [cString_plain hn.1]
        have e : (some n.1 == some x) = (n.1 == x) := by
          rw [Bool.eq_iff_iff]
          simp
        rw [e]
        cases n.1 == x
        · exact ih
        · rfl

example : Transparent b!"id" ∧ Transparent b!"title" ∧ Transparent b!"description" := by
  unfold Transparent PlainName; decide

/-- **C35 (negation).** For a name with a character equal to the mask the label is another one, and the name is not found
in the table unless another field has an entry that matches. -/
theorem C35_masked {ctx : Ctx} (ho : ctx.obfuscate = true) {name : Bytes} (h : obfMask name.length ∈ name) :
    labelValue (labelText ctx name) ≠ some name ∧
    ∀ i, tableIndex true [(keyText ctx name, i)] name = none := by
  have hn : ¬ ∀ c ∈ name, c ≠ obfMask name.length := fun hc => hc _ h rfl
  refine ⟨fun e => hn ((C35_label_iff ho name).mp e), fun i => ?_⟩
  unfold tableIndex
  have : (cString (obfuscateText name) == some (reveal name)) = false := by
    rw [Bool.eq_false_iff]
    intro e
    exact hn ((C35_key_iff name).mp (by simpa using e))
  simp only [keyText, ho, if_true, List.find?_cons, this, List.find?_nil, Option.map_none]

/-- **C35 (negation).** The mask of names of five letters is `r`: a field `price` gets the JSON name `%`. -/
theorem C35_is_false : obfMask 5 = c!"r" ∧
    labelValue (labelText ⟨false, true, false⟩ b!"price") = some b!"%" ∧
    tableIndex true [(keyText ⟨false, true, false⟩ b!"price", 0)] b!"price" = none ∧
    tableIndex true [(keyText ⟨false, true, false⟩ b!"price", 0)] b!"%" = some 0 ∧
    tableIndex false [(keyText ⟨false, false, false⟩ b!"price", 0)] b!"price" = some 0 := by decide +kernel

/-- … in a schema. -/
example : let t := treeOf (parse 100 b!"option obfuscate_strings = true; message M { double price = 1; }")
    (output b!"a.proto" t).res = .ok () ∧
    (⟨.writeItem, [b!"price", b!"reveal(\"\\x2\\x0\\x1b\\x11\\x17\")"]⟩ : Call) ∈ (output b!"a.proto" t).calls := by
  decide +kernel

/-- **C35 (negation).** Names with a backslash are written as such if obfuscated, and as an escape sequence of C++
otherwise. -/
theorem C35_backslash : labelValue (labelText ⟨false, true, false⟩ b!"a\\nb") = some b!"a\\nb" ∧
    labelValue (labelText ⟨false, false, false⟩ b!"a\\nb") = some b!"a\nb" := by decide +kernel

end PG.Gen
