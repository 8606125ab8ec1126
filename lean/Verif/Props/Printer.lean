import Verif.Props.Generator
/-
C40: substitution in templates.
-/
set_option autoImplicit false
namespace PG.Gen
open PG.Proto

/-- **C40 (partial).** A template is printed with each `$n$` replaced by the n-th argument, whatever the argument
contains, tabs replaced by four spaces and everything else copied.  Missing: the statement without the hypotheses, which
is false (theorems below): a `$` that is not part of `$n$`, a backspace, a number of a hole that does not fit an int. -/
theorem C40_substitution_partial (args : List Bytes) {ps : List Piece} (h : ∀ p ∈ ps, p.WF ∧ p ≠ .lit 8) :
    print args (templateText ps) = filled args ps := by
  have := print_template args h []
  rwa [print_nil, List.append_nil, List.append_nil] at this

/-- The arguments are not interpreted: dollars in them survive. -/
example : print [b!"a$2$b", b!"\t$"] b!"[$1$|$2$|$3$]" = b!"[a$2$b|\t$|]" :=
  C40_substitution_partial [b!"a$2$b", b!"\t$"]
    (ps := [.lit c!"[", .hole b!"1", .lit c!"|", .hole b!"2", .lit c!"|", .hole b!"3", .lit c!"]"]) (by decide)

/-- **C40 (negation).** Whatever follows a `$` without a partner is lost. -/
theorem C40_single_dollar_truncates (args : List Bytes) {ps : List Piece} (h : ∀ p ∈ ps, p.WF ∧ p ≠ .lit 8)
    {rest : Bytes} (hr : ∀ c ∈ rest, c ≠ c!"$") :
    print args (templateText ps ++ c!"$" :: rest) = filled args ps := by
  rw [print_template args h, print_single args hr, List.append_nil]

example : print [] b!"costs 5$ only" = b!"costs 5" := by decide +kernel

theorem letter_facts {b : Byte} (h : (65 ≤ b ∧ b ≤ 90) ∨ (97 ≤ b ∧ b ≤ 122)) :
    isSpace b = false ∧ b ≠ c!"+" ∧ b ≠ c!"-" ∧ isDigit b = false := by
  have key : ∀ n : _root_.Fin 256, let b := UInt8.ofNat n.val; (65 ≤ b ∧ b ≤ 90) ∨ (97 ≤ b ∧ b ≤ 122) →
      isSpace b = false ∧ b ≠ c!"+" ∧ b ≠ c!"-" ∧ isDigit b = false := by decide +kernel
  have := key ⟨b.toNat, b.toNat_lt⟩
  simp only [UInt8.ofNat_toNat] at this
  exact this h

/-- **C40 (negation).** Whatever follows a `$` that is followed by a letter is lost. -/
theorem C40_word_truncates (args : List Bytes) {ps : List Piece} (h : ∀ p ∈ ps, p.WF ∧ p ≠ .lit 8)
    {b : Byte} (hb : (65 ≤ b ∧ b ≤ 90) ∨ (97 ≤ b ∧ b ≤ 122)) (rest : Bytes) :
    print args (templateText ps ++ c!"$" :: b :: rest) = filled args ps := by
  rw [print_template args h]
  have hd : b ≠ c!"$" := by rintro rfl; revert hb; decide
  have hz : print args (c!"$" :: b :: rest) = [] := by
    rw [print.eq_def]
    simp only [if_true]
    split
    · rfl
    · rename_i e he
      have hs : strtolScan (b :: rest) = none := by
        obtain ⟨h1, h2⟩ := letter_facts hb
        unfold strtolScan
        rw [List.dropWhile_cons_of_neg (by simp [h1])]
        simp [h2.1, h2.2.1, h2.2.2]
      have hend : strtolEnd (b :: rest) = b :: rest := by unfold strtolEnd; rw [hs]
      rw [if_pos]
      rw [hend]
      intro heq
      rw [← heq] at he
      rw [fromDollar, if_neg hd] at he
      have := fromDollar_length he
      simp only [List.length_cons] at this
      omega
  rw [hz, List.append_nil]

example : print [b!"x"] b!"$HOME and $1$" = [] := by decide +kernel

/-- **C40 (negation).** Backspace characters of a template are dropped. -/
theorem C40_backspace_dropped (args : List Bytes) (rest : Bytes) : print args (8 :: rest) = print args rest := by
  rw [print_lit args (by decide)]; rfl

/-- **C40 (negation).** The number of a hole is truncated to an int: `$4294967297$` is the first argument. -/
theorem C40_large_number : print [b!"x"] b!"$4294967297$" = b!"x" := by decide +kernel

/-- **C40.** What the printer makes of a text, whatever the text is. -/
theorem C40_exact (args : List Bytes) (text out : Bytes) : print args text = out ↔ Expands args text out := by
  constructor
  · rintro rfl
    generalize hn : text.length = n
    induction n using Nat.strongRecOn generalizing text with
    | _ n ih =>
      subst hn
      cases text with
      | nil => rw [print_nil]; exact .nil
      | cons c t =>
        by_cases hc : c = c!"$"
        · subst hc
          by_cases hs : ∃ i z r, Slot i z ∧ t = i ++ c!"$" :: r
          · obtain ⟨i, z, r, h, rfl⟩ := hs
            rw [← List.cons_append, print_slot args h]
            exact .slot h (ih _ (by simp only [List.length_cons, List.length_append]; omega) r rfl)
          · have hb : ∀ i z r, Slot i z → t ≠ i ++ c!"$" :: r := fun i z r h e => hs ⟨i, z, r, h, e⟩
            rw [print_broken args hb]
            exact .broken hb
        · have := ih _ (Nat.lt_succ_self _) t rfl
          rw [print_lit args hc]
          by_cases h9 : c = 9
          · subst h9; exact .tab this
          · by_cases h8 : c = 8
            · subst h8; exact .backspace this
            · rw [if_neg h9, if_neg h8]; exact .char h9 h8 hc this
  · intro h
    induction h with
    | nil => exact print_nil args
    | tab _ ih => rw [print_lit args (by decide), ih]; rfl
    | backspace _ ih => rw [print_lit args (by decide), ih]; rfl
    | char h9 h8 hc _ ih => rw [print_lit args hc, if_neg h9, if_neg h8, ih]; rfl
    | slot h _ ih => rw [print_slot args h, ih]
    | broken h => exact print_broken args h

/-- White space, a sign, an empty slot and one without an argument; the last `$` takes the rest with it. -/
example : print [b!"x"] b!"a$ +1$b$$c$-1$\t|$1 $d" = b!"axbc    |" := by decide +kernel
example : Expands [b!"x"] b!"a$ +1$$x$" b!"ax" :=
  .char (by decide) (by decide) (by decide) (.slot (i := b!" +1") (z := 1)
    (.num (ws := b!" ") (sign := b!"+") (ds := b!"1") (by decide) (by decide) (by decide) (by decide))
    (.broken (by
      intro i z r h e
      cases h with
      | none => simp at e
      | @num ws sign ds h1 h2 h3 h4 =>
        cases ws with
        | cons c ws => injection e with e1; subst e1; exact absurd (h1 _ List.mem_cons_self) (by decide)
        | nil =>
          rcases h2 with rfl | rfl | rfl
          · cases ds with
            | nil => exact h3 rfl
            | cons c ds => injection e with e1; subst e1; exact absurd (h4 _ List.mem_cons_self) (by decide)
          · injection e with e1; exact absurd e1 (by decide)
          · injection e with e1; exact absurd e1 (by decide))))

/-! ### The templates of the generator -/

/-- The templates and the numbers of arguments they are used with. -/
def usedTemplates : List (Tpl × Nat) :=
  [ (.header, 3), (.jsonModelHeader, 2), (.jsonModelFooter, 1), (.readFieldEmpty, 1), (.readFieldHeader, 1),
    (.readFieldItem, 2), (.readFieldFooter, 0), (.writeEmpty, 1), (.writeHeader, 2), (.writeItem, 2), (.writeFooter, 0),
    (.emptyEmpty, 1), (.emptyHeader, 1), (.emptyItem, 1), (.emptyFooter, 0), (.clearEmpty, 1), (.clearHeader, 1),
    (.clearItem, 1), (.clearFooter, 0), (.equalEmpty, 1), (.equalHeader, 1), (.equalItem, 1), (.equalFooter, 0),
    (.swapEmpty, 1), (.swapHeader, 1), (.swapItem, 1), (.swapFooter, 0), (.indexEmpty, 0), (.indexHeader, 0),
    (.indexHeaderObf, 0), (.indexItem, 2), (.indexFooter, 0), (.entity, 3), (.entityJson, 3), (.namespaceOpen, 1),
    (.namespaceClose, 1), (.structOpen, 1), (.structField, 2), (.structClose, 0), (.title, 1), (.endGuard, 1) ]

theorem message_used {msgs : List Message} {ctx : Ctx} {m : Message} {c : Call} (h : c ∈ messageCalls msgs ctx m) :
    (c.tpl, c.args.length) ∈ usedTemplates := by
  have hfun : ∀ {a b d e : Tpl}, (a, 1) ∈ usedTemplates → (b, 1) ∈ usedTemplates → (d, 1) ∈ usedTemplates →
      (e, 0) ∈ usedTemplates → c ∈ functionCalls a b d e m → (c.tpl, c.args.length) ∈ usedTemplates := by
    intro a b d e h1 h2 h3 h4 hc
    unfold functionCalls at hc
    split at hc
    · simp only [List.mem_cons, List.not_mem_nil, or_false] at hc; subst hc; exact h1
    · simp only [List.mem_cons, List.mem_append, List.mem_map, List.not_mem_nil, or_false] at hc
      rcases hc with (rfl | ⟨f, _, rfl⟩) | rfl
      · exact h2
      · exact h3
      · exact h4
  simp only [messageCalls_eq, wrapperCalls, List.mem_append, List.mem_map, List.mem_cons, List.not_mem_nil, or_false] at h
  rcases h with rfl | ⟨_, _, rfl⟩ | rfl | ⟨_, _, rfl⟩ | rfl | ⟨_, _, rfl⟩ | ((((((((rfl | h) | h) | h) | h) | h) | h) | h) | rfl) |
    ⟨_, _, rfl⟩ | rfl | ⟨_, _, rfl⟩ | rfl
  all_goals first | (simp only [List.length_cons, List.length_nil]; decide; done) | skip
  · split at h
    · simp only [List.mem_cons, List.not_mem_nil, or_false] at h; subst h; simp [usedTemplates]
    · simp only [List.mem_cons, List.mem_append, List.mem_map, List.not_mem_nil, or_false] at h
      rcases h with (rfl | ⟨f, _, rfl⟩) | rfl <;> simp [usedTemplates]
  · split at h
    · simp only [List.mem_cons, List.not_mem_nil, or_false] at h; subst h; simp [usedTemplates]
    · simp only [List.mem_cons, List.mem_append, List.mem_map, List.not_mem_nil, or_false] at h
      rcases h with (rfl | ⟨f, _, rfl⟩) | rfl <;> simp [usedTemplates]
  · exact hfun (by decide) (by decide) (by decide) (by decide) h
  · exact hfun (by decide) (by decide) (by decide) (by decide) h
  · exact hfun (by decide) (by decide) (by decide) (by decide) h
  · exact hfun (by decide) (by decide) (by decide) (by decide) h
  · split at h
    · simp only [List.mem_cons, List.not_mem_nil, or_false] at h; subst h; simp [usedTemplates]
    · simp only [List.mem_cons, List.mem_append, List.mem_map, List.not_mem_nil, or_false] at h
      rcases h with (rfl | ⟨f, _, rfl⟩) | rfl
      · dsimp only; split <;> simp [usedTemplates]
      · simp [usedTemplates]
      · simp [usedTemplates]

/-- Every hole of the template has an argument. -/
def HolesGiven (ps : List Piece) (n : Nat) : Prop := ∀ p ∈ ps, ∀ d, p = .hole d → 1 ≤ numeral d ∧ numeral d ≤ n

/-- Check of a template. -/
def templateGood (text : Bytes) (n : Nat) : Bool :=
  match pieces text none with
  | none => false
  | some ps => ps.all fun p => decide (p.WF ∧ p ≠ .lit 8) &&
      match p with
      | .lit _ => true
      | .hole d => decide (1 ≤ numeral d ∧ numeral d ≤ n)

theorem templateGood_iff {text : Bytes} {n : Nat} (h : templateGood text n = true) :
    ∃ ps, text = templateText ps ∧ (∀ p ∈ ps, p.WF ∧ p ≠ .lit 8) ∧ HolesGiven ps n := by
  unfold templateGood at h
  split at h
  · cases h
  · rename_i ps hps
    rw [List.all_eq_true] at h
    refine ⟨ps, (pieces_text text none ps hps).symm, fun p hp => ?_, ?_⟩
    · have := h p hp
      rw [Bool.and_eq_true] at this
      exact of_decide_eq_true this.1
    · rintro p hp d rfl
      have := h _ hp
      rw [Bool.and_eq_true] at this
      exact of_decide_eq_true this.2

/-- The text of a template that is not a part of the runtime. -/
def noRuntime : Runtime := fun _ => []

theorem text_noRuntime (rt : Runtime) {t : Tpl} (h : ∀ p, t ≠ .runtime p) : t.text rt = t.text noRuntime := by
  cases t <;> first | rfl | exact absurd rfl (h _)

theorem used_good : ∀ x ∈ usedTemplates, templateGood (x.1.text noRuntime) x.2 = true := by decide +kernel

theorem used_not_runtime : ∀ x ∈ usedTemplates, ∀ p, x.1 ≠ .runtime p := by
  intro x hx p e
  have : ∀ x ∈ usedTemplates, (match x.1 with | .runtime _ => false | _ => true) = true := by decide
  have := this x hx
  rw [e] at this
  cases this

/-- **C40.** Everything the generator prints, apart from the parts of the runtime, is a template in which every hole is
given an argument and every argument is inserted verbatim. -/
theorem C40_generated_text {N : Nat} {text : Bytes} {t : Tree} (h : parse N text = .ok t) (fileName : Bytes)
    (hok : (output fileName t).res = .ok ()) {c : Call} (hc : c ∈ (output fileName t).calls)
    (hr : ∀ p, c.tpl ≠ .runtime p) (rt : Runtime) :
    ∃ ps, c.tpl.text rt = templateText ps ∧ HolesGiven ps c.args.length ∧ c.text rt = filled c.args ps := by
  have hl := (sortTree_same t).linked (parse_linked h)
  obtain ⟨h1, order, h2, h3⟩ := generate_ok hok
  have hu : (c.tpl, c.args.length) ∈ usedTemplates := by
    rw [output, generate_eq h1 h2 hl h3, List.mem_append] at hc
    rcases hc with hc | hc
    · exfalso
      unfold inclusionCalls at hc
      obtain ⟨q, _, rfl⟩ := List.mem_map.mp hc
      exact hr q rfl
    · simp only [fileCalls, List.mem_append, List.mem_cons, List.not_mem_nil, or_false, List.mem_flatMap] at hc
      rcases hc with (rfl | ⟨i, _, hc⟩) | rfl
      · simp [usedTemplates]
      · cases hm : (sortTree t).messages[i]? with
        | none => rw [hm] at hc; cases hc
        | some m => rw [hm] at hc; exact message_used hc
      · simp [usedTemplates]
  obtain ⟨ps, e, hw, hg⟩ := templateGood_iff (used_good _ hu)
  rw [← text_noRuntime rt (used_not_runtime _ hu)] at e
  exact ⟨ps, e, hg, by rw [Call.text, e, C40_substitution_partial _ hw]⟩

example : Call.text noRuntime ⟨.structField, [b!"std::vector<uint8_t>", b!"blob"]⟩ =
    b!"        std::vector<uint8_t> blob;\n" := by decide +kernel

/-- **C40.** The parts of the runtime are copied, up to tabs, as long as they contain neither `$` nor backspaces — which
holds for the files of /repo/source/cpp. -/
theorem C40_runtime_text (rt : Runtime) (p : Part) (h : ∀ c ∈ rt p, c ≠ c!"$" ∧ c ≠ 8) :
    Call.text rt ⟨.runtime p, []⟩ = (rt p).flatMap fun c => if c = 9 then b!"    " else [c] := by
  have key := C40_substitution_partial [] (ps := (rt p).map Piece.lit) (by
    intro q hq
    obtain ⟨c, hc, rfl⟩ := List.mem_map.mp hq
    exact ⟨(h c hc).1, fun e => (h c hc).2 (by injection e)⟩)
  have e : ∀ s : Bytes, templateText (s.map Piece.lit) = s ∧
      filled [] (s.map Piece.lit) = s.flatMap fun c => if c = 9 then b!"    " else [c] := by
    intro s
    induction s with
    | nil => exact ⟨rfl, rfl⟩
    | cons c s ih =>
      simp only [templateText, filled, List.map_cons, List.flatMap_cons] at ih ⊢
      rw [ih.1, ih.2]
      exact ⟨rfl, rfl⟩
  rw [(e _).1, (e _).2] at key
  exact key

example (p : Part) : Call.text (fun _ => b!"\tint x;\n") ⟨.runtime p, []⟩ = b!"    int x;\n" :=
  C40_runtime_text (fun _ => b!"\tint x;\n") p (by decide)

end PG.Gen
