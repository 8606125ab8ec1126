import Verif.Proofs.ProtoMono
import Verif.Proofs.ProtoTok
/-
C43 (termination), C44 (only `protogen::exception`), C48 (layout) of the schema parser.
-/
set_option autoImplicit false
namespace PG.Proto

/-- A schema used as an example: every construct once. -/
def demoSchema : Bytes := b!"syntax = \"proto3\";
package shop.api; // where it lives
option number_names = true;
/* an order
 * of a customer */
message Order {
  option note = \"x\";
  repeated Item items = 2 [transient = false, name = \"things\"];
  optional int64 id = 1;
}
message Item { string name = 1; bytes blob = 3; }
"

/-! ### C43: the parser terminates -/

theorem parse_hang {text : Bytes} (h : alex text = .hang) (N : Nat) : parse N text = .fuel := by
  have hr := parse_tokens N text
  have e : ∀ n t, parseProto anext N n t { cur := Tok.default, ungot := false, src := text } = .fuel := by
    intro n t
    cases n with
    | zero => rfl
    | succ n => simp [parseProto, Tk.next, anext, h, Out.bind]
  have e2 : parseFrom anext N text = .fuel := by
    unfold parseFrom
    rw [e]; rfl
  rw [e2] at hr
  revert hr
  cases parse N text <;> simp [Rel]

theorem afterLF_none : ∀ {c : Bytes}, 10 ∉ c → afterLF c = none
  | [], _ => rfl
  | b :: c, h => by
    simp only [List.mem_cons, not_or] at h
    rw [afterLF, if_neg (Ne.symm h.1), afterLF_none h.2]

theorem astr_open : ∀ (s v : Bytes), Quotable s → astr v s = .hang
  | [], _, _ => rfl
  | b :: s, v, ⟨h1, h2, h3⟩ => by
    simp only [List.mem_cons, not_or] at h1 h2 h3
    rw [astr, if_neg (by rintro (h | h); exact h1.1 h.symm; exact h2.1 h.symm), if_neg (Ne.symm h3.1)]
    exact astr_open s _ ⟨h1.2, h2.2, h3.2⟩

/-- **C43 (negation).** A file whose last line is a comment without a line feed is parsed for ever: whatever the number
of steps, the parser is still running. -/
theorem C43_comment_at_end_runs_forever {g c : Bytes} (hg : Gap g) (hc : 10 ∉ c) (N : Nat) :
    parse N (g ++ b!"//" ++ c) = .fuel := by
  apply parse_hang
  rw [List.append_assoc, alex_gap hg]
  show alex (47 :: 47 :: c) = .hang
  rw [alex_line, afterLF_none hc]

/-- **C43 (negation).** So is a file that ends inside a string literal. -/
theorem C43_string_at_end_runs_forever {g s : Bytes} (hg : Gap g) (hs : Quotable s) (N : Nat) :
    parse N (g ++ b!"\"" ++ s) = .fuel := by
  apply parse_hang
  rw [List.append_assoc, alex_gap hg]
  show alex (34 :: s) = .hang
  rw [alex_quote, astr_open s [] hs]

example : parse 1000 b!" // the end" = .fuel :=
  C43_comment_at_end_runs_forever (g := b!" ") (c := b!" the end") (.space (by decide) .nil) (by decide) 1000

/-- **C43 (negation).** So it is not true that the parser terminates on every input. -/
theorem C43_termination_is_false : ¬ ∀ text : Bytes, ∃ N, parse N text ≠ .fuel := by
  intro h
  obtain ⟨N, hN⟩ := h b!"//"
  exact hN (C43_comment_at_end_runs_forever (g := []) (c := []) .nil (by decide) N)

/-- **C43 (partial).** The parser terminates on every text in which each `//` is followed by a line feed and each quote
by a line feed or a NUL character, in a number of steps of each loop bounded by the size of the text.  Missing: the
texts of the two theorems above, on which it does not. -/
theorem C43_terminates_partial {text : Bytes} (h : Closed text) {N : Nat} (hN : text.length < N) :
    parse N text ≠ .fuel := parse_ends h hN

theorem closed_of_lf (t : Bytes) : Closed (t ++ [10]) := by
  intro r hr
  have key : ∀ q : Bytes, q <:+ t ++ [10] → q ≠ [] → 10 ∈ q := by
    rintro q ⟨p, hp⟩ hq
    have h1 : (p ++ q).getLast? = some 10 := by rw [hp]; simp
    rw [List.getLast?_append] at h1
    cases hl : q.getLast? with
    | none => rw [List.getLast?_eq_none_iff] at hl; exact absurd hl hq
    | some x =>
      rw [hl] at h1
      simp only [Option.some_or, Option.some.injEq] at h1
      subst h1
      exact List.mem_of_getLast? hl
  have hne : ∀ (b : Byte) (q : Bytes), r = b :: q → b ≠ 10 → q ≠ [] := by
    intro b q e hb hq
    subst hq e
    have := key [b] hr (by simp)
    simp at this
    exact hb this.symm
  constructor
  · intro q e
    have hs : 47 :: q <:+ t ++ [10] := (List.suffix_cons 47 _).trans (e ▸ hr)
    have hq : q ≠ [] := by
      intro hq; subst hq
      have := key [47] hs (by simp)
      simp at this
    exact key q ((List.suffix_cons _ _).trans hs) hq
  · intro q e
    have hq := hne 34 q e (by decide)
    exact Or.inl (key q ((List.suffix_cons 34 _).trans (e ▸ hr)) hq)

/-- **C43 (partial).** In particular on every text that ends with a line feed.  Missing: see the theorem above. -/
theorem C43_terminates_with_final_line_feed_partial (t : Bytes) {N : Nat} (hN : t.length + 1 < N) :
    parse N (t ++ [10]) ≠ .fuel :=
  C43_terminates_partial (closed_of_lf t) (by simpa using hN)

example : parse 400 demoSchema ≠ .fuel := by
  have h : demoSchema = demoSchema.dropLast ++ [10] := by decide +kernel
  rw [h]
  exact C43_terminates_with_final_line_feed_partial _ (by decide +kernel)

/-- **C43.** The number of steps is only a device: runs that end have the same outcome. -/
theorem C43_outcome_unique {N M : Nat} {text : Bytes} (h1 : parse N text ≠ .fuel) (h2 : parse M text ≠ .fuel) :
    parse N text = parse M text := parse_unique h1 h2

/-! ### C44: only `protogen::exception` -/

/-- **C44.** For every input and every number of steps the parser succeeds, throws a `protogen::exception` other than
"Already ungot", or is still running: "unable to unget" (a `std::runtime_error`) and "Already ungot" never occur. -/
theorem C44_only_protogen_exceptions (N : Nat) (text : Bytes) :
    (∃ t, parse N text = .ok t) ∨ (∃ e, parse N text = .exc e ∧ e.kind ≠ .alreadyUngot) ∨ parse N text = .fuel := by
  have h := parse_safe N text
  cases hp : parse N text with
  | ok t => exact Or.inl ⟨t, rfl⟩
  | exc e => rw [hp] at h; exact Or.inr (Or.inl ⟨e, rfl, h⟩)
  | runtime => rw [hp] at h; exact h.elim
  | fuel => exact Or.inr (Or.inr rfl)

/-- **C44.** With enough steps, on a text with closed comments and strings: success or exception. -/
theorem C44_success_or_exception {N : Nat} {text : Bytes} (h : Closed text) (hN : text.length < N) :
    (∃ t, parse N text = .ok t) ∨ (∃ e, parse N text = .exc e ∧ e.kind ≠ .alreadyUngot) := by
  rcases C44_only_protogen_exceptions N text with h1 | h1 | h1
  · exact Or.inl h1
  · exact Or.inr h1
  · exact absurd h1 (parse_ends h hN)

example : ∃ t, parse 400 demoSchema = .ok t := by
  rcases C44_only_protogen_exceptions 400 demoSchema with h | ⟨e, h, _⟩ | h
  · exact h
  · exact absurd h (by
      have : (match parse 400 demoSchema with | .ok _ => true | _ => false) = true := by decide +kernel
      intro hh; rw [hh] at this; cases this)
  · exact absurd h (by
      have : (match parse 400 demoSchema with | .ok _ => true | _ => false) = true := by decide +kernel
      intro hh; rw [hh] at this; cases this)

example : parse 50 b!"message M { int32 = 1; }" = .exc ⟨.missingName, 1, 19⟩ := by decide +kernel

/-! ### C48: layout -/

/-- The outcome without the positions. -/
def Out.unplaced : Out Tree → Option (Tree ⊕ Kind)
  | .ok t => some (.inl t.erase)
  | .exc e => some (.inr e.kind)
  | _ => none

/-- **C48.** White space and comments between lexical elements do not matter: two texts made of the same lexical
elements give the same schema, up to the line numbers of options, or exceptions with the same text. -/
theorem C48_layout_irrelevant {ls : List Lexeme} {a b : Bytes} (ha : Layout ls a) (hb : Layout ls b) {N : Nat}
    (hNa : a.length < N) (hNb : b.length < N) : (parse N a).unplaced = (parse N b).unplaced := by
  have h1 := parse_tokens N a
  have h2 := parse_tokens N b
  have h3 := rel_parseFrom same_layout N (s := a) (t := b) ⟨ls, ha, hb⟩
  revert h1 h2 h3
  generalize parse N a = p
  generalize parse N b = q
  generalize parseFrom anext N a = u
  generalize parseFrom anext N b = v
  intro h1 h2 h3
  have n1 : ¬ N ≤ a.length := by omega
  have n2 : ¬ N ≤ b.length := by omega
  cases p <;> cases u <;> cases v <;> cases q <;> simp_all [Rel, Out.unplaced] <;> omega

/-- The lexical elements of a text, read by the tokenizer of the model; a way to build the examples. -/
theorem layout_cons {l : Lexeme} {ls : List Lexeme} {text : Bytes} (g rest : Bytes) (e : text = g ++ l.text ++ rest)
    (hg : Gap g) (hl : l.Valid) (he : l.Ends rest) (h : Layout ls rest) : Layout (l :: ls) text := by
  subst e; exact .next hg hl he h

theorem gap_spaces : ∀ g : Bytes, (∀ b ∈ g, b ∈ b!" \t\n\r") → Gap g
  | [], _ => .nil
  | b :: g, h => .space (h b List.mem_cons_self) (gap_spaces g (fun c hc => h c (List.mem_cons_of_mem _ hc)))

section
private theorem kw {n : Bytes} (h : n ∈ reserved) : (Lexeme.word n).Valid := .one (reserved_ident n h)
private theorem id1 {b : Byte} (h : Letter b) : (Lexeme.word [b]).Valid := .one ⟨b, [], rfl, h, by simp⟩

private def lexA : List Lexeme := [.word b!"message", .word b!"A", .sym c!"{", .sym c!"}"]

private theorem layA : Layout lexA b!"message A{}" :=
  layout_cons [] b!" A{}" rfl .nil (kw (by decide +kernel)) (by unfold Lexeme.Ends; decide)
    (layout_cons b!" " b!"{}" rfl (gap_spaces _ (by decide)) (id1 (by decide)) (by unfold Lexeme.Ends; decide)
    (layout_cons [] b!"}" rfl .nil (show _ ∈ _ by decide) trivial
    (layout_cons [] [] rfl .nil (show _ ∈ _ by decide) trivial (.done .nil))))

private theorem layB : Layout lexA b!"message/*x*/A // y\n{\t}\n" :=
  layout_cons [] b!"/*x*/A // y\n{\t}\n" rfl .nil (kw (by decide +kernel)) (by unfold Lexeme.Ends; decide)
    (layout_cons b!"/*x*/" b!" // y\n{\t}\n" rfl
      (.block (c := b!"x") (g := []) (by rintro ⟨p, q, h⟩; have := congrArg List.length h; simp at this; omega) .nil)
      (id1 (by decide)) (by unfold Lexeme.Ends; decide)
    (layout_cons b!" // y\n" b!"{\t}\n".tail rfl
      (.space (by decide) (.line (c := b!" y") (g := []) (by decide) .nil)) (show _ ∈ _ by decide) trivial
    (layout_cons b!"\t" b!"\n" rfl (gap_spaces _ (by decide)) (show _ ∈ _ by decide) trivial
      (.done (gap_spaces _ (by decide))))))

example : (parse 100 b!"message A{}").unplaced = (parse 100 b!"message/*x*/A // y\n{\t}\n").unplaced :=
  C48_layout_irrelevant layA layB (by decide) (by decide)
example : (parse 100 b!"message A{}").unplaced =
    some (.inl { messages := [{ fields := [], name := b!"A", package := [], options := [] }], options := [],
                 package := [] }) := by decide +kernel
end

end PG.Proto
