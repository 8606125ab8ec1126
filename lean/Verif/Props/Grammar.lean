import Verif.Proofs.ProtoLay
import Verif.Props.Schema
/-
C43 (termination on lexically well formed files), C45 (field numbers), C46 (references), C47 (well formed schemas),
C49 (malformed files) of the schema parser.  The grammar is `fileLexemes`, the meaning `denote`, both in Spec/Schema.
-/
set_option autoImplicit false
namespace PG.Proto

/-! ### An example -/

/-- The declarations of `demoSchema`. -/
def demoDecls : List Decl :=
  [ .syntax, .package b!"shop.api", .option ⟨b!"number_names", .bool true⟩,
    .message b!"Order"
      [ .option ⟨b!"note", .str b!"x"⟩,
        .field ⟨.repeated, .named b!"Item", b!"items", b!"2",
          some [(⟨b!"transient", .bool false⟩, true), (⟨b!"name", .str b!"things"⟩, false)]⟩,
        .field ⟨.optional, .scalar .int64, b!"id", b!"1", none⟩ ],
    .message b!"Item"
      [ .field ⟨.none, .scalar .string, b!"name", b!"1", none⟩, .field ⟨.none, .scalar .bytes, b!"blob", b!"3", none⟩ ] ]

theorem ident_of {n : Bytes} (h : match n with | [] => False | b :: r => Letter b ∧ ∀ c ∈ r, Letter c ∨ Digit c) :
    Ident n := by
  cases n with
  | nil => exact h.elim
  | cons b r => exact ⟨b, r, rfl, h⟩

theorem demo_ident : Ident b!"Order" ∧ Ident b!"Item" ∧ Ident b!"items" ∧ Ident b!"id" ∧ Ident b!"name" ∧ Ident b!"blob" ∧
    Ident b!"shop" ∧ Ident b!"api" ∧ Ident b!"number_names" ∧ Ident b!"note" ∧ Ident b!"transient" ∧ Ident b!"A" ∧
    Ident b!"B" ∧ Ident b!"M" ∧ Ident b!"x" := by
  refine ⟨?_, ?_, ?_, ?_, ?_, ?_, ?_, ?_, ?_, ?_, ?_, ?_, ?_, ?_, ?_⟩ <;> exact ident_of (by dsimp only; decide +kernel)

theorem demo_wf : ∀ d ∈ demoDecls, d.WF := by
  obtain ⟨h1, h2, h3, h4, h5, h6, h7, h8, h9, h10, h11, -⟩ := demo_ident
  intro d hd
  simp only [demoDecls, List.mem_cons, List.not_mem_nil, or_false] at hd
  rcases hd with rfl | rfl | rfl | rfl | rfl
  · trivial
  · exact ⟨.more (p := b!"shop") (n := b!"api") h7 (.one h8), by decide +kernel⟩
  · exact ⟨.one h9, by decide +kernel, trivial⟩
  · refine ⟨⟨h1, Or.inl (by decide +kernel)⟩, ?_⟩
    intro i hi
    simp only [List.mem_cons, List.not_mem_nil, or_false] at hi
    rcases hi with rfl | rfl | rfl
    · exact ⟨.one h10, by decide +kernel, by unfold Value.WF Quotable; decide +kernel⟩
    · refine ⟨⟨.one h2, by decide +kernel⟩, ⟨h3, Or.inl (by decide +kernel)⟩, by unfold Digits; decide +kernel, ?_⟩
      intro o ho
      simp only [bracketOpts, List.map, List.mem_cons, List.not_mem_nil, or_false] at ho
      rcases ho with rfl | rfl
      · exact ⟨.one h11, by decide +kernel, trivial⟩
      · exact ⟨.one h5, by decide +kernel, by unfold Value.WF Quotable; decide +kernel⟩
    · exact ⟨trivial, ⟨h4, Or.inl (by decide +kernel)⟩, by unfold Digits; decide +kernel, by simp [bracketOpts]⟩
  · refine ⟨⟨h2, Or.inl (by decide +kernel)⟩, ?_⟩
    intro i hi
    simp only [List.mem_cons, List.not_mem_nil, or_false] at hi
    rcases hi with rfl | rfl
    · exact ⟨trivial, ⟨h5, Or.inl (by decide +kernel)⟩, by unfold Digits; decide +kernel, by simp [bracketOpts]⟩
    · exact ⟨trivial, ⟨h6, Or.inl (by decide +kernel)⟩, by unfold Digits; decide +kernel, by simp [bracketOpts]⟩

instance (i : Int) : Decidable (GoodIndex i) := inferInstanceAs (Decidable (_ ∧ _))

/-- `Consistent` with the type names enumerated, to decide it on examples. -/
theorem consistent_of {ds : List Decl}
    (h1 : ∀ m ∈ located [] ds, (∀ f ∈ m.2.2.filterMap Item.field?, GoodIndex f.index) ∧
      ((m.2.2.filterMap Item.field?).map (·.index)).Pairwise (· ≠ ·))
    (h2 : ∀ m ∈ located [] ds, ∀ f ∈ m.2.2.filterMap Item.field?,
      match f.type with | .named n => qualify m.1 n ∈ messageNames ds | .scalar _ => True) : Consistent ds := by
  refine ⟨h1, fun m hm f hf n hn => ?_⟩
  have := h2 m hm f hf
  rw [hn] at this
  exact this

instance (t : TypeRef) (P : Bytes → Prop) [∀ n, Decidable (P n)] :
    Decidable (match t with | .named n => P n | .scalar _ => True) := by
  cases t <;> dsimp only <;> infer_instance

theorem demo_consistent : Consistent demoDecls := consistent_of (by decide +kernel) (by decide +kernel)

/-! ### C43: termination on lexically well formed files -/

/-- **C43 (partial).** The parser terminates on every text that is made of lexical elements, white space and comments,
whether or not the elements make sense, also when it does not end with a line feed.  Missing: the texts of
`C43_comment_at_end_runs_forever` and `C43_string_at_end_runs_forever`. -/
theorem C43_terminates_on_lexical_elements_partial {ls : List Lexeme} {text : Bytes} (h : Layout ls text) {N : Nat}
    (hN : text.length < N) : parse N text ≠ .fuel := parse_ends_layout h hN

example : parse 20 b!"; ] x" ≠ .fuel := by
  obtain ⟨_, _, _, _, _, _, _, _, _, _, _, _, _, _, hx⟩ := demo_ident
  exact C43_terminates_on_lexical_elements_partial
    (ls := [.sym c!";", .sym c!"]", .word b!"x"])
    (layout_cons [] b!" ] x" rfl .nil (show _ ∈ _ by decide) trivial
    (layout_cons b!" " b!" x" rfl (gap_spaces _ (by decide)) (show _ ∈ _ by decide) trivial
    (layout_cons b!" " [] rfl (gap_spaces _ (by decide)) (.one hx) trivial (.done .nil)))) (by decide)

/-! ### C47: every well formed schema is accepted as written -/

/-- Accepted, with this result up to the line numbers of options. -/
def Accepts (N : Nat) (text : Bytes) (t : Tree) : Prop := ∃ t', parse N text = .ok t' ∧ t'.erase = t

/-- Rejected with an exception with this text. -/
def Rejects (N : Nat) (text : Bytes) (k : Kind) : Prop := ∃ e, parse N text = .exc e ∧ e.kind = k

theorem denote_erase (ds : List Decl) : (denote ds).erase = denote ds := by
  have hopt : ∀ os : List OptDecl, OptMap.erase (optionMap os) = optionMap os := by
    have key : ∀ (os : List OptDecl) (m : OptMap), OptMap.erase m = m →
        OptMap.erase (os.foldl (fun m o => m.set o.name o.entry) m) = os.foldl (fun m o => m.set o.name o.entry) m := by
      intro os
      induction os with
      | nil => intro m h; exact h
      | cons o os ih =>
        intro m h
        exact ih _ (by rw [OptMap.erase_set, h]; rfl)
    exact fun os => key os [] rfl
  unfold denote Tree.erase
  simp only [List.map_map, hopt, Tree.mk.injEq, and_true]
  refine List.map_congr_left fun m _ => ?_
  simp only [Function.comp, bodyMeaning, Message.erase, hopt, List.map_map, Message.mk.injEq, and_true]
  refine List.map_congr_left fun f _ => ?_
  simp only [Function.comp, FieldDecl.meaning, Field.erase, hopt]

theorem accepts_of {N : Nat} {text : Bytes} {ls : List Lexeme} {t : Tree} (hl : LooseLayout ls text)
    (hN : text.length < N) (ht : t.erase = t) (h : ∀ z, IsEnd z → parseFrom lnext N (ls, z) = .ok t) :
    Accepts N text t := by
  obtain ⟨z, hz, hr⟩ := parse_loose hl hN
  rw [h z hz] at hr
  cases hp : parse N text with
  | ok t' => rw [hp] at hr; exact ⟨t', hp, Eq.trans hr ht⟩
  | exc e => rw [hp] at hr; exact hr.elim
  | runtime => rw [hp] at hr; exact hr.elim
  | fuel => rw [hp] at hr; exact hr.elim

/-- **C47.** Every well formed schema whose field numbers are good and distinct and whose message types exist is
accepted, however it is laid out, and the result is its meaning: messages, fields, types, labels, names, numbers and
options, in the order in which they are written. -/
theorem C47_accepted {ds : List Decl} {text : Bytes} (hw : ∀ d ∈ ds, d.WF) (hc : Consistent ds)
    (hl : Layout (fileLexemes ds) text) {N : Nat} (hN : text.length < N) : Accepts N text (denote ds) :=
  accepts_of (loose_of_layout hl) hN (denote_erase ds) fun _ hz =>
    w_consistent hz hw hc (Nat.lt_of_le_of_lt (layout_length hl) hN)

/-- **C47.** Every such schema can be written, and reading what is written gives it back. -/
theorem C47_write_and_parse {ds : List Decl} (hw : ∀ d ∈ ds, d.WF) (hc : Consistent ds) :
    ∃ text, Layout (fileLexemes ds) text ∧ ∀ N, text.length < N → Accepts N text (denote ds) :=
  ⟨_, file_layout hw, fun _ hN => C47_accepted hw hc (file_layout hw) hN⟩

/-- A schema that is not consistent is rejected, for a field number or a reference. -/
theorem inconsistent {ds : List Decl} {text : Bytes} (hw : ∀ d ∈ ds, d.WF) (hc : ¬ Consistent ds)
    (hl : LooseLayout (fileLexemes ds) text) {N : Nat} (hN : text.length < N) :
    Rejects N text .invalidIndex ∨ (∃ n o, Rejects N text (.sameIndex n o)) ∨ ∃ q, Rejects N text (.unresolved q) := by
  obtain ⟨z, hz, hr⟩ := parse_loose hl hN
  have hN' := Nat.lt_of_le_of_lt (loose_length hl) hN
  have key : ∀ e : Exc, parseFrom lnext N (fileLexemes ds, z) = .exc e → Rejects N text e.kind := by
    intro e he
    rw [he] at hr
    cases hp : parse N text with
    | ok t' => rw [hp] at hr; exact hr.elim
    | exc e' => rw [hp] at hr; exact ⟨e', hp, hr⟩
    | runtime => rw [hp] at hr; exact hr.elim
    | fuel => rw [hp] at hr; exact hr.elim
  by_cases hi : ∀ d ∈ ds, DeclOK d
  · right; right
    have hx : unknownTypes ds ≠ [] := by
      rw [unknownTypes_ne_nil]
      refine Classical.byContradiction fun hx => hc ⟨(declOK_iff ds).mp hi, ?_⟩
      intro m hm f hf n hn
      exact Classical.byContradiction fun hq => hx ⟨m, hm, f, hf, n, hn, hq⟩
    cases hu : unknownTypes ds with
    | nil => exact absurd hu hx
    | cons q r => exact ⟨q, key ⟨.unresolved q, 0, 0⟩ (w_unresolved hz hw hi hu hN')⟩
  · obtain ⟨e, he, hk⟩ := w_bad (z := z) hw hi hN'
    rcases hk with hk | hk
    · left; rw [← hk]; exact key e he
    · obtain ⟨n, o, hk⟩ := hk
      right; left; exact ⟨n, o, hk ▸ key e he⟩

/-- **C47.** The only reasons to reject a well formed schema are the requirements of `Consistent`. -/
theorem C47_accepted_iff {ds : List Decl} {text : Bytes} (hw : ∀ d ∈ ds, d.WF) (hl : Layout (fileLexemes ds) text)
    {N : Nat} (hN : text.length < N) : (∃ t, parse N text = .ok t) ↔ Consistent ds := by
  constructor
  · rintro ⟨t, ht⟩
    refine Classical.byContradiction fun hc => ?_
    rcases inconsistent hw hc (loose_of_layout hl) hN with ⟨e, he, _⟩ | ⟨_, _, e, he, _⟩ | ⟨_, e, he, _⟩ <;>
      (rw [ht] at he; cases he)
  · intro hc
    obtain ⟨t, ht, _⟩ := C47_accepted hw hc hl hN
    exact ⟨t, ht⟩

example : Accepts 400 (render (fileLexemes demoDecls)) (denote demoDecls) :=
  C47_accepted demo_wf demo_consistent (file_layout demo_wf) (by decide +kernel)
/-- What that means. -/
example : denote demoDecls =
    { messages :=
        [ { name := b!"Order", package := b!"shop.api", options := [(b!"note", ⟨b!"note", .string, b!"x", 0⟩)],
            fields :=
              [ { type := { id := .message, qname := b!"shop.api.Item", ref := some 1, repeated := true, optional := false },
                  name := b!"items", index := 2,
                  options := [(b!"name", ⟨b!"name", .string, b!"things", 0⟩),
                              (b!"transient", ⟨b!"transient", .boolean, b!"false", 0⟩)].reverse },
                { type := { id := .scalar .int64, qname := [], ref := none, repeated := false, optional := true },
                  name := b!"id", index := 1, options := [] } ] },
          { name := b!"Item", package := b!"shop.api", options := [],
            fields :=
              [ { type := { id := .scalar .string, qname := [], ref := none, repeated := false, optional := false },
                  name := b!"name", index := 1, options := [] },
                { type := { id := .scalar .bytes, qname := [], ref := none, repeated := false, optional := false },
                  name := b!"blob", index := 3, options := [] } ] } ],
      options := [(b!"number_names", ⟨b!"number_names", .boolean, b!"true", 0⟩)], package := b!"shop.api" } := by
  decide +kernel
/-- The text with comments has the same meaning. -/
example : (parse 400 demoSchema).unplaced = some (.inl (denote demoDecls)) := by decide +kernel

/-! ### C49: malformed files -/

/-- **C49, exactly which files are accepted.** A file is accepted, with result `t`, exactly when it reads as a schema
that is well formed and consistent and whose meaning is `t` - or as such a schema without its last closing brace - where
reading takes some malformed texts for white space (`LooseGap`) or for the end of the file (`LooseEnd`). -/
theorem C49_accepted_iff {text : Bytes} {t : Tree} {N : Nat} (hN : text.length + 1 < N) :
    Accepts N text t ↔ ∃ ds, (∀ d ∈ ds, Decl.WF d) ∧ Consistent ds ∧ t = denote ds ∧
      (LooseLayout (fileLexemes ds) text ∨
       ∃ ds' name body, ds = ds' ++ [.message name body] ∧ LooseLayout (openLexemes ds' name body) text) := by
  constructor
  · rintro ⟨t', ht, he⟩
    obtain ⟨ds, h1, h2, h3, h4⟩ := parse_sound ht
    exact ⟨ds, h1, h2, by rw [← he, h3], h4⟩
  · rintro ⟨ds, h1, h2, rfl, h4 | ⟨ds', name, body, rfl, h4⟩⟩
    · exact accepts_of h4 (by omega) (denote_erase ds) fun z hz =>
        w_consistent hz h1 h2 (by have := loose_length h4; omega)
    · exact accepts_of h4 (by omega) (denote_erase _) fun z hz =>
        w_open hz h1 h2 (by have := loose_length h4; omega)

/-- **C49 (negation).** A message at the end of the file need not be closed. -/
theorem C49_unterminated_message_accepted {ds : List Decl} {name : Bytes} {body : List Item} {text : Bytes}
    (hw : ∀ d ∈ ds ++ [Decl.message name body], d.WF) (hc : Consistent (ds ++ [Decl.message name body]))
    (hl : Layout (openLexemes ds name body) text) {N : Nat} (hN : text.length + 1 < N) :
    Accepts N text (denote (ds ++ [Decl.message name body])) :=
  (C49_accepted_iff hN).mpr ⟨_, hw, hc, rfl, Or.inr ⟨ds, name, body, rfl, loose_of_layout hl⟩⟩

example : (parse 50 b!"message A { int32 x = 1;").unplaced = (parse 50 b!"message A { int32 x = 1; }").unplaced := by
  decide +kernel

/-- **C49 (negation).** A string broken by a line feed or a NUL character ends the file: whatever follows is ignored. -/
theorem C49_broken_string_ends_file {ds : List Decl} {text s rest : Bytes} {b : Byte} (hw : ∀ d ∈ ds, d.WF)
    (hc : Consistent ds) (hl : Layout (fileLexemes ds) text) (hs : Quotable s) (hb : b = 10 ∨ b = 0) {N : Nat}
    (hN : (text ++ (34 :: s ++ b :: rest)).length < N) : Accepts N (text ++ (34 :: s ++ b :: rest)) (denote ds) :=
  have h := layout_then hl (.string (rest := rest) hs hb) (Or.inr rfl)
  accepts_of h hN (denote_erase ds) fun _ hz => w_consistent hz hw hc (Nat.lt_of_le_of_lt (loose_length h) hN)

example : Accepts 500 (render (fileLexemes demoDecls) ++ b!"\"\n message Order { } ][ # garbage") (denote demoDecls) :=
  C49_broken_string_ends_file demo_wf demo_consistent (file_layout demo_wf) (s := []) (b := 10)
    (rest := b!" message Order { } ][ # garbage") (by unfold Quotable; decide) (Or.inl rfl) (by decide +kernel)

/-- **C49 (negation).** So does a block comment that is not closed. -/
theorem C49_unterminated_comment_accepted {ds : List Decl} {text c : Bytes} (hw : ∀ d ∈ ds, d.WF)
    (hc : Consistent ds) (hl : Layout (fileLexemes ds) text) (hx : ¬ ∃ p q, c = p ++ b!"*/" ++ q) {N : Nat}
    (hN : (text ++ (b!"/*" ++ c)).length < N) : Accepts N (text ++ (b!"/*" ++ c)) (denote ds) :=
  have h := layout_then hl (.block hx) (Or.inl rfl)
  accepts_of h hN (denote_erase ds) fun _ hz => w_consistent hz hw hc (Nat.lt_of_le_of_lt (loose_length h) hN)

example : (parse 50 b!"message A { } /* message B { }").unplaced = (parse 50 b!"message A { }").unplaced := by
  decide +kernel

/-- **C49 (negation).** A slash hides the character after it: here a closing brace too many. -/
theorem C49_slash_hides_a_character :
    (parse 50 b!"message A { } /}").unplaced = (parse 50 b!"message A { }").unplaced ∧
    (∃ t, parse 50 b!"message A { }" = .ok t) ∧ Rejects 50 b!"message A { } }" .unexpectedToken := by
  refine ⟨by decide +kernel, ?_, ?_⟩
  · exact ⟨{ messages := [{ fields := [], name := b!"A", package := [], options := [] }], options := [],
             package := [] }, by decide +kernel⟩
  · exact ⟨⟨.unexpectedToken, 1, 15⟩, by decide +kernel, rfl⟩

/-- **C49 (negation).** It is not true that a file whose last message is not closed is rejected. -/
theorem C49_is_false : ∃ t, parse 50 b!"message A { int32 x = 1;" = .ok t :=
  ⟨{ messages := [{ fields := [{ type := { id := .scalar .int32, qname := [], ref := none, repeated := false,
                                           optional := false }, name := b!"x", index := 1, options := [] }],
                    name := b!"A", package := [], options := [] }], options := [], package := [] }, by decide +kernel⟩

/-- **C49 (partial).** A file made of lexical elements, white space and comments is rejected with an exception unless
its elements are a well formed, consistent schema, or one without its last closing brace.  Missing: the closing brace,
and the malformed texts that are skipped or end the file (theorems above). -/
theorem C49_rejected_partial {ls : List Lexeme} {text : Bytes} (hl : Layout ls text)
    (h1 : ¬ ∃ ds, (∀ d ∈ ds, Decl.WF d) ∧ Consistent ds ∧ ls = fileLexemes ds)
    (h2 : ¬ ∃ ds name body, (∀ d ∈ ds ++ [.message name body], Decl.WF d) ∧
      Consistent (ds ++ [.message name body]) ∧ ls = openLexemes ds name body) {N : Nat} (hN : text.length < N) :
    ∃ e, parse N text = .exc e := by
  rcases C44_only_protogen_exceptions N text with ⟨t, ht⟩ | ⟨e, he, _⟩ | h
  · exfalso
    obtain ⟨ds, hw, hc, _, h4 | ⟨ds', name, body, e, h4⟩⟩ := parse_sound ht
    · exact h1 ⟨ds, hw, hc, loose_unique (loose_of_layout hl) h4⟩
    · subst e
      exact h2 ⟨ds', name, body, hw, hc, loose_unique (loose_of_layout hl) h4⟩
  · exact ⟨e, he⟩
  · exact absurd h (parse_ends_layout hl hN)

/-- **C49.** A character that belongs to no lexical element, after any elements and before anything, is rejected. -/
theorem C49_stray_symbol_rejected {ls : List Lexeme} {pre rest : Bytes} {b : Byte} (hl : Layout ls pre) (hb : Stray b)
    {N : Nat} (hN : (pre ++ b :: rest).length < N) : ∃ e, parse N (pre ++ b :: rest) = .exc e := by
  have hs : Strayed (pre ++ b :: rest) := ⟨ls, pre, b, rest, rfl, hl, hb⟩
  rcases C44_only_protogen_exceptions N (pre ++ b :: rest) with ⟨t, ht⟩ | ⟨e, he, _⟩ | h
  · exfalso
    obtain ⟨ds, hw, hc, _, h4 | ⟨ds', name, body, e, h4⟩⟩ := parse_sound ht
    · exact loose_not_strayed h4 hs
    · exact loose_not_strayed h4 hs
  · exact ⟨e, he⟩
  · exact absurd h (parse_ends_strayed hs hN)

example : ∃ e, parse 500 (render (fileLexemes demoDecls) ++ b!"# comment") = .exc e :=
  C49_stray_symbol_rejected (file_layout demo_wf) (b := c!"#") (rest := b!" comment") (by decide +kernel)
    (by decide +kernel)

/-! ### C45: field numbers -/

theorem erase_fields {t : Tree} {t' : Tree} (h : t.erase = t') {m : Message} (hm : m ∈ t.messages) :
    ∃ m' ∈ t'.messages, m'.fields = m.fields.map Field.erase ∧ m'.package = m.package ∧ m'.name = m.name :=
  ⟨m.erase, by subst h; exact List.mem_map_of_mem hm, rfl, rfl, rfl⟩

/-- **C45.** The field numbers of an accepted file are positive, below 536870911, not 19000 and not 19999, and distinct
within their message. -/
theorem C45_valid_and_distinct {N : Nat} {text : Bytes} {t : Tree} (h : parse N text = .ok t) :
    ∀ m ∈ t.messages, (∀ f ∈ m.fields, GoodIndex f.index) ∧ (m.fields.map (·.index)).Pairwise (· ≠ ·) := by
  intro m hm
  obtain ⟨ds, _, hc, he, _⟩ := parse_sound h
  obtain ⟨m', hm', hf, _⟩ := erase_fields he hm
  obtain ⟨x, hx, rfl⟩ := List.mem_map.mp hm'
  have h1 := hc.1 x hx
  have e : m.fields.map (·.index) = (x.2.2.filterMap Item.field?).map (·.index) := by
    have := congrArg (List.map (·.index)) hf
    simp only [bodyMeaning, List.map_map] at this
    exact this.symm
  refine ⟨fun f hf => ?_, by rw [e]; exact h1.2⟩
  have : f.index ∈ m.fields.map (·.index) := List.mem_map_of_mem hf
  rw [e] at this
  obtain ⟨g, hg, hgi⟩ := List.mem_map.mp this
  rw [← hgi]
  exact h1.1 g hg

/-- **C45.** The number of a field is the number written, as a `long` converted to `int`. -/
theorem C45_index_of {ds : List Decl} {text : Bytes} (hw : ∀ d ∈ ds, d.WF) (hc : Consistent ds)
    (hl : Layout (fileLexemes ds) text) {N : Nat} (hN : text.length < N) :
    ∃ t, parse N text = .ok t ∧ t.messages.map (fun m => m.fields.map (·.index)) =
      (located [] ds).map (fun m => (m.2.2.filterMap Item.field?).map fun f => asInt32 (number f.number)) := by
  obtain ⟨t, ht, he⟩ := C47_accepted hw hc hl hN
  refine ⟨t, ht, ?_⟩
  have := congrArg (fun t : Tree => t.messages.map (fun m => m.fields.map (·.index))) he
  simp only [Tree.erase, denote, bodyMeaning, Message.erase, List.map_map, Function.comp_def] at this
  exact this

/-- **C45 (partial).** It is the number written if that is below 2147483648.  Missing: larger numbers, for which it is
false. -/
theorem C45_as_written_partial {n : Nat} (h : n < 2 ^ 31) : asInt32 n = n := by
  unfold asInt32
  rw [Nat.min_eq_left (by omega), Nat.mod_eq_of_lt (by omega)]
  omega

/-- **C45 (negation).** Larger numbers lose their upper bits, up to the largest `long`. -/
theorem C45_truncated {n k : Nat} (h : n < 2 ^ 31) (hk : k * 2 ^ 32 + n < 2 ^ 63) : asInt32 (k * 2 ^ 32 + n) = n := by
  unfold asInt32
  rw [Nat.min_eq_left (by omega)]
  have : (k * 2 ^ 32 + n + 2 ^ 31) % 2 ^ 32 = n + 2 ^ 31 := by omega
  rw [this]
  omega

/-- **C45.** It is the number written exactly if that is below 2147483648. -/
theorem C45_as_written_iff (n : Nat) : asInt32 n = n ↔ n < 2 ^ 31 := by
  refine ⟨fun h => ?_, C45_as_written_partial⟩
  unfold asInt32 at h
  omega

/-- The numbers that the language allows for fields. -/
def Allowed (n : Nat) : Prop := 1 ≤ n ∧ n ≤ 536870911 ∧ ¬ (19000 ≤ n ∧ n ≤ 19999)

/-- **C45.** Which numbers are good as they are converted: those whose lower 32 bits are, if they are no larger than a `long`. -/
theorem C45_good_iff (n : Nat) : GoodIndex (asInt32 n) ↔
    n < 2 ^ 63 ∧ 0 < n % 2 ^ 32 ∧ n % 2 ^ 32 < 536870911 ∧ n % 2 ^ 32 ≠ 19000 ∧ n % 2 ^ 32 ≠ 19999 := by
  unfold GoodIndex asInt32
  omega

/-- **C45.** Where the code and the language differ, exactly: the largest number is refused; the reserved numbers between the first and
the last are accepted; so are numbers of more than 32 bits whose lower 32 bits are accepted. -/
theorem C45_verdict_iff (n : Nat) : (GoodIndex (asInt32 n) ↔ Allowed n) ↔
    n ≠ 536870911 ∧ ¬ (19001 ≤ n ∧ n ≤ 19998) ∧ (2 ^ 32 ≤ n → ¬ GoodIndex (asInt32 n)) := by
  rw [C45_good_iff]
  unfold Allowed
  omega

/-- A message with one field with this number. -/
def oneField (d : Bytes) : List Decl := [.message b!"M" [.field ⟨.none, .scalar .int32, b!"x", d, none⟩]]

theorem oneField_wf {d : Bytes} (h : Digits d) : ∀ x ∈ oneField d, x.WF := by
  obtain ⟨_, _, _, _, _, _, _, _, _, _, _, _, _, hm, hx⟩ := demo_ident
  intro x hd
  simp only [oneField, List.mem_cons, List.not_mem_nil, or_false] at hd
  subst hd
  refine ⟨⟨hm, Or.inl (by decide +kernel)⟩, ?_⟩
  intro i hi
  simp only [List.mem_cons, List.not_mem_nil, or_false] at hi
  subst hi
  exact ⟨trivial, ⟨hx, Or.inl (show b!"x" ∉ reserved by decide +kernel)⟩, h, by simp [bracketOpts]⟩

theorem oneField_consistent {d : Bytes} : Consistent (oneField d) ↔ GoodIndex (asInt32 (number d)) := by
  constructor
  · intro h
    exact (h.1 _ List.mem_cons_self).1 ⟨.none, .scalar .int32, b!"x", d, none⟩ List.mem_cons_self
  · intro h
    refine consistent_of ?_ ?_
    · intro m hm
      simp only [oneField, located, List.mem_cons, List.not_mem_nil, or_false] at hm
      subst hm
      refine ⟨?_, ?_⟩
      · intro f hf
        simp only [List.filterMap_cons, Item.field?, List.filterMap_nil, List.mem_cons, List.not_mem_nil, or_false] at hf
        subst hf
        exact h
      · simp [Item.field?]
    · intro m hm f hf
      simp only [oneField, located, List.mem_cons, List.not_mem_nil, or_false] at hm
      subst hm
      simp only [List.filterMap_cons, Item.field?, List.filterMap_nil, List.mem_cons, List.not_mem_nil, or_false] at hf
      subst hf
      trivial

/-- **C45.** Which numerals are accepted as field numbers, exactly. -/
theorem C45_numerals_accepted {d : Bytes} (hd : Digits d) {text : Bytes} (hl : Layout (fileLexemes (oneField d)) text)
    {N : Nat} (hN : text.length < N) : (∃ t, parse N text = .ok t) ↔ GoodIndex (asInt32 (number d)) := by
  rw [C47_accepted_iff (oneField_wf hd) hl hN, oneField_consistent]

/-- To decide examples. -/
def Out.okAnd {α : Type} (o : Out α) (p : α → Bool) : Bool :=
  match o with | .ok a => p a | _ => false
theorem okAnd {α : Type} {o : Out α} {p : α → Bool} (h : o.okAnd p = true) : ∃ a, o = .ok a ∧ p a = true := by
  cases o with
  | ok a => exact ⟨a, rfl, h⟩
  | _ => cases h
/-- To decide examples. -/
def Out.excOf {α : Type} (o : Out α) (k : Kind) : Bool :=
  match o with | .exc e => e.kind == k | _ => false
theorem excOf {N : Nat} {text : Bytes} {k : Kind} (h : (parse N text).excOf k = true) : Rejects N text k := by
  unfold Rejects
  cases hp : parse N text with
  | exc e => rw [hp] at h; exact ⟨e, rfl, beq_iff_eq.mp h⟩
  | ok a => rw [hp] at h; cases h
  | runtime => rw [hp] at h; cases h
  | fuel => rw [hp] at h; cases h

/-- The result of a message with one field. -/
def oneTree (i : Int) : Tree :=
  { messages := [{ fields := [{ type := { id := .scalar .int32, qname := [], ref := none, repeated := false,
                                          optional := false }, name := b!"x", index := i, options := [] }],
                   name := b!"M", package := [], options := [] }], options := [], package := [] }

/-- **C45 (negation).** The number 4294967297 is accepted and becomes 1; 19001 is accepted though reserved; 536870911
is rejected though valid. -/
theorem C45_is_false :
    parse 60 b!"message M { int32 x = 4294967297; }" = .ok (oneTree 1) ∧
    parse 60 b!"message M { int32 x = 19001; }" = .ok (oneTree 19001) ∧
    Rejects 60 b!"message M { int32 x = 536870911; }" .invalidIndex :=
  ⟨by decide +kernel, by decide +kernel, excOf (by decide +kernel)⟩

example : ∃ t, parse 60 b!"message M { int32 x = 19001; }" = .ok t := ⟨_, C45_is_false.2.1⟩
example : ∀ m ∈ (oneTree 19001).messages, (∀ f ∈ m.fields, GoodIndex f.index) ∧
    (m.fields.map (·.index)).Pairwise (· ≠ ·) := C45_valid_and_distinct C45_is_false.2.1
example : asInt32 4294967297 = 1 := C45_truncated (n := 1) (k := 1) (by decide) (by decide)

/-! ### C46: message types -/

/-- **C46.** In an accepted file every field of message type refers to a message of the file, whose qualified name is
the type of the field; that is a name qualified by the package of the message the field belongs to. -/
theorem C46_resolved {N : Nat} {text : Bytes} {t : Tree} (h : parse N text = .ok t) {m : Message} (hm : m ∈ t.messages)
    {f : Field} (hf : f ∈ m.fields) (ht : f.type.id = .message) :
    ∃ i target n, f.type.ref = some i ∧ t.messages[i]? = some target ∧
      qualify target.package target.name = f.type.qname ∧ f.type.qname = qualify m.package n := by
  obtain ⟨ds, _, hc, he, _⟩ := parse_sound h
  obtain ⟨m', hm', hfs, hp, _⟩ := erase_fields he hm
  obtain ⟨x, hx, rfl⟩ := List.mem_map.mp hm'
  have hf' : f.erase ∈ (bodyMeaning x.2.1 x.2.2 x.1 fun q => position q (messageNames ds)).fields := by
    rw [hfs]; exact List.mem_map_of_mem hf
  obtain ⟨g, hg, hge⟩ := List.mem_map.mp hf'
  have hty : g.typeInfo x.1 (fun q => position q (messageNames ds)) = f.type := congrArg Field.type hge
  have hp : x.1 = m.package := hp
  cases hgt : g.type with
  | scalar s =>
    rw [← hty, FieldDecl.typeInfo, hgt] at ht
    cases ht
  | named n =>
    have hq := hc.2 x hx g hg n hgt
    obtain ⟨i, hi⟩ := position_some hq
    have hn := position_mem hi
    rw [FieldDecl.typeInfo, hgt] at hty
    have hd : ((t.messages.map Message.erase).map fun m => qualify m.package m.name) = messageNames ds := by
      have e : t.messages.map Message.erase = (denote ds).messages := by rw [← he]; rfl
      rw [e]
      simp only [denote, List.map_map]
      rfl
    rw [← hd, List.map_map, List.getElem?_map] at hn
    cases hmi : t.messages[i]? with
    | none => rw [hmi] at hn; cases hn
    | some target =>
      rw [hmi] at hn
      injection hn with hn
      refine ⟨i, target, n, ?_, hmi, ?_, ?_⟩
      · rw [← hty]; exact hi
      · rw [← hty]; exact hn
      · rw [← hty, hp]

/-- **C46.** A field whose type does not exist makes the file rejected. -/
theorem C46_undefined_rejected {ds : List Decl} {text : Bytes} (hw : ∀ d ∈ ds, d.WF) (hl : Layout (fileLexemes ds) text)
    (hx : ∃ m ∈ located [] ds, ∃ f ∈ m.2.2.filterMap Item.field?, ∃ n, f.type = .named n ∧
      qualify m.1 n ∉ messageNames ds) {N : Nat} (hN : text.length < N) :
    Rejects N text .invalidIndex ∨ (∃ n o, Rejects N text (.sameIndex n o)) ∨ ∃ q, Rejects N text (.unresolved q) := by
  refine inconsistent hw ?_ (loose_of_layout hl) hN
  rintro ⟨_, hc⟩
  obtain ⟨m, hm, f, hf, n, hn, hq⟩ := hx
  exact hq (hc m hm f hf n hn)

theorem consistent_perm {ds ds' : List Decl} (hp : (located [] ds).Perm (located [] ds')) (h : Consistent ds) :
    Consistent ds' := by
  have hn : (messageNames ds).Perm (messageNames ds') := hp.map _
  exact ⟨fun m hm => h.1 m (hp.mem_iff.mpr hm),
    fun m hm f hf n hfn => hn.mem_iff.mp (h.2 m (hp.mem_iff.mpr hm) f hf n hfn)⟩

/-- A message without the positions of the messages it refers to. -/
def Message.unlinked (m : Message) : Message :=
  { m.erase with fields := m.erase.fields.map fun f => { f with type := { f.type with ref := none } } }

theorem unlinked_body (name : Bytes) (body : List Item) (p : Bytes) (ref ref' : Bytes → Option Nat) :
    (bodyMeaning name body p ref).unlinked = (bodyMeaning name body p ref').unlinked := by
  simp only [Message.unlinked, Message.erase, bodyMeaning, List.map_map, Message.mk.injEq, and_true]
  refine List.map_congr_left fun f _ => ?_
  simp only [Function.comp, Field.erase, FieldDecl.meaning, FieldDecl.typeInfo]
  split <;> rfl

theorem unlinked_erase (m : Message) : m.erase.unlinked = m.unlinked := by
  simp only [Message.unlinked, Message.erase, OptMap.erase, List.map_map, Message.mk.injEq, true_and]
  constructor
  · refine List.map_congr_left fun f _ => ?_
    simp only [Function.comp, Field.erase, OptMap.erase, List.map_map]
    rfl
  · rfl

/-- **C46 (partial).** The order of the definitions does not matter for acceptance, nor for the result up to the order
of the messages and the positions they are referred to by: these positions are of messages of the same name, by
`C46_resolved`.  Missing: when several messages have the same qualified name the order decides which one is meant
(theorem below). -/
theorem C46_order_irrelevant_partial {ds ds' : List Decl} {text text' : Bytes} (hw : ∀ d ∈ ds, d.WF)
    (hw' : ∀ d ∈ ds', d.WF) (hl : Layout (fileLexemes ds) text) (hl' : Layout (fileLexemes ds') text')
    (hp : (located [] ds).Perm (located [] ds')) {N : Nat} (hN : text.length < N) (hN' : text'.length < N) :
    ((∃ t, parse N text = .ok t) ↔ (∃ t, parse N text' = .ok t)) ∧
    ∀ t t', parse N text = .ok t → parse N text' = .ok t' →
      (t.messages.map Message.unlinked).Perm (t'.messages.map Message.unlinked) := by
  have hiff : (∃ t, parse N text = .ok t) ↔ (∃ t, parse N text' = .ok t) := by
    rw [C47_accepted_iff hw hl hN, C47_accepted_iff hw' hl' hN']
    exact ⟨consistent_perm hp, consistent_perm hp.symm⟩
  refine ⟨hiff, fun t t' ht ht' => ?_⟩
  have hc := (C47_accepted_iff hw hl hN).mp ⟨t, ht⟩
  have hc' := (C47_accepted_iff hw' hl' hN').mp ⟨t', ht'⟩
  obtain ⟨u, hu, he⟩ := C47_accepted hw hc hl hN
  obtain ⟨u', hu', he'⟩ := C47_accepted hw' hc' hl' hN'
  rw [ht] at hu; injection hu with hu; subst hu
  rw [ht'] at hu'; injection hu' with hu'; subst hu'
  have key : ∀ (t : Tree) (ds : List Decl), t.erase = denote ds → t.messages.map Message.unlinked =
      (located [] ds).map fun m => (bodyMeaning m.2.1 m.2.2 m.1 fun _ => none).unlinked := by
    intro t ds he
    have e : t.messages.map Message.erase = (denote ds).messages := by rw [← he]; rfl
    have : t.messages.map Message.unlinked = (t.messages.map Message.erase).map Message.unlinked := by
      rw [List.map_map]
      exact List.map_congr_left fun m _ => (unlinked_erase m).symm
    rw [this, e]
    simp only [denote, List.map_map]
    exact List.map_congr_left fun m _ => unlinked_body _ _ _ _ _
  rw [key t ds he, key t' ds' he']
  exact hp.map _

/-- **C46 (negation).** Two messages of the same name are accepted, and the first one is meant: exchanging them changes
what the field refers to. -/
theorem C46_order_matters_for_duplicates :
    ∃ t t', parse 80 b!"message A { } message A { bool x = 1; } message B { A a = 1; }" = .ok t ∧
      parse 80 b!"message A { bool x = 1; } message A { } message B { A a = 1; }" = .ok t' ∧
      (t.messages.map (·.fields.length)) = [0, 1, 1] ∧ (t'.messages.map (·.fields.length)) = [1, 0, 1] ∧
      t.messages[2]?.map (fun m => m.fields.map (·.type.ref)) = some [some 0] ∧
      t'.messages[2]?.map (fun m => m.fields.map (·.type.ref)) = some [some 0] := by
  obtain ⟨t, ht, h⟩ := okAnd (o := parse 80 b!"message A { } message A { bool x = 1; } message B { A a = 1; }")
    (p := fun t => t.messages.map (·.fields.length) == [0, 1, 1] &&
      t.messages[2]?.map (fun m => m.fields.map (·.type.ref)) == some [some 0]) (by decide +kernel)
  obtain ⟨t', ht', h'⟩ := okAnd (o := parse 80 b!"message A { bool x = 1; } message A { } message B { A a = 1; }")
    (p := fun t => t.messages.map (·.fields.length) == [1, 0, 1] &&
      t.messages[2]?.map (fun m => m.fields.map (·.type.ref)) == some [some 0]) (by decide +kernel)
  rw [Bool.and_eq_true, beq_iff_eq, beq_iff_eq] at h h'
  exact ⟨t, t', ht, ht', h.1, h'.1, h.2, h'.2⟩

/-- A message used before its definition, as in `demoSchema`. -/
example : ∃ t, parse 400 (render (fileLexemes demoDecls)) = .ok t ∧
    t.messages.map (fun m => m.fields.map (·.type.ref)) = [[some 1, none], [none, none]] := by
  obtain ⟨t, ht, he⟩ := C47_accepted demo_wf demo_consistent (file_layout demo_wf) (N := 400) (by decide +kernel)
  refine ⟨t, ht, ?_⟩
  have := congrArg (fun t : Tree => t.messages.map (fun m => m.fields.map (·.type.ref))) he
  simp only [Tree.erase, Message.erase, List.map_map, Function.comp_def] at this
  have e : (denote demoDecls).messages.map (fun m => m.fields.map (·.type.ref)) = [[some 1, none], [none, none]] := by
    decide +kernel
  rw [← e]
  exact this
example : (located [] demoDecls).Perm (located [] (demoDecls.take 3 ++ (demoDecls.drop 3).reverse)) :=
  List.Perm.swap _ _ []
example : parse 60 b!"message B { A a = 1; }" = .exc ⟨.unresolved b!"A", 0, 0⟩ := by decide +kernel

end PG.Proto
