import Verif.Proofs.GenTree
/-
C36 (order of definitions), C37 (circular references), C38 (number of fields), C39 (guards and namespaces), C41 (parts of
the runtime), C42 (types) of the generator.  Specifications in Spec/Gen.
-/
set_option autoImplicit false
namespace PG.Gen
open PG.Proto

/-- What the compiler prints for a parsed file (main.cc:75-82). -/
abbrev output (fileName : Bytes) (t : Tree) : Emit Unit := generate (t.messages.length + 1) fileName (sortTree t)

example (N : Nat) (fileName text : Bytes) (t : Tree) (h : parse N text = .ok t) :
    compile N fileName text = .generated (output fileName t) := by unfold compile; rw [h]

/-! ### C37: circular references -/

theorem output_ends {N : Nat} {text : Bytes} {t : Tree} (h : parse N text = .ok t) (fileName : Bytes) :
    (output fileName t).res ≠ .running :=
  generate_ends ((sortTree_same t).linked (parse_linked h)) (by rw [← (sortTree_same t).1]; omega)

/-- When the compiler succeeds on an accepted file. -/
theorem output_ok_iff {N : Nat} {text : Bytes} {t : Tree} (h : parse N text = .ok t) (fileName : Bytes) :
    (output fileName t).res = .ok () ↔
      FileOptionsOk t.options ∧ ¬ Circular t.messages ∧
        ∀ m ∈ t.messages, m.fields.length ≤ 64 ∧ ∀ f ∈ m.fields, FieldOptionsOk f := by
  have hs := sortTree_same t
  rw [generate_ok_iff (hs.linked (parse_linked h)) (by rw [← hs.1]; omega), ← hs.circular_iff]
  have ho : (sortTree t).options = t.options := rfl
  rw [ho]
  refine and_congr_right fun _ => and_congr_right fun _ => ⟨fun hm m hmm => ?_, fun hm => hs.messagesOk fun m hmm => ?_⟩
  · have := hs.symm.messagesOk hm m hmm
    exact ⟨this.1, fun f hf => (this.2 f hf).1⟩
  · exact ⟨(hm m hmm).1, fun f hf => ⟨(hm m hmm).2 f hf, parse_fieldLinked h hmm hf⟩⟩

/-- **C37.** For every accepted file the generator comes to an end, and it reports a circular reference exactly when a
message refers to itself, directly or through other messages (after the options of the file have been checked, which is
done first). -/
theorem C37_circular_iff {N : Nat} {text : Bytes} {t : Tree} (h : parse N text = .ok t) (fileName : Bytes) :
    (output fileName t).res ≠ .running ∧
    ((∃ e, (output fileName t).res = .exc e ∧ e.kind = .circular) ↔ FileOptionsOk t.options ∧ Circular t.messages) := by
  have hs := sortTree_same t
  have hl := hs.linked (parse_linked h)
  have hn : (sortTree t).messages.length < t.messages.length + 1 := by rw [← hs.1]; omega
  refine ⟨output_ends h fileName, ?_, ?_⟩
  · rintro ⟨e, he, hk⟩
    rcases generate_exc he with h1 | ⟨h1, h2⟩ | ⟨_, _, m, _, h3⟩
    · have := (fileCtx_throws _).2 e h1
      rw [hk] at this
      exact absurd this (by decide)
    · exact ⟨h1, hs.circular_iff.mpr (sortAll_exc h2).1⟩
    · have := (generateMessage_throws _ _ _).2 e h3
      rw [hk] at this
      split at this <;> exact absurd this (by decide)
  · rintro ⟨h1, h2⟩
    obtain ⟨e, he⟩ := (sort_exc_iff hl hn).mpr (hs.circular_iff.mp h2)
    refine ⟨e, ?_, (sortAll_exc he).2⟩
    unfold output generate generateFile
    rw [bind_eq, lift_ok (fileCtx_eq (show FileOptionsOk (sortTree t).options from h1)), bind_eq,
      bind_ok (generateInclusions_eq _)]
    simp only [bind_eq, put_bind]
    rw [he]
    rfl

/-- The text of a circular schema, and what the parser makes of it. -/
def circularText : Bytes := b!"message A { B b = 1; } message B { int32 n = 1; C c = 2; } message C { repeated A a = 7; }"

/-- A field of message type. -/
def refField (name : Bytes) (index : Int) (q : Bytes) (i : Nat) (repeated : Bool) : Field :=
  { type := { id := .message, qname := q, ref := some i, repeated := repeated, optional := false, }, name, index,
    options := [] }

/-- The tree of `circularText`. -/
def circularTree : Tree :=
  { messages :=
    [ { fields := [refField b!"b" 1 b!"B" 1 false], name := b!"A", package := [], options := [] },
      { fields := [{ type := { id := .scalar .int32, qname := [], ref := none, repeated := false, optional := false, },
                     name := b!"n", index := 1, options := [] }, refField b!"c" 2 b!"C" 2 false],
        name := b!"B", package := [], options := [] },
      { fields := [refField b!"a" 7 b!"A" 0 true], name := b!"C", package := [], options := [] } ],
    options := [], package := [] }

theorem circular_parse : parse 200 circularText = .ok circularTree := by decide +kernel

example : ∃ e, (output b!"a.proto" circularTree).res = .exc e ∧ e.kind = .circular := by
  refine (C37_circular_iff circular_parse _).2.mpr ⟨fun n _ o ho => (by cases ho), 0, ?_⟩
  exact .more (j := 1) ⟨_, _, rfl, List.mem_cons_self, rfl⟩
    (.more (j := 2) ⟨_, _, rfl, List.mem_cons_of_mem _ List.mem_cons_self, rfl⟩
      (.one ⟨_, _, rfl, List.mem_cons_self, rfl⟩))

/-! ### C36: definitions precede uses -/

/-- **C36.** When generation succeeds, the file declares exactly the structures and classes of the messages of the
schema, each message once, in an order in which every message comes after those it refers to; the namespaces are
balanced. -/
theorem C36_definitions_precede_uses {N : Nat} {text : Bytes} {t : Tree} (h : parse N text = .ok t) (fileName : Bytes)
    (hok : (output fileName t).res = .ok ()) :
    ∃ order : List Nat, order.Nodup ∧ (∀ i, i ∈ order ↔ i < t.messages.length) ∧ Ordered t.messages order ∧
      declarations [] (output fileName t).calls =
        some (order.flatMap fun i =>
          (((sortTree t).messages[i]?).map (messageEvents (sortTree t).messages (ctxOf t.options))).getD []) := by
  have hs := sortTree_same t
  have hl := hs.linked (parse_linked h)
  obtain ⟨h1, order, h2, h3⟩ := generate_ok hok
  obtain ⟨a, b, c⟩ := sortAll_ok h2
  refine ⟨order, b, fun i => ⟨fun hi => by rw [hs.1]; exact sortAll_lt hl h2 i hi, fun hi => c i (by rw [← hs.1]; exact hi)⟩,
    ?_, ?_⟩
  · intro pre i post e j hj
    exact a pre i post e j (hs.refers hj)
  · rw [output, generate_eq h1 h2 hl h3]
    exact declarations_file _ _ _ _ _

/-- **C36.** … and so the class of every message used as the type of a member is declared before the structure that has
the member. -/
theorem C36_used_classes_are_declared {N : Nat} {text : Bytes} {t : Tree} (h : parse N text = .ok t) (fileName : Bytes)
    (hok : (output fileName t).res = .ok ()) {i : Nat} {m : Message} (hm : t.messages[i]? = some m) {f : Field}
    (hf : f ∈ m.fields) (hid : f.type.id = .message) :
    ∃ j target before after, f.type.ref = some j ∧ t.messages[j]? = some target ∧
      qualify target.package target.name = f.type.qname ∧
      declarations [] (output fileName t).calls =
        some (before ++ messageEvents (sortTree t).messages (ctxOf t.options) { m with fields := sortByName m.fields } ++ after) ∧
      .entity (namespaces target.package) target.name ∈ before := by
  obtain ⟨order, h1, h2, h3, h4⟩ := C36_definitions_precede_uses h fileName hok
  obtain ⟨j, target, n, hj, ht, hq, _⟩ := C46_resolved h (List.mem_of_getElem? hm) hf hid
  obtain ⟨hi, _⟩ := List.getElem?_eq_some_iff.mp hm
  obtain ⟨pre, post, rfl⟩ := List.append_of_mem ((h2 i).mpr hi)
  have hjp := h3 pre i post rfl j ⟨m, f, hm, hf, hj⟩
  refine ⟨j, target, pre.flatMap fun i =>
      (((sortTree t).messages[i]?).map (messageEvents (sortTree t).messages (ctxOf t.options))).getD [],
    post.flatMap fun i =>
      (((sortTree t).messages[i]?).map (messageEvents (sortTree t).messages (ctxOf t.options))).getD [],
    hj, ht, hq, ?_, ?_⟩
  · rw [h4, List.flatMap_append, List.flatMap_cons]
    have : (sortTree t).messages[i]? = some { m with fields := sortByName m.fields } := by
      simp [sortTree, hm]
    rw [this, Option.map_some, Option.getD_some, ← List.append_assoc]
  · rw [List.mem_flatMap]
    refine ⟨j, hjp, ?_⟩
    have : (sortTree t).messages[j]? = some { target with fields := sortByName target.fields } := by
      simp [sortTree, ht]
    rw [this]
    simp [messageEvents]

/-- The result of a successful run. -/
def treeOf : Out Tree → Tree
  | .ok t => t
  | _ => ⟨[], [], []⟩

/-- What the parser makes of `demoSchema`. -/
def demoTree : Tree := treeOf (parse 500 demoSchema)
theorem demo_tree : parse 500 demoSchema = .ok demoTree := by decide +kernel
theorem demo_ok (fileName : Bytes) : (output fileName demoTree).res = .ok () := by
  refine (output_ok_iff demo_tree fileName).mpr ((output_ok_iff demo_tree []).mp ?_)
  decide +kernel

example : declarations [] (output b!"demo.proto" demoTree).calls = some
    [ .struct [b!"shop", b!"api"] b!"Item", .member b!"std::vector<uint8_t>" b!"blob",
      .member b!"protogen_3_0_0::string_field" b!"name", .entity [b!"shop", b!"api"] b!"Item",
      .struct [b!"shop", b!"api"] b!"Order", .member b!"protogen_3_0_0::field<int64_t>" b!"id",
      .member b!"std::vector< ::shop::api::Item>" b!"items", .entity [b!"shop", b!"api"] b!"Order" ] := by
  decide +kernel

example : ∃ order : List Nat, order.Nodup ∧ (∀ i, i ∈ order ↔ i < 2) ∧ Ordered demoTree.messages order := by
  obtain ⟨o, h1, h2, h3, _⟩ := C36_definitions_precede_uses demo_tree b!"demo.proto" (demo_ok _)
  exact ⟨o, h1, h2, h3⟩

/-- Two messages with the same qualified name are both generated: the parser does not notice, and what is generated has
two definitions of the same structure. -/
theorem C36_same_name_twice :
    let t := treeOf (parse 100 b!"message A { int32 x = 1; } message A { }")
    parse 100 b!"message A { int32 x = 1; } message A { }" = .ok t ∧ (output b!"a.proto" t).res = .ok () ∧
    declarations [] (output b!"a.proto" t).calls = some
      [ .struct [] b!"A", .member b!"protogen_3_0_0::field<int32_t>" b!"x", .entity [] b!"A",
        .struct [] b!"A", .entity [] b!"A" ] := by decide +kernel

/-! ### C38: number of fields -/

/-- **C38.** A message with more than 64 fields makes generation fail. -/
theorem C38_too_many_fails {N : Nat} {text : Bytes} {t : Tree} (h : parse N text = .ok t) (fileName : Bytes)
    (hx : ∃ m ∈ t.messages, m.fields.length > 64) : ∃ e, (output fileName t).res = .exc e := by
  cases hr : (output fileName t).res with
  | exc e => exact ⟨e, rfl⟩
  | running => exact absurd hr (output_ends h fileName)
  | ok u =>
    obtain ⟨m, hm, hl⟩ := hx
    have := ((output_ok_iff h fileName).mp hr).2.2 m hm
    omega

theorem sorted_message {t : Tree} {m : Message} (h : m ∈ (sortTree t).messages) :
    ∃ m' ∈ t.messages, m = { m' with fields := sortByName m'.fields } := by
  obtain ⟨m', hm', rfl⟩ := List.mem_map.mp h
  exact ⟨m', hm', rfl⟩

/-- **C38.** The exception about the number of fields names a message that has more than 64. -/
theorem C38_only_then {N : Nat} {text : Bytes} {t : Tree} (_ : parse N text = .ok t) (fileName : Bytes) {e : GExc}
    (he : (output fileName t).res = .exc e) (hk : e.kind = .tooMany) :
    ∃ m ∈ t.messages, m.name = e.what ∧ m.fields.length > 64 := by
  rcases generate_exc he with h1 | ⟨_, h2⟩ | ⟨_, _, m, hm, h3⟩
  · have := (fileCtx_throws _).2 e h1
    rw [hk] at this
    exact absurd this (by decide)
  · rw [(sortAll_exc h2).2] at hk; cases hk
  · obtain ⟨m', hm', rfl⟩ := sorted_message hm
    have := (generateMessage_throws _ _ _).2 e h3
    rw [hk] at this
    split at this
    · rename_i hl
      refine ⟨m', hm', ?_, by rw [← (sortByName_perm m'.fields).length_eq]; exact hl⟩
      unfold generateMessage at h3
      rw [if_pos (by exact hl)] at h3
      injection h3 with h3
      rw [← h3]
    · exact absurd this (by decide)

/-- **C38.** If nothing else is wrong, the exception is raised exactly when a message has more than 64 fields. -/
theorem C38_limit {N : Nat} {text : Bytes} {t : Tree} (h : parse N text = .ok t) (fileName : Bytes)
    (ho : FileOptionsOk t.options) (hc : ¬ Circular t.messages)
    (hf : ∀ m ∈ t.messages, ∀ f ∈ m.fields, FieldOptionsOk f) :
    (∃ e, (output fileName t).res = .exc e ∧ e.kind = .tooMany) ↔ ∃ m ∈ t.messages, m.fields.length > 64 := by
  constructor
  · rintro ⟨e, he, hk⟩
    obtain ⟨m, hm, _, hl⟩ := C38_only_then h fileName he hk
    exact ⟨m, hm, hl⟩
  · intro hx
    obtain ⟨e, he⟩ := C38_too_many_fails h fileName hx
    refine ⟨e, he, ?_⟩
    rcases generate_exc he with h1 | ⟨_, h2⟩ | ⟨_, _, m, hm, h3⟩
    · rw [fileCtx_eq (show FileOptionsOk (sortTree t).options from ho)] at h1; cases h1
    · exact absurd ((sortTree_same t).circular_iff.mpr (sortAll_exc h2).1) hc
    · have hk := (generateMessage_throws _ _ _).2 e h3
      split at hk
      · simpa using hk
      · rename_i hl
        obtain ⟨m', hm', rfl⟩ := sorted_message hm
        have hok : MessageOk (sortTree t).messages { m' with fields := sortByName m'.fields } := by
          refine ⟨by dsimp only at hl ⊢; omega, fun f hff => ?_⟩
          have hff := mem_sortByName.mp hff
          exact ⟨hf m' hm' f hff, (sortTree_same t).fieldLinked (parse_fieldLinked h hm' hff)⟩
        rw [generateMessage_eq hok] at h3
        cases h3

/-- A message with 65 fields. -/
def bigText : Bytes :=
  b!"message M{" ++ (List.range 65).flatMap (fun i => b!"bool f" ++ decNat i ++ b!"=" ++ decNat (i + 1) ++ b!";") ++ b!"}"
/-- Its tree. -/
def bigTree : Tree := treeOf (parse 1200 bigText)
theorem big_parse : parse 1200 bigText = .ok bigTree := by decide +kernel

example : ∃ e, (output b!"a.proto" bigTree).res = .exc e :=
  C38_too_many_fails big_parse _ ⟨bigTree.messages.headD ⟨[], [], [], []⟩, by decide +kernel, by decide +kernel⟩
example : (output b!"a.proto" bigTree).res = .exc ⟨.tooMany, b!"M", 0, 0⟩ := by decide +kernel

/-! ### C39: guards and namespaces -/

/-- **C39.** The include guard is an identifier, whatever the name of the file. -/
theorem C39_guard_is_identifier (fileName : Bytes) : CIdent (makeGuard fileName) := by
  refine ⟨c!"G", b!"UARD_" ++ _, rfl, by decide, fun c hc => ?_⟩
  rcases List.mem_append.mp hc with hc | hc
  · exact (by decide : ∀ c ∈ b!"UARD_", (65 ≤ c ∧ c ≤ 90) ∨ (97 ≤ c ∧ c ≤ 122) ∨ (48 ≤ c ∧ c ≤ 57) ∨ c = 95) c hc
  · obtain ⟨x, _, rfl⟩ := List.mem_map.mp hc
    split
    · rename_i h
      rcases h with h | h | h | h
      · exact Or.inl h
      · exact Or.inr (Or.inl h)
      · exact Or.inr (Or.inr (Or.inl h))
      · exact Or.inr (Or.inr (Or.inr h))
    · exact Or.inr (Or.inr (Or.inr rfl))

example : makeGuard b!"/tmp/my-schema.proto" = b!"GUARD__tmp_my_schema_proto" := by decide

/-- **C39.** The namespaces opened for a message are the parts of its package, and as many are closed again. -/
theorem C39_namespaces_balanced (m : Message) :
    generateNamespace m true = ⟨(namespaces m.package).map fun n => ⟨.namespaceOpen, [n]⟩, .ok ()⟩ ∧
    generateNamespace m false = ⟨(namespaces m.package).map fun n => ⟨.namespaceClose, [n]⟩, .ok ()⟩ :=
  ⟨generateNamespace_eq m true, generateNamespace_eq m false⟩

/-- **C39.** … each with one brace. -/
theorem C39_namespace_text (rt : Runtime) (n : Bytes) :
    Call.text rt ⟨.namespaceOpen, [n]⟩ = b!"namespace " ++ n ++ b!" {\n" ∧
    Call.text rt ⟨.namespaceClose, [n]⟩ = b!"} // namespace " ++ n ++ b!"\n" := by
  constructor
  · have h := print_template [n] (ps := (b!"namespace ".map Piece.lit) ++ [.hole b!"1"] ++ (b!" {\n".map Piece.lit))
      (by decide) []
    rw [print_nil, List.append_nil, List.append_nil] at h
    exact h.trans (by simp [filled, Piece.filled, numeral])
  · have h := print_template [n] (ps := (b!"} // namespace ".map Piece.lit) ++ [.hole b!"1"] ++ (b!"\n".map Piece.lit))
      (by decide) []
    rw [print_nil, List.append_nil, List.append_nil] at h
    exact h.trans (by simp [filled, Piece.filled, numeral])

theorem dotted_ident {p : Bytes} (h : Ident p) : dotted p = [p] := by
  have key : ∀ p : Bytes, c!"." ∉ p → dotted p = [p] := by
    intro p
    induction p with
    | nil => intro _; rfl
    | cons c p ih =>
      intro h
      rw [dotted, if_neg (fun e : c = c!"." => h (e ▸ List.mem_cons_self)), ih fun hc => h (List.mem_cons_of_mem _ hc)]
  refine key p fun hc => ?_
  obtain ⟨b, r, rfl, hb, hr⟩ := h
  rcases List.mem_cons.mp hc with e | hc
  · rw [← e] at hb; revert hb; unfold Letter; decide
  · have := hr _ hc; revert this; unfold Letter Digit; decide

theorem dotted_cons_dot {p n : Bytes} (h : Ident p) : dotted (p ++ c!"." :: n) = p :: dotted n := by
  have key : ∀ p : Bytes, c!"." ∉ p → dotted (p ++ c!"." :: n) = p :: dotted n := by
    intro p
    induction p with
    | nil => intro _; rw [List.nil_append, dotted, if_pos rfl]
    | cons c p ih =>
      intro h
      rw [List.cons_append, dotted, if_neg (fun e : c = c!"." => h (e ▸ List.mem_cons_self)), ih fun hc => h (List.mem_cons_of_mem _ hc)]
  refine key p fun hc => ?_
  obtain ⟨b, r, rfl, hb, hr⟩ := h
  rcases List.mem_cons.mp hc with e | hc
  · rw [← e] at hb; revert hb; unfold Letter; decide
  · have := hr _ hc; revert this; unfold Letter Digit; decide

/-- **C39.** The namespaces of the packages the parser accepts are identifiers. -/
theorem C39_namespaces_are_identifiers {N : Nat} {text : Bytes} {t : Tree} (h : parse N text = .ok t) {m : Message}
    (hm : m ∈ t.messages) : ∀ n ∈ namespaces m.package, Ident n := by
  obtain ⟨ds, hw, _, he, _⟩ := parse_sound h
  obtain ⟨m', hm', _, hp, _⟩ := erase_fields he hm
  obtain ⟨x, hx, rfl⟩ := List.mem_map.mp hm'
  have hp : x.1 = m.package := hp
  rw [← hp]
  have key : ∀ (ds : List Decl) (p : Bytes), (∀ d ∈ ds, d.WF) → (p = [] ∨ DotName p) →
      ∀ x ∈ located p ds, x.1 = [] ∨ DotName x.1 := by
    intro ds
    induction ds with
    | nil => intro p _ _ x hx; cases hx
    | cons d ds ih =>
      intro p hw hp x hx
      have hw' := fun e he => hw e (List.mem_cons_of_mem d he)
      have hd := hw d List.mem_cons_self
      cases d with
      | package q => exact ih q hw' (Or.inr hd.1) x hx
      | message name body =>
        rcases List.mem_cons.mp hx with rfl | hx
        · exact hp
        · exact ih p hw' hp x hx
      | «syntax» => exact ih p hw' hp x hx
      | option o => exact ih p hw' hp x hx
  rcases key ds [] hw (Or.inl rfl) x hx with e | e
  · rw [e]; intro n hn; cases hn
  · unfold namespaces
    split
    · intro n hn; cases hn
    · generalize x.1 = q at e
      induction e with
      | one h => rw [dotted_ident h]; intro n hn; simp only [List.mem_cons, List.not_mem_nil, or_false] at hn; exact hn ▸ h
      | more h _ ih =>
        rw [dotted_cons_dot h]
        intro n hn
        rcases List.mem_cons.mp hn with rfl | hn
        · exact h
        · exact ih n hn

example : namespaces b!"shop.api" = [b!"shop", b!"api"] := by decide
example : ∀ m ∈ demoTree.messages, ∀ n ∈ namespaces m.package, Ident n :=
  fun _ hm => C39_namespaces_are_identifiers demo_tree hm

/-! ### C41: parts of the runtime -/

theorem message_tpl {msgs : List Message} {ctx : Ctx} {m : Message} {c : Call} (h : c ∈ messageCalls msgs ctx m)
    (p : Part) : c.tpl ≠ .runtime p := by
  have hfun : ∀ {a b d e : Tpl}, (∀ t ∈ [a, b, d, e], t ≠ .runtime p) → c ∈ functionCalls a b d e m → c.tpl ≠ .runtime p := by
    intro a b d e ht hc
    refine ht c.tpl ?_
    unfold functionCalls at hc
    split at hc
    · simp only [List.mem_cons, List.not_mem_nil, or_false] at hc; subst hc; simp
    · simp only [List.mem_cons, List.mem_append, List.mem_map, List.not_mem_nil, or_false] at hc
      rcases hc with (rfl | ⟨f, _, rfl⟩) | rfl <;> simp
  simp only [messageCalls_eq, wrapperCalls, List.mem_append, List.mem_map, List.mem_cons, List.not_mem_nil, or_false] at h
  rcases h with rfl | ⟨_, _, rfl⟩ | rfl | ⟨_, _, rfl⟩ | rfl | ⟨_, _, rfl⟩ | ((((((((rfl | h) | h) | h) | h) | h) | h) | h) | rfl) |
    ⟨_, _, rfl⟩ | rfl | ⟨_, _, rfl⟩ | rfl
  all_goals first | (intro h; cases h; done) | skip
  · split at h
    · simp only [List.mem_cons, List.not_mem_nil, or_false] at h; subst h; intro h; cases h
    · simp only [List.mem_cons, List.mem_append, List.mem_map, List.not_mem_nil, or_false] at h
      rcases h with (rfl | ⟨f, _, rfl⟩) | rfl <;> (intro h; cases h)
  · split at h
    · simp only [List.mem_cons, List.not_mem_nil, or_false] at h; subst h; intro h; cases h
    · simp only [List.mem_cons, List.mem_append, List.mem_map, List.not_mem_nil, or_false] at h
      rcases h with (rfl | ⟨f, _, rfl⟩) | rfl <;> (intro h; cases h)
  · exact hfun (by simp) h
  · exact hfun (by simp) h
  · exact hfun (by simp) h
  · exact hfun (by simp) h
  · split at h
    · simp only [List.mem_cons, List.not_mem_nil, or_false] at h; subst h; intro h; cases h
    · simp only [List.mem_cons, List.mem_append, List.mem_map, List.not_mem_nil, or_false] at h
      rcases h with (rfl | ⟨f, _, rfl⟩) | rfl
      · dsimp only; split <;> (intro h; cases h)
      · intro h; cases h
      · intro h; cases h

/-- The part is included in what is printed. -/
def Includes (fileName : Bytes) (t : Tree) (p : Part) : Prop := ⟨.runtime p, []⟩ ∈ (output fileName t).calls

/-- Some field of the schema. -/
def HasField (t : Tree) (q : Field → Prop) : Prop := ∃ m ∈ t.messages, ∃ f ∈ m.fields, q f

theorem someField_iff (t : Tree) (p : Field → Bool) :
    someField p (sortTree t).messages = true ↔ HasField t fun f => p f = true := by
  unfold someField HasField
  rw [List.any_eq_true]
  constructor
  · rintro ⟨m, hm, h⟩
    obtain ⟨m', hm', rfl⟩ := sorted_message hm
    obtain ⟨f, hf, hp⟩ := List.any_eq_true.mp h
    exact ⟨m', hm', f, mem_sortByName.mp hf, hp⟩
  · rintro ⟨m, hm, f, hf, hp⟩
    exact ⟨_, List.mem_map_of_mem hm, List.any_eq_true.mpr ⟨f, mem_sortByName.mpr hf, hp⟩⟩

theorem includes_iff {N : Nat} {text : Bytes} {t : Tree} (h : parse N text = .ok t) (fileName : Bytes)
    (hok : (output fileName t).res = .ok ()) (p : Part) :
    Includes fileName t p ↔ ⟨.runtime p, []⟩ ∈ inclusionCalls (needs (sortTree t).messages) := by
  have hl := (sortTree_same t).linked (parse_linked h)
  obtain ⟨h1, order, h2, h3⟩ := generate_ok hok
  unfold Includes
  rw [output, generate_eq h1 h2 hl h3, List.mem_append]
  refine or_iff_left ?_
  simp only [fileCalls, List.mem_append, List.mem_cons, List.not_mem_nil, or_false, List.mem_flatMap]
  rintro ((h | ⟨i, _, h⟩) | h)
  · cases h
  · cases hm : (sortTree t).messages[i]? with
    | none => rw [hm] at h; cases h
    | some m => rw [hm] at h; exact message_tpl h p rfl
  · cases h

/-- **C41 (partial).** The common parts are always included; array support exactly if there is a repeated field, string
support exactly if there is a field of type string, number support exactly if there is a numeric field, base64 support
exactly if there is a *repeated* bytes field.  Missing: the latter should be every bytes field (theorem below). -/
theorem C41_inclusions_partial {N : Nat} {text : Bytes} {t : Tree} (h : parse N text = .ok t) (fileName : Bytes)
    (hok : (output fileName t).res = .ok ()) :
    Includes fileName t .protogen ∧ Includes fileName t .json ∧
    (Includes fileName t .array ↔ HasField t fun f => f.type.repeated = true) ∧
    (Includes fileName t .string ↔ HasField t fun f => f.type.id = .scalar .string) ∧
    (Includes fileName t .number ↔ HasField t fun f =>
      ∃ s, f.type.id = .scalar s ∧ s ≠ .string ∧ s ≠ .bytes) ∧
    (Includes fileName t .base64 ↔ HasField t fun f => f.type.repeated = true ∧ f.type.id = .scalar .bytes) := by
  simp only [includes_iff h fileName hok, needs_eq]
  have mem : ∀ (p : Part) (n : Needs), (⟨.runtime p, []⟩ : Call) ∈ inclusionCalls n ↔
      p ∈ ([.protogen, .json] ++ (if n.array then [.array] else []) ++ (if n.base64 then [.base64] else []) ++
        (if n.number then [.number] else []) ++ (if n.string then [.string] else []) : List Part) := by
    intro p n
    unfold inclusionCalls
    rw [List.mem_map]
    constructor
    · rintro ⟨q, hq, e⟩; cases e; exact hq
    · intro hp; exact ⟨p, hp, rfl⟩
  simp only [mem, needsOf]
  refine ⟨by simp, by simp, ?_, ?_, ?_, ?_⟩
  · rw [← someField_iff t fun f => f.type.repeated]
    simp only [List.mem_append, List.mem_ite_nil_right, List.mem_cons, List.not_mem_nil, or_false, reduceCtorEq, and_false, false_or, and_true]
  · rw [show (HasField t fun f => f.type.id = .scalar .string) ↔ HasField t fun f => (f.type.id == .scalar .string) = true by simp]
    rw [← someField_iff t fun f => f.type.id == .scalar .string]
    simp only [List.mem_append, List.mem_ite_nil_right, List.mem_cons, List.not_mem_nil, or_false, reduceCtorEq, and_false, false_or, and_true]
  · have e : ∀ f : Field, isNumber f.type.id = true ↔ ∃ s, f.type.id = .scalar s ∧ s ≠ .string ∧ s ≠ .bytes := by
      intro f
      cases f.type.id with
      | message => simp [isNumber]
      | scalar s => cases s <;> simp [isNumber]
    simp only [← e]
    rw [← someField_iff t fun f => isNumber f.type.id]
    simp only [List.mem_append, List.mem_ite_nil_right, List.mem_cons, List.not_mem_nil, or_false, reduceCtorEq, and_false, false_or, and_true]
  · have e : ∀ f : Field, (f.type.repeated && f.type.id == .scalar .bytes) = true ↔
        f.type.repeated = true ∧ f.type.id = .scalar .bytes := by intro f; simp
    simp only [← e]
    rw [← someField_iff t fun f => f.type.repeated && f.type.id == .scalar .bytes]
    simp only [List.mem_append, List.mem_ite_nil_right, List.mem_cons, List.not_mem_nil, or_false, reduceCtorEq, and_false, false_or, and_true]

example : Includes b!"a" demoTree .array ∧ Includes b!"a" demoTree .string ∧ Includes b!"a" demoTree .number := by
  unfold Includes; decide +kernel

/-- **C41 (negation).** A schema with a bytes field that is not repeated gets no base64 support, though the type of the
field, `std::vector<uint8_t>`, is read and written by it. -/
theorem C41_bytes_without_base64 {N : Nat} {text : Bytes} {t : Tree} (h : parse N text = .ok t) (fileName : Bytes)
    (hok : (output fileName t).res = .ok ())
    (hb : ∀ m ∈ t.messages, ∀ f ∈ m.fields, f.type.id = .scalar .bytes → f.type.repeated = false) :
    ¬ Includes fileName t .base64 := by
  rw [(C41_inclusions_partial h fileName hok).2.2.2.2.2]
  rintro ⟨m, hm, f, hf, h1, h2⟩
  rw [hb m hm f hf h2] at h1
  cases h1

/-- **C41 (negation).** `demoSchema` is such a schema. -/
theorem C41_is_false : (HasField demoTree fun f => f.type.id = .scalar .bytes) ∧ ¬ Includes b!"a" demoTree .base64 := by
  constructor
  · unfold HasField; decide +kernel
  · unfold Includes; decide +kernel

/-! ### C42: types -/

/-- **C42.** The type of every field of an accepted schema is the documented one: the table of the README for scalars,
the class for messages, `std::list` or `std::vector` of the element type for repeated fields, and `std::vector<uint8_t>`
for bytes fields, repeated or not. -/
theorem C42_types {N : Nat} {text : Bytes} {t : Tree} (h : parse N text = .ok t) {m : Message} (hm : m ∈ t.messages)
    {f : Field} (hf : f ∈ m.fields) (useLists : Bool) :
    fieldNativeType t.messages f useLists = .ok (cppType useLists f (targetOf t.messages f)) :=
  fieldNativeType_eq (parse_fieldLinked h hm hf) useLists

/-- **C42.** … which are the types of the members of the generated structures. -/
theorem C42_members {N : Nat} {text : Bytes} {t : Tree} (h : parse N text = .ok t) (fileName : Bytes)
    (hok : (output fileName t).res = .ok ()) {m : Message} (hm : m ∈ t.messages) {f : Field} (hf : f ∈ m.fields) :
    ⟨.structField, [cppType (ctxOf t.options).useLists f (targetOf (sortTree t).messages f), f.name]⟩ ∈
      (output fileName t).calls := by
  have hs := sortTree_same t
  have hl := hs.linked (parse_linked h)
  obtain ⟨h1, order, h2, h3⟩ := generate_ok hok
  rw [output, generate_eq h1 h2 hl h3, fileCalls, List.mem_append, List.mem_append, List.mem_append]
  refine Or.inr (Or.inl (Or.inr ?_))
  obtain ⟨i, hi, hmi⟩ := List.mem_iff_getElem.mp hm
  rw [List.mem_flatMap]
  refine ⟨i, (sortAll_ok h2).2.2 i (by rw [← hs.1]; exact hi), ?_⟩
  have : (sortTree t).messages[i]? = some { m with fields := sortByName m.fields } := by
    simp only [sortTree, List.getElem?_map, List.getElem?_eq_getElem hi, hmi, Option.map_some]
  rw [this, Option.map_some, Option.getD_some, messageCalls_eq]
  simp only [List.mem_append, List.map_map, List.mem_map, Function.comp]
  exact Or.inr (Or.inr (Or.inr (Or.inl ⟨f, mem_sortByName.mpr hf, rfl⟩)))

/-- The element types of containers have the same C++ type as the field, without the wrapper. -/
example (s : Proto.Scalar) (h : s ≠ .string) (h' : s ≠ .bytes) :
    readmeType s = b!"protogen_3_0_0::field<" ++ elementType s ++ b!">" := by
  cases s <;> first | rfl | contradiction

/-- **C42 (negation of a sensible reading).** A repeated bytes field has the same type as one that is not repeated: there
is no container of byte strings. -/
theorem C42_repeated_bytes_collapsed (msgs : List Message) (f g : Field) (useLists : Bool)
    (hf : f.type.id = .scalar .bytes) (hg : g.type.id = .scalar .bytes) :
    fieldNativeType msgs f useLists = fieldNativeType msgs g useLists := by
  simp [fieldNativeType, valueType, hf, hg, Res.bind]

example : cppType true ⟨⟨.scalar .sint64, [], none, true, false⟩, b!"x", 1, []⟩ none = b!"std::list<int64_t>" := by decide

end PG.Gen
