import Verif.Proofs.GenEmit
import Verif.Proofs.GenSort
/-
What the generator prints for a file: cppgen.cc:537-603.
-/
set_option autoImplicit false
namespace PG.Gen
open PG.Proto

/-! ### The runtime -/

/-- Some field of some message satisfies this. -/
def someField (p : Field → Bool) (msgs : List Message) : Bool := msgs.any fun m => m.fields.any p

/-- The four questions. -/
def needsOf (q : (Field → Bool) → Bool) : Needs :=
  { array := q fun f => f.type.repeated
    base64 := q fun f => f.type.repeated && f.type.id == .scalar .bytes
    string := q fun f => f.type.id == .scalar .string
    number := q fun f => isNumber f.type.id }

/-- Componentwise disjunction. -/
def Needs.or (a b : Needs) : Needs :=
  { array := a.array || b.array, base64 := a.base64 || b.base64, string := a.string || b.string,
    number := a.number || b.number }

theorem Needs.or_assoc (a b c : Needs) : (a.or b).or c = a.or (b.or c) := by
  simp [Needs.or, Bool.or_assoc]

theorem Needs.add_eq (n : Needs) (f : Field) : n.add f = n.or (needsOf fun p => p f) := by
  obtain ⟨a, b, c, d⟩ := n
  simp only [Needs.add, Needs.or, needsOf]
  cases hid : f.type.id with
  | message => cases f.type.repeated <;> simp [isNumber]
  | scalar s => cases s <;> cases f.type.repeated <;> simp [isNumber]

theorem Needs.or_full {n : Needs} (h : (n.array && n.base64 && n.string && n.number) = true) (m : Needs) : n.or m = n := by
  obtain ⟨a, b, c, d⟩ := n
  simp only [Bool.and_eq_true] at h
  obtain ⟨⟨⟨h1, h2⟩, h3⟩, h4⟩ := h
  subst h1 h2 h3 h4
  simp [Needs.or]

theorem Needs.addFields_eq (fs : List Field) (n : Needs) : n.addFields fs = n.or (needsOf fun p => fs.any p) := by
  induction fs generalizing n with
  | nil => simp [Needs.addFields, Needs.or, needsOf]
  | cons f fs ih =>
    have hsplit : (needsOf fun p => (f :: fs).any p) = (needsOf fun p => p f).or (needsOf fun p => fs.any p) := by
      simp [needsOf, Needs.or]
    rw [Needs.addFields, hsplit, ← Needs.or_assoc, ← Needs.add_eq]
    split
    · rename_i h; rw [Needs.or_full h]
    · exact ih _

theorem needs_eq (msgs : List Message) : needs msgs = needsOf fun p => someField p msgs := by
  have key : ∀ (msgs : List Message) (n : Needs),
      msgs.foldl (fun n m => n.addFields m.fields) n = n.or (needsOf fun p => someField p msgs) := by
    intro msgs
    induction msgs with
    | nil => intro n; simp [Needs.or, needsOf, someField]
    | cons m msgs ih =>
      intro n
      have hsplit : (needsOf fun p => someField p (m :: msgs)) =
          (needsOf fun p => m.fields.any p).or (needsOf fun p => someField p msgs) := by
        simp [needsOf, Needs.or, someField]
      rw [List.foldl_cons, ih, hsplit, ← Needs.or_assoc, ← Needs.addFields_eq]
  unfold needs
  rw [key]
  simp [Needs.or, needsOf]

/-- What is included. -/
def inclusionCalls (n : Needs) : List Call :=
  ([.protogen, .json] ++ (if n.array then [.array] else []) ++ (if n.base64 then [.base64] else []) ++
    (if n.number then [.number] else []) ++ (if n.string then [.string] else []) : List Part).map
    fun p => ⟨.runtime p, []⟩

theorem generateInclusions_eq (msgs : List Message) :
    generateInclusions msgs = ⟨inclusionCalls (needs msgs), .ok ()⟩ := by
  unfold generateInclusions inclusionCalls
  generalize needs msgs = n
  obtain ⟨a, b, c, d⟩ := n
  cases a <;> cases b <;> cases c <;> cases d <;> rfl

/-! ### All messages -/

theorem generateAll_eq {msgs : List Message} {ctx : Ctx} : ∀ {order : List Nat},
    (∀ i ∈ order, ∃ m, msgs[i]? = some m ∧ MessageOk msgs m) →
    generateAll msgs ctx order = ⟨order.flatMap fun i => ((msgs[i]?).map (messageCalls msgs ctx)).getD [], .ok ()⟩
  | [], _ => rfl
  | i :: rest, h => by
    obtain ⟨m, hm, hok⟩ := h i List.mem_cons_self
    rw [generateAll, hm]
    dsimp only
    rw [bind_ok (generateMessage_eq hok), generateAll_eq fun j hj => h j (List.mem_cons_of_mem _ hj)]
    simp [hm]

theorem generateAll_ok {msgs : List Message} {ctx : Ctx} : ∀ {order : List Nat},
    (generateAll msgs ctx order).res = .ok () → ∀ i ∈ order, ∀ m, msgs[i]? = some m → MessageOk msgs m
  | [], _ => by simp
  | i :: rest, h => by
    rw [generateAll] at h
    obtain ⟨_, h1, h2⟩ := bind_res_ok h
    intro j hj m hm
    rcases List.mem_cons.mp hj with rfl | hj
    · rw [hm] at h1
      exact generateMessage_ok h1
    · exact generateAll_ok h2 j hj m hm

theorem generateAll_exc {msgs : List Message} {ctx : Ctx} {e : GExc} : ∀ {order : List Nat},
    (generateAll msgs ctx order).res = .exc e →
      ∃ i ∈ order, ∃ m, msgs[i]? = some m ∧ (generateMessage msgs ctx m).res = .exc e
  | [], h => by cases h
  | i :: rest, h => by
    rw [generateAll] at h
    rcases bind_res_exc h with h | ⟨_, _, h⟩
    · cases hm : msgs[i]? with
      | none => rw [hm] at h; cases h
      | some m => rw [hm] at h; exact ⟨i, List.mem_cons_self, m, hm, h⟩
    · obtain ⟨j, hj, m, hm, he⟩ := generateAll_exc h
      exact ⟨j, List.mem_cons_of_mem _ hj, m, hm, he⟩

theorem generateAll_ends {msgs : List Message} {ctx : Ctx} : ∀ (order : List Nat),
    (generateAll msgs ctx order).res ≠ .running
  | [], h => by cases h
  | i :: rest, h => by
    rw [generateAll] at h
    rcases bind_res_running h with h | ⟨_, _, h⟩
    · cases hm : msgs[i]? with
      | none => rw [hm] at h; cases h
      | some m => rw [hm] at h; exact (generateMessage_throws msgs ctx m).1 h
    · exact generateAll_ends rest h

/-! ### The file -/

theorem fileCtx_eq {options : OptMap} (h : FileOptionsOk options) : fileCtx options = .ok (ctxOf options) := by
  unfold fileCtx
  rw [getBool_ok (h _ (by decide))]
  simp only [Res.bind]
  rw [getBool_ok (h _ (by decide))]
  simp only
  rw [getBool_ok (h _ (by decide))]
  rfl

theorem fileCtx_ok {options : OptMap} {ctx : Ctx} (h : fileCtx options = .ok ctx) : FileOptionsOk options := by
  unfold fileCtx at h
  obtain ⟨_, h1, h⟩ := rbind_ok h
  obtain ⟨_, h2, h⟩ := rbind_ok h
  obtain ⟨_, h3, h⟩ := rbind_ok h
  intro n hn
  simp only [List.mem_cons, List.not_mem_nil, or_false] at hn
  rcases hn with rfl | rfl | rfl
  · exact getBool_ok_type h1
  · exact getBool_ok_type h2
  · exact getBool_ok_type h3

theorem fileCtx_throws (options : OptMap) : Throws (fileCtx options) [.notBoolean] :=
  .rbind (getBool_throws _ _ _) fun _ _ => .rbind (getBool_throws _ _ _) fun _ _ =>
    .rbind (getBool_throws _ _ _) fun _ _ => .ok _ _

/-- What is printed for a file whose messages are in this order. -/
def fileCalls (fileName : Bytes) (msgs : List Message) (ctx : Ctx) (order : List Nat) : List Call :=
  [⟨.header, [version, fileName, makeGuard fileName]⟩] ++
  (order.flatMap fun i => ((msgs[i]?).map (messageCalls msgs ctx)).getD []) ++
  [⟨.endGuard, [makeGuard fileName]⟩]

theorem generate_eq {n : Nat} {fileName : Bytes} {t : Tree} {order : List Nat} (ho : FileOptionsOk t.options)
    (hs : sortAll t.messages n = .ok order) (hl : Linked t.messages) (hm : ∀ m ∈ t.messages, MessageOk t.messages m) :
    generate n fileName t =
      ⟨inclusionCalls (needs t.messages) ++ fileCalls fileName t.messages (ctxOf t.options) order, .ok ()⟩ := by
  unfold generate generateFile
  rw [bind_eq, lift_ok (fileCtx_eq ho), bind_eq, bind_ok (generateInclusions_eq _)]
  simp only [bind_eq, put_bind]
  rw [lift_ok hs, bind_ok (generateAll_eq fun i hi => ?_)]
  · simp [fileCalls, Emit.put]
  · have := sortAll_lt hl hs i hi
    exact ⟨t.messages[i], by simp [this], hm _ (List.getElem_mem this)⟩

theorem generate_ok {n : Nat} {fileName : Bytes} {t : Tree} (h : (generate n fileName t).res = .ok ()) :
    FileOptionsOk t.options ∧ ∃ order, sortAll t.messages n = .ok order ∧ ∀ m ∈ t.messages, MessageOk t.messages m := by
  unfold generate generateFile at h
  simp only [bind_eq] at h
  obtain ⟨ctx, h1, h⟩ := bind_res_ok h
  obtain ⟨_, _, h⟩ := bind_res_ok h
  obtain ⟨_, _, h⟩ := bind_res_ok h
  obtain ⟨order, h2, h⟩ := bind_res_ok h
  obtain ⟨_, h3, _⟩ := bind_res_ok h
  refine ⟨fileCtx_ok (lift_res_ok h1), order, lift_res_ok h2, fun m hm => ?_⟩
  obtain ⟨i, hi, hmi⟩ := List.mem_iff_getElem.mp hm
  have := (sortAll_ok (lift_res_ok h2)).2.2 i hi
  exact generateAll_ok h3 i this m (by rw [List.getElem?_eq_getElem hi, hmi])

/-- How generation can fail. -/
theorem generate_exc {n : Nat} {fileName : Bytes} {t : Tree} {e : GExc} (h : (generate n fileName t).res = .exc e) :
    (fileCtx t.options = .exc e) ∨
    (FileOptionsOk t.options ∧ sortAll t.messages n = .exc e) ∨
    (FileOptionsOk t.options ∧ (∃ order, sortAll t.messages n = .ok order) ∧
      ∃ m ∈ t.messages, (generateMessage t.messages (ctxOf t.options) m).res = .exc e) := by
  unfold generate generateFile at h
  simp only [bind_eq] at h
  rcases bind_res_exc h with h | ⟨ctx, h1, h⟩
  · exact Or.inl h
  have hf := fileCtx_ok (lift_res_ok h1)
  have hctx : ctx = ctxOf t.options := by
    have := fileCtx_eq hf
    rw [lift_res_ok h1] at this
    injection this
  subst hctx
  rcases bind_res_exc h with h | ⟨_, _, h⟩
  · rw [generateInclusions_eq] at h; cases h
  rcases bind_res_exc h with h | ⟨_, _, h⟩
  · cases h
  rcases bind_res_exc h with h | ⟨order, h2, h⟩
  · exact Or.inr (Or.inl ⟨hf, h⟩)
  rcases bind_res_exc h with h | ⟨_, _, h⟩
  · obtain ⟨i, _, m, hm, he⟩ := generateAll_exc h
    exact Or.inr (Or.inr ⟨hf, ⟨order, lift_res_ok h2⟩, m, List.mem_of_getElem? hm, he⟩)
  · cases h

theorem generate_ends {n : Nat} {fileName : Bytes} {t : Tree} (hl : Linked t.messages) (hn : t.messages.length < n) :
    (generate n fileName t).res ≠ .running := by
  intro h
  unfold generate generateFile at h
  simp only [bind_eq] at h
  rcases bind_res_running h with h | ⟨ctx, h1, h⟩
  · exact (fileCtx_throws t.options).1 h
  rcases bind_res_running h with h | ⟨_, _, h⟩
  · rw [generateInclusions_eq] at h; cases h
  rcases bind_res_running h with h | ⟨_, _, h⟩
  · cases h
  rcases bind_res_running h with h | ⟨order, h2, h⟩
  · exact sortAll_ends hl hn h
  rcases bind_res_running h with h | ⟨_, _, h⟩
  · exact generateAll_ends _ h
  · cases h

/-- When the references are circular, the sort fails. -/
theorem sort_exc_iff {msgs : List Message} (hl : Linked msgs) {n : Nat} (hn : msgs.length < n) :
    (∃ e, sortAll msgs n = .exc e) ↔ Circular msgs := by
  constructor
  · rintro ⟨e, he⟩; exact (sortAll_exc he).1
  · intro hc
    cases hs : sortAll msgs n with
    | exc e => exact ⟨e, rfl⟩
    | running => exact absurd hs (sortAll_ends hl hn)
    | ok order =>
      obtain ⟨h1, h2, h3⟩ := sortAll_ok hs
      exact absurd hc (ordered_acyclic h1 h2 h3)

theorem generate_ok_iff {n : Nat} {fileName : Bytes} {t : Tree} (hl : Linked t.messages) (hn : t.messages.length < n) :
    (generate n fileName t).res = .ok () ↔
      FileOptionsOk t.options ∧ ¬ Circular t.messages ∧ ∀ m ∈ t.messages, MessageOk t.messages m := by
  constructor
  · intro h
    obtain ⟨h1, order, h2, h3⟩ := generate_ok h
    obtain ⟨a, b, c⟩ := sortAll_ok h2
    exact ⟨h1, ordered_acyclic a b c, h3⟩
  · rintro ⟨h1, h2, h3⟩
    cases hs : sortAll t.messages n with
    | exc e => exact absurd (sortAll_exc hs).1 h2
    | running => exact absurd hs (sortAll_ends hl hn)
    | ok order => rw [generate_eq h1 hs hl h3]

end PG.Gen
