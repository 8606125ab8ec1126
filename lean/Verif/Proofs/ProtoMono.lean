import Verif.Proofs.ProtoRun
/-
More steps do not change the outcome of a run that ended.
-/
set_option autoImplicit false
namespace PG.Proto

/-- The first outcome is that of a run with fewer steps. -/
def Below {α : Type} (o o' : Out α) : Prop := o = .fuel ∨ o = o'

theorem Below.refl {α : Type} (o : Out α) : Below o o := Or.inr rfl

theorem Below.bind {α β : Type} {o o' : Out α} {f f' : α → Out β} (h : Below o o') (hf : ∀ a, Below (f a) (f' a)) :
    Below (o.bind f) (o'.bind f') := by
  rcases h with h | h
  · subst h; exact Or.inl rfl
  · subst h
    cases o with
    | ok a => exact hf a
    | exc e => exact Or.inr rfl
    | runtime => exact Or.inr rfl
    | fuel => exact Or.inl rfl

theorem Below.ite {α : Type} {c : Prop} [Decidable c] {a a' b b' : Out α} (h1 : Below a a') (h2 : Below b b') :
    Below (if c then a else b) (if c then a' else b') := by split <;> assumption

theorem Below.skip {α : Type} {o : Out α} : Below Out.fuel o := Or.inl rfl

theorem mono_skipws : ∀ (n m : Nat) (s : In), n ≤ m → Below (In.skipws n s) (In.skipws m s)
  | 0, _, _, _ => .skip
  | n + 1, 0, _, h => by omega
  | n + 1, m + 1, s, h => .ite (mono_skipws n m _ (by omega)) (.refl _)

theorem mono_lineComment : ∀ (n m : Nat) (s : In), n ≤ m → Below (lineComment n s) (lineComment m s)
  | 0, _, _, _ => .skip
  | n + 1, 0, _, h => by omega
  | n + 1, m + 1, s, h => .ite (.refl _) (mono_lineComment n m _ (by omega))

theorem mono_blockComment : ∀ (n m : Nat) (s : In), n ≤ m → Below (blockComment n s) (blockComment m s)
  | 0, _, _, _ => .skip
  | n + 1, 0, _, h => by omega
  | n + 1, m + 1, s, h => by
    rw [blockComment, blockComment]
    exact .ite (.bind (.refl _) fun a => .ite (.refl _) (mono_blockComment n m _ (by omega)))
      (.ite (.refl _) (mono_blockComment n m _ (by omega)))

theorem mono_comment {n m : Nat} (s : In) (h : n ≤ m) : Below (comment n s) (comment m s) :=
  .ite (mono_lineComment n m _ h) (.ite (mono_blockComment n m _ h) (.refl _))

theorem mono_nameLoop : ∀ (n m : Nat) (f : Bool) (v : Bytes) (s : In), n ≤ m →
    Below (nameLoop n f v s) (nameLoop m f v s)
  | 0, _, _, _, _, _ => .skip
  | n + 1, 0, _, _, _, h => by omega
  | n + 1, m + 1, f, v, s, h => by
    rw [nameLoop, nameLoop]
    exact .ite (.ite (.refl _) (mono_nameLoop n m _ _ _ (by omega))) (.refl _)

theorem mono_qnameLoop {N M : Nat} (hN : N ≤ M) (l c : Nat) : ∀ (n m : Nat) (t : Code) (v : Bytes) (s : In), n ≤ m →
    Below (qnameLoop N l c n t v s) (qnameLoop M l c m t v s)
  | 0, _, _, _, _, _ => .skip
  | n + 1, 0, _, _, _, h => by omega
  | n + 1, m + 1, t, v, s, h => by
    rw [qnameLoop, qnameLoop]
    exact .ite (.bind (mono_nameLoop N M _ _ _ hN) fun a =>
      .ite (.refl _) (mono_qnameLoop hN l c n m _ _ _ (by omega))) (.refl _)

theorem mono_qname {N M : Nat} (hN : N ≤ M) (l c : Nat) (s : In) : Below (qname N l c s) (qname M l c s) :=
  .bind (mono_nameLoop N M _ _ _ hN) fun _ => .bind (mono_qnameLoop hN l c N M _ _ _ hN) fun _ => .refl _

theorem mono_integerLoop : ∀ (n m : Nat) (v : Bytes) (s : In), n ≤ m → Below (integerLoop n v s) (integerLoop m v s)
  | 0, _, _, _, _ => .skip
  | n + 1, 0, _, _, h => by omega
  | n + 1, m + 1, v, s, h => .ite (mono_integerLoop n m _ _ (by omega)) (.refl _)

theorem mono_stringLoop (l c : Nat) : ∀ (n m : Nat) (v : Bytes) (s : In), n ≤ m →
    Below (stringLoop l c n v s) (stringLoop l c m v s)
  | 0, _, _, _, _ => .skip
  | n + 1, 0, _, _, h => by omega
  | n + 1, m + 1, v, s, h => .ite (.refl _) (.ite (.refl _) (mono_stringLoop l c n m _ _ (by omega)))

theorem mono_lexLoop {N M : Nat} (hN : N ≤ M) : ∀ (n m : Nat) (s : In), n ≤ m →
    Below (lexLoop N n s) (lexLoop M m s)
  | 0, _, _, _ => .skip
  | n + 1, 0, _, h => by omega
  | n + 1, m + 1, s, h => by
    rw [lexLoop, lexLoop]
    refine .bind (mono_skipws N M s hN) fun s => ?_
    have h' : n ≤ m := by omega
    exact .ite (.refl _) (.ite (.bind (.refl _) fun t => mono_qname hN _ _ t)
      (.ite (.bind (mono_integerLoop N M _ _ hN) fun _ => .refl _)
      (.ite (.bind (mono_comment _ hN) fun t => mono_lexLoop hN n m t h')
      (.ite (mono_lexLoop hN n m _ h') (.ite (mono_stringLoop _ _ N M _ _ hN) (.refl _))))))

theorem mono_lex {N M : Nat} (hN : N ≤ M) (s : In) : Below (lex N s) (lex M s) := mono_lexLoop hN N M s hN

section
variable {σ : Type} {nx ny : σ → Out (Tok × σ)} (hx : ∀ s, Below (nx s) (ny s))
include hx

theorem mono_next (a : Tk σ) : Below (a.next nx) (a.next ny) :=
  .ite (.refl _) (.bind (hx _) fun _ => .refl _)

theorem mono_parseOption (a : Tk σ) : Below (parseOption nx a) (parseOption ny a) := by
  unfold parseOption
  refine .bind (mono_next hx a) fun a => .ite (.refl _) (.bind (mono_next hx a) fun a => .ite (.refl _)
    (.bind (mono_next hx a) fun a => .refl _))

theorem mono_parseFieldOptions : ∀ (n m : Nat) (e : OptMap) (a : Tk σ), n ≤ m →
    Below (parseFieldOptions nx n e a) (parseFieldOptions ny m e a)
  | 0, _, _, _, _ => .skip
  | n + 1, 0, _, _, h => by omega
  | n + 1, m + 1, e, a, h => by
    unfold parseFieldOptions
    exact .bind (mono_next hx a) fun a => .ite (.refl _) (.bind (.refl _) fun a =>
      .bind (mono_parseOption hx a) fun p => .bind (mono_next hx p.2) fun a => .bind (.refl _) fun a =>
      mono_parseFieldOptions n m _ a (by omega))

theorem mono_parseStandardOption (e : OptMap) (a : Tk σ) :
    Below (parseStandardOption nx e a) (parseStandardOption ny e a) :=
  .bind (mono_parseOption hx a) fun p => .bind (mono_next hx p.2) fun _ => .refl _

theorem mono_parseLabel (a : Tk σ) : Below (parseLabel nx a) (parseLabel ny a) :=
  .ite (.bind (mono_next hx a) fun _ => .refl _) (.ite (.bind (mono_next hx a) fun _ => .refl _) (.refl _))

theorem mono_parseBrackets {N M : Nat} (hN : N ≤ M) (a : Tk σ) : Below (parseBrackets nx N a) (parseBrackets ny M a) :=
  .ite (.bind (mono_parseFieldOptions hx N M _ a hN) fun p => .bind (mono_next hx p.2) fun b =>
    .ite (.refl _) (.bind (mono_next hx b) fun _ => .refl _)) (.refl _)

theorem mono_parseField {N M : Nat} (hN : N ≤ M) (ms : List Message) (m : Message) (a : Tk σ) :
    Below (parseField nx N ms m a) (parseField ny M ms m a) := by
  unfold parseField
  exact .bind (mono_parseLabel hx a) fun p => .bind (.refl _) fun ty => .bind (mono_next hx p.2) fun a =>
    .ite (.refl _) (.bind (mono_next hx a) fun b => .ite (.refl _) (.bind (mono_next hx b) fun c =>
    .ite (.refl _) (.ite (.refl _) (.bind (mono_next hx c) fun d => .bind (mono_parseBrackets hx hN d) fun _ =>
    .refl _))))

theorem mono_parseBody {N M : Nat} (hN : N ≤ M) (ms : List Message) : ∀ (n k : Nat) (m : Message) (a : Tk σ), n ≤ k →
    Below (parseBody nx N ms n m a) (parseBody ny M ms k m a)
  | 0, _, _, _, _ => .skip
  | n + 1, 0, _, _, h => by omega
  | n + 1, k + 1, m, a, h => by
    unfold parseBody
    exact .bind (mono_next hx a) fun a => .ite (.refl _) (.ite (.refl _)
      (.ite (.bind (mono_parseStandardOption hx _ a) fun p => mono_parseBody hN ms n k _ _ (by omega))
      (.bind (mono_parseField hx hN ms m a) fun p => mono_parseBody hN ms n k _ _ (by omega))))

theorem mono_parseItem {N M : Nat} (hN : N ≤ M) (t : Tree) (a : Tk σ) :
    Below (parseItem nx N t a) (parseItem ny M t a) := by
  unfold parseItem
  refine .ite ?_ (.ite ?_ (.ite ?_ (.ite ?_ (.refl _))))
  · exact .ite (.bind (mono_next hx a) fun b => .ite (.bind (mono_next hx b) fun c => .ite (.refl _)
      (.bind (mono_parseBody hx hN _ N M _ c hN) fun _ => .refl _)) (.refl _)) (.refl _)
  · exact .bind (mono_next hx a) fun b => .ite (.bind (mono_next hx b) fun _ => .refl _) (.refl _)
  · refine .bind ?_ fun _ => .refl _
    exact .bind (mono_next hx a) fun b => .ite (.refl _) (.bind (mono_next hx b) fun c =>
      .ite (.bind (mono_next hx c) fun _ => .refl _) (.refl _))
  · exact .bind (mono_parseStandardOption hx _ a) fun _ => .refl _

theorem mono_parseProto {N M : Nat} (hN : N ≤ M) : ∀ (n m : Nat) (t : Tree) (a : Tk σ), n ≤ m →
    Below (parseProto nx N n t a) (parseProto ny M m t a)
  | 0, _, _, _, _ => .skip
  | n + 1, 0, _, _, h => by omega
  | n + 1, m + 1, t, a, h => by
    unfold parseProto
    exact .bind (mono_next hx a) fun a => .ite (.refl _) (.bind (mono_parseItem hx hN t a) fun p =>
      .ite (.refl _) (mono_parseProto hN n m _ _ (by omega)))

theorem mono_parseFrom {N M : Nat} (hN : N ≤ M) (s : σ) : Below (parseFrom nx N s) (parseFrom ny M s) :=
  .bind (mono_parseProto hx hN N M _ _ hN) fun _ => .refl _

end

/-- The outcome of a run that ended does not depend on the number of steps. -/
theorem parse_mono {N M : Nat} (h : N ≤ M) (text : Bytes) : Below (parse N text) (parse M text) :=
  mono_parseFrom (mono_lex h) h _

/-- Two runs that ended have the same outcome. -/
theorem parse_unique {N M : Nat} {text : Bytes} (h1 : parse N text ≠ .fuel) (h2 : parse M text ≠ .fuel) :
    parse N text = parse M text := by
  rcases Nat.le_total N M with h | h
  · rcases parse_mono h text with e | e
    · exact absurd e h1
    · exact e
  · rcases parse_mono h text with e | e
    · exact absurd e h2
    · exact e.symm

end PG.Proto
