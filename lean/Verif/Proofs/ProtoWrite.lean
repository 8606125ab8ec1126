import Verif.Proofs.ProtoTok
import Verif.Proofs.NumText
/-
What the parser makes of a written schema: over the list of its lexical elements it computes what the schema means.
-/
set_option autoImplicit false
namespace PG.Proto

/-! ### Numbers -/

theorem digit_isDigit {b : Byte} (h : Digit b) : isDigit b = true := by
  simp [isDigit, h.1, h.2]

theorem number_digitsVal (d : Bytes) : number d = digitsVal 0 d := by
  have : ∀ (d : Bytes) (v : Nat), d.foldl (fun v c => 10 * v + (c.toNat - 48)) v = digitsVal v d := by
    intro d
    induction d with
    | nil => intro v; rfl
    | cons b d ih => intro v; simp only [List.foldl_cons, digitsVal]; rw [ih]; simp only [digitsVal]; rw [Nat.mul_comm]
  exact this d 0

theorem fieldIndex_digits {d : Bytes} (h : Digits d) : fieldIndex d = asInt32 (number d) := by
  obtain ⟨hne, hd⟩ := h
  have hrun := digitRun_run (ds := d) (rest := []) (fun b hb => digit_isDigit (hd b hb)) (by simp) 0
  rw [List.append_nil, ← number_digitsVal] at hrun
  obtain ⟨b, t, rfl⟩ := List.exists_cons_of_ne_nil hne
  have hb := digit_isDigit (hd b List.mem_cons_self)
  have hs : strtol (b :: t) = min (number (b :: t) : Int) 9223372036854775807 := by
    unfold strtol strtolScan
    rw [List.dropWhile_cons_of_neg (by simp [digit_not_space hb])]
    simp only [(digit_not_sign hb).1, (digit_not_sign hb).2, if_false, hb, if_true, hrun]
    rfl
  unfold fieldIndex asInt32
  rw [hs]
  show (_ - IKind.lo .i32) % (2 ^ IKind.bits .i32) + IKind.lo .i32 = _
  have e1 : IKind.lo .i32 = -2147483648 := by decide
  have e2 : ((2 : Int) ^ IKind.bits .i32) = 4294967296 := by decide
  rw [e1, e2]
  omega

theorem badIndex_iff (i : Int) : badIndex i = false ↔ GoodIndex i := by
  unfold badIndex GoodIndex
  simp only [Bool.or_eq_false_iff, decide_eq_false_iff_not, beq_eq_false_iff_ne, ne_eq]
  constructor <;> intro h <;> omega

/-! ### Tokens from a list -/

/-- The token of a lexical element, without position. -/
def ltok (l : Lexeme) : Tok := { code := l.tok.1, value := l.tok.2, line := 0, col := 0 }

/-- Lexical elements and the text after them. -/
abbrev LSrc := List Lexeme × Bytes

/-- The lexical elements as a source of tokens. -/
def lnext : LSrc → Out (Tok × LSrc)
  | ([], z) => (anext z).bind fun (t, r) => .ok (t, ([], r))
  | (l :: ls, z) => .ok (ltok l, (ls, z))

section
variable {z : Bytes}

/-- The elements still to be read, the one pushed back included. -/
def Near (z : Bytes) (tk : Tk LSrc) (ls : List Lexeme) : Prop :=
  (tk.ungot = false ∧ tk.src = (ls, z)) ∨ (tk.ungot = true ∧ ∃ l ls', ls = l :: ls' ∧ tk.src = (ls', z) ∧ tk.cur = ltok l)

/-- The same, after the first token. -/
def At (z : Bytes) (tk : Tk LSrc) (ls : List Lexeme) : Prop := tk.cur.line = 0 ∧ Near z tk ls

theorem near_next {tk : Tk LSrc} {l : Lexeme} {ls : List Lexeme} (h : Near z tk (l :: ls)) :
    tk.next lnext = .ok { cur := ltok l, ungot := false, src := (ls, z) } := by
  obtain ⟨cur, ungot, src⟩ := tk
  obtain ⟨h1, h2⟩ | ⟨h1, l', ls', h2, h4, h3⟩ := h
  · simp only at h1 h2; subst h1 h2; rfl
  · simp only at h1 h3 h4; subst h1 h3 h4
    injection h2 with h2 h4; subst h2 h4; rfl

theorem at_next {tk : Tk LSrc} {l : Lexeme} {ls : List Lexeme} (h : At z tk (l :: ls)) :
    tk.next lnext = .ok { cur := ltok l, ungot := false, src := (ls, z) } := near_next h.2

theorem at_fresh (l : Lexeme) (ls : List Lexeme) : At z { cur := ltok l, ungot := false, src := (ls, z) } ls :=
  ⟨rfl, Or.inl ⟨rfl, rfl⟩⟩
theorem at_pushed (l : Lexeme) (ls : List Lexeme) : At z { cur := ltok l, ungot := true, src := (ls, z) } (l :: ls) :=
  ⟨rfl, Or.inr ⟨rfl, l, ls, rfl, rfl, rfl⟩⟩

/-- The end of the file. -/
def IsEnd (z : Bytes) : Prop := ∃ v r, alex z = .tok .eof v r

theorem near_end (hz : IsEnd z) {tk : Tk LSrc} (h : Near z tk []) : ∃ tk', tk.next lnext = .ok tk' ∧ tk'.cur.code = .eof := by
  obtain ⟨cur, ungot, src⟩ := tk
  obtain ⟨v, r, hz⟩ := hz
  obtain ⟨h1, h2⟩ | ⟨h1, l', ls', h2, h4, h3⟩ := h
  · simp only at h1 h2; subst h1 h2
    exact ⟨{ cur := { code := .eof, value := v, line := 0, col := 0 }, ungot := false, src := ([], r) },
      by simp [Tk.next, lnext, anext, hz, Out.bind], rfl⟩
  · cases h2

@[simp] theorem bind_ok {α β : Type} (a : α) (f : α → Out β) : (Out.ok a).bind f = f a := rfl

theorem tok_symbol (b : Byte) : (ltok (.sym b)).code = (symbol b.toNat).getD .eof := rfl
theorem ltok_equal : (ltok (.sym c!"=")).code = .equal := by decide
theorem ltok_scolon : (ltok (.sym c!";")).code = .scolon := by decide
theorem ltok_comma : (ltok (.sym c!",")).code = .comma := by decide
theorem ltok_begin : (ltok (.sym c!"{")).code = .begin := by decide
theorem ltok_end : (ltok (.sym c!"}")).code = .end := by decide
theorem ltok_lbracket : (ltok (.sym c!"[")).code = .lbracket := by decide
theorem ltok_rbracket : (ltok (.sym c!"]")).code = .rbracket := by decide

theorem ltok_name {n : Bytes} (h : n ∉ reserved) : (ltok (.word n)).code = .name ∨ (ltok (.word n)).code = .qname :=
  code_of_name h

/-- The value of an option is accepted with its type and text. -/
theorem optType_value {v : Value} (h : v.WF) :
    optType (ltok v.lexeme).code = some v.type ∧ (ltok v.lexeme).value = v.value := by
  cases v with
  | bool b => cases b <;> decide +kernel
  | ident n =>
    refine ⟨?_, rfl⟩
    show optType (ltok (.word n)).code = some .identifier
    rcases ltok_name h.2 with e | e <;> rw [e] <;> rfl
  | int d => exact ⟨rfl, rfl⟩
  | str s => exact ⟨rfl, rfl⟩

theorem w_option {o : OptDecl} (h : o.WF) {tk : Tk LSrc} {rest : List Lexeme}
    (ht : At z tk (o.lexemes ++ rest)) :
    parseOption lnext tk = .ok (o.entry, { cur := ltok o.value.lexeme, ungot := false, src := (rest, z) }) := by
  obtain ⟨h1, h2, h3⟩ := h
  obtain ⟨g1, g2⟩ := optType_value h3
  have hl := ht.1
  rw [show o.lexemes ++ rest = .word o.name :: .sym c!"=" :: o.value.lexeme :: rest from rfl] at ht
  unfold parseOption
  dsimp only
  rw [at_next ht, bind_ok, if_neg (by rcases ltok_name h2 with e | e <;> simp [e]), at_next (at_fresh _ _), bind_ok,
    if_neg (by rw [ltok_equal]; simp), at_next (at_fresh _ _), bind_ok]
  dsimp only
  rw [g1, g2, hl]
  rfl

/-- The first token of an option is a name. -/
theorem option_head {o : OptDecl} (h : o.WF) : (ltok (.word o.name)).code ≠ .rbracket ∧
    (ltok (.word o.name)).code ≠ .comma := by
  rcases ltok_name h.2.1 with e | e <;> rw [e] <;> decide

/-- The lexical elements of the options between brackets. -/
abbrev optsLexemes (l : List (OptDecl × Bool)) : List Lexeme :=
  l.flatMap (fun p => p.1.lexemes ++ if p.2 then [.sym c!","] else [])

theorem w_fieldOptions : ∀ (l : List (OptDecl × Bool)) (n : Nat) (m : OptMap) (tk : Tk LSrc)
    (rest : List Lexeme), (∀ p ∈ l, p.1.WF) → l.length < n → At z tk (optsLexemes l ++ .sym c!"]" :: rest) →
    parseFieldOptions lnext n m tk = .ok ((l.map (·.1)).foldl (fun m o => m.set o.name o.entry) m,
      { cur := ltok (.sym c!"]"), ungot := true, src := (rest, z) })
  | _, 0, _, _, _, _, hn, _ => by omega
  | [], n + 1, m, tk, rest, _, _, ht => by
    rw [parseFieldOptions, at_next ht, bind_ok, if_pos ltok_rbracket]
    rfl
  | (o, comma) :: l, n + 1, m, tk, rest, hw, hn, ht => by
    have ho := hw _ List.mem_cons_self
    have hl := fun p hp => hw p (List.mem_cons_of_mem _ hp)
    have hn' : l.length < n := by simpa using hn
    have hex : ∀ tail : List Lexeme, ∃ x xs, optsLexemes l ++ .sym c!"]" :: tail = x :: xs ∧ (ltok x).code ≠ .comma := by
      intro tail
      cases l with
      | nil => exact ⟨_, _, rfl, by rw [ltok_rbracket]; decide⟩
      | cons p l => exact ⟨_, _, rfl, (option_head (hl p List.mem_cons_self)).2⟩
    cases comma with
    | true =>
      have e : optsLexemes ((o, true) :: l) ++ .sym c!"]" :: rest =
          .word o.name :: ([.sym c!"=", o.value.lexeme] ++ .sym c!"," :: (optsLexemes l ++ .sym c!"]" :: rest)) := by
        simp [optsLexemes, OptDecl.lexemes]
      rw [e] at ht
      rw [parseFieldOptions, at_next ht, bind_ok, if_neg (option_head ho).1]
      simp only [Tk.unget, Bool.false_eq_true, if_false, bind_ok]
      rw [w_option ho (at_pushed (.word o.name) ([.sym c!"=", o.value.lexeme] ++ _)), bind_ok]
      dsimp only
      rw [at_next (at_fresh _ _), bind_ok, if_neg (by rw [ltok_comma]; simp), bind_ok]
      exact w_fieldOptions l n _ _ _ hl hn' (at_fresh _ _)
    | false =>
      have e : optsLexemes ((o, false) :: l) ++ .sym c!"]" :: rest =
          .word o.name :: ([.sym c!"=", o.value.lexeme] ++ (optsLexemes l ++ .sym c!"]" :: rest)) := by
        simp [optsLexemes, OptDecl.lexemes]
      rw [e] at ht
      rw [parseFieldOptions, at_next ht, bind_ok, if_neg (option_head ho).1]
      simp only [Tk.unget, Bool.false_eq_true, if_false, bind_ok]
      rw [w_option ho (at_pushed (.word o.name) ([.sym c!"=", o.value.lexeme] ++ _)), bind_ok]
      dsimp only
      obtain ⟨x, xs, e2, hx⟩ := hex rest
      rw [e2, at_next (at_fresh _ _), bind_ok, if_pos hx]
      simp only [Bool.false_eq_true, if_false, bind_ok]
      exact w_fieldOptions l n _ _ rest hl hn' (e2 ▸ at_pushed x xs)

theorem w_standardOption {o : OptDecl} (h : o.WF) {tk : Tk LSrc} {rest : List Lexeme} {m : OptMap}
    (ht : At z tk (o.lexemes ++ .sym c!";" :: rest)) :
    parseStandardOption lnext m tk =
      .ok (m.set o.name o.entry, { cur := ltok (.sym c!";"), ungot := false, src := (rest, z) }) := by
  unfold parseStandardOption
  rw [w_option h ht, bind_ok]
  dsimp only
  rw [at_next (at_fresh _ _), bind_ok, if_neg (by rw [ltok_scolon]; simp)]
  rfl

theorem w_brackets {b : Brackets} (h : ∀ o ∈ bracketOpts b, o.WF) {N : Nat} {rest : List Lexeme} {tk : Tk LSrc}
    {x : Lexeme} (hz : tk.src.2 = z) (hx : x :: tk.src.1 = bracketLexemes b ++ .sym c!";" :: rest) (hc : tk.cur = ltok x)
    (hu : tk.ungot = false) (hN : (bracketOpts b).length < N) :
    parseBrackets lnext N tk =
      .ok (optionMap (bracketOpts b), { cur := ltok (.sym c!";"), ungot := false, src := (rest, z) }) := by
  obtain ⟨cur, ungot, src, z'⟩ := tk
  dsimp only at hx hc hu hz
  subst hc hu hz
  unfold parseBrackets
  cases b with
  | none =>
    have : x = .sym c!";" ∧ src = rest := by injection hx with h1 h2; exact ⟨h1, h2⟩
    obtain ⟨rfl, rfl⟩ := this
    rw [if_neg (by rw [ltok_scolon]; simp)]
    rfl
  | some l =>
    have e : x :: src = .sym c!"[" :: (optsLexemes l ++ .sym c!"]" :: (.sym c!";" :: rest)) := by
      rw [hx]; simp [bracketLexemes, optsLexemes]
    injection e with h1 h2
    subst h1 h2
    rw [if_pos ltok_lbracket, w_fieldOptions l N [] _ (.sym c!";" :: rest)
      (fun p hp => h _ (by simp only [bracketOpts, List.mem_map]; exact ⟨p, hp, rfl⟩))
      (by simpa [bracketOpts] using hN) (at_fresh _ _), bind_ok]
    dsimp only
    rw [at_next (at_pushed _ _), bind_ok, if_neg (by rw [ltok_rbracket]; simp), at_next (at_fresh _ _)]
    rfl

/-- proto3.cc:603-613 on a written label. -/
theorem w_label {lab : Label} {t : TypeRef} (ht : t.WF) {rest : List Lexeme} {tk : Tk LSrc} {x : Lexeme}
    (hz : tk.src.2 = z) (hx : x :: tk.src.1 = lab.lexemes ++ t.lexeme :: rest) (hc : tk.cur = ltok x) (hu : tk.ungot = false) :
    parseLabel lnext tk = .ok ((lab == .repeated, lab == .optional), { cur := ltok t.lexeme, ungot := false, src := (rest, z) }) := by
  obtain ⟨cur, ungot, src, z'⟩ := tk
  dsimp only at hx hc hu hz
  subst hc hu hz
  unfold parseLabel
  have hr : (ltok (.word b!"repeated")).code = .repeated := by decide +kernel
  have ho : (ltok (.word b!"optional")).code = .optional := by decide +kernel
  have hty : (ltok t.lexeme).code ≠ .repeated ∧ (ltok t.lexeme).code ≠ .optional := by
    cases t with
    | scalar t => show (Lexeme.tok _).1 ≠ _ ∧ (Lexeme.tok _).1 ≠ _; rw [TypeRef.lexeme, scalar_tok]; simp
    | named n => rcases ltok_name ht.2 with e | e <;> (show (ltok (.word n)).code ≠ _ ∧ (ltok (.word n)).code ≠ _; rw [e]; simp)
  cases lab with
  | none =>
    injection hx with h1 h2
    subst h1 h2
    rw [if_neg hty.1, if_neg hty.2]
    rfl
  | repeated =>
    injection hx with h1 h2
    subst h1 h2
    rw [if_pos hr]
    rfl
  | optional =>
    injection hx with h1 h2
    subst h1 h2
    rw [if_neg (by rw [ho]; simp), if_pos ho]
    rfl

theorem w_type {f : FieldDecl} (ht : f.type.WF) {rest : List Lexeme} {msgs : List Message} {p : Bytes} :
    parseType msgs p (f.label == .repeated) (f.label == .optional)
      ({ cur := ltok f.type.lexeme, ungot := false, src := (rest, z) } : Tk LSrc) =
      .ok (f.typeInfo p (findMessage msgs)) := by
  unfold parseType FieldDecl.typeInfo
  cases hty : f.type with
  | scalar t =>
    have : (ltok (TypeRef.scalar t).lexeme).code = .ty t := by
      show (Lexeme.tok _).1 = _; rw [TypeRef.lexeme, scalar_tok]
    rw [this]
  | named n =>
    have h2 := ltok_name (show n ∉ reserved by rw [hty] at ht; exact ht.2)
    have key : (if p ≠ [] then p ++ [46] else []) ++ n = qualify p n := by
      unfold qualify; by_cases hp : p = [] <;> simp [hp]
    show (match (ltok (.word n)).code with
      | .ty t => _
      | c => _) = _
    have hv : (ltok (.word n)).value = n := rfl
    rcases h2 with e | e
    · rw [e]; simp only [true_or, if_true, TypeRef.lexeme, hv, key]
    · rw [e]; simp only [or_true, if_true, TypeRef.lexeme, hv, key]

theorem w_field {f : FieldDecl} (h : f.WF) {N : Nat} {msgs : List Message} {m : Message} {rest : List Lexeme}
    {tk : Tk LSrc} {x : Lexeme} (hz : tk.src.2 = z) (hx : x :: tk.src.1 = f.lexemes ++ rest) (hc : tk.cur = ltok x)
    (hu : tk.ungot = false) (hN : (bracketOpts f.options).length < N) (hi : GoodIndex f.index)
    (hd : ∀ g ∈ m.fields, g.index ≠ f.index) :
    parseField lnext N msgs m tk = .ok ({ m with fields := m.fields ++ [f.meaning m.package (findMessage msgs)] },
      { cur := ltok (.sym c!";"), ungot := false, src := (rest, z) }) := by
  obtain ⟨h1, h2, h3, h4⟩ := h
  have e : x :: tk.src.1 = f.label.lexemes ++ f.type.lexeme :: (.word f.name :: .sym c!"=" :: .int f.number ::
      (bracketLexemes f.options ++ .sym c!";" :: rest)) := by
    rw [hx]; simp [FieldDecl.lexemes]
  unfold parseField
  rw [w_label h1 hz e hc hu, bind_ok]
  dsimp only
  rw [w_type h1, bind_ok, at_next (at_fresh _ _), bind_ok]
  rw [if_neg (by rw [show (ltok (.word f.name)).code = (Lexeme.word f.name).tok.1 from rfl, code_of_nameOK h2]; simp)]
  rw [at_next (at_fresh _ _), bind_ok, if_neg (by rw [ltok_equal]; simp), at_next (at_fresh _ _), bind_ok]
  dsimp only
  rw [if_neg (show ¬ (ltok (.int f.number)).code ≠ .integer by simp [ltok, Lexeme.tok])]
  have hv : (ltok (.int f.number)).value = f.number := rfl
  have hidx : fieldIndex f.number = f.index := fieldIndex_digits h3
  rw [hv, hidx, if_neg (by rw [(badIndex_iff _).mpr hi]; simp)]
  obtain ⟨y, ys, hy⟩ : ∃ y ys, bracketLexemes f.options ++ .sym c!";" :: rest = y :: ys := by
    cases f.options with
    | none => exact ⟨_, _, rfl⟩
    | some l => exact ⟨_, _, rfl⟩
  rw [hy, at_next (at_fresh _ _), bind_ok, w_brackets (rest := rest) (x := y) h4 rfl hy.symm rfl rfl hN, bind_ok]
  dsimp only
  rw [if_neg (by rw [ltok_scolon]; simp), if_neg]
  · rfl
  · simp only [List.any_eq_true, beq_iff_eq, not_exists, not_and]
    exact fun g hg e => hd g hg e

/-- An element of the body added to a message, references resolved against the messages so far. -/
def addItem (msgs : List Message) (m : Message) : Item → Message
  | .option o => { m with options := OptMap.set m.options o.name o.entry }
  | .field f => { m with fields := m.fields ++ [f.meaning m.package (findMessage msgs)] }

/-- The numbers of the fields of a body are good, distinct, and different from those so far. -/
def BodyOK (used : List Int) : List Item → Prop
  | [] => True
  | .option _ :: b => BodyOK used b
  | .field f :: b => GoodIndex f.index ∧ f.index ∉ used ∧ BodyOK (used ++ [f.index]) b

theorem field_first {f : FieldDecl} (h : f.type.WF) (rest : List Lexeme) : ∃ x xs, f.lexemes ++ rest = x :: xs ∧
    (ltok x).code ≠ .eof ∧ (ltok x).code ≠ .end ∧ (ltok x).code ≠ .option := by
  have hty : (ltok f.type.lexeme).code ≠ .eof ∧ (ltok f.type.lexeme).code ≠ .end ∧
      (ltok f.type.lexeme).code ≠ .option := by
    cases hf : f.type with
    | scalar t =>
      show (Lexeme.tok _).1 ≠ _ ∧ (Lexeme.tok _).1 ≠ _ ∧ (Lexeme.tok _).1 ≠ _
      rw [TypeRef.lexeme, scalar_tok]; simp
    | named n =>
      rw [hf] at h
      show (ltok (.word n)).code ≠ _ ∧ (ltok (.word n)).code ≠ _ ∧ (ltok (.word n)).code ≠ _
      rcases ltok_name h.2 with e | e <;> rw [e] <;> simp
  unfold FieldDecl.lexemes
  cases f.label with
  | none => exact ⟨_, _, rfl, hty⟩
  | repeated => exact ⟨_, _, rfl, by decide +kernel⟩
  | optional => exact ⟨_, _, rfl, by decide +kernel⟩

theorem ltok_option : (ltok (.word b!"option")).code = .option := by decide +kernel

theorem w_body (N : Nat) (msgs : List Message) : ∀ (body : List Item) (n : Nat) (m : Message) (tk : Tk LSrc)
    (rest : List Lexeme), (∀ i ∈ body, i.WF) → (∀ f ∈ body.filterMap Item.field?, (bracketOpts f.options).length < N) →
    body.length < n → BodyOK (m.fields.map (·.index)) body →
    At z tk (body.flatMap Item.lexemes ++ .sym c!"}" :: rest) →
    parseBody lnext N msgs n m tk =
      .ok (body.foldl (addItem msgs) m, { cur := ltok (.sym c!"}"), ungot := false, src := (rest, z) })
  | _, 0, _, _, _, _, _, hn, _, _ => by omega
  | [], n + 1, m, tk, rest, _, _, _, _, ht => by
    rw [parseBody, at_next ht, bind_ok, if_neg (by rw [ltok_end]; simp), if_pos ltok_end]
    rfl
  | .option o :: body, n + 1, m, tk, rest, hw, hN, hn, hb, ht => by
    have e : (Item.option o :: body).flatMap Item.lexemes ++ .sym c!"}" :: rest =
        .word b!"option" :: (o.lexemes ++ .sym c!";" :: (body.flatMap Item.lexemes ++ .sym c!"}" :: rest)) := by
      simp [Item.lexemes]
    rw [e] at ht
    have ho : o.WF := hw _ List.mem_cons_self
    rw [parseBody, at_next ht, bind_ok, if_neg (by rw [ltok_option]; simp), if_neg (by rw [ltok_option]; simp),
      if_pos ltok_option, w_standardOption ho (at_fresh _ _), bind_ok]
    dsimp only
    exact w_body N msgs body n _ _ rest (fun i hi => hw i (List.mem_cons_of_mem _ hi)) hN (by simpa using hn) hb
      (at_fresh _ _)
  | .field f :: body, n + 1, m, tk, rest, hw, hN, hn, hb, ht => by
    have hf : f.WF := hw _ List.mem_cons_self
    have e : (Item.field f :: body).flatMap Item.lexemes ++ .sym c!"}" :: rest =
        f.lexemes ++ (body.flatMap Item.lexemes ++ .sym c!"}" :: rest) := by
      simp [Item.lexemes]
    rw [e] at ht
    obtain ⟨x, xs, hx, k1, k2, k3⟩ := field_first hf.1 (body.flatMap Item.lexemes ++ .sym c!"}" :: rest)
    rw [hx] at ht
    obtain ⟨b1, b2, b3⟩ := hb
    rw [parseBody, at_next ht, bind_ok, if_neg k1, if_neg k2, if_neg k3,
      w_field hf (x := x) (rest := body.flatMap Item.lexemes ++ .sym c!"}" :: rest) rfl hx.symm rfl rfl
        (hN f (by simp [Item.field?])) b1 (fun g hg e => b2 (List.mem_map.mpr ⟨g, hg, e⟩)), bind_ok]
    dsimp only
    refine w_body N msgs body n _ _ rest (fun i hi => hw i (List.mem_cons_of_mem _ hi))
      (fun g hg => hN g ?_) (by simpa using hn) ?_ (at_fresh _ _)
    · rw [List.filterMap_cons]; exact List.mem_cons_of_mem _ hg
    · rw [List.map_append]
      exact b3

theorem foldl_addItem (msgs : List Message) : ∀ (body : List Item) (m : Message),
    body.foldl (addItem msgs) m =
      { m with fields := m.fields ++ (body.filterMap Item.field?).map (·.meaning m.package (findMessage msgs)),
               options := (body.filterMap Item.option?).foldl (fun o d => OptMap.set o d.name d.entry) m.options }
  | [], m => by simp
  | .option o :: body, m => by
    rw [List.foldl_cons, foldl_addItem msgs body]
    rfl
  | .field f :: body, m => by
    rw [List.foldl_cons, foldl_addItem msgs body,
      show List.filterMap Item.option? (.field f :: body) = List.filterMap Item.option? body from rfl,
      show List.filterMap Item.field? (.field f :: body) = f :: List.filterMap Item.field? body from rfl]
    simp [addItem]

/-- A declaration added to a schema, references resolved against the messages so far. -/
def addDecl (t : Tree) : Decl → Tree
  | .syntax => t
  | .package p => { t with package := p }
  | .option o => { t with options := OptMap.set t.options o.name o.entry }
  | .message name body =>
    { t with messages := t.messages ++ [bodyMeaning name body t.package (findMessage t.messages)] }

/-- The numbers of the fields of a declaration are good and distinct. -/
def DeclOK : Decl → Prop
  | .message _ body => BodyOK [] body
  | _ => True

/-- The loops have enough steps for a declaration. -/
def Enough (N : Nat) : Decl → Prop
  | .message _ body => body.length < N ∧ ∀ f ∈ body.filterMap Item.field?, (bracketOpts f.options).length < N
  | _ => True

theorem ltok_syntax : (ltok (.word b!"syntax")).code = .syntax := by decide +kernel
theorem ltok_package : (ltok (.word b!"package")).code = .package := by decide +kernel
theorem ltok_message : (ltok (.word b!"message")).code = .message := by decide +kernel

theorem w_item {d : Decl} (h : d.WF) {N : Nat} (hN : Enough N d) (hi : DeclOK d) {t : Tree} {rest : List Lexeme}
    {x : Lexeme} {src : List Lexeme} (hx : x :: src = d.lexemes ++ rest) :
    (ltok x).code ≠ .eof ∧ parseItem lnext N t { cur := ltok x, ungot := false, src := (src, z) } =
      .ok (addDecl t d, { cur := ltok d.closing, ungot := false, src := (rest, z) }) := by
  unfold parseItem
  cases d with
  | «syntax» =>
    rw [show Decl.syntax.lexemes ++ rest = .word b!"syntax" :: .sym c!"=" :: .str b!"proto3" :: .sym c!";" :: rest
      from rfl] at hx
    injection hx with h1 h2
    subst h1 h2
    refine ⟨by rw [ltok_syntax]; simp, ?_⟩
    dsimp only
    rw [if_neg (by rw [ltok_syntax]; simp), if_neg (by rw [ltok_syntax]; simp), if_pos ltok_syntax]
    unfold parseSyntax
    rw [at_next (at_fresh _ _), bind_ok, if_neg (by rw [ltok_equal]; simp), at_next (at_fresh _ _), bind_ok,
      if_pos (by rfl), at_next (at_fresh _ _), bind_ok, if_pos ltok_scolon, if_neg (by simp [ltok, Lexeme.tok])]
    rfl
  | package p =>
    rw [show (Decl.package p).lexemes ++ rest = .word b!"package" :: .word p :: .sym c!";" :: rest from rfl] at hx
    injection hx with h1 h2
    subst h1 h2
    refine ⟨by rw [ltok_package]; simp, ?_⟩
    dsimp only
    rw [if_neg (by rw [ltok_package]; simp), if_pos ltok_package]
    unfold parsePackage
    rw [at_next (at_fresh _ _), bind_ok, if_pos (ltok_name h.2), at_next (at_fresh _ _), bind_ok, if_pos ltok_scolon]
    rfl
  | option o =>
    have e : (Decl.option o).lexemes ++ rest = .word b!"option" :: (o.lexemes ++ .sym c!";" :: rest) := by
      simp [Decl.lexemes, Decl.opening, Decl.closing]
    rw [e] at hx
    injection hx with h1 h2
    subst h1 h2
    refine ⟨by rw [ltok_option]; simp, ?_⟩
    dsimp only
    rw [if_neg (by rw [ltok_option]; simp), if_neg (by rw [ltok_option]; simp), if_neg (by rw [ltok_option]; simp),
      if_pos ltok_option, w_standardOption h (at_fresh _ _)]
    rfl
  | message name body =>
    have e : (Decl.message name body).lexemes ++ rest = .word b!"message" :: .word name :: .sym c!"{" ::
        (body.flatMap Item.lexemes ++ .sym c!"}" :: rest) := by
      simp [Decl.lexemes, Decl.opening, Decl.closing]
    rw [e] at hx
    injection hx with h1 h2
    subst h1 h2
    refine ⟨by rw [ltok_message]; simp, ?_⟩
    dsimp only
    rw [if_pos ltok_message]
    unfold parseMessage
    dsimp only
    rw [if_pos ltok_message, at_next (at_fresh _ _), bind_ok,
      if_pos (show isNameCode (ltok (.word name)).code = true from code_of_nameOK h.1), at_next (at_fresh _ _), bind_ok,
      if_neg (by rw [ltok_begin]; simp), w_body N _ body N _ _ rest h.2 hN.2 hN.1 (by exact hi) (at_fresh _ _), bind_ok]
    dsimp only
    rw [foldl_addItem]
    rfl

theorem closing_not_eof (d : Decl) : (ltok d.closing).code ≠ .eof := by
  cases d with
  | message n b => show (ltok (.sym c!"}")).code ≠ _; decide +kernel
  | «syntax» => show (ltok (.sym c!";")).code ≠ _; decide +kernel
  | package p => show (ltok (.sym c!";")).code ≠ _; decide +kernel
  | option o => show (ltok (.sym c!";")).code ≠ _; decide +kernel

theorem w_proto (N : Nat) : ∀ (ds : List Decl) (n : Nat) (t : Tree) (tk : Tk LSrc), (∀ d ∈ ds, d.WF) →
    (∀ d ∈ ds, Enough N d) → (∀ d ∈ ds, DeclOK d) → ds.length < n → IsEnd z → Near z tk (fileLexemes ds) →
    parseProto lnext N n t tk = .ok (ds.foldl addDecl t)
  | _, 0, _, _, _, _, _, hn, _, _ => by omega
  | [], n + 1, t, tk, _, _, _, _, hz, ht => by
    obtain ⟨tk', h1, h2⟩ := near_end hz ht
    rw [parseProto, h1, bind_ok, if_pos h2]
    rfl
  | d :: ds, n + 1, t, tk, hw, hN, hi, hn, hz, ht => by
    have e : fileLexemes (d :: ds) = d.lexemes ++ fileLexemes ds := rfl
    obtain ⟨x, src, hx⟩ : ∃ x src, d.lexemes ++ fileLexemes ds = x :: src := by
      cases d <;> exact ⟨_, _, rfl⟩
    rw [e, hx] at ht
    obtain ⟨k1, k2⟩ := w_item (hw d List.mem_cons_self) (hN d List.mem_cons_self) (hi d List.mem_cons_self)
      (t := t) hx.symm
    rw [parseProto, near_next ht, bind_ok, if_neg k1, k2, bind_ok]
    dsimp only
    rw [if_neg (closing_not_eof d)]
    exact w_proto N ds n _ _ (fun i h => hw i (List.mem_cons_of_mem _ h)) (fun i h => hN i (List.mem_cons_of_mem _ h))
      (fun i h => hi i (List.mem_cons_of_mem _ h)) (by simpa using hn) hz (at_fresh _ _).2

end

/-! ### Resolution -/

theorem findMessage_position (q : Bytes) : ∀ msgs : List Message,
    findMessage msgs q = position q (msgs.map Message.qualifiedName)
  | [] => rfl
  | m :: ms => by
    rw [findMessage, List.map_cons, position, findMessage_position q ms]

theorem position_prefix {q : Bytes} {i : Nat} : ∀ (a b : List Bytes), position q a = some i →
    position q (a ++ b) = some i
  | [], _, h => by cases h
  | n :: a, b, h => by
    rw [position] at h
    rw [List.cons_append, position]
    split at h
    · rename_i e; rw [if_pos e]; exact h
    · rename_i e
      rw [if_neg e]
      cases ha : position q a with
      | none => rw [ha] at h; cases h
      | some j => rw [ha] at h; rw [position_prefix a b ha]; exact h

theorem position_some {q : Bytes} : ∀ {a : List Bytes}, q ∈ a → ∃ i, position q a = some i
  | n :: a, h => by
    rw [position]
    split
    · exact ⟨_, rfl⟩
    · rename_i e
      rcases List.mem_cons.mp h with rfl | h
      · exact absurd rfl e
      · obtain ⟨i, hi⟩ := position_some h
        rw [hi]; exact ⟨_, rfl⟩

theorem position_mem {q : Bytes} {i : Nat} : ∀ {a : List Bytes}, position q a = some i → a[i]? = some q
  | [], h => by cases h
  | n :: a, h => by
    rw [position] at h
    split at h
    · rename_i e; injection h with h; subst h e; rfl
    · cases ha : position q a with
      | none => rw [ha] at h; cases h
      | some j =>
        rw [ha] at h
        simp only [Option.map_some, Option.some.injEq] at h
        subst h
        simpa using position_mem ha

/-- The references found so far agree with the final ones. -/
def Early (ref final : Bytes → Option Nat) : Prop := ∀ q i, ref q = some i → final q = some i

theorem w_resolveFields {msgs : List Message} {p : Bytes} {ref : Bytes → Option Nat}
    (hr : Early ref (findMessage msgs)) : ∀ (fs : List FieldDecl),
    (∀ f ∈ fs, ∀ n, f.type = .named n → findMessage msgs (qualify p n) ≠ none) →
    resolveFields msgs (fs.map (·.meaning p ref)) = .ok (fs.map (·.meaning p (findMessage msgs)))
  | [], _ => rfl
  | f :: fs, h => by
    have ih := w_resolveFields hr fs (fun g hg => h g (List.mem_cons_of_mem _ hg))
    rw [List.map_cons, List.map_cons, resolveFields, ih]
    have hf := h f List.mem_cons_self
    unfold FieldDecl.meaning FieldDecl.typeInfo
    cases hty : f.type with
    | scalar t => simp
    | named n =>
      have hf := hf n hty
      cases he : ref (qualify p n) with
      | some i => simp [he, hr _ _ he]
      | none =>
        obtain ⟨j, hj⟩ := Option.ne_none_iff_exists'.mp hf
        simp [he, hj]

theorem resolve_unresolved {msgs : List Message} {p : Bytes} {ref : Bytes → Option Nat}
    (hr : Early ref (findMessage msgs)) : ∀ (fs : List FieldDecl) (q : Bytes) (r : List Bytes),
    unknownIn (fun q => (findMessage msgs q).isSome) p fs = q :: r →
    resolveFields msgs (fs.map (·.meaning p ref)) = .exc ⟨.unresolved q, 0, 0⟩
  | [], q, r, h => by cases h
  | f :: fs, q, r, h => by
    rw [List.map_cons, resolveFields]
    by_cases hh : ∃ n, f.type = .named n ∧ findMessage msgs (qualify p n) = none
    · obtain ⟨n, hty, hn⟩ := hh
      have he : ref (qualify p n) = none := by
        cases he : ref (qualify p n) with
        | none => rfl
        | some i => rw [hr _ _ he] at hn; cases hn
      have hq : qualify p n = q := by
        simp only [unknownIn, List.filterMap_cons, hty, hn] at h
        injection h
      subst hq
      simp [FieldDecl.meaning, FieldDecl.typeInfo, hty, he, hn]
    · have hd : unknownIn (fun q => (findMessage msgs q).isSome) p fs = q :: r := by
        rw [← h]
        cases hty : f.type with
        | scalar t => simp only [unknownIn, List.filterMap_cons, hty]
        | named n =>
          cases hfm : findMessage msgs (qualify p n) with
          | none => exact absurd ⟨n, hty, hfm⟩ hh
          | some i => simp only [unknownIn, List.filterMap_cons, hty, hfm, Option.isSome_some, if_true]
      have ih := resolve_unresolved hr fs q r hd
      rw [ih]
      split
      · rfl
      · rename_i hc
        simp only [FieldDecl.meaning, FieldDecl.typeInfo] at hc ⊢
        cases hty : f.type with
        | scalar t => rw [hty] at hc; simp at hc
        | named n =>
          simp only [hty] at hc ⊢
          cases hfm : findMessage msgs (qualify p n) with
          | none => exact absurd ⟨n, hty, hfm⟩ hh
          | some i => rfl

/-- The messages of a schema after the first pass: each with what it could refer to. -/
inductive Passed (final : Bytes → Option Nat) : List (Bytes × Bytes × List Item) → List Message → Prop
  | nil : Passed final [] []
  | cons {p name : Bytes} {body : List Item} {l : List (Bytes × Bytes × List Item)} {ms : List Message}
      {ref : Bytes → Option Nat} (hr : Early ref final) (h : Passed final l ms) :
      Passed final ((p, name, body) :: l) (bodyMeaning name body p ref :: ms)

theorem w_resolve {msgs : List Message} : ∀ {l : List (Bytes × Bytes × List Item)} {ms : List Message},
    Passed (findMessage msgs) l ms →
    (∀ m ∈ l, ∀ f ∈ m.2.2.filterMap Item.field?, ∀ n, f.type = .named n → findMessage msgs (qualify m.1 n) ≠ none) →
    resolveMessages msgs ms = .ok (l.map fun m => bodyMeaning m.2.1 m.2.2 m.1 (findMessage msgs)) := by
  intro l ms h
  induction h with
  | nil => intro _; rfl
  | @cons p name body l ms ref hr h ih =>
    intro hall
    rw [resolveMessages]
    have h1 := w_resolveFields (p := p) hr (body.filterMap Item.field?) (hall _ List.mem_cons_self)
    have e : (bodyMeaning name body p ref).fields = (body.filterMap Item.field?).map (·.meaning p ref) := rfl
    rw [e, h1, bind_ok, ih (fun m hm => hall m (List.mem_cons_of_mem _ hm)), bind_ok]
    rfl

theorem w_resolve_fails {msgs : List Message} : ∀ {l : List (Bytes × Bytes × List Item)} {ms : List Message},
    Passed (findMessage msgs) l ms → ∀ (q : Bytes) (r : List Bytes),
    (l.flatMap fun m => unknownIn (fun q => (findMessage msgs q).isSome) m.1 (m.2.2.filterMap Item.field?)) = q :: r →
    resolveMessages msgs ms = .exc ⟨.unresolved q, 0, 0⟩ := by
  intro l ms h
  induction h with
  | nil => intro q r h; cases h
  | @cons p name body l ms ref hr h ih =>
    intro q r hex
    rw [resolveMessages]
    have e : (bodyMeaning name body p ref).fields = (body.filterMap Item.field?).map (·.meaning p ref) := rfl
    rw [e]
    rw [List.flatMap_cons] at hex
    cases hu : unknownIn (fun q => (findMessage msgs q).isSome) p (body.filterMap Item.field?) with
    | cons q' r' =>
      rw [show unknownIn (fun q => (findMessage msgs q).isSome) (p, name, body).1 ((p, name, body).2.2.filterMap Item.field?)
        = q' :: r' from hu] at hex
      injection hex with e1 _
      rw [resolve_unresolved hr _ _ _ hu, e1]
      rfl
    | nil =>
      rw [show unknownIn (fun q => (findMessage msgs q).isSome) (p, name, body).1 ((p, name, body).2.2.filterMap Item.field?)
        = [] from hu, List.nil_append] at hex
      have h1 := w_resolveFields (p := p) hr (body.filterMap Item.field?) (fun f hf n hn e => by
        have : qualify p n ∈ unknownIn (fun q => (findMessage msgs q).isSome) p (body.filterMap Item.field?) :=
          List.mem_filterMap.mpr ⟨f, hf, by simp [hn, e]⟩
        rw [hu] at this
        cases this)
      rw [h1, bind_ok, ih q r hex]
      rfl

/-- The names of the messages after the first pass. -/
theorem foldl_names : ∀ (ds : List Decl) (t : Tree),
    (ds.foldl addDecl t).messages.map Message.qualifiedName =
      t.messages.map Message.qualifiedName ++ (located t.package ds).map (fun m => qualify m.1 m.2.1)
  | [], t => by simp [located]
  | d :: ds, t => by
    rw [List.foldl_cons, foldl_names ds]
    cases d with
    | «syntax» => rfl
    | package p => rfl
    | option o => rfl
    | message name body =>
      simp only [addDecl, located, List.map_append, List.map_cons, List.map_nil, List.append_assoc]
      rfl

theorem passed_append {final : Bytes → Option Nat} : ∀ {l l' : List (Bytes × Bytes × List Item)} {ms ms' : List Message},
    Passed final l ms → Passed final l' ms' → Passed final (l ++ l') (ms ++ ms') := by
  intro l l' ms ms' h h'
  induction h with
  | nil => exact h'
  | cons hr h ih => exact .cons hr ih

/-- After the first pass. -/
theorem foldl_passed (final : Bytes → Option Nat) : ∀ (ds : List Decl) (t : Tree),
    Early (fun q => position q ((ds.foldl addDecl t).messages.map Message.qualifiedName)) final →
    ∃ ms, (ds.foldl addDecl t).messages = t.messages ++ ms ∧ Passed final (located t.package ds) ms
  | [], t, _ => ⟨[], by simp, .nil⟩
  | d :: ds, t, hf => by
    rw [List.foldl_cons] at hf ⊢
    obtain ⟨ms, h1, h2⟩ := foldl_passed final ds (addDecl t d) hf
    cases d with
    | «syntax» => exact ⟨ms, h1, h2⟩
    | package p => exact ⟨ms, h1, h2⟩
    | option o => exact ⟨ms, h1, h2⟩
    | message name body =>
      refine ⟨bodyMeaning name body t.package (findMessage t.messages) :: ms, ?_, ?_⟩
      · rw [h1]; simp [addDecl]
      · refine .cons ?_ h2
        intro q i hq
        refine hf q i ?_
        rw [h1, findMessage_position] at *
        simp only [addDecl, List.append_assoc, List.map_append]
        exact position_prefix _ _ hq

theorem foldl_options : ∀ (ds : List Decl) (t : Tree),
    (ds.foldl addDecl t).options = (fileOptions ds).foldl (fun m o => m.set o.name o.entry) t.options
  | [], t => rfl
  | d :: ds, t => by
    rw [List.foldl_cons, foldl_options ds]
    cases d <;> rfl

theorem foldl_package : ∀ (ds : List Decl) (t : Tree), (ds.foldl addDecl t).package = lastPackage t.package ds
  | [], t => rfl
  | d :: ds, t => by
    rw [List.foldl_cons, foldl_package ds]
    cases d <;> rfl

/-! ### Requirements -/

theorem bodyOK_iff : ∀ (body : List Item) (used : List Int), BodyOK used body ↔
    (∀ f ∈ body.filterMap Item.field?, GoodIndex f.index ∧ f.index ∉ used) ∧
      ((body.filterMap Item.field?).map (·.index)).Pairwise (· ≠ ·)
  | [], used => by simp [BodyOK]
  | .option o :: body, used => by
    rw [BodyOK, bodyOK_iff body used]; exact Iff.rfl
  | .field f :: body, used => by
    rw [BodyOK, bodyOK_iff body]
    simp only [List.filterMap_cons, Item.field?, List.map_cons, List.pairwise_cons, List.mem_append, List.mem_singleton,
      not_or, List.forall_mem_cons, List.mem_map, forall_exists_index, and_imp, forall_apply_eq_imp_iff₂]
    constructor
    · rintro ⟨h1, h2, h3, h4⟩
      exact ⟨⟨⟨h1, h2⟩, fun g hg => ⟨(h3 g hg).1, (h3 g hg).2.1⟩⟩, fun g hg => Ne.symm (h3 g hg).2.2, h4⟩
    · rintro ⟨⟨⟨h1, h2⟩, h3⟩, h4, h5⟩
      exact ⟨h1, h2, fun g hg => ⟨(h3 g hg).1, (h3 g hg).2, Ne.symm (h4 g hg)⟩, h5⟩

theorem located_mem : ∀ (ds : List Decl) (p : Bytes) (name : Bytes) (body : List Item),
    Decl.message name body ∈ ds → ∃ q, (q, name, body) ∈ located p ds
  | d :: ds, p, name, body, h => by
    rcases List.mem_cons.mp h with e | h'
    · subst e; exact ⟨p, List.mem_cons_self⟩
    · cases d with
      | «syntax» => exact located_mem ds p name body h'
      | package q => exact located_mem ds q name body h'
      | option o => exact located_mem ds p name body h'
      | message n b =>
        obtain ⟨q, hq⟩ := located_mem ds p name body h'
        exact ⟨q, List.mem_cons_of_mem _ hq⟩

theorem located_inv : ∀ (ds : List Decl) (p : Bytes) (m : Bytes × Bytes × List Item), m ∈ located p ds →
    Decl.message m.2.1 m.2.2 ∈ ds
  | d :: ds, p, m, h => by
    cases d with
    | «syntax» => exact List.mem_cons_of_mem _ (located_inv ds p m h)
    | package q => exact List.mem_cons_of_mem _ (located_inv ds q m h)
    | option o => exact List.mem_cons_of_mem _ (located_inv ds p m h)
    | message n b =>
      rcases List.mem_cons.mp h with rfl | h
      · exact List.mem_cons_self
      · exact List.mem_cons_of_mem _ (located_inv ds p m h)

theorem declOK_iff (ds : List Decl) : (∀ d ∈ ds, DeclOK d) ↔
    ∀ m ∈ located [] ds, (∀ f ∈ m.2.2.filterMap Item.field?, GoodIndex f.index) ∧
      ((m.2.2.filterMap Item.field?).map (·.index)).Pairwise (· ≠ ·) := by
  constructor
  · intro h m hm
    have := h _ (located_inv ds [] m hm)
    have := (bodyOK_iff _ _).mp this
    exact ⟨fun f hf => (this.1 f hf).1, this.2⟩
  · intro h d hd
    cases d with
    | message name body =>
      obtain ⟨q, hq⟩ := located_mem ds [] name body hd
      have := h _ hq
      exact (bodyOK_iff _ _).mpr ⟨fun f hf => ⟨this.1 f hf, by simp⟩, this.2⟩
    | _ => trivial

/-! ### Sizes -/

theorem opts_length (l : List (OptDecl × Bool)) : l.length ≤ (optsLexemes l).length := by
  induction l with
  | nil => simp
  | cons p l ih =>
    simp only [optsLexemes, List.flatMap_cons, List.length_append, List.length_cons, OptDecl.lexemes,
      List.length_nil] at ih ⊢
    omega

theorem field_length (f : FieldDecl) : (bracketOpts f.options).length < f.lexemes.length := by
  unfold FieldDecl.lexemes
  simp only [List.length_append, List.length_cons, List.length_nil]
  cases f.options with
  | none => simp [bracketOpts]
  | some l =>
    have := opts_length l
    simp only [bracketOpts, List.length_map, bracketLexemes, List.length_append, List.length_cons]
    simp only [optsLexemes] at this
    omega

theorem body_length : ∀ (body : List Item), body.length ≤ (body.flatMap Item.lexemes).length ∧
    ∀ f ∈ body.filterMap Item.field?, (bracketOpts f.options).length < (body.flatMap Item.lexemes).length
  | [] => by simp
  | i :: body => by
    obtain ⟨h1, h2⟩ := body_length body
    simp only [List.flatMap_cons, List.length_append, List.length_cons]
    cases i with
    | option o =>
      simp only [Item.lexemes, List.length_append, List.length_cons, List.length_nil]
      refine ⟨by omega, fun f hf => ?_⟩
      have := h2 f (by simpa [Item.field?] using hf)
      omega
    | field g =>
      have hg := field_length g
      simp only [Item.lexemes]
      refine ⟨by omega, fun f hf => ?_⟩
      simp only [List.filterMap_cons, Item.field?, List.mem_cons] at hf
      rcases hf with rfl | hf
      · omega
      · have := h2 f hf; omega

theorem file_length : ∀ (ds : List Decl) (N : Nat), (fileLexemes ds).length ≤ N →
    ds.length ≤ N ∧ ∀ d ∈ ds, Enough N d
  | [], N, _ => ⟨by simp, by simp⟩
  | d :: ds, N, h => by
    have e : fileLexemes (d :: ds) = d.lexemes ++ fileLexemes ds := rfl
    rw [e, List.length_append] at h
    have hd : 1 ≤ d.lexemes.length := by simp [Decl.lexemes]
    obtain ⟨h1, _⟩ := file_length ds (N - 1) (by omega)
    obtain ⟨_, h2⟩ := file_length ds N (by omega)
    refine ⟨by simp; omega, fun x hx => ?_⟩
    rcases List.mem_cons.mp hx with rfl | hx
    · cases x with
      | message name body =>
        obtain ⟨g1, g2⟩ := body_length body
        have : (Decl.message name body).lexemes.length = (body.flatMap Item.lexemes).length + 4 := by
          simp [Decl.lexemes, Decl.opening]
        exact ⟨by omega, fun f hf => by have := g2 f hf; omega⟩
      | _ => trivial
    · exact h2 x hx

/-- The parser over the lexical elements of a schema whose fields are numbered properly. -/
theorem w_parse {z : Bytes} (hz : IsEnd z) {ds : List Decl} (hw : ∀ d ∈ ds, d.WF) (hi : ∀ d ∈ ds, DeclOK d) {N : Nat}
    (hN : (fileLexemes ds).length < N) :
    parseFrom lnext N (fileLexemes ds, z) = (resolveMessages (ds.foldl addDecl Tree.empty).messages
      (ds.foldl addDecl Tree.empty).messages).bind fun msgs =>
        .ok { ds.foldl addDecl Tree.empty with messages := msgs } := by
  obtain ⟨h1, h2⟩ := file_length ds (N - 1) (by omega)
  obtain ⟨_, h3⟩ := file_length ds N (by omega)
  unfold parseFrom
  rw [w_proto N ds N _ _ hw h3 hi (by omega) hz (Or.inl ⟨rfl, rfl⟩)]
  rfl

theorem names_empty (ds : List Decl) :
    (ds.foldl addDecl Tree.empty).messages.map Message.qualifiedName = messageNames ds := by
  rw [foldl_names]; rfl

theorem passed_empty (ds : List Decl) : Passed (findMessage (ds.foldl addDecl Tree.empty).messages) (located [] ds)
    (ds.foldl addDecl Tree.empty).messages := by
  obtain ⟨ms, h1, h2⟩ := foldl_passed (findMessage (ds.foldl addDecl Tree.empty).messages) ds Tree.empty
    (fun q i h => by rw [findMessage_position]; exact h)
  have : (ds.foldl addDecl Tree.empty).messages = ms := by rw [h1]; rfl
  rw [this] at h2 ⊢
  exact h2

theorem found_iff (ds : List Decl) (q : Bytes) :
    findMessage (ds.foldl addDecl Tree.empty).messages q ≠ none ↔ q ∈ messageNames ds := by
  rw [findMessage_position, names_empty]
  constructor
  · intro h
    obtain ⟨i, hi⟩ := Option.ne_none_iff_exists'.mp h
    exact List.mem_of_getElem? (position_mem hi)
  · intro h
    obtain ⟨i, hi⟩ := position_some h
    rw [hi]; simp

/-- The parser over the lexical elements of a consistent schema yields the schema. -/
theorem w_consistent {z : Bytes} (hz : IsEnd z) {ds : List Decl} (hw : ∀ d ∈ ds, d.WF) (hc : Consistent ds) {N : Nat}
    (hN : (fileLexemes ds).length < N) : parseFrom lnext N (fileLexemes ds, z) = .ok (denote ds) := by
  rw [w_parse hz hw ((declOK_iff ds).mpr hc.1) hN,
    w_resolve (passed_empty ds) (fun m hm f hf n hn => (found_iff ds _).mpr (hc.2 m hm f hf n hn)), bind_ok]
  congr 1
  unfold denote
  dsimp only
  rw [foldl_options, foldl_package]
  congr 1
  refine List.map_congr_left fun m _ => ?_
  congr 1
  funext q
  rw [findMessage_position, names_empty]

/-- The first type that does not exist is reported. -/
theorem w_unknown {ds : List Decl} {q : Bytes} {r : List Bytes} (hx : unknownTypes ds = q :: r) :
    resolveMessages (ds.foldl addDecl Tree.empty).messages (ds.foldl addDecl Tree.empty).messages =
      .exc ⟨.unresolved q, 0, 0⟩ := by
  have e : (fun q => (messageNames ds).contains q) =
      fun q => (findMessage (ds.foldl addDecl Tree.empty).messages q).isSome := by
    funext q
    rw [Bool.eq_iff_iff, List.contains_iff_mem, ← found_iff ds q, Option.isSome_iff_ne_none]
  unfold unknownTypes at hx
  rw [e] at hx
  exact w_resolve_fails (passed_empty ds) q r hx

/-- A message that does not exist. -/
theorem w_unresolved {z : Bytes} (hz : IsEnd z) {ds : List Decl} (hw : ∀ d ∈ ds, d.WF) (hi : ∀ d ∈ ds, DeclOK d)
    {q : Bytes} {r : List Bytes} (hx : unknownTypes ds = q :: r) {N : Nat}
    (hN : (fileLexemes ds).length < N) : parseFrom lnext N (fileLexemes ds, z) = .exc ⟨.unresolved q, 0, 0⟩ := by
  rw [w_parse hz hw hi hN, w_unknown hx]
  rfl

/-- There is an unknown type exactly when some field has one. -/
theorem unknownTypes_ne_nil (ds : List Decl) : unknownTypes ds ≠ [] ↔
    ∃ m ∈ located [] ds, ∃ f ∈ m.2.2.filterMap Item.field?, ∃ n, f.type = .named n ∧
      qualify m.1 n ∉ messageNames ds := by
  constructor
  · intro h
    obtain ⟨q, hq⟩ := List.exists_mem_of_ne_nil _ h
    obtain ⟨m, hm, hq⟩ := List.mem_flatMap.mp hq
    obtain ⟨f, hf, hq⟩ := List.mem_filterMap.mp hq
    refine ⟨m, hm, f, hf, ?_⟩
    cases hty : f.type with
    | scalar t => rw [hty] at hq; cases hq
    | named n =>
      simp only [hty] at hq
      refine ⟨n, rfl, fun hc => ?_⟩
      rw [if_pos (List.contains_iff_mem.mpr hc)] at hq
      cases hq
  · rintro ⟨m, hm, f, hf, n, hn, hq⟩
    refine List.ne_nil_of_mem (a := qualify m.1 n) (List.mem_flatMap.mpr ⟨m, hm, List.mem_filterMap.mpr ⟨f, hf, ?_⟩⟩)
    simp only [hn]
    rw [if_neg (fun h => hq (List.contains_iff_mem.mp h))]

theorem valid_length {l : Lexeme} (h : l.Valid) : 1 ≤ l.text.length := by
  cases l with
  | word n =>
    cases h with
    | one h => obtain ⟨b, r, rfl, _⟩ := h; simp [Lexeme.text]
    | more h t => simp [Lexeme.text]; omega
  | int d =>
    have : d ≠ [] := h.1
    cases d with
    | nil => exact absurd rfl this
    | cons => simp [Lexeme.text]
  | str s => simp [Lexeme.text]
  | sym b => simp [Lexeme.text]

theorem layout_length {ls : List Lexeme} {text : Bytes} (h : Layout ls text) : ls.length ≤ text.length := by
  induction h with
  | done => simp
  | next hg hl he h ih =>
    have := valid_length hl
    simp only [List.length_append, List.length_cons]
    omega

end PG.Proto
