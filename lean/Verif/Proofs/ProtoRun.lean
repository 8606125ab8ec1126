import Verif.Proofs.ProtoSim
/-
The schema parser neither fails internally nor runs out of steps, provided its source of tokens does not.
-/
set_option autoImplicit false
namespace PG.Proto

/-- What an outcome may be: a value with `Q`, an exception other than "Already ungot", or out of steps if `F`. -/
def Hoare {α : Type} (F : Prop) (Q : α → Prop) : Out α → Prop
  | .ok a => Q a
  | .exc e => e.kind ≠ .alreadyUngot
  | .runtime => False
  | .fuel => F

theorem Hoare.bind {α β : Type} {F : Prop} {Q : α → Prop} {Q' : β → Prop} {o : Out α} {f : α → Out β}
    (h : Hoare F Q o) (hf : ∀ a, Q a → Hoare F Q' (f a)) : Hoare F Q' (o.bind f) := by
  cases o <;> first
    | exact hf _ h
    | exact h

theorem Hoare.mono {α : Type} {F : Prop} {Q Q' : α → Prop} {o : Out α} (h : Hoare F Q o) (hq : ∀ a, Q a → Q' a) :
    Hoare F Q' o := by
  cases o <;> first
    | exact hq _ h
    | exact h

section
variable {σ : Type} {F : Prop} {nx : σ → Out (Tok × σ)} {Inv : σ → Prop} {len : σ → Nat}

/-- A source of tokens that consumes something for every token except the end. -/
def GoodSource (F : Prop) (Inv : σ → Prop) (len : σ → Nat) (nx : σ → Out (Tok × σ)) : Prop :=
  ∀ s, Inv s → Hoare F (fun p => Inv p.2 ∧ len p.2 ≤ len s ∧ (p.1.code ≠ .eof → len p.2 < len s)) (nx s)

/-- A tokenizer with nothing pushed back, and at most `L` characters left. -/
def Fresh (Inv : σ → Prop) (len : σ → Nat) (L : Nat) (a : Tk σ) : Prop :=
  a.ungot = false ∧ Inv a.src ∧ len a.src ≤ L

theorem Fresh.mono {L L' : Nat} {a : Tk σ} (h : Fresh Inv len L a) (hl : L ≤ L') : Fresh Inv len L' a :=
  ⟨h.1, h.2.1, Nat.le_trans h.2.2 hl⟩

theorem h_next (hs : GoodSource F Inv len nx) {L : Nat} {a : Tk σ} (h : Fresh Inv len L a) :
    Hoare F (fun b => Fresh Inv len L b ∧ (b.cur.code ≠ .eof → Fresh Inv len (L - 1) b ∧ 0 < L)) (a.next nx) := by
  obtain ⟨h1, h2, h3⟩ := h
  unfold Tk.next
  rw [h1, if_neg (by simp)]
  refine Hoare.bind (hs _ h2) fun p hp => ?_
  obtain ⟨p1, p2, p3⟩ := hp
  refine ⟨⟨rfl, p1, ?_⟩, fun hc => ⟨⟨rfl, p1, ?_⟩, ?_⟩⟩
  · simp only; omega
  · have := p3 hc; simp only; omega
  · have := p3 hc; omega

theorem h_fail {α : Type} {Q : α → Prop} {a : Tk σ} {k : Kind} (hk : k ≠ .alreadyUngot) : Hoare F Q (a.fail k) := hk

theorem optType_eof : optType .eof = none := rfl

/-- The end of `parseOption`, after the name was read. -/
theorem h_option_tail (hs : GoodSource F Inv len nx) {L line : Nat} {name : Bytes} {a : Tk σ}
    (h : Fresh Inv len L a) :
    Hoare F (fun x => Fresh Inv len (L - 2) x.2 ∧ 2 ≤ L)
      ((a.next nx).bind fun tk =>
        if tk.cur.code ≠ .equal then tk.fail .expectedEqual else
        (tk.next nx).bind fun tk =>
        match optType tk.cur.code with
        | none => tk.fail .invalidOptionValue
        | some type => .ok (({ name, type, value := tk.cur.value, line } : OptEntry), tk)) := by
  refine Hoare.bind (h_next hs h) fun b hb => ?_
  split
  · exact h_fail (by decide)
  rename_i hc
  have hc : b.cur.code = .equal := Decidable.not_not.mp hc
  obtain ⟨hb', hpos⟩ := hb.2 (by rw [hc]; decide)
  refine Hoare.bind (h_next hs hb') fun d hd => ?_
  split
  · exact h_fail (by decide)
  · rename_i ty hty
    obtain ⟨hd', hpos'⟩ := hd.2 (by intro e; rw [e] at hty; cases hty)
    exact ⟨hd'.mono (by omega), by omega⟩

theorem h_parseOption (hs : GoodSource F Inv len nx) {L : Nat} {a : Tk σ} (h : Fresh Inv len L a) :
    Hoare F (fun x => Fresh Inv len (L - 3) x.2 ∧ 3 ≤ L) (parseOption nx a) := by
  unfold parseOption
  refine Hoare.bind (h_next hs h) fun b hb => ?_
  split
  · exact h_fail (by decide)
  rename_i hc
  have hc : b.cur.code ≠ .eof := by intro e; rw [e] at hc; exact hc (by decide)
  obtain ⟨hb', hpos⟩ := hb.2 hc
  exact (h_option_tail hs hb').mono fun x hx => ⟨hx.1.mono (by omega), by omega⟩

theorem h_parseOption_ungot (hs : GoodSource F Inv len nx) {L : Nat} {a : Tk σ} (h : Fresh Inv len L a) :
    Hoare F (fun x => Fresh Inv len (L - 2) x.2 ∧ 2 ≤ L ∧ a.cur.code ≠ .eof) (parseOption nx { a with ungot := true }) := by
  unfold parseOption
  have e : ({ a with ungot := true } : Tk σ).next nx = .ok a := by
    cases a; simp [Tk.next]; exact h.1
  rw [e]
  simp only [Out.bind]
  split
  · exact h_fail (by decide)
  rename_i hc
  have hc : a.cur.code ≠ .eof := by intro e; rw [e] at hc; exact hc (by decide)
  exact (h_option_tail hs h).mono fun x hx => ⟨hx.1, hx.2, hc⟩

theorem unget_fresh {L : Nat} {a : Tk σ} (h : Fresh Inv len L a) : a.unget = .ok { a with ungot := true } := by
  unfold Tk.unget; rw [h.1, if_neg (by simp)]

theorem next_ungot {L : Nat} {a : Tk σ} (h : Fresh Inv len L a) :
    ({ a with ungot := true } : Tk σ).next nx = .ok a := by
  cases a; simp [Tk.next]; exact h.1

/-- A tokenizer that may have pushed back its token. -/
def Pushed (Inv : σ → Prop) (len : σ → Nat) (L : Nat) (a : Tk σ) : Prop :=
  Fresh Inv len L a ∨ ∃ b, Fresh Inv len (L - 1) b ∧ 0 < L ∧ a = { b with ungot := true }

/-- One iteration of `parseFieldOptions` after `next`. -/
theorem h_parseFieldOptions (hs : GoodSource F Inv len nx) : ∀ (n : Nat) (m : OptMap) (a : Tk σ) (L : Nat),
    Pushed Inv len L a → (n ≤ L → F) →
    Hoare F (fun x => ∃ b, Fresh Inv len L b ∧ x.2 = { b with ungot := true }) (parseFieldOptions nx n m a)
  | 0, _, _, L, _, hn => hn (Nat.zero_le _)
  | n + 1, m, a, L, h, hn => by
    unfold parseFieldOptions
    -- the token at the head of the iteration
    have hfirst : Hoare F (fun b => Fresh Inv len L b ∧ (b.cur.code ≠ .eof → Fresh Inv len (L - 1) b ∧ 0 < L))
        (a.next nx) := by
      rcases h with h | ⟨b, hb, hL, rfl⟩
      · exact h_next hs h
      · rw [next_ungot hb]
        exact ⟨hb.mono (by omega), fun _ => ⟨hb, hL⟩⟩
    refine Hoare.bind hfirst fun b hb => ?_
    rw [unget_fresh hb.1]
    split
    · exact ⟨b, hb.1, rfl⟩
    simp only [Out.bind]
    by_cases hc : b.cur.code = .eof
    · refine Hoare.bind (h_parseOption_ungot hs hb.1) fun x hx => ?_
      exact absurd hc hx.2.2
    obtain ⟨hb', hpos⟩ := hb.2 hc
    refine Hoare.bind (h_parseOption_ungot hs hb') fun x hx => ?_
    refine Hoare.bind (h_next hs hx.1) fun c hc => ?_
    refine Hoare.bind (Q := Pushed Inv len (L - 1)) ?_ fun d hd => ?_
    · split
      · rw [unget_fresh hc.1]
        exact Or.inr ⟨c, hc.1.mono (by omega), by omega, rfl⟩
      · exact Or.inl (hc.1.mono (by omega))
    · refine (h_parseFieldOptions hs n _ d (L - 1) hd (fun h => hn (by omega))).mono fun y hy => ?_
      obtain ⟨b, hb, e⟩ := hy
      exact ⟨b, hb.mono (by omega), e⟩

theorem h_parseStandardOption (hs : GoodSource F Inv len nx) {L : Nat} {m : OptMap} {a : Tk σ}
    (h : Fresh Inv len L a) :
    Hoare F (fun x => Fresh Inv len (L - 1) x.2 ∧ 0 < L) (parseStandardOption nx m a) := by
  unfold parseStandardOption
  refine Hoare.bind (h_parseOption hs h) fun x hx => ?_
  refine Hoare.bind (h_next hs hx.1) fun b hb => ?_
  split
  · exact h_fail (by decide)
  · exact ⟨hb.1.mono (by omega), by omega⟩

theorem h_parseLabel (hs : GoodSource F Inv len nx) {L : Nat} {a : Tk σ} (h : Fresh Inv len L a) :
    Hoare F (fun x => Fresh Inv len L x.2) (parseLabel nx a) := by
  unfold parseLabel
  split
  · exact Hoare.bind (h_next hs h) fun b hb => hb.1
  split
  · exact Hoare.bind (h_next hs h) fun b hb => hb.1
  · exact h

theorem h_parseType {msgs : List Message} {p : Bytes} {r o : Bool} {a : Tk σ} :
    Hoare F (fun _ => True) (parseType msgs p r o a) := by
  unfold parseType
  split
  · trivial
  split
  · trivial
  · exact h_fail (by decide)

theorem h_parseBrackets (hs : GoodSource F Inv len nx) (N : Nat) {L : Nat} {a : Tk σ} (h : Fresh Inv len L a)
    (hN : N ≤ L → F) : Hoare F (fun x => Fresh Inv len L x.2) (parseBrackets nx N a) := by
  unfold parseBrackets
  split
  · refine Hoare.bind (h_parseFieldOptions hs N [] a L (Or.inl h) hN) fun x hx => ?_
    obtain ⟨b, hb, e⟩ := hx
    obtain ⟨opts, tk⟩ := x
    dsimp only at e ⊢
    rw [e, next_ungot hb]
    simp only [Out.bind]
    split
    · exact h_fail (by decide)
    · exact Hoare.bind (h_next hs hb) fun c hc => hc.1
  · exact h

theorem h_parseField (hs : GoodSource F Inv len nx) (N : Nat) {L : Nat} {msgs : List Message} {m : Message} {a : Tk σ}
    (h : Fresh Inv len L a) (hN : N ≤ L → F) :
    Hoare F (fun x => Fresh Inv len (L - 1) x.2 ∧ 0 < L) (parseField nx N msgs m a) := by
  unfold parseField
  refine Hoare.bind (h_parseLabel hs h) fun x hx => ?_
  refine Hoare.bind h_parseType fun ty _ => ?_
  refine Hoare.bind (h_next hs hx) fun b hb => ?_
  split
  · exact h_fail (by decide)
  refine Hoare.bind (h_next hs hb.1) fun c hc => ?_
  split
  · exact h_fail (by decide)
  rename_i hcode
  have hcode : c.cur.code = .equal := Decidable.not_not.mp hcode
  obtain ⟨hc', hpos⟩ := hc.2 (by rw [hcode]; decide)
  refine Hoare.bind (h_next hs hc') fun d hd => ?_
  split
  · exact h_fail (by decide)
  dsimp only
  split
  · exact h_fail (by decide)
  refine Hoare.bind (h_next hs hd.1) fun e he => ?_
  refine Hoare.bind (h_parseBrackets hs N he.1 (fun h => hN (by omega))) fun y hy => ?_
  split
  · exact h_fail (by decide)
  split
  · exact h_fail (by simp)
  · exact ⟨hy, hpos⟩

theorem h_parseBody (hs : GoodSource F Inv len nx) (N : Nat) {msgs : List Message} :
    ∀ (n : Nat) (m : Message) (a : Tk σ) (L : Nat), Fresh Inv len L a → (N ≤ L → F) → (n ≤ L → F) →
    Hoare F (fun x => Fresh Inv len L x.2) (parseBody nx N msgs n m a)
  | 0, _, _, L, _, _, hn => hn (Nat.zero_le _)
  | n + 1, m, a, L, h, hN, hn => by
    unfold parseBody
    refine Hoare.bind (h_next hs h) fun b hb => ?_
    split
    · exact hb.1
    split
    · exact hb.1
    split
    · refine Hoare.bind (h_parseStandardOption hs hb.1) fun x hx => ?_
      exact (h_parseBody hs N n _ x.2 (L - 1) hx.1 (fun h => hN (by omega)) (fun h => hn (by omega))).mono
        fun y hy => hy.mono (by omega)
    · refine Hoare.bind (h_parseField hs N hb.1 hN) fun x hx => ?_
      exact (h_parseBody hs N n _ x.2 (L - 1) hx.1 (fun h => hN (by omega)) (fun h => hn (by omega))).mono
        fun y hy => hy.mono (by omega)

theorem h_parseMessage (hs : GoodSource F Inv len nx) (N : Nat) {L : Nat} {t : Tree} {a : Tk σ}
    (h : Fresh Inv len L a) (hN : N ≤ L → F) :
    Hoare F (fun x => Fresh Inv len L x.2) (parseMessage nx N t a) := by
  unfold parseMessage
  split
  · refine Hoare.bind (h_next hs h) fun b hb => ?_
    split
    · refine Hoare.bind (h_next hs hb.1) fun c hc => ?_
      split
      · exact h_fail (by decide)
      exact Hoare.bind (h_parseBody hs N N _ c L hc.1 hN hN) fun x hx => hx
    · exact h_fail (by decide)
  · exact h_fail (by decide)

theorem h_parsePackage (hs : GoodSource F Inv len nx) {L : Nat} {t : Tree} {a : Tk σ} (h : Fresh Inv len L a) :
    Hoare F (fun x => Fresh Inv len L x.2) (parsePackage nx t a) := by
  unfold parsePackage
  refine Hoare.bind (h_next hs h) fun b hb => ?_
  split
  · refine Hoare.bind (h_next hs hb.1) fun c hc => ?_
    split
    · exact hc.1
    · exact h_fail (by decide)
  · exact h_fail (by decide)

theorem h_parseSyntax (hs : GoodSource F Inv len nx) {L : Nat} {a : Tk σ} (h : Fresh Inv len L a) :
    Hoare F (fun x => Fresh Inv len L x) (parseSyntax nx a) := by
  unfold parseSyntax
  refine Hoare.bind (h_next hs h) fun b hb => ?_
  split
  · exact h_fail (by decide)
  refine Hoare.bind (h_next hs hb.1) fun c hc => ?_
  split
  · refine Hoare.bind (h_next hs hc.1) fun d hd => ?_
    split
    · split
      · exact h_fail (by decide)
      · exact hd.1
    · exact h_fail (by decide)
  · exact h_fail (by decide)

theorem h_parseItem (hs : GoodSource F Inv len nx) (N : Nat) {L : Nat} {t : Tree} {a : Tk σ}
    (h : Fresh Inv len L a) (hN : N ≤ L → F) :
    Hoare F (fun x => Fresh Inv len L x.2) (parseItem nx N t a) := by
  unfold parseItem
  split
  · exact h_parseMessage hs N h hN
  split
  · exact h_parsePackage hs h
  split
  · exact Hoare.bind (h_parseSyntax hs h) fun b hb => hb
  split
  · exact Hoare.bind (h_parseStandardOption hs h) fun x hx => hx.1.mono (by omega)
  · exact h_fail (by decide)

theorem h_parseProto (hs : GoodSource F Inv len nx) (N : Nat) : ∀ (n : Nat) (t : Tree) (a : Tk σ) (L : Nat),
    Fresh Inv len L a → (N ≤ L → F) → (n ≤ L → F) → Hoare F (fun _ => True) (parseProto nx N n t a)
  | 0, _, _, L, _, _, hn => hn (Nat.zero_le _)
  | n + 1, t, a, L, h, hN, hn => by
    unfold parseProto
    refine Hoare.bind (h_next hs h) fun b hb => ?_
    split
    · trivial
    rename_i hc
    obtain ⟨hb', hpos⟩ := hb.2 hc
    refine Hoare.bind (h_parseItem hs N hb' (fun h => hN (by omega))) fun x hx => ?_
    dsimp only
    split
    · trivial
    · exact h_parseProto hs N n x.1 x.2 (L - 1) hx (fun h => hN (by omega)) (fun h => hn (by omega))

theorem h_resolveFields {msgs : List Message} : ∀ fs : List Field, Hoare F (fun _ => True) (resolveFields msgs fs)
  | [] => trivial
  | f :: fs => by
    unfold resolveFields
    split
    · exact Hoare.bind (h_resolveFields fs) fun _ _ => trivial
    · split
      · exact (by simp : Kind.unresolved _ ≠ Kind.alreadyUngot)
      · exact Hoare.bind (h_resolveFields fs) fun _ _ => trivial

theorem h_resolveMessages {msgs : List Message} : ∀ l : List Message,
    Hoare F (fun _ => True) (resolveMessages msgs l)
  | [] => trivial
  | m :: l => by
    unfold resolveMessages
    exact Hoare.bind (h_resolveFields m.fields) fun _ _ => Hoare.bind (h_resolveMessages l) fun _ _ => trivial

theorem h_parseFrom (hs : GoodSource F Inv len nx) (N : Nat) (s : σ) (hi : Inv s) (hN : N ≤ len s → F) :
    Hoare F (fun _ => True) (parseFrom nx N s) := by
  unfold parseFrom
  refine Hoare.bind (h_parseProto hs N N _ _ (len s) ⟨rfl, hi, Nat.le_refl _⟩ hN hN) fun t _ => ?_
  exact Hoare.bind (h_resolveMessages _) fun _ _ => trivial

end

/-! ### Texts on which the tokenizer ends -/

/-- No comment or string literal reaches the end of the text: after every `//` there is a line feed, after every quote a
line feed or a NUL character. -/
def Closed (bs : Bytes) : Prop :=
  ∀ r : Bytes, r <:+ bs → (∀ q, r = 47 :: 47 :: q → 10 ∈ q) ∧ (∀ q, r = 34 :: q → 10 ∈ q ∨ 0 ∈ q)

theorem Closed.suffix {bs r : Bytes} (h : Closed bs) (hr : r <:+ bs) : Closed r :=
  fun q hq => h q (hq.trans hr)

theorem afterLF_some : ∀ {bs : Bytes}, 10 ∈ bs → ∃ r, afterLF bs = some r
  | [], h => by cases h
  | b :: t, h => by
    rw [afterLF]
    split
    · exact ⟨t, rfl⟩
    · rename_i hb
      exact afterLF_some (by rcases List.mem_cons.mp h with h | h; exact absurd h.symm hb; exact h)

theorem afterLF_suffix : ∀ {bs r : Bytes}, afterLF bs = some r → r <:+ bs
  | [], _, h => by cases h
  | b :: t, r, h => by
    rw [afterLF] at h
    split at h
    · injection h with h; subst h; exact List.suffix_cons _ _
    · exact (afterLF_suffix h).trans (List.suffix_cons _ _)

theorem afterBlock_suffix : ∀ (bs : Bytes), afterBlock bs <:+ bs
  | [] => List.suffix_refl _
  | b :: r => by
    by_cases hb : b = 42
    · subst hb
      cases r with
      | nil => exact List.nil_suffix
      | cons c r' =>
        rw [afterBlock_star]
        split
        · exact (List.suffix_cons _ _).trans (List.suffix_cons _ _)
        · exact (afterBlock_suffix (c :: r')).trans (List.suffix_cons _ _)
    · rw [afterBlock_other r hb]
      exact (afterBlock_suffix r).trans (List.suffix_cons _ _)

theorem afterWord_suffix (bs : Bytes) : afterWord bs <:+ bs := ⟨word bs, word_append bs⟩

theorem aqname_suffix : ∀ (n : Nat) (type : Code) (name bs : Bytes) (c : Code) (v r : Bytes),
    aqname n type name bs = some (c, v, r) → r <:+ bs
  | 0, _, _, _, _, _, _, h => by cases h
  | n + 1, type, name, [], c, v, r, h => by
    simp only [aqname, Option.some.injEq, Prod.mk.injEq] at h
    rw [← h.2.2]; exact List.suffix_refl _
  | n + 1, type, name, b :: t, c, v, r, h => by
    simp only [aqname] at h
    split at h
    · split at h
      · cases h
      · exact ((aqname_suffix n _ _ _ c v r h).trans (afterWord_suffix t)).trans (List.suffix_cons _ _)
    · simp only [Option.some.injEq, Prod.mk.injEq] at h
      rw [← h.2.2]; exact List.suffix_refl _

theorem astr_suffix : ∀ (v bs : Bytes) (c : Code) (w r : Bytes), astr v bs = .tok c w r → r <:+ bs
  | _, [], _, _, _, h => by cases h
  | v, b :: t, c, w, r, h => by
    rw [astr] at h
    split at h
    · injection h with _ _ h; subst h; exact List.suffix_cons _ _
    · split at h
      · injection h with _ _ h; subst h; exact List.suffix_cons _ _
      · exact (astr_suffix _ t c w r h).trans (List.suffix_cons _ _)

theorem astr_hang : ∀ (v bs : Bytes), astr v bs = .hang → 10 ∉ bs ∧ 0 ∉ bs ∧ 34 ∉ bs
  | _, [], _ => by simp
  | v, b :: t, h => by
    rw [astr] at h
    split at h
    · cases h
    · rename_i h1
      split at h
      · cases h
      · rename_i h2
        have := astr_hang _ t h
        refine ⟨?_, ?_, ?_⟩ <;> (intro hm; rcases List.mem_cons.mp hm with e | e)
        · exact h1 (Or.inl e.symm)
        · exact this.1 e
        · exact h1 (Or.inr e.symm)
        · exact this.2.1 e
        · exact h2 e.symm
        · exact this.2.2 e

/-- What follows a token is a suffix of the text. -/
theorem alex_suffix : ∀ (n : Nat) (bs : Bytes), bs.length ≤ n → ∀ (c : Code) (v r : Bytes), alex bs = .tok c v r →
    r <:+ bs
  | n, [], _, c, v, r, h => by
    rw [alex_nil] at h
    injection h with h1 h2 h3
    subst h3
    exact List.suffix_refl _
  | 0, b :: t, hl, _, _, _, _ => by simp at hl
  | n + 1, b :: t, hl, c, v, r, h => by
    simp only [List.length_cons, Nat.add_le_add_iff_right] at hl
    by_cases hw : wsB b = true
    · rw [alex_ws t hw] at h
      exact (alex_suffix n t hl c v r h).trans (List.suffix_cons _ _)
    rw [Bool.not_eq_true] at hw
    by_cases hlt : letterB b = true
    · rw [alex_letter t hw hlt] at h
      split at h
      · rename_i cc vv rr heq
        injection h with _ _ h; subst h
        exact (aqname_suffix _ _ _ _ _ _ _ heq).trans (afterWord_suffix _)
      · cases h
    rw [Bool.not_eq_true] at hlt
    by_cases hd : digitB b = true
    · rw [alex_digit t hw hlt hd] at h
      injection h with _ _ h; subst h
      exact (List.dropWhile_suffix _).trans (List.suffix_cons _ _)
    rw [Bool.not_eq_true] at hd
    by_cases h47 : b = 47
    · subst h47
      cases t with
      | nil =>
        rw [alex_slash_nil] at h
        injection h with _ _ h; subst h; exact List.nil_suffix
      | cons x t =>
        simp only [List.length_cons] at hl
        have hsuf : t <:+ 47 :: x :: t := (List.suffix_cons _ _).trans (List.suffix_cons _ _)
        by_cases hx : x = 47
        · subst hx
          rw [alex_line] at h
          split at h
          · cases h
          · rename_i q hq
            have := afterLF_length hq
            exact ((alex_suffix n q (by omega) c v r h).trans (afterLF_suffix hq)).trans hsuf
        by_cases hx2 : x = 42
        · subst hx2
          rw [alex_block] at h
          have := afterBlock_length t
          exact ((alex_suffix n _ (by omega) c v r h).trans (afterBlock_suffix t)).trans hsuf
        · rw [alex_slash x t hx hx2] at h
          exact (alex_suffix n t (by omega) c v r h).trans hsuf
    by_cases h34 : b = 34
    · subst h34
      rw [alex_quote] at h
      exact (astr_suffix _ _ _ _ _ h).trans (List.suffix_cons _ _)
    rw [alex_symbol t hw hlt hd h47 h34] at h
    split at h
    · injection h with _ _ h; subst h; exact List.suffix_cons _ _
    · cases h

theorem alex_not_hang : ∀ (n : Nat) (bs : Bytes), bs.length ≤ n → Closed bs → alex bs ≠ .hang
  | n, [], _, _ => by rw [alex_nil]; simp
  | 0, b :: t, hl, _ => by simp at hl
  | n + 1, b :: t, hl, hc => by
    simp only [List.length_cons, Nat.add_le_add_iff_right] at hl
    by_cases hw : wsB b = true
    · rw [alex_ws t hw]
      exact alex_not_hang n t hl (hc.suffix (List.suffix_cons _ _))
    rw [Bool.not_eq_true] at hw
    by_cases hlt : letterB b = true
    · rw [alex_letter t hw hlt]
      split <;> simp
    rw [Bool.not_eq_true] at hlt
    by_cases hd : digitB b = true
    · rw [alex_digit t hw hlt hd]; simp
    rw [Bool.not_eq_true] at hd
    by_cases h47 : b = 47
    · subst h47
      cases t with
      | nil => rw [alex_slash_nil]; simp
      | cons x t =>
        simp only [List.length_cons] at hl
        have hsuf : t <:+ 47 :: x :: t := (List.suffix_cons _ _).trans (List.suffix_cons _ _)
        by_cases hx : x = 47
        · subst hx
          rw [alex_line]
          obtain ⟨q, hq⟩ := afterLF_some ((hc _ (List.suffix_refl _)).1 t rfl)
          rw [hq]
          have := afterLF_length hq
          exact alex_not_hang n q (by omega) (hc.suffix ((afterLF_suffix hq).trans hsuf))
        by_cases hx2 : x = 42
        · subst hx2
          rw [alex_block]
          have := afterBlock_length t
          exact alex_not_hang n _ (by omega) (hc.suffix ((afterBlock_suffix t).trans hsuf))
        · rw [alex_slash x t hx hx2]
          exact alex_not_hang n t (by omega) (hc.suffix hsuf)
    by_cases h34 : b = 34
    · subst h34
      rw [alex_quote]
      intro h
      have h1 := astr_hang _ _ h
      rcases (hc _ (List.suffix_refl _)).2 t rfl with h2 | h2
      · exact h1.1 h2
      · exact h1.2.1 h2
    rw [alex_symbol t hw hlt hd h47 h34]
    split <;> simp

/-- Exceptions of the tokenizer. -/
theorem alex_kind : ∀ (n : Nat) (bs : Bytes), bs.length ≤ n → ∀ k, alex bs = .exc k → k ≠ .alreadyUngot
  | n, [], _, k, h => by rw [alex_nil] at h; cases h
  | 0, b :: t, hl, _, _ => by simp at hl
  | n + 1, b :: t, hl, k, h => by
    simp only [List.length_cons, Nat.add_le_add_iff_right] at hl
    by_cases hw : wsB b = true
    · rw [alex_ws t hw] at h
      exact alex_kind n t hl k h
    rw [Bool.not_eq_true] at hw
    by_cases hlt : letterB b = true
    · rw [alex_letter t hw hlt] at h
      split at h
      · cases h
      · injection h with h; subst h; decide
    rw [Bool.not_eq_true] at hlt
    by_cases hd : digitB b = true
    · rw [alex_digit t hw hlt hd] at h; cases h
    rw [Bool.not_eq_true] at hd
    by_cases h47 : b = 47
    · subst h47
      cases t with
      | nil => rw [alex_slash_nil] at h; cases h
      | cons x t =>
        simp only [List.length_cons] at hl
        by_cases hx : x = 47
        · subst hx
          rw [alex_line] at h
          split at h
          · cases h
          · rename_i q hq
            have := afterLF_length hq
            exact alex_kind n q (by omega) k h
        by_cases hx2 : x = 42
        · subst hx2
          rw [alex_block] at h
          have := afterBlock_length t
          exact alex_kind n _ (by omega) k h
        · rw [alex_slash x t hx hx2] at h
          exact alex_kind n t (by omega) k h
    by_cases h34 : b = 34
    · subst h34
      rw [alex_quote] at h
      have : ∀ (v bs : Bytes), astr v bs ≠ .exc k := by
        intro v bs
        induction bs generalizing v with
        | nil => simp [astr]
        | cons b t ih =>
          rw [astr]
          split
          · simp
          · split
            · simp
            · exact ih _
      exact absurd h (this _ _)
    rw [alex_symbol t hw hlt hd h47 h34] at h
    split at h
    · cases h
    · injection h with h; subst h; decide

theorem good_anext_any : GoodSource True (fun _ => True) List.length anext := by
  intro s _
  unfold anext
  cases hx : alex s with
  | tok c v r =>
    have := alex_length _ _ (Nat.le_refl _) c v r hx
    exact ⟨trivial, this.1, this.2⟩
  | exc k => exact alex_kind _ _ (Nat.le_refl _) k hx
  | hang => trivial

theorem good_anext_closed : GoodSource False Closed List.length anext := by
  intro s hs
  unfold anext
  cases hx : alex s with
  | tok c v r =>
    have := alex_length _ _ (Nat.le_refl _) c v r hx
    exact ⟨hs.suffix (alex_suffix _ _ (Nat.le_refl _) c v r hx), this.1, this.2⟩
  | exc k => exact alex_kind _ _ (Nat.le_refl _) k hx
  | hang => exact absurd hx (alex_not_hang _ _ (Nat.le_refl _) hs)

/-- Whatever the number of steps, the parser succeeds, throws an exception other than "Already ungot", or is still
running. -/
theorem parse_safe (N : Nat) (text : Bytes) : Hoare True (fun _ => True) (parse N text) := by
  have h := parse_tokens N text
  have g := h_parseFrom good_anext_any N text trivial (fun _ => trivial)
  revert h g
  generalize parse N text = o
  generalize parseFrom anext N text = p
  intro h g
  cases o <;> cases p <;> simp_all [Rel, Hoare]

/-- On a text whose comments and strings are closed the parser ends. -/
theorem parse_ends {N : Nat} {text : Bytes} (hc : Closed text) (hN : text.length < N) : parse N text ≠ .fuel := by
  have h := parse_tokens N text
  have g := h_parseFrom good_anext_closed N text hc (fun h => absurd h (by omega))
  intro e
  rw [e] at h
  revert h g
  generalize parseFrom anext N text = p
  intro h g
  cases p <;> simp_all [Rel, Hoare] <;> omega

end PG.Proto
