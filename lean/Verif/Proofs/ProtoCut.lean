import Verif.Proofs.ProtoSim
/-
An error of the schema parser is decided by the token at which it is reported: the parser has read that token and
nothing after it.  The run over a file is compared with the runs over its first `k` tokens, after which there are no
steps left (`cut`).
-/
set_option autoImplicit false
namespace PG.Proto

/-- The first `k` tokens of a sequence of tokens. -/
def cut (toks : Nat → Out Tok) (k c : Nat) : Out (Tok × Nat) :=
  if c < k then (toks c).bind fun t => .ok (t, c + 1) else .fuel

/-- None of the first `j` tokens is the end of the file. -/
def NoEnd (toks : Nat → Out Tok) (j : Nat) : Prop := ∀ i, i < j → ∀ t, toks i = .ok t → t.code ≠ .eof

/-- The exception is at the last of the first `j` tokens. -/
def LastAt (toks : Nat → Out Tok) (j : Nat) (e : Exc) : Prop :=
  ∃ i, j = i + 1 ∧ NoEnd toks i ∧ ((∃ t, toks i = .ok t ∧ e.line = t.line ∧ e.col = t.col) ∨ toks i = .exc e)

/-- A run that has read `c` tokens, and the runs over the first `k` tokens: they agree from some `k` on, and have no
steps left before. -/
def Cut (toks : Nat → Out Tok) {α β : Type} (c : Nat) (Q : α → β → Nat → Prop) : Out α → (Nat → Out β) → Prop
  | .ok a, f => ∃ j b, c ≤ j ∧ Q a b j ∧ (∀ k, c ≤ k → k < j → f k = .fuel) ∧ ∀ k, j ≤ k → f k = .ok b
  | .exc e, f => ∃ j, c ≤ j ∧ LastAt toks j e ∧ (∀ k, c ≤ k → k < j → f k = .fuel) ∧ ∀ k, j ≤ k → f k = .exc e
  | .runtime, _ => True
  | .fuel, f => ∀ k, c ≤ k → f k = .fuel

section
variable {toks : Nat → Out Tok}

theorem Cut.bind {α β α' β' : Type} {c : Nat} {Q : α → β → Nat → Prop} {Q' : α' → β' → Nat → Prop} {o : Out α}
    {f : Nat → Out β} {g : α → Out α'} {h : Nat → β → Out β'} (H : Cut toks c Q o f)
    (K : ∀ a b j, Q a b j → Cut toks j Q' (g a) (fun k => h k b)) :
    Cut toks c Q' (o.bind g) (fun k => (f k).bind (h k)) := by
  cases o with
  | ok a =>
    obtain ⟨j, b, h1, h2, h3, h4⟩ := H
    have hk := K a b j h2
    show Cut toks c Q' (g a) _
    cases hg : g a with
    | ok a' =>
      rw [hg] at hk
      obtain ⟨j', b', k1, k2, k3, k4⟩ := hk
      refine ⟨j', b', Nat.le_trans h1 k1, k2, ?_, ?_⟩
      · intro k l1 l2
        by_cases hj : k < j
        · simp only [h3 k l1 hj]; rfl
        · simp only [h4 k (by omega)]; exact k3 k (by omega) l2
      · intro k l
        simp only [h4 k (by omega)]; exact k4 k l
    | exc e =>
      rw [hg] at hk
      obtain ⟨j', k1, k2, k3, k4⟩ := hk
      refine ⟨j', Nat.le_trans h1 k1, k2, ?_, ?_⟩
      · intro k l1 l2
        by_cases hj : k < j
        · simp only [h3 k l1 hj]; rfl
        · simp only [h4 k (by omega)]; exact k3 k (by omega) l2
      · intro k l
        simp only [h4 k (by omega)]; exact k4 k l
    | runtime => trivial
    | fuel =>
      rw [hg] at hk
      intro k l
      by_cases hj : k < j
      · simp only [h3 k l hj]; rfl
      · simp only [h4 k (by omega)]; exact hk k (by omega)
  | exc e =>
    obtain ⟨j, h1, h2, h3, h4⟩ := H
    refine ⟨j, h1, h2, ?_, ?_⟩
    · intro k l1 l2; simp only [h3 k l1 l2]; rfl
    · intro k l; simp only [h4 k l]; rfl
  | runtime => trivial
  | fuel => intro k l; simp only [H k l]; rfl

theorem Cut.mono {α β : Type} {c : Nat} {Q Q' : α → β → Nat → Prop} {o : Out α} {f : Nat → Out β}
    (h : Cut toks c Q o f) (hq : ∀ a b j, Q a b j → Q' a b j) : Cut toks c Q' o f := by
  cases o with
  | ok a =>
    obtain ⟨j, b, h1, h2, h3⟩ := h
    exact ⟨j, b, h1, hq _ _ _ h2, h3⟩
  | exc e => exact h
  | runtime => trivial
  | fuel => exact h

theorem Cut.ok {α β : Type} {c : Nat} {Q : α → β → Nat → Prop} {a : α} {b : β} (h : Q a b c) :
    Cut toks c Q (.ok a) (fun _ => .ok b) :=
  ⟨c, b, Nat.le_refl _, h, fun k h1 h2 => absurd h2 (by omega), fun _ _ => rfl⟩

theorem Cut.noFuel {α β : Type} {c : Nat} {Q : α → β → Nat → Prop} : Cut toks c Q .fuel (fun _ => .fuel) :=
  fun _ _ => rfl

theorem Cut.ite {α β : Type} {p : Prop} [Decidable p] {c : Nat} {Q : α → β → Nat → Prop} {o1 o2 : Out α}
    {f1 f2 : Nat → Out β} (h1 : p → Cut toks c Q o1 f1) (h2 : ¬ p → Cut toks c Q o2 f2) :
    Cut toks c Q (if p then o1 else o2) (fun k => if p then f1 k else f2 k) := by
  by_cases hp : p
  · simp only [if_pos hp]; exact h1 hp
  · simp only [if_neg hp]; exact h2 hp

end

section
variable {σ : Type} {nx : σ → Out (Tok × σ)} {toks : Nat → Out Tok} {R : σ → Nat → Prop}

/-- The source delivers the sequence of tokens. -/
def Delivers (R : σ → Nat → Prop) (nx : σ → Out (Tok × σ)) (toks : Nat → Out Tok) : Prop :=
  ∀ s c, R s c → match nx s with
    | .ok (t, s') => toks c = .ok t ∧ R s' (c + 1)
    | .exc e => toks c = .exc e
    | .runtime => True
    | .fuel => toks c = .fuel

/-- The same state of the parser in both runs, `j` tokens having been read. -/
def Same (R : σ → Nat → Prop) (a : Tk σ) (b : Tk Nat) (j : Nat) : Prop :=
  a.cur = b.cur ∧ a.ungot = b.ungot ∧ R a.src b.src ∧ b.src = j

/-- The current token is the last one that was read. -/
def Last (toks : Nat → Out Tok) (b : Tk Nat) (j : Nat) : Prop :=
  ∃ i, j = i + 1 ∧ NoEnd toks i ∧ toks i = .ok b.cur

/-- The same state, with the last token that was read as the current one. -/
def Have (toks : Nat → Out Tok) (R : σ → Nat → Prop) (a : Tk σ) (b : Tk Nat) (j : Nat) : Prop :=
  Same R a b j ∧ Last toks b j

/-- The same state before a call of `next`. -/
def Ready (toks : Nat → Out Tok) (R : σ → Nat → Prop) (a : Tk σ) (b : Tk Nat) (j : Nat) : Prop :=
  Same R a b j ∧ (b.ungot = true → Last toks b j) ∧ (b.ungot = false → NoEnd toks j)

/-- As `Have`, and the current token is not the end of the file. -/
def Live (toks : Nat → Out Tok) (R : σ → Nat → Prop) (a : Tk σ) (b : Tk Nat) (j : Nat) : Prop :=
  Have toks R a b j ∧ b.cur.code ≠ .eof

theorem Live.ready {a : Tk σ} {b : Tk Nat} {j : Nat} (h : Live toks R a b j) : Ready toks R a b j := by
  refine ⟨h.1.1, fun _ => h.1.2, fun _ => ?_⟩
  obtain ⟨i, rfl, h2, h3⟩ := h.1.2
  intro i' hi t ht
  by_cases e : i' = i
  · subst e
    rw [h3] at ht
    injection ht with ht
    subst ht
    exact h.2
  · exact h2 i' (by omega) t ht

theorem Have.ready {a : Tk σ} {b : Tk Nat} {j : Nat} (h : Have toks R a b j) (hc : b.cur.code ≠ .eof) :
    Ready toks R a b j := Live.ready ⟨h, hc⟩

/-- As `Have`, and the current token was put back. -/
def Back (toks : Nat → Out Tok) (R : σ → Nat → Prop) (a : Tk σ) (b : Tk Nat) (j : Nat) : Prop :=
  Have toks R a b j ∧ b.ungot = true

theorem Back.ready {a : Tk σ} {b : Tk Nat} {j : Nat} (h : Back toks R a b j) : Ready toks R a b j :=
  ⟨h.1.1, fun _ => h.1.2, fun e => by rw [h.2] at e; cases e⟩

/-- A value and the state. -/
def With {α : Type} (P : Tk σ → Tk Nat → Nat → Prop) (a : α × Tk σ) (b : α × Tk Nat) (j : Nat) : Prop :=
  a.1 = b.1 ∧ P a.2 b.2 j

theorem c_next (hd : Delivers R nx toks) {a : Tk σ} {b : Tk Nat} {j : Nat} (h : Ready toks R a b j) :
    Cut toks j (Have toks R) (a.next nx) (fun k => b.next (cut toks k)) := by
  obtain ⟨acur, au, s⟩ := a
  obtain ⟨bcur, bu, c⟩ := b
  obtain ⟨⟨h1, h2, h3, h4⟩, h5, h6⟩ := h
  simp only at h1 h2 h3 h4 h5 h6
  subst h1 h2 h4
  unfold Tk.next
  cases au with
  | true =>
    simp only [if_true]
    exact Cut.ok ⟨⟨rfl, rfl, h3, rfl⟩, h5 rfl⟩
  | false =>
    simp only [Bool.false_eq_true, if_false]
    have hs := hd s c h3
    cases hn : nx s with
    | ok p =>
      obtain ⟨t, s'⟩ := p
      rw [hn] at hs
      obtain ⟨k1, k2⟩ := hs
      refine ⟨c + 1, { cur := t, ungot := false, src := c + 1 }, by omega, ⟨⟨rfl, rfl, k2, rfl⟩, c, rfl, h6 rfl, k1⟩, ?_, ?_⟩
      · intro k l1 l2
        have : ¬ c < k := by omega
        simp only [cut, if_neg this, Out.bind]
      · intro k l
        have : c < k := by omega
        simp only [cut, if_pos this, k1, Out.bind]
    | exc e =>
      rw [hn] at hs
      simp only at hs
      refine ⟨c + 1, by omega, ⟨c, rfl, h6 rfl, Or.inr hs⟩, ?_, ?_⟩
      · intro k l1 l2
        have : ¬ c < k := by omega
        simp only [cut, if_neg this, Out.bind]
      · intro k l
        have : c < k := by omega
        simp only [cut, if_pos this, hs, Out.bind]
    | runtime => trivial
    | fuel =>
      rw [hn] at hs
      simp only at hs
      intro k l
      by_cases hk : c < k
      · simp only [cut, if_pos hk, hs, Out.bind]
      · simp only [cut, if_neg hk, Out.bind]

theorem c_fail {α β : Type} {Q : α → β → Nat → Prop} {a : Tk σ} {b : Tk Nat} {j : Nat} (h : Have toks R a b j)
    (k : Kind) : Cut toks j Q (a.fail k) (fun _ => b.fail k) := by
  obtain ⟨⟨h1, _, _, _⟩, i, h5, h0, h6⟩ := h
  unfold Tk.fail
  rw [← h1] at h6 ⊢
  exact ⟨j, Nat.le_refl _, ⟨i, h5, h0, Or.inl ⟨a.cur, h6, rfl, rfl⟩⟩, fun k h1 h2 => absurd h2 (by omega), fun _ _ => rfl⟩

theorem c_unget {a : Tk σ} {b : Tk Nat} {j : Nat} (h : Have toks R a b j) :
    Cut toks j (Back toks R) a.unget (fun _ => b.unget) := by
  have hf := c_fail (Q := Back toks R) h .alreadyUngot
  obtain ⟨⟨h1, h2, h3, h4⟩, h5⟩ := h
  unfold Tk.unget
  rw [h2]
  by_cases hu : b.ungot = true
  · simp only [if_pos hu]; exact hf
  · simp only [if_neg hu]
    exact Cut.ok ⟨⟨⟨h1, rfl, h3, h4⟩, h5⟩, rfl⟩

theorem c_option (hd : Delivers R nx toks) {a : Tk σ} {b : Tk Nat} {j : Nat} (h : Ready toks R a b j) :
    Cut toks j (With (Live toks R)) (parseOption nx a) (fun k => parseOption (cut toks k) b) := by
  unfold parseOption
  rw [h.1.1]
  refine Cut.bind (c_next hd h) fun a1 b1 j1 h1 => ?_
  rw [h1.1.1]
  refine Cut.ite (fun _ => c_fail h1 _) fun hc => ?_
  refine Cut.bind (c_next hd (h1.ready (by intro e; rw [e] at hc; exact hc (by decide)))) fun a2 b2 j2 h2 => ?_
  rw [h2.1.1]
  refine Cut.ite (fun _ => c_fail h2 _) fun hc => ?_
  refine Cut.bind (c_next hd (h2.ready (by intro e; rw [e] at hc; exact hc (by decide)))) fun a3 b3 j3 h3 => ?_
  rw [h3.1.1]
  cases ho : optType b3.cur.code with
  | none => exact c_fail h3 _
  | some t => exact Cut.ok ⟨rfl, h3, by intro e; rw [e] at ho; cases ho⟩

theorem c_fieldOptions (hd : Delivers R nx toks) : ∀ (n : Nat) (m : OptMap) (a : Tk σ) (b : Tk Nat) (j : Nat),
    Ready toks R a b j →
    Cut toks j (With (Back toks R)) (parseFieldOptions nx n m a) (fun k => parseFieldOptions (cut toks k) n m b)
  | 0, _, _, _, _, _ => Cut.noFuel
  | n + 1, m, a, b, j, h => by
    simp only [parseFieldOptions]
    refine Cut.bind (c_next hd h) fun a1 b1 j1 h1 => ?_
    have hc := h1.1.1
    rw [hc]
    refine Cut.ite (fun _ => Cut.bind (c_unget h1) fun a2 b2 j2 h2 => Cut.ok ⟨rfl, h2⟩) fun _ => ?_
    refine Cut.bind (c_unget h1) fun a2 b2 j2 h2 => ?_
    refine Cut.bind (c_option hd h2.ready) fun p q j3 h3 => ?_
    obtain ⟨o, a3⟩ := p
    obtain ⟨o', b3⟩ := q
    obtain ⟨e, h3⟩ := h3
    simp only at e h3
    subst e
    refine Cut.bind (c_next hd h3.ready) fun a4 b4 j4 h4 => ?_
    have key : Cut toks j4 (Ready toks R) (if a4.cur.code ≠ .comma then a4.unget else .ok a4)
        (fun _ => if b4.cur.code ≠ .comma then b4.unget else .ok b4) := by
      rw [h4.1.1]
      refine Cut.ite (fun _ => (c_unget h4).mono fun _ _ _ h => h.ready) (fun hc => Cut.ok (h4.ready ?_))
      intro e
      rw [e] at hc
      exact hc (by decide)
    refine Cut.bind key fun a5 b5 j5 h5 => ?_
    exact c_fieldOptions hd n _ _ _ _ h5

theorem c_standardOption (hd : Delivers R nx toks) {m : OptMap} {a : Tk σ} {b : Tk Nat} {j : Nat}
    (h : Ready toks R a b j) :
    Cut toks j (With (Live toks R)) (parseStandardOption nx m a) (fun k => parseStandardOption (cut toks k) m b) := by
  unfold parseStandardOption
  refine Cut.bind (c_option hd h) fun p q j1 h1 => ?_
  obtain ⟨o, a1⟩ := p
  obtain ⟨o', b1⟩ := q
  obtain ⟨e, h1⟩ := h1
  simp only at e h1
  subst e
  refine Cut.bind (c_next hd h1.ready) fun a2 b2 j2 h2 => ?_
  rw [h2.1.1]
  exact Cut.ite (fun _ => c_fail h2 _) fun hc => Cut.ok ⟨rfl, h2, by intro e; rw [e] at hc; exact hc (by decide)⟩

theorem c_label (hd : Delivers R nx toks) {a : Tk σ} {b : Tk Nat} {j : Nat} (h : Have toks R a b j) :
    Cut toks j (With (Have toks R)) (parseLabel nx a) (fun k => parseLabel (cut toks k) b) := by
  unfold parseLabel
  rw [h.1.1]
  refine Cut.ite (fun hc => Cut.bind (c_next hd (h.ready (by rw [hc]; decide))) fun a2 b2 j2 h2 => Cut.ok ⟨rfl, h2⟩)
    fun _ => ?_
  refine Cut.ite (fun hc => Cut.bind (c_next hd (h.ready (by rw [hc]; decide))) fun a2 b2 j2 h2 => Cut.ok ⟨rfl, h2⟩)
    fun _ => ?_
  exact Cut.ok ⟨rfl, h⟩

theorem c_type {a : Tk σ} {b : Tk Nat} {j : Nat} (h : Have toks R a b j) (msgs : List Message) (p : Bytes)
    (r o : Bool) :
    Cut toks j (fun x y i => x = y ∧ i = j ∧ b.cur.code ≠ .eof) (parseType msgs p r o a)
      (fun _ => parseType msgs p r o b) := by
  have hf := c_fail (Q := fun (x y : TypeInfo) i => x = y ∧ i = j ∧ b.cur.code ≠ .eof) h .missingType
  unfold parseType
  rw [h.1.1]
  have hne : b.cur.code ≠ .eof ∨ b.cur.code = .eof := by
    by_cases h : b.cur.code = .eof
    · exact Or.inr h
    · exact Or.inl h
  generalize b.cur.code = code at hne hf
  cases code <;> first
    | exact hf
    | exact Cut.ok ⟨rfl, rfl, hne.resolve_right (by simp)⟩

theorem c_brackets (hd : Delivers R nx toks) (N : Nat) {a : Tk σ} {b : Tk Nat} {j : Nat} (h : Have toks R a b j) :
    Cut toks j (With (Have toks R)) (parseBrackets nx N a) (fun k => parseBrackets (cut toks k) N b) := by
  unfold parseBrackets
  rw [h.1.1]
  refine Cut.ite (fun hc => ?_) fun _ => Cut.ok ⟨rfl, h⟩
  refine Cut.bind (c_fieldOptions hd N _ _ _ _ (h.ready (by rw [hc]; decide))) fun p q j1 h1 => ?_
  obtain ⟨o, a1⟩ := p
  obtain ⟨o', b1⟩ := q
  obtain ⟨e, h1⟩ := h1
  simp only at e h1
  subst e
  refine Cut.bind (c_next hd h1.ready) fun a2 b2 j2 h2 => ?_
  rw [h2.1.1]
  refine Cut.ite (fun _ => c_fail h2 _) fun hc => ?_
  exact Cut.bind (c_next hd (h2.ready (by intro e; rw [e] at hc; exact hc (by decide)))) fun a3 b3 j3 h3 =>
    Cut.ok ⟨rfl, h3⟩

theorem c_field (hd : Delivers R nx toks) (N : Nat) (msgs : List Message) (m : Message) {a : Tk σ} {b : Tk Nat}
    {j : Nat} (h : Have toks R a b j) :
    Cut toks j (With (Live toks R)) (parseField nx N msgs m a) (fun k => parseField (cut toks k) N msgs m b) := by
  unfold parseField
  refine Cut.bind (c_label hd h) fun p q j1 h1 => ?_
  obtain ⟨⟨r, o⟩, a1⟩ := p
  obtain ⟨⟨r', o'⟩, b1⟩ := q
  obtain ⟨e, h1⟩ := h1
  simp only at e h1
  injection e with e1 e2
  subst e1 e2
  refine Cut.bind (c_type h1 msgs m.package r o) fun ty ty' j2 h2 => ?_
  obtain ⟨rfl, rfl, hc⟩ := h2
  refine Cut.bind (c_next hd (h1.ready hc)) fun a3 b3 j3 h3 => ?_
  rw [h3.1.1]
  refine Cut.ite (fun _ => c_fail h3 _) fun hc => ?_
  refine Cut.bind (c_next hd (h3.ready (by intro e; rw [e] at hc; exact hc (by decide)))) fun a4 b4 j4 h4 => ?_
  rw [h4.1.1]
  refine Cut.ite (fun _ => c_fail h4 _) fun hc => ?_
  refine Cut.bind (c_next hd (h4.ready (by intro e; rw [e] at hc; exact hc (by decide)))) fun a5 b5 j5 h5 => ?_
  rw [h5.1.1]
  refine Cut.ite (fun _ => c_fail h5 _) fun hc => ?_
  refine Cut.ite (fun _ => c_fail h5 _) fun _ => ?_
  refine Cut.bind (c_next hd (h5.ready (by intro e; rw [e] at hc; exact hc (by decide)))) fun a6 b6 j6 h6 => ?_
  refine Cut.bind (c_brackets hd N h6) fun p q j7 h7 => ?_
  obtain ⟨os, a7⟩ := p
  obtain ⟨os', b7⟩ := q
  obtain ⟨e, h7⟩ := h7
  simp only at e h7
  subst e
  dsimp only
  rw [h7.1.1]
  refine Cut.ite (fun _ => c_fail h7 _) fun hc => ?_
  refine Cut.ite (fun _ => c_fail h7 _) fun _ => ?_
  exact Cut.ok ⟨rfl, h7, by intro e; rw [e] at hc; exact hc (by decide)⟩

theorem c_body (hd : Delivers R nx toks) (N : Nat) (msgs : List Message) : ∀ (n : Nat) (m : Message) (a : Tk σ)
    (b : Tk Nat) (j : Nat), Ready toks R a b j →
    Cut toks j (With (Have toks R)) (parseBody nx N msgs n m a) (fun k => parseBody (cut toks k) N msgs n m b)
  | 0, _, _, _, _, _ => Cut.noFuel
  | n + 1, m, a, b, j, h => by
    simp only [parseBody]
    refine Cut.bind (c_next hd h) fun a1 b1 j1 h1 => ?_
    rw [h1.1.1]
    refine Cut.ite (fun _ => Cut.ok ⟨rfl, h1⟩) fun hc => ?_
    refine Cut.ite (fun _ => Cut.ok ⟨rfl, h1⟩) fun _ => ?_
    refine Cut.ite (fun _ => ?_) fun _ => ?_
    · refine Cut.bind (c_standardOption hd (h1.ready hc)) fun p q j2 h2 => ?_
      obtain ⟨o, a2⟩ := p
      obtain ⟨o', b2⟩ := q
      obtain ⟨e, h2⟩ := h2
      simp only at e h2
      subst e
      exact c_body hd N msgs n _ _ _ _ h2.ready
    · refine Cut.bind (c_field hd N msgs m h1) fun p q j2 h2 => ?_
      obtain ⟨o, a2⟩ := p
      obtain ⟨o', b2⟩ := q
      obtain ⟨e, h2⟩ := h2
      simp only at e h2
      subst e
      exact c_body hd N msgs n _ _ _ _ h2.ready

theorem c_message (hd : Delivers R nx toks) (N : Nat) (t : Tree) {a : Tk σ} {b : Tk Nat} {j : Nat}
    (h : Have toks R a b j) :
    Cut toks j (With (Have toks R)) (parseMessage nx N t a) (fun k => parseMessage (cut toks k) N t b) := by
  unfold parseMessage
  have hc := h.1.1
  rw [hc]
  refine Cut.ite (fun hc => ?_) fun _ => c_fail h _
  refine Cut.bind (c_next hd (h.ready (by rw [hc]; decide))) fun a1 b1 j1 h1 => ?_
  rw [h1.1.1]
  refine Cut.ite (fun hc => ?_) fun _ => c_fail h1 _
  refine Cut.bind (c_next hd (h1.ready (by intro e; rw [e] at hc; cases hc))) fun a2 b2 j2 h2 => ?_
  rw [h2.1.1]
  refine Cut.ite (fun _ => c_fail h2 _) fun hc => ?_
  refine Cut.bind (c_body hd N _ N _ _ _ _ (h2.ready (by intro e; rw [e] at hc; exact hc (by decide)))) fun p q j3 h3 => ?_
  obtain ⟨o, a3⟩ := p
  obtain ⟨o', b3⟩ := q
  obtain ⟨e, h3⟩ := h3
  simp only at e h3
  subst e
  exact Cut.ok ⟨rfl, h3⟩

theorem c_package (hd : Delivers R nx toks) (t : Tree) {a : Tk σ} {b : Tk Nat} {j : Nat} (h : Live toks R a b j) :
    Cut toks j (With (Have toks R)) (parsePackage nx t a) (fun k => parsePackage (cut toks k) t b) := by
  unfold parsePackage
  refine Cut.bind (c_next hd h.ready) fun a1 b1 j1 h1 => ?_
  rw [h1.1.1]
  refine Cut.ite (fun hc => ?_) fun _ => c_fail h1 _
  refine Cut.bind (c_next hd (h1.ready (by intro e; rw [e] at hc; revert hc; decide))) fun a2 b2 j2 h2 => ?_
  rw [h2.1.1]
  exact Cut.ite (fun _ => Cut.ok ⟨rfl, h2⟩) fun _ => c_fail h2 _

theorem c_syntax (hd : Delivers R nx toks) {a : Tk σ} {b : Tk Nat} {j : Nat} (h : Live toks R a b j) :
    Cut toks j (Have toks R) (parseSyntax nx a) (fun k => parseSyntax (cut toks k) b) := by
  unfold parseSyntax
  refine Cut.bind (c_next hd h.ready) fun a1 b1 j1 h1 => ?_
  rw [h1.1.1]
  refine Cut.ite (fun _ => c_fail h1 _) fun hc => ?_
  refine Cut.bind (c_next hd (h1.ready (by intro e; rw [e] at hc; exact hc (by decide)))) fun a2 b2 j2 h2 => ?_
  rw [h2.1.1]
  refine Cut.ite (fun hc => ?_) fun _ => c_fail h2 _
  refine Cut.bind (c_next hd (h2.ready (by rw [hc]; decide))) fun a3 b3 j3 h3 => ?_
  rw [h3.1.1]
  refine Cut.ite (fun _ => ?_) fun _ => c_fail h3 _
  exact Cut.ite (fun _ => c_fail h3 _) fun _ => Cut.ok h3

theorem c_item (hd : Delivers R nx toks) (N : Nat) (t : Tree) {a : Tk σ} {b : Tk Nat} {j : Nat}
    (hl : Live toks R a b j) :
    Cut toks j (With (Have toks R)) (parseItem nx N t a) (fun k => parseItem (cut toks k) N t b) := by
  have h := hl.1
  unfold parseItem
  have hc := h.1.1
  rw [hc]
  refine Cut.ite (fun _ => c_message hd N t h) fun _ => ?_
  refine Cut.ite (fun _ => c_package hd t hl) fun _ => ?_
  refine Cut.ite (fun _ => Cut.bind (c_syntax hd hl) fun a1 b1 j1 h1 => Cut.ok ⟨rfl, h1⟩) fun _ => ?_
  refine Cut.ite (fun _ => ?_) fun _ => c_fail h _
  refine Cut.bind (c_standardOption hd hl.ready) fun p q j1 h1 => ?_
  obtain ⟨o, a1⟩ := p
  obtain ⟨o', b1⟩ := q
  obtain ⟨e, h1⟩ := h1
  simp only at e h1
  subst e
  exact Cut.ok ⟨rfl, h1.1⟩

theorem c_proto (hd : Delivers R nx toks) (N : Nat) : ∀ (n : Nat) (t : Tree) (a : Tk σ) (b : Tk Nat) (j : Nat),
    Ready toks R a b j →
    Cut toks j (fun x y _ => x = y) (parseProto nx N n t a) (fun k => parseProto (cut toks k) N n t b)
  | 0, _, _, _, _, _ => Cut.noFuel
  | n + 1, t, a, b, j, h => by
    simp only [parseProto]
    refine Cut.bind (c_next hd h) fun a1 b1 j1 h1 => ?_
    have hc := h1.1.1
    rw [hc]
    refine Cut.ite (fun _ => Cut.ok rfl) fun hc => ?_
    refine Cut.bind (c_item hd N t ⟨h1, hc⟩) fun p q j2 h2 => ?_
    obtain ⟨o, a2⟩ := p
    obtain ⟨o', b2⟩ := q
    obtain ⟨e, h2⟩ := h2
    simp only at e h2
    subst e
    dsimp only
    rw [h2.1.1]
    exact Cut.ite (fun _ => Cut.ok rfl) fun hc => c_proto hd N n _ _ _ _ (h2.ready hc)

/-- The run of the parser over a source, without the resolution of names. -/
theorem c_parse (hd : Delivers R nx toks) (N : Nat) {s : σ} (h : R s 0) :
    Cut toks 0 (fun x y _ => x = y)
      (parseProto nx N N Tree.empty { cur := Tok.default, ungot := false, src := s })
      (fun k => parseProto (cut toks k) N N Tree.empty { cur := Tok.default, ungot := false, src := 0 }) :=
  c_proto hd N N _ _ _ _ ⟨⟨rfl, rfl, h, rfl⟩, (by intro e; cases e), fun _ i hi => absurd hi (Nat.not_lt_zero i)⟩

end
end PG.Proto
