import Verif.Model.Counter
import Verif.Spec.Position
import Verif.Proofs.ProtoPos
/-
C79: the line and column counters.  They always are the position of the cursor in the text, and the `int`s they are
kept in suffice exactly if every position of the text has a line and a column that are `int`s.
-/
set_option autoImplicit false
namespace PG
open Proto (lineAt colAt lineAt_snoc colAt_snoc)

/-- Every place of the text, its end included, has a line and a column that are `int`s. -/
def Countable (text : Bytes) : Prop := ∀ pre suf, text = pre ++ suf → lineAt pre ≤ intMax ∧ colAt pre ≤ intMax

theorem lineAt_le (pre : Bytes) : lineAt pre ≤ pre.length + 1 := by
  have := List.count_le_length (a := (10 : Byte)) (l := pre)
  unfold lineAt; omega

theorem colAt_le (pre : Bytes) : colAt pre ≤ pre.length + 1 := by
  have := (List.takeWhile_prefix (p := fun x : Byte => x != 10) (l := pre.reverse)).length_le
  rw [List.length_reverse] at this
  unfold colAt
  exact Nat.add_comm _ _ ▸ Nat.succ_le_succ this

/-- A text of less than 2^31 - 1 bytes is countable. -/
theorem countable_of_short {text : Bytes} (h : text.length < intMax) : Countable text := by
  intro pre suf e
  have : pre.length ≤ text.length := by rw [e]; simp
  have h1 := lineAt_le pre
  have h2 := colAt_le pre
  omega

namespace IStream

/-- The streams a reader of `text` can have: `next` is the only function that moves them. -/
inductive Of (text : Bytes) : IStream → Prop
  | opened : Of text (open' text)
  | next {s : IStream} : Of text s → Of text s.next

/-- The counters of the stream are the position of its cursor in `text`. -/
def At (text pre : Bytes) (s : IStream) : Prop := text = pre ++ s.rest ∧ s.line = lineAt pre ∧ s.col = colAt pre

theorem skip_at (text : Bytes) : ∀ (bs pre : Bytes), text = pre ++ bs →
    ∃ g, At text (pre ++ g) (skip bs (lineAt pre) (colAt pre)) ∧ ∀ b ∈ g, b = 10
  | [], pre, h => ⟨[], ⟨by simpa [skip] using h, by simp [skip], by simp [skip]⟩, by simp⟩
  | b :: bs, pre, h => by
    unfold skip
    by_cases hb : b = 10
    · rw [if_pos hb]
      obtain ⟨g, h1, h2⟩ := skip_at text bs (pre ++ [b]) (by simpa using h)
      rw [lineAt_snoc, colAt_snoc, if_pos hb, if_pos hb] at h1
      refine ⟨b :: g, by simpa using h1, ?_⟩
      intro x hx
      rcases List.mem_cons.mp hx with rfl | hx
      · exact hb
      · exact h2 x hx
    · rw [if_neg hb]
      exact ⟨[], ⟨by simpa using h, by simp, by simp⟩, by simp⟩

/-- A cursor never rests on a line feed. -/
theorem skip_rest (bs : Bytes) (l c : Nat) : ∀ b r, (skip bs l c).rest = b :: r → b ≠ 10 := by
  induction bs generalizing l c with
  | nil => intro b r h; simp [skip] at h
  | cons x xs ih =>
    unfold skip
    split
    · exact ih _ _
    · rename_i hx
      intro b r h
      simp only [List.cons.injEq] at h
      exact h.1 ▸ hx

theorem Of.rest {text : Bytes} {s : IStream} (h : Of text s) : ∀ b r, s.rest = b :: r → b ≠ 10 := by
  induction h with
  | opened => exact skip_rest _ _ _
  | @next s _ ih =>
    unfold IStream.next
    split
    · exact ih
    · exact skip_rest _ _ _

theorem next_at {text pre : Bytes} {s : IStream} (h : At text pre s) (hr : ∀ b r, s.rest = b :: r → b ≠ 10) :
    ∃ p, At text p s.next := by
  obtain ⟨h1, h2, h3⟩ := h
  unfold IStream.next
  split
  · exact ⟨pre, h1, h2, h3⟩
  · rename_i b bs hs
    have hb := hr b bs hs
    obtain ⟨g, hg, _⟩ := skip_at text bs (pre ++ [b]) (by rw [h1, hs]; simp)
    rw [lineAt_snoc, colAt_snoc, if_neg hb, if_neg hb, ← h2, ← h3] at hg
    exact ⟨_, hg⟩

/-- The counters are the position of the cursor. -/
theorem C79_position {text : Bytes} {s : IStream} (h : Of text s) :
    ∃ pre, text = pre ++ s.rest ∧ s.line = lineAt pre ∧ s.col = colAt pre := by
  induction h with
  | opened =>
    obtain ⟨g, hg, _⟩ := skip_at text text [] rfl
    exact ⟨_, hg⟩
  | next hs ih =>
    obtain ⟨pre, hp⟩ := ih
    exact next_at hp hs.rest

example : Of b!"{\n\"a\"" (open' b!"{\n\"a\"").next ∧ (open' b!"{\n\"a\"").next = ⟨b!"\"a\"", 2, 1⟩ :=
  ⟨.next .opened, by decide +kernel⟩

theorem skipInt_iff (bs : Bytes) (l c : Nat) :
    skipInt bs l c = some (skip bs l c) ∨
    (skipInt bs l c = none ∧ ∃ g r, bs = g ++ r ∧ (∀ b ∈ g, b = 10) ∧ l + g.length > intMax) := by
  induction bs generalizing l c with
  | nil => exact Or.inl rfl
  | cons b bs ih =>
    unfold skipInt skip
    by_cases hb : b = 10
    · rw [if_pos hb, if_pos hb]
      unfold incr
      by_cases hl : l < intMax
      · rw [if_pos hl]
        rcases ih (l + 1) 1 with h | ⟨h, g, r, h1, h2, h3⟩
        · exact Or.inl h
        · refine Or.inr ⟨h, b :: g, r, by rw [h1]; rfl, ?_, by simp only [List.length_cons]; omega⟩
          intro x hx
          rcases List.mem_cons.mp hx with rfl | hx
          · exact hb
          · exact h2 x hx
      · rw [if_neg hl]
        exact Or.inr ⟨rfl, [b], bs, rfl, by simpa using hb, by simp only [List.length_cons, List.length_nil]; omega⟩
    · rw [if_neg hb, if_neg hb]
      exact Or.inl rfl

theorem lineAt_lfs (pre g : Bytes) (h : ∀ b ∈ g, b = 10) : lineAt (pre ++ g) = lineAt pre + g.length := by
  have : g.count 10 = g.length := List.count_eq_length.mpr fun b hb => (h b hb).symm
  unfold lineAt
  rw [List.count_append, this]; omega

/-- A countable text is read without an overflow. -/
theorem C79_safe {text : Bytes} (h : Countable text) :
    openInt text = some (open' text) ∧ ∀ s, Of text s → s.nextInt = some s.next := by
  constructor
  · rcases skipInt_iff text 1 1 with h' | ⟨_, g, r, h1, h2, h3⟩
    · exact h'
    · have := (h g r h1).1
      have e := lineAt_lfs [] g h2
      simp only [List.nil_append] at e
      have : lineAt [] = 1 := rfl
      omega
  · intro s hs
    obtain ⟨pre, h1, h2, h3⟩ := C79_position hs
    have hr := hs.rest
    cases e : s.rest with
    | nil => unfold nextInt next; rw [e]
    | cons b bs =>
      have hb := hr b bs e
      have hc := (h (pre ++ [b]) bs (by rw [h1, e]; simp))
      rw [lineAt_snoc, colAt_snoc, if_neg hb, if_neg hb] at hc
      unfold nextInt next incr
      rw [e]
      simp only
      rw [if_pos (by omega), Option.bind_some]
      rcases skipInt_iff bs s.line (s.col + 1) with h' | ⟨_, g, r, k1, k2, k3⟩
      · exact h'
      · have hg := (h (pre ++ [b] ++ g) r (by rw [h1, e, k1]; simp)).1
        rw [lineAt_lfs _ _ k2, lineAt_snoc, if_neg hb, ← h2] at hg
        omega

theorem countable_snoc {pre : Bytes} {b : Byte} (h : Countable pre) (h1 : lineAt (pre ++ [b]) ≤ intMax)
    (h2 : colAt (pre ++ [b]) ≤ intMax) : Countable (pre ++ [b]) := by
  intro p s e
  rcases List.eq_nil_or_concat s with rfl | ⟨s', x, rfl⟩
  · rw [List.append_nil] at e
    rw [← e]; exact ⟨h1, h2⟩
  · rw [List.concat_eq_append, ← List.append_assoc] at e
    exact h p s' (List.append_inj' e rfl).1

theorem skipInt_countable (text : Bytes) : ∀ (bs pre : Bytes) (s : IStream), text = pre ++ bs → Countable pre →
    skipInt bs (lineAt pre) (colAt pre) = some s → ∃ p, At text p s ∧ Countable p
  | [], pre, s, h, hp, e => by
    simp only [skipInt, Option.some.injEq] at e
    subst e
    exact ⟨pre, ⟨h, rfl, rfl⟩, hp⟩
  | b :: bs, pre, s, h, hp, e => by
    unfold skipInt at e
    by_cases hb : b = 10
    · rw [if_pos hb] at e
      unfold incr at e
      by_cases hl : lineAt pre < intMax
      · rw [if_pos hl, Option.bind_some] at e
        have e1 : lineAt (pre ++ [b]) = lineAt pre + 1 := by rw [lineAt_snoc, if_pos hb]
        have e2 : colAt (pre ++ [b]) = 1 := by rw [colAt_snoc, if_pos hb]
        rw [← e1, ← e2] at e
        exact skipInt_countable text bs (pre ++ [b]) s (by simpa using h)
          (countable_snoc hp (by omega) (by rw [e2]; decide)) e
      · rw [if_neg hl] at e; cases e
    · rw [if_neg hb, Option.some.injEq] at e
      subst e
      exact ⟨pre, ⟨h, rfl, rfl⟩, hp⟩

theorem nextInt_countable {text pre : Bytes} {s s' : IStream} (h : At text pre s) (hp : Countable pre)
    (hr : ∀ b r, s.rest = b :: r → b ≠ 10) (e : s.nextInt = some s') : ∃ p, At text p s' ∧ Countable p := by
  obtain ⟨h1, h2, h3⟩ := h
  cases hs : s.rest with
  | nil =>
    unfold nextInt at e
    rw [hs] at e
    simp only [Option.some.injEq] at e
    subst e
    exact ⟨pre, ⟨h1, h2, h3⟩, hp⟩
  | cons b bs =>
    have hb := hr b bs hs
    unfold nextInt incr at e
    rw [hs] at e
    simp only at e
    have e1 : lineAt (pre ++ [b]) = lineAt pre := by rw [lineAt_snoc, if_neg hb]; rfl
    have e2 : colAt (pre ++ [b]) = colAt pre + 1 := by rw [colAt_snoc, if_neg hb]
    by_cases hc : s.col < intMax
    · rw [if_pos hc, Option.bind_some, h2, h3, ← e1, ← e2] at e
      have := (hp pre [] (by simp)).1
      exact skipInt_countable text bs (pre ++ [b]) s' (by rw [h1, hs]; simp)
        (countable_snoc hp (by omega) (by omega)) e
    · rw [if_neg hc] at e; cases e

theorem nextInt_some {s s' : IStream} (h : s.nextInt = some s') : s' = s.next := by
  unfold nextInt at h
  unfold next
  cases hs : s.rest with
  | nil => rw [hs] at h; simp only [Option.some.injEq] at h; exact h.symm
  | cons b bs =>
    rw [hs] at h
    simp only at h ⊢
    unfold incr at h
    split at h
    · rw [Option.bind_some] at h
      rcases skipInt_iff bs s.line (s.col + 1) with h' | ⟨h', _⟩
      · rw [h'] at h; exact (Option.some.inj h).symm
      · rw [h'] at h; cases h
    · cases h

theorem countable_of_read {text : Bytes} (hn : ∀ s, Of text s → s.nextInt ≠ none) :
    ∀ (n : Nat) (s : IStream) (pre : Bytes), s.rest.length ≤ n → Of text s → At text pre s → Countable pre → Countable text
  | n, s, pre, hl, hs, ha, hp => by
    cases hr : s.rest with
    | nil =>
      have := ha.1
      rw [hr, List.append_nil] at this
      rw [this]; exact hp
    | cons b bs =>
      cases n with
      | zero => rw [hr] at hl; simp at hl
      | succ n =>
        cases e : s.nextInt with
        | none => exact absurd e (hn s hs)
        | some s' =>
          obtain ⟨p, h1, h2⟩ := nextInt_countable ha hp hs.rest e
          have hl' := next_length_lt s (by simp [eof, hr])
          rw [nextInt_some e] at h1
          exact countable_of_read hn n s.next p (by omega) (.next hs) h1 h2

/-- Reading a document from end to end overflows no counter exactly if the document is countable. -/
theorem C79_iff (text : Bytes) :
    (openInt text ≠ none ∧ ∀ s, Of text s → s.nextInt ≠ none) ↔ Countable text := by
  constructor
  · rintro ⟨h1, h2⟩
    cases e : openInt text with
    | none => exact absurd e h1
    | some s =>
      have h0 : Countable ([] : Bytes) := by
        intro p q e
        have : p = [] := (List.append_eq_nil_iff.mp e.symm).1
        subst this
        exact ⟨by decide, by decide⟩
      obtain ⟨p, ha, hp⟩ := skipInt_countable text text [] s rfl h0 e
      have : s = open' text := by
        rcases skipInt_iff text 1 1 with h' | ⟨h', _⟩
        · have e' : openInt text = _ := h'
          rw [e'] at e; exact (Option.some.inj e).symm
        · have e' : openInt text = _ := h'
          rw [e'] at e; cases e
      subst this
      exact countable_of_read h2 _ _ p (Nat.le_refl _) .opened ha hp
  · intro h
    obtain ⟨h1, h2⟩ := C79_safe h
    exact ⟨by rw [h1]; simp, fun s hs => by rw [h2 s hs]; simp⟩

/-- Documents of less than 2^31 - 1 bytes are read without an overflow, whatever they contain. -/
theorem C79_short {text : Bytes} (h : text.length < 2147483647) :
    openInt text = some (open' text) ∧ ∀ s, Of text s → s.nextInt = some s.next :=
  C79_safe (countable_of_short h)

/-- The bound is exact: that many line feeds, or that many other bytes, do overflow a counter. -/
theorem C79_tight (b : Byte) (n : Nat) (hn : 2147483647 ≤ n) : ¬ Countable (List.replicate n b) := by
  intro h
  have := h (List.replicate n b) [] (by simp)
  have e : intMax = 2147483647 := by decide
  by_cases hb : b = 10
  · subst hb
    have h1 := this.1
    unfold lineAt at h1
    rw [List.count_replicate_self] at h1
    omega
  · have h2 := this.2
    unfold colAt at h2
    rw [List.reverse_replicate, List.takeWhile_replicate, if_pos (by simpa using hb), List.length_replicate] at h2
    omega

end IStream

namespace Proto.In

/-- The states of the stream of a schema: it is moved by `get` and `unget` only. -/
inductive Of (text : Bytes) : In → Prop
  | opened : Of text (In.open text)
  | get {s : In} : Of text s → Of text s.get.2
  | unget {s s' : In} : Of text s → s.unget = .ok s' → Of text s'

/-- The counters are the position of the character read last; behind the end they belong to the end of the text. -/
def At (text : Bytes) (s : In) : Prop :=
  (s = In.open text) ∨
  (∃ p b, text = p ++ b :: s.rest ∧ s.last = (b.toNat : Int) ∧ s.line = lineAt p ∧ s.col = colAt p) ∨
  (s.rest = [] ∧ s.last = -2 ∧ s.ungot = false ∧ s.line = lineAt text ∧ s.col + 1 = colAt text)

theorem at_newline {text : Bytes} {s : In} (h : At text s) (hu : s.ungot = false) :
    ∃ pre, text = pre ++ s.rest ∧ s.newline.line = lineAt pre ∧ s.newline.col + 1 = colAt pre := by
  rcases h with rfl | ⟨p, b, h1, h2, h3, h4⟩ | ⟨h1, h2, _, h4, h5⟩
  · exact ⟨[], rfl, rfl, rfl⟩
  · refine ⟨p ++ [b], by simpa using h1, ?_, ?_⟩
    · rw [(newline_of h2).1, lineAt_snoc, h3]
    · rw [(newline_of h2).2, colAt_snoc, h4]
      split <;> rfl
  · refine ⟨text, by simp [h1], ?_, ?_⟩
    · unfold newline; rw [if_neg (by rw [h2]; decide)]; exact h4
    · unfold newline; rw [if_neg (by rw [h2]; decide)]; exact h5

/-- The counters of the schema reader are positions in the schema. -/
theorem C79_schema_position {text : Bytes} {s : In} (h : Of text s) : At text s := by
  induction h with
  | opened => exact Or.inl rfl
  | @get s _ ih =>
    cases hu : s.ungot with
    | true =>
      rw [get_ungot hu]
      rcases ih with rfl | ⟨p, b, h1, h2, h3, h4⟩ | ⟨_, _, h3, _⟩
      · cases hu
      · exact Or.inr (Or.inl ⟨p, b, h1, h2, h3, h4⟩)
      · rw [h3] at hu; cases hu
    | false =>
      obtain ⟨pre, h1, h2, h3⟩ := at_newline ih hu
      cases hr : s.rest with
      | nil =>
        rw [get_end hu hr]
        rw [hr, List.append_nil] at h1
        exact Or.inr (Or.inr ⟨rfl, rfl, rfl, by rw [h1]; exact h2, by rw [h1]; exact h3⟩)
      | cons b r =>
        rw [get_fresh hu hr]
        exact Or.inr (Or.inl ⟨pre, b, by rw [h1, hr], rfl, h2, h3⟩)
  | @unget s s' _ e ih =>
    unfold In.unget at e
    split at e
    · split at e
      · cases e
      · simp only [Out.ok.injEq] at e
        subst e
        rename_i hl _
        rcases ih with rfl | ⟨p, b, h1, h2, h3, h4⟩ | ⟨_, h2, _⟩
        · exact absurd hl (by simp [In.open])
        · exact Or.inr (Or.inl ⟨p, b, h1, h2, h3, h4⟩)
        · rw [h2] at hl; exact absurd hl (by decide)
    · simp only [Out.ok.injEq] at e
      subst e
      exact ih

/-- Every character of the schema has a line and a column that are `int`s, and so has the line of its end. -/
def Countable (text : Bytes) : Prop :=
  (∀ pre b suf, text = pre ++ b :: suf → lineAt pre ≤ intMax ∧ colAt pre ≤ intMax) ∧ lineAt text ≤ intMax

theorem newlineInt_iff (s : In) : s.newlineInt = some s.newline ∨ (s.newlineInt = none ∧ s.last = 10 ∧ intMax ≤ s.line) := by
  unfold newlineInt newline incr
  by_cases h : s.last = 10
  · rw [if_pos h, if_pos h]
    by_cases hl : s.line < intMax
    · rw [if_pos hl]; exact Or.inl rfl
    · rw [if_neg hl]; exact Or.inr ⟨rfl, h, by omega⟩
  · rw [if_neg h, if_neg h]; exact Or.inl rfl

/-- When `get` overflows a counter. -/
theorem getInt_iff (s : In) : s.getInt = some s.get ∨
    (s.getInt = none ∧ s.ungot = false ∧ (intMax < s.newline.line ∨ (s.rest ≠ [] ∧ intMax ≤ s.newline.col))) := by
  cases hu : s.ungot with
  | true => left; unfold getInt get; rw [hu]; rfl
  | false =>
    rcases newlineInt_iff s with h | ⟨h, h1, h2⟩
    · have e1 := newline_rest s
      have e2 := newline_ungot s
      unfold getInt get
      rw [hu, h]
      simp only [Bool.false_eq_true, if_false, Option.bind_some]
      cases hn : s.newline with
      | mk rest last line col ungot =>
        rw [hn] at e1 e2
        simp only at e1 e2
        subst e1 e2
        cases hr : s.rest with
        | nil => left; rfl
        | cons b r =>
          simp only
          unfold incr
          by_cases hc : col < intMax
          · rw [if_pos hc]; left; rfl
          · rw [if_neg hc]; right; exact ⟨rfl, trivial, Or.inr ⟨by simp, by omega⟩⟩
    · right
      refine ⟨?_, rfl, Or.inl ?_⟩
      · unfold getInt; rw [hu, h]; rfl
      · unfold newline; rw [if_pos h1]; simp only; omega

/-- A countable schema is read without an overflow, in whatever order its characters are taken and put back. -/
theorem C79_schema_safe {text : Bytes} (h : Countable text) (s : In) (hs : Of text s) : s.getInt = some s.get := by
  rcases getInt_iff s with e | ⟨_, hu, e⟩
  · exact e
  · exfalso
    obtain ⟨pre, h1, h2, h3⟩ := at_newline (C79_schema_position hs) hu
    cases hr : s.rest with
    | nil =>
      rw [hr, List.append_nil] at h1
      rcases e with e | ⟨e, _⟩
      · have := h.2
        rw [h1, ← h2] at this; omega
      · exact e hr
    | cons b r =>
      have := h.1 pre b r (by rw [h1, hr])
      rcases e with e | ⟨_, e⟩ <;> omega

theorem getInt_none {s : In} (hu : s.ungot = false)
    (h : (s.last = 10 ∧ intMax ≤ s.line) ∨ (s.rest ≠ [] ∧ intMax ≤ s.newline.col)) : s.getInt = none := by
  rcases newlineInt_iff s with e | ⟨e, _⟩
  · rcases h with ⟨h1, h2⟩ | ⟨h1, h2⟩
    · unfold newlineInt incr at e
      rw [if_pos h1, if_neg (by omega)] at e
      cases e
    · have e1 := newline_rest s
      unfold getInt
      rw [hu, e]
      simp only [Bool.false_eq_true, if_false, Option.bind_some]
      rw [e1]
      cases hr : s.rest with
      | nil => exact absurd hr h1
      | cons b r =>
        simp only
        unfold incr
        rw [if_neg (by omega)]; rfl
  · unfold getInt; rw [hu, e]; rfl

/-- Where `get` leads when no counter overflows. -/
theorem reach {text : Bytes} (hn : ∀ s, Of text s → s.getInt ≠ none) (pre : Bytes) : ∀ suf, text = pre ++ suf →
    ∃ s, Of text s ∧ s.ungot = false ∧ s.rest = suf ∧ s.newline.line = lineAt pre ∧ s.newline.col + 1 = colAt pre ∧
      lineAt pre ≤ intMax ∧ (suf ≠ [] → colAt pre ≤ intMax) := by
  have step : ∀ (pre suf : Bytes) (s : In), text = pre ++ suf → Of text s → s.ungot = false → s.rest = suf → s.line ≤ intMax →
      s.newline.line = lineAt pre → s.newline.col + 1 = colAt pre → lineAt pre ≤ intMax ∧ (suf ≠ [] → colAt pre ≤ intMax) := by
    intro pre suf s ht hs hu hr hl h1 h2
    constructor
    · rcases Nat.lt_or_ge intMax (lineAt pre) with hlt | hle
      · refine absurd (getInt_none hu (Or.inl ?_)) (hn s hs)
        rw [← h1] at hlt
        unfold newline at hlt
        split at hlt
        · rename_i h10; exact ⟨h10, by simp only at hlt; omega⟩
        · omega
      · exact hle
    · intro hne
      rcases Nat.lt_or_ge intMax (colAt pre) with hlt | hle
      · exact absurd (getInt_none hu (Or.inr ⟨by rw [hr]; exact hne, by omega⟩)) (hn s hs)
      · exact hle
  generalize hk : pre.length = k
  induction k generalizing pre with
  | zero =>
    intro suf ht
    have : pre = [] := List.length_eq_zero_iff.mp hk
    subst this
    exact ⟨In.open text, .opened, rfl, ht, rfl, rfl, by decide, fun _ => by decide⟩
  | succ k ih =>
    intro suf ht
    rcases List.eq_nil_or_concat pre with rfl | ⟨p, b, rfl⟩
    · cases hk
    · rw [List.concat_eq_append] at ht hk ⊢
      obtain ⟨s, h1, h2, h3, h4, h5, h6, _⟩ := ih p (by simpa using hk) (b :: suf) (by simpa using ht)
      have e := get_fresh h2 h3
      have hs := Of.get h1
      rw [e] at hs
      have hl : (⟨suf, b.toNat, s.newline.line, s.newline.col + 1, false⟩ : In).newline.line = lineAt (p ++ [b]) := by
        rw [(newline_of (b := b) rfl).1, lineAt_snoc, h4]
      have hc : (⟨suf, b.toNat, s.newline.line, s.newline.col + 1, false⟩ : In).newline.col + 1 = colAt (p ++ [b]) := by
        rw [(newline_of (b := b) rfl).2, colAt_snoc, h5]
        split <;> rfl
      exact ⟨_, hs, rfl, rfl, hl, hc, step _ _ _ ht hs rfl rfl (by simp only; omega) hl hc⟩

/-- Reading a schema from end to end overflows no counter exactly if the schema is countable. -/
theorem C79_schema_iff (text : Bytes) : (∀ s, Of text s → s.getInt ≠ none) ↔ Countable text := by
  constructor
  · intro hn
    refine ⟨fun pre b suf ht => ?_, ?_⟩
    · obtain ⟨_, _, _, _, _, _, h6, h7⟩ := reach hn pre (b :: suf) ht
      exact ⟨h6, h7 (by simp)⟩
    · obtain ⟨_, _, _, _, _, _, h6, _⟩ := reach hn text [] (by simp)
      exact h6
  · intro h s hs
    rw [C79_schema_safe h s hs]; simp

/-- Schemas of less than 2^31 - 1 bytes are read without an overflow. -/
theorem C79_schema_short {text : Bytes} (h : text.length < 2147483647) (s : In) (hs : Of text s) :
    s.getInt = some s.get := by
  have hc := countable_of_short (text := text) (by simpa [intMax] using h)
  exact C79_schema_safe ⟨fun pre b suf e => hc pre (b :: suf) e, (hc text [] (by simp)).1⟩ s hs

example : ∃ s, Of b!"a\nb" s ∧ s.line = 2 ∧ s.col = 1 ∧ s.ungot = true :=
  ⟨{ rest := [], last := 98, line := 2, col := 1, ungot := true },
   .unget (.get (.get (.get .opened))) (by decide +kernel), rfl, rfl, rfl⟩

end Proto.In
end PG
