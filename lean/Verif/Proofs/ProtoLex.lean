import Verif.Model.Proto
/-
The tokenizer of the schema parser as a function on the remaining text: `alex`, and the proof that `lex` computes it.
-/
set_option autoImplicit false
namespace PG.Proto

/-- The characters the stream will deliver. -/
def Sees (s : In) (bs : Bytes) : Prop :=
  (s.ungot = false ∧ s.rest = bs) ∨ (s.ungot = true ∧ ∃ b : Byte, s.last = (b.toNat : Int) ∧ bs = b :: s.rest)

theorem sees_open (text : Bytes) : Sees (In.open text) text := Or.inl ⟨rfl, rfl⟩

theorem newline_rest (s : In) : s.newline.rest = s.rest := by unfold In.newline; split <;> rfl
theorem newline_ungot (s : In) : s.newline.ungot = s.ungot := by unfold In.newline; split <;> rfl

theorem get_cons {s : In} {b : Byte} {r : Bytes} (h : Sees s (b :: r)) :
    s.get.1 = (b.toNat : Int) ∧ Sees s.get.2 r ∧ ∃ s', s.get.2.unget = .ok s' ∧ Sees s' (b :: r) := by
  rcases h with ⟨hu, hr⟩ | ⟨hu, b', hl, hr⟩
  · have e1 := newline_rest s
    have e2 := newline_ungot s
    unfold In.get
    rw [hu, if_neg (by simp)]
    cases hn : s.newline with
    | mk rest last line col ungot =>
      rw [hn] at e1 e2
      simp only at e1 e2
      subst e1 e2
      rw [hr, hu]
      refine ⟨rfl, Or.inl ⟨rfl, rfl⟩, ?_⟩
      exact ⟨{ rest := r, last := b.toNat, line := line, col := col + 1, ungot := true }, by simp [In.unget],
        Or.inr ⟨rfl, b, rfl, rfl⟩⟩
  · injection hr with hb hr
    subst hb hr
    unfold In.get
    rw [hu, if_pos rfl]
    refine ⟨hl, Or.inl ⟨rfl, rfl⟩, { s with ungot := true }, ?_, Or.inr ⟨rfl, b, hl, rfl⟩⟩
    unfold In.unget
    have : (0 : Int) ≤ s.last := by omega
    simp [this]

theorem get_nil {s : In} (h : Sees s []) :
    s.get.1 = -1 ∧ Sees s.get.2 [] ∧ s.get.2.unget = .ok s.get.2 := by
  rcases h with ⟨hu, hr⟩ | ⟨_, _, _, hr⟩
  · have e1 := newline_rest s
    have e2 := newline_ungot s
    unfold In.get
    rw [hu, if_neg (by simp)]
    cases hn : s.newline with
    | mk rest last line col ungot =>
      rw [hn] at e1 e2
      simp only at e1 e2
      subst e1 e2
      rw [hr, hu]
      exact ⟨rfl, Or.inl ⟨rfl, rfl⟩, by simp [In.unget]⟩
  · cases hr

/-! ### The loops of the tokenizer -/

/-- White space of the schema language. -/
def wsB (b : Byte) : Bool := In.isWs b.toNat
/-- A letter or underscore. -/
def letterB (b : Byte) : Bool := isLetter b.toNat
/-- A decimal digit. -/
def digitB (b : Byte) : Bool := isDig b.toNat
/-- A character of an identifier. -/
def wordB (b : Byte) : Bool := letterB b || digitB b

@[simp] theorem chr_toNat (b : Byte) : chr (b.toNat : Int) = b := by
  have h := b.toNat_lt
  unfold chr
  apply UInt8.toNat_inj.mp
  rw [UInt8.toNat_ofNat']
  omega

theorem toNat_int_inj {b c : Byte} (h : (b.toNat : Int) = (c.toNat : Int)) : b = c :=
  UInt8.toNat_inj.mp (by omega)

theorem toNat_eq_iff (b : Byte) (n : Nat) (hn : n < 256) : (b.toNat : Int) = (n : Int) ↔ b = UInt8.ofNat n := by
  constructor
  · intro h
    apply toNat_int_inj
    rw [h]; simp; omega
  · intro h; subst h; simp; omega

theorem skipws_spec : ∀ (n : Nat) (s : In) (bs : Bytes), Sees s bs →
    (∃ s', In.skipws n s = .ok s' ∧ Sees s' (bs.dropWhile wsB)) ∨ (In.skipws n s = .fuel ∧ n ≤ bs.length)
  | 0, s, bs, _ => Or.inr ⟨rfl, Nat.zero_le _⟩
  | n + 1, s, [], h => by
    obtain ⟨h1, h2, h3⟩ := get_nil h
    left
    refine ⟨s.get.2, ?_, h2⟩
    rw [In.skipws, h1, if_neg (by decide), h3]
  | n + 1, s, b :: r, h => by
    obtain ⟨h1, h2, s', h3, h4⟩ := get_cons h
    rw [In.skipws, h1]
    by_cases hw : In.isWs (b.toNat : Int) = true
    · rw [if_pos hw]
      have hw' : wsB b = true := hw
      rw [List.dropWhile_cons_of_pos hw']
      rcases skipws_spec n s.get.2 r h2 with h | ⟨h, hl⟩
      · exact Or.inl h
      · exact Or.inr ⟨h, by simp; omega⟩
    · rw [if_neg hw]
      have hw' : ¬ wsB b = true := hw
      rw [List.dropWhile_cons_of_neg hw']
      exact Or.inl ⟨s', h3, h4⟩

/-- The text after the first line feed. -/
def afterLF : Bytes → Option Bytes
  | [] => none
  | b :: r => if b = 10 then some r else afterLF r

/-- The text after the first `*/`. -/
def afterBlock : Bytes → Bytes
  | [] => []
  | b :: r => if b = 42 then (match r with | [] => [] | c :: r' => if c = 47 then r' else afterBlock (c :: r'))
              else afterBlock r

theorem lineComment_spec : ∀ (n : Nat) (s : In) (bs : Bytes), Sees s bs →
    match afterLF bs with
    | some r => (∃ s', lineComment n s = .ok s' ∧ Sees s' r) ∨ (lineComment n s = .fuel ∧ n ≤ bs.length)
    | none => lineComment n s = .fuel
  | 0, s, bs, _ => by split <;> simp [lineComment]
  | n + 1, s, [], h => by
    obtain ⟨h1, h2, h3⟩ := get_nil h
    show lineComment (n + 1) s = .fuel
    rw [lineComment, h1, if_neg (by decide)]
    exact lineComment_spec n s.get.2 [] h2
  | n + 1, s, b :: r, h => by
    obtain ⟨h1, h2, s', h3, h4⟩ := get_cons h
    rw [lineComment, h1, afterLF]
    have hb : (b.toNat : Int) = 10 ↔ b = 10 := toNat_eq_iff b 10 (by decide)
    by_cases hw : b = 10
    · rw [if_pos hw, if_pos (hb.mpr hw)]
      exact Or.inl ⟨s.get.2, rfl, h2⟩
    · rw [if_neg hw, if_neg (fun e => hw (hb.mp e))]
      have ih := lineComment_spec n s.get.2 r h2
      cases ha : afterLF r with
      | none => rw [ha] at ih; exact ih
      | some q =>
        rw [ha] at ih
        rcases ih with h | ⟨h, hl⟩
        · exact Or.inl h
        · exact Or.inr ⟨h, by simp; omega⟩

theorem expect_cons {s : In} {b : Byte} {r : Bytes} (h : Sees s (b :: r)) (e : Nat) (he : e < 256) :
    ∃ s', s.expect (e : Int) = .ok (decide (b = UInt8.ofNat e), s') ∧
      Sees s' (if b = UInt8.ofNat e then r else b :: r) := by
  obtain ⟨h1, h2, s', h3, h4⟩ := get_cons h
  unfold In.expect
  rw [h1]
  by_cases hb : b = UInt8.ofNat e
  · rw [if_neg (by simp only [ne_eq, Decidable.not_not]; exact (toNat_eq_iff b e he).mpr hb)]
    exact ⟨s.get.2, by simp [hb], by simp only [hb, if_true]; exact h2⟩
  · rw [if_pos (fun x => hb ((toNat_eq_iff b e he).mp x)), h3]
    exact ⟨s', by simp [Out.bind, hb], by simp only [hb, if_false]; exact h4⟩

theorem expect_nil {s : In} (h : Sees s []) (e : Nat) : ∃ s', s.expect (e : Int) = .ok (false, s') ∧ Sees s' [] := by
  obtain ⟨h1, h2, h3⟩ := get_nil h
  unfold In.expect
  rw [h1, if_pos (by omega), h3]
  exact ⟨s.get.2, rfl, h2⟩

theorem blockComment_nil (n : Nat) (s : In) (h : Sees s []) :
    (∃ s', blockComment n s = .ok s' ∧ Sees s' []) ∨ (blockComment n s = .fuel ∧ n ≤ 0) := by
  cases n with
  | zero => exact Or.inr ⟨rfl, Nat.zero_le _⟩
  | succ n =>
    obtain ⟨h1, h2, h3⟩ := get_nil h
    rw [blockComment, h1, if_neg (by decide), if_pos (by decide)]
    exact Or.inl ⟨_, rfl, h2⟩

theorem afterBlock_other {b : Byte} (r : Bytes) (h : b ≠ 42) : afterBlock (b :: r) = afterBlock r := by
  rw [afterBlock.eq_def]; simp [h]

theorem afterBlock_star (c : Byte) (r : Bytes) :
    afterBlock (42 :: c :: r) = if c = 47 then r else afterBlock (c :: r) := by
  rw [afterBlock.eq_def]; simp

theorem blockComment_spec : ∀ (n : Nat) (s : In) (bs : Bytes), Sees s bs →
    (∃ s', blockComment n s = .ok s' ∧ Sees s' (afterBlock bs)) ∨ (blockComment n s = .fuel ∧ n ≤ bs.length)
  | 0, s, bs, _ => Or.inr ⟨rfl, Nat.zero_le _⟩
  | n + 1, s, [], h => by
    rcases blockComment_nil (n + 1) s h with h | ⟨_, h⟩
    · exact Or.inl h
    · omega
  | n + 1, s, b :: r, h => by
    obtain ⟨h1, h2, s', h3, h4⟩ := get_cons h
    rw [blockComment, h1]
    have hb : (b.toNat : Int) = 42 ↔ b = 42 := toNat_eq_iff b 42 (by decide)
    by_cases hw : b = 42
    · rw [if_pos (hb.mpr hw)]
      cases r with
      | nil =>
        obtain ⟨s'', e1, e2⟩ := expect_nil h2 47
        have e1' : s.get.2.expect 47 = .ok (false, s'') := e1
        rw [e1']
        simp only [Out.bind, afterBlock, hw, if_true]
        rcases blockComment_nil n s'' e2 with h | ⟨h, hl⟩
        · exact Or.inl h
        · exact Or.inr ⟨h, by simp; omega⟩
      | cons c r' =>
        obtain ⟨s'', e1, e2⟩ := expect_cons h2 47 (by decide)
        have e1' : s.get.2.expect 47 = .ok (decide (c = 47), s'') := e1
        have e2' : Sees s'' (if c = 47 then r' else c :: r') := e2
        rw [e1']
        simp only [Out.bind]
        subst hw
        rw [afterBlock_star]
        by_cases hc : c = 47
        · simp only [hc, if_true] at e2' ⊢
          exact Or.inl ⟨s'', by simp, e2'⟩
        · simp only [hc, if_false] at e2' ⊢
          rcases blockComment_spec n s'' (c :: r') e2' with ⟨q, h, h'⟩ | ⟨h, hl⟩
          · exact Or.inl ⟨q, by simpa using h, h'⟩
          · exact Or.inr ⟨by simpa using h, by simp at hl ⊢; omega⟩
    · rw [if_neg (fun e => hw (hb.mp e)), if_neg (by omega), afterBlock_other r hw]
      rcases blockComment_spec n s.get.2 r h2 with h | ⟨h, hl⟩
      · exact Or.inl h
      · exact Or.inr ⟨h, by simp; omega⟩

theorem nameLoop_rest : ∀ (n : Nat) (temp : Bytes) (s : In) (bs : Bytes), Sees s bs →
    (∃ s', nameLoop n false temp s = .ok (temp ++ bs.takeWhile wordB, s') ∧ Sees s' (bs.dropWhile wordB)) ∨
      (nameLoop n false temp s = .fuel ∧ n ≤ bs.length)
  | 0, temp, s, bs, _ => Or.inr ⟨rfl, Nat.zero_le _⟩
  | n + 1, temp, s, [], h => by
    obtain ⟨h1, h2, h3⟩ := get_nil h
    rw [nameLoop, h1, if_neg (by decide), h3]
    exact Or.inl ⟨s.get.2, by simp [Out.bind], h2⟩
  | n + 1, temp, s, b :: r, h => by
    obtain ⟨h1, h2, s', h3, h4⟩ := get_cons h
    rw [nameLoop, h1, if_pos (by omega)]
    by_cases hw : wordB b = true
    · have hc : ((false && !isLetter (b.toNat : Int)) || !(isLetter (b.toNat : Int) || isDig (b.toNat : Int))) = false := by
        simp only [wordB, letterB, digitB] at hw
        rw [hw]; rfl
      rw [hc, if_neg (by simp), chr_toNat, List.takeWhile_cons_of_pos hw, List.dropWhile_cons_of_pos hw]
      rcases nameLoop_rest n (temp ++ [b]) s.get.2 r h2 with ⟨q, h, h'⟩ | ⟨h, hl⟩
      · exact Or.inl ⟨q, by rw [h]; simp, h'⟩
      · exact Or.inr ⟨h, by simp; omega⟩
    · have hc : ((false && !isLetter (b.toNat : Int)) || !(isLetter (b.toNat : Int) || isDig (b.toNat : Int))) = true := by
        simp only [wordB, letterB, digitB, Bool.not_eq_true] at hw
        rw [hw]; rfl
      rw [hc, if_pos rfl, h3, List.takeWhile_cons_of_neg hw, List.dropWhile_cons_of_neg hw]
      exact Or.inl ⟨s', by simp [Out.bind], h4⟩

/-- The identifier at the start of a text (empty if it does not start with a letter). -/
def word (bs : Bytes) : Bytes :=
  match bs with
  | [] => []
  | b :: _ => if letterB b then bs.takeWhile wordB else []

/-- The text after that identifier. -/
def afterWord (bs : Bytes) : Bytes :=
  match bs with
  | [] => []
  | b :: _ => if letterB b then bs.dropWhile wordB else bs

theorem word_append (bs : Bytes) : word bs ++ afterWord bs = bs := by
  cases bs with
  | nil => rfl
  | cons b r =>
    simp only [word, afterWord]
    split
    · exact List.takeWhile_append_dropWhile
    · rfl

theorem nameLoop_spec (n : Nat) (s : In) (bs : Bytes) (h : Sees s bs) :
    (∃ s', nameLoop n true [] s = .ok (word bs, s') ∧ Sees s' (afterWord bs)) ∨
      (nameLoop n true [] s = .fuel ∧ n ≤ bs.length) := by
  cases n with
  | zero => exact Or.inr ⟨rfl, Nat.zero_le _⟩
  | succ n =>
    cases bs with
    | nil =>
      obtain ⟨h1, h2, h3⟩ := get_nil h
      rw [nameLoop, h1, if_neg (by decide), h3]
      exact Or.inl ⟨s.get.2, by simp [Out.bind, word], h2⟩
    | cons b r =>
      obtain ⟨h1, h2, s', h3, h4⟩ := get_cons h
      rw [nameLoop, h1, if_pos (by omega)]
      by_cases hl : letterB b = true
      · have hw : wordB b = true := by simp [wordB, hl]
        have hc : ((true && !isLetter (b.toNat : Int)) || !(isLetter (b.toNat : Int) || isDig (b.toNat : Int))) = false := by
          simp only [letterB] at hl
          rw [hl]; rfl
        rw [hc, if_neg (by simp), chr_toNat]
        unfold word afterWord
        simp only [hl, if_true]
        rw [List.takeWhile_cons_of_pos hw, List.dropWhile_cons_of_pos hw]
        rcases nameLoop_rest n ([] ++ [b]) s.get.2 r h2 with ⟨q, h, h'⟩ | ⟨h, hl⟩
        · exact Or.inl ⟨q, by rw [h]; simp, h'⟩
        · exact Or.inr ⟨h, by simp; omega⟩
      · have hc : ((true && !isLetter (b.toNat : Int)) || !(isLetter (b.toNat : Int) || isDig (b.toNat : Int))) = true := by
          simp only [letterB, Bool.not_eq_true] at hl
          rw [hl]; rfl
        rw [hc, if_pos rfl, h3]
        unfold word afterWord
        simp only [hl]
        exact Or.inl ⟨s', by simp [Out.bind], h4⟩

theorem afterWord_length (bs : Bytes) : (afterWord bs).length + (word bs).length = bs.length := by
  conv => rhs; rw [← word_append bs]
  simp; omega

/-- The rest of a dotted name: the token code, its text, and the text that follows; `none` for a dot not followed by an
identifier. -/
def aqname : Nat → Code → Bytes → Bytes → Option (Code × Bytes × Bytes)
  | 0, _, _, _ => none
  | n + 1, type, name, bs =>
    match bs with
    | [] => some (type, name, [])
    | b :: r =>
      if b = 46 then
        if word r = [] then none else aqname n .qname (name ++ 46 :: word r) (afterWord r)
      else some (type, name, b :: r)

theorem qnameLoop_spec (N line col : Nat) : ∀ (n : Nat) (type : Code) (name : Bytes) (s : In) (bs : Bytes) (k : Nat),
    Sees s bs → bs.length < k →
    match aqname k type name bs with
    | some (c, v, r) => (∃ s', qnameLoop N line col n type name s = .ok (c, v, s') ∧ Sees s' r) ∨
        (qnameLoop N line col n type name s = .fuel ∧ (n ≤ bs.length ∨ N ≤ bs.length))
    | none => (qnameLoop N line col n type name s = .exc ⟨.invalidIdentifier, line, col⟩) ∨
        (qnameLoop N line col n type name s = .fuel ∧ (n ≤ bs.length ∨ N ≤ bs.length))
  | 0, _, _, _, _, _, _, _ => by split <;> simp [qnameLoop]
  | n + 1, _, _, _, _, 0, _, h => by omega
  | n + 1, type, name, s, [], k + 1, h, _ => by
    obtain ⟨h1, h2, h3⟩ := get_nil h
    simp only [aqname]
    rw [qnameLoop, h1, if_neg (by decide), h3]
    exact Or.inl ⟨s.get.2, rfl, h2⟩
  | n + 1, type, name, s, b :: r, k + 1, h, hk => by
    obtain ⟨h1, h2, s', h3, h4⟩ := get_cons h
    have hb : (b.toNat : Int) = 46 ↔ b = 46 := toNat_eq_iff b 46 (by decide)
    simp only [aqname]
    rw [qnameLoop, h1]
    by_cases hw : b = 46
    · rw [if_pos (hb.mpr hw), if_pos hw]
      rcases nameLoop_spec N s.get.2 r h2 with ⟨q, e1, e2⟩ | ⟨e1, e2⟩
      · rw [e1]
        simp only [Out.bind]
        by_cases hword : word r = []
        · simp only [hword, if_true]
          exact Or.inl trivial
        · simp only [hword, if_false]
          have hlen := afterWord_length r
          have hk' : (afterWord r).length < k := by simp at hk; omega
          have ih := qnameLoop_spec N line col n .qname (name ++ 46 :: word r) q (afterWord r) k e2 hk'
          cases ha : aqname k .qname (name ++ 46 :: word r) (afterWord r) with
          | none =>
            rw [ha] at ih
            rcases ih with h | ⟨h, hl⟩
            · exact Or.inl h
            · exact Or.inr ⟨h, by simp; omega⟩
          | some x =>
            obtain ⟨c, v, rr⟩ := x
            rw [ha] at ih
            rcases ih with h | ⟨h, hl⟩
            · exact Or.inl h
            · exact Or.inr ⟨h, by simp; omega⟩
      · rw [e1]
        have : N ≤ (b :: r).length := by simp; omega
        split
        · exact Or.inr ⟨rfl, Or.inr this⟩
        · exact Or.inr ⟨rfl, Or.inr this⟩
    · rw [if_neg (fun e => hw (hb.mp e)), if_neg hw, h3]
      exact Or.inl ⟨s', rfl, h4⟩

theorem integerLoop_spec : ∀ (n : Nat) (value : Bytes) (s : In) (bs : Bytes), Sees s bs →
    (∃ s', integerLoop n value s = .ok (value ++ bs.takeWhile digitB, s') ∧ Sees s' (bs.dropWhile digitB)) ∨
      (integerLoop n value s = .fuel ∧ n ≤ bs.length)
  | 0, _, s, bs, _ => Or.inr ⟨rfl, Nat.zero_le _⟩
  | n + 1, value, s, [], h => by
    obtain ⟨h1, h2, h3⟩ := get_nil h
    rw [integerLoop, h1, if_neg (by decide), h3]
    exact Or.inl ⟨s.get.2, by simp [Out.bind], h2⟩
  | n + 1, value, s, b :: r, h => by
    obtain ⟨h1, h2, s', h3, h4⟩ := get_cons h
    rw [integerLoop, h1]
    by_cases hw : isDig (b.toNat : Int) = true
    · rw [if_pos hw, chr_toNat]
      have hw' : digitB b = true := hw
      rw [List.takeWhile_cons_of_pos hw', List.dropWhile_cons_of_pos hw']
      rcases integerLoop_spec n (value ++ [b]) s.get.2 r h2 with ⟨q, h, h'⟩ | ⟨h, hl⟩
      · exact Or.inl ⟨q, by rw [h]; simp, h'⟩
      · exact Or.inr ⟨h, by simp; omega⟩
    · rw [if_neg hw, h3]
      have hw' : ¬ digitB b = true := hw
      rw [List.takeWhile_cons_of_neg hw', List.dropWhile_cons_of_neg hw']
      exact Or.inl ⟨s', by simp [Out.bind], h4⟩

/-- The result of reading one token from a text. -/
inductive ALex
  | tok (c : Code) (v : Bytes) (rest : Bytes)
  | exc (k : Kind)
  | hang
deriving DecidableEq

/-- The rest of a string literal. -/
def astr : Bytes → Bytes → ALex
  | _, [] => .hang
  | v, b :: r => if b = 10 ∨ b = 0 then .tok .eof [] r
                 else if b = 34 then .tok .string v r
                 else astr (v ++ [b]) r

/-- An outcome of the tokenizer seen through `ALex`: with too few steps it may be `fuel` (`small`). -/
def LexAgrees (small : Prop) (a : ALex) (o : Out (Tok × In)) : Prop :=
  match a with
  | .tok c v r => (∃ t s', o = .ok (t, s') ∧ t.code = c ∧ t.value = v ∧ Sees s' r) ∨ (o = .fuel ∧ small)
  | .exc k => (∃ e, o = .exc e ∧ e.kind = k) ∨ (o = .fuel ∧ small)
  | .hang => o = .fuel

theorem LexAgrees.weaken {p q : Prop} {a : ALex} {o : Out (Tok × In)} (h : LexAgrees p a o) (f : p → q) :
    LexAgrees q a o := by
  cases a with
  | tok c v r => rcases h with h | ⟨h, hp⟩; exact Or.inl h; exact Or.inr ⟨h, f hp⟩
  | exc k => rcases h with h | ⟨h, hp⟩; exact Or.inl h; exact Or.inr ⟨h, f hp⟩
  | hang => exact h

theorem LexAgrees.ranOut {p : Prop} {a : ALex} (h : p) : LexAgrees p a .fuel := by
  cases a with
  | tok c v r => exact Or.inr ⟨rfl, h⟩
  | exc k => exact Or.inr ⟨rfl, h⟩
  | hang => rfl

theorem stringLoop_spec (line col : Nat) : ∀ (n : Nat) (value : Bytes) (s : In) (bs : Bytes), Sees s bs →
    LexAgrees (n ≤ bs.length) (astr value bs) (stringLoop line col n value s)
  | 0, _, s, bs, _ => LexAgrees.ranOut (Nat.zero_le _)
  | n + 1, value, s, [], h => by
    obtain ⟨h1, h2, h3⟩ := get_nil h
    have ih : ∀ value, stringLoop line col n value s.get.2 = .fuel := fun value =>
      stringLoop_spec line col n value s.get.2 [] h2
    show stringLoop line col (n + 1) value s = .fuel
    rw [stringLoop, h1, if_neg (by decide), if_neg (by decide)]
    exact ih _
  | n + 1, value, s, b :: r, h => by
    obtain ⟨h1, h2, s', h3, h4⟩ := get_cons h
    have e10 : (b.toNat : Int) = 10 ↔ b = 10 := toNat_eq_iff b 10 (by decide)
    have e0 : (b.toNat : Int) = 0 ↔ b = 0 := toNat_eq_iff b 0 (by decide)
    have e34 : (b.toNat : Int) = 34 ↔ b = 34 := toNat_eq_iff b 34 (by decide)
    rw [stringLoop, h1, astr]
    have c1 : ((b.toNat : Int) = 10 ∨ (b.toNat : Int) = 0) ↔ (b = 10 ∨ b = 0) := or_congr e10 e0
    by_cases hb : b = 10 ∨ b = 0
    · rw [if_pos (c1.mpr hb), if_pos hb]
      exact Or.inl ⟨_, _, rfl, rfl, rfl, h2⟩
    · rw [if_neg (fun e => hb (c1.mp e)), if_neg hb]
      by_cases hq : b = 34
      · rw [if_pos (e34.mpr hq), if_pos hq]
        exact Or.inl ⟨_, _, rfl, rfl, rfl, h2⟩
      · rw [if_neg (fun e => hq (e34.mp e)), if_neg hq, chr_toNat]
        exact (stringLoop_spec line col n (value ++ [b]) s.get.2 r h2).weaken (by simp)

theorem afterLF_length : ∀ {bs r : Bytes}, afterLF bs = some r → r.length < bs.length
  | [], _, h => by cases h
  | b :: t, r, h => by
    rw [afterLF] at h
    split at h
    · injection h with h; subst h; simp
    · have := afterLF_length h; simp; omega

theorem afterBlock_length : ∀ (bs : Bytes), (afterBlock bs).length ≤ bs.length
  | [] => Nat.le_refl _
  | b :: r => by
    by_cases hb : b = 42
    · subst hb
      cases r with
      | nil => simp [afterBlock]
      | cons c r' =>
        rw [afterBlock_star]
        split
        · simp; omega
        · have := afterBlock_length (c :: r'); simp at this ⊢; omega
    · rw [afterBlock_other r hb]
      have := afterBlock_length r
      simp; omega

theorem dropWhile_length (p : Byte → Bool) : ∀ bs : Bytes, (bs.dropWhile p).length ≤ bs.length
  | [] => Nat.le_refl _
  | b :: r => by
    rw [List.dropWhile_cons]
    split
    · have := dropWhile_length p r; simp; omega
    · exact Nat.le_refl _

/-- One token of a text, as the tokenizer reads it. -/
def alex : Bytes → ALex
  | [] => .tok .eof [] []
  | b :: r =>
    if wsB b then alex r
    else if letterB b then
      match aqname (r.length + 2) .name (word (b :: r)) (afterWord (b :: r)) with
      | some (c, v, rest) => .tok (if c = .name then findKeyword v keywords else c) v rest
      | none => .exc .invalidIdentifier
    else if digitB b then .tok .integer (b :: r.takeWhile digitB) (r.dropWhile digitB)
    else if b = 47 then
      match r with
      | [] => .tok .eof [] []
      | c :: r' =>
        if c = 47 then
          match h : afterLF r' with
          | none => .hang
          | some q => have := afterLF_length h; alex q
        else if c = 42 then have := afterBlock_length r'; alex (afterBlock r')
        else alex r'
    else if b = 34 then astr [] r
    else match symbol b.toNat with
      | some c => .tok c [] r
      | none => .exc .invalidSymbol
termination_by bs => bs.length
decreasing_by all_goals simp <;> omega

theorem alex_nil : alex [] = .tok .eof [] [] := by rw [alex]

theorem alex_ws {b : Byte} (r : Bytes) (h : wsB b = true) : alex (b :: r) = alex r := by
  rw [alex.eq_def]; simp only [h, if_true]

theorem alex_letter {b : Byte} (r : Bytes) (hw : wsB b = false) (h : letterB b = true) :
    alex (b :: r) = match aqname (r.length + 2) .name (word (b :: r)) (afterWord (b :: r)) with
      | some (c, v, rest) => .tok (if c = .name then findKeyword v keywords else c) v rest
      | none => .exc .invalidIdentifier := by
  rw [alex.eq_def]; simp only [hw, h, if_true, if_false, Bool.false_eq_true]

theorem alex_digit {b : Byte} (r : Bytes) (hw : wsB b = false) (hl : letterB b = false) (h : digitB b = true) :
    alex (b :: r) = .tok .integer (b :: r.takeWhile digitB) (r.dropWhile digitB) := by
  rw [alex.eq_def]; simp only [hw, hl, h, if_true, if_false, Bool.false_eq_true]

theorem alex_quote (r : Bytes) : alex (34 :: r) = astr [] r := by
  rw [alex.eq_def]
  simp only [show wsB 34 = false from rfl, show letterB 34 = false from rfl, show digitB 34 = false from rfl,
    if_false, Bool.false_eq_true, if_true, show ¬ ((34 : Byte) = 47) by decide]

theorem alex_symbol {b : Byte} (r : Bytes) (hw : wsB b = false) (hl : letterB b = false) (hd : digitB b = false)
    (h1 : b ≠ 47) (h2 : b ≠ 34) :
    alex (b :: r) = match symbol b.toNat with
      | some c => .tok c [] r
      | none => .exc .invalidSymbol := by
  rw [alex.eq_def]; simp only [hw, hl, hd, h1, h2, if_false, Bool.false_eq_true]

theorem alex_dropWhile : ∀ bs : Bytes, alex (bs.dropWhile wsB) = alex bs
  | [] => rfl
  | b :: r => by
    by_cases h : wsB b = true
    · rw [List.dropWhile_cons_of_pos h, alex_ws r h, alex_dropWhile r]
    · rw [List.dropWhile_cons_of_neg h]

theorem dropWhile_head {p : Byte → Bool} : ∀ {bs : Bytes} {b : Byte} {r : Bytes}, bs.dropWhile p = b :: r → p b = false
  | [], _, _, h => by cases h
  | c :: t, b, r, h => by
    by_cases hc : p c = true
    · rw [List.dropWhile_cons_of_pos hc] at h; exact dropWhile_head h
    · rw [List.dropWhile_cons_of_neg hc] at h
      injection h with h1 h2
      subst h1; simpa using hc

theorem alex_slash_nil : alex [47] = .tok .eof [] [] := by
  rw [alex, if_neg (by decide), if_neg (by decide), if_neg (by decide), if_pos rfl]

theorem alex_line (r : Bytes) : alex (47 :: 47 :: r) = match afterLF r with | none => .hang | some q => alex q := by
  rw [alex, if_neg (by decide), if_neg (by decide), if_neg (by decide), if_pos rfl]
  simp only [if_true]
  cases h : afterLF r <;> rfl

theorem alex_block (r : Bytes) : alex (47 :: 42 :: r) = alex (afterBlock r) := by
  rw [alex, if_neg (by decide), if_neg (by decide), if_neg (by decide), if_pos rfl]
  simp

theorem alex_slash (c : Byte) (r : Bytes) (h1 : c ≠ 47) (h2 : c ≠ 42) : alex (47 :: c :: r) = alex r := by
  rw [alex, if_neg (by decide), if_neg (by decide), if_neg (by decide), if_pos rfl]
  simp [h1, h2]

/-- **`lex` computes `alex`**: on a stream that will deliver `bs`, the tokenizer returns the token of `alex`, throws as
`alex` says, or runs out of steps, which happens only with few steps or when `alex` never ends. -/
theorem lexLoop_spec (N : Nat) : ∀ (n : Nat) (s : In) (bs : Bytes), Sees s bs →
    LexAgrees (N ≤ bs.length ∨ n ≤ bs.length) (alex bs) (lexLoop N n s)
  | 0, s, bs, _ => LexAgrees.ranOut (Or.inr (Nat.zero_le _))
  | n + 1, s, bs, h => by
    have hlen := dropWhile_length wsB bs
    rw [← alex_dropWhile bs, lexLoop]
    rcases skipws_spec N s bs h with ⟨s', e1, e2⟩ | ⟨e1, e2⟩
    · rw [e1]
      simp only [Out.bind]
      cases hd : bs.dropWhile wsB with
      | nil =>
        rw [hd] at e2
        obtain ⟨h1, h2, h3⟩ := get_nil e2
        rw [alex_nil, h1, if_pos (by decide)]
        exact Or.inl ⟨_, _, rfl, rfl, rfl, h2⟩
      | cons b r =>
        rw [hd] at e2 hlen
        have hws := dropWhile_head hd
        obtain ⟨h1, h2, s'', h3, h4⟩ := get_cons e2
        have e10 : (b.toNat : Int) = 10 ↔ b = 10 := toNat_eq_iff b 10 (by decide)
        have e13 : (b.toNat : Int) = 13 ↔ b = 13 := toNat_eq_iff b 13 (by decide)
        have e47 : (b.toNat : Int) = 47 ↔ b = 47 := toNat_eq_iff b 47 (by decide)
        have e34 : (b.toNat : Int) = 34 ↔ b = 34 := toNat_eq_iff b 34 (by decide)
        rw [h1, if_neg (by omega)]
        by_cases hl : letterB b = true
        · have hl' : isLetter (b.toNat : Int) = true := hl
          rw [if_pos hl', h3, alex_letter r hws hl]
          simp only [qname]
          have hsplit := afterWord_length (b :: r)
          simp only [List.length_cons] at hsplit hlen
          rcases nameLoop_spec N s'' (b :: r) h4 with ⟨q, f1, f2⟩ | ⟨f1, f2⟩
          · rw [f1]
            simp only [Out.bind]
            have hq := qnameLoop_spec N s'.line s'.col N .name (word (b :: r)) q (afterWord (b :: r)) (r.length + 2) f2
              (by omega)
            cases ha : aqname (r.length + 2) .name (word (b :: r)) (afterWord (b :: r)) with
            | none =>
              rw [ha] at hq
              rcases hq with h | ⟨h, hl⟩
              · rw [h]; exact Or.inl ⟨_, rfl, rfl⟩
              · rw [h]; exact LexAgrees.ranOut (Or.inl (by omega))
            | some x =>
              obtain ⟨c, v, rr⟩ := x
              rw [ha] at hq
              rcases hq with ⟨s3, h, h'⟩ | ⟨h, hl⟩
              · rw [h]; exact Or.inl ⟨_, _, rfl, rfl, rfl, h'⟩
              · rw [h]; exact LexAgrees.ranOut (Or.inl (by omega))
          · rw [f1]
            simp only [List.length_cons] at f2
            exact LexAgrees.ranOut (Or.inl (by omega))
        · have hl' : ¬ isLetter (b.toNat : Int) = true := hl
          rw [if_neg hl']
          by_cases hg : digitB b = true
          · have hg' : isDig (b.toNat : Int) = true := hg
            rw [if_pos hg', alex_digit r hws (by simpa using hl) hg]
            have hne : (b.toNat : Int) ≠ 0 := by
              intro h0; rw [h0] at hg'; cases hg'
            simp only [integer, hne, ne_eq, not_false_eq_true, if_true, chr_toNat]
            simp only [List.length_cons] at hlen
            rcases integerLoop_spec N [b] s'.get.2 r h2 with ⟨q, f1, f2⟩ | ⟨f1, f2⟩
            · rw [f1]
              exact Or.inl ⟨_, _, rfl, rfl, by simp, f2⟩
            · rw [f1]
              exact LexAgrees.ranOut (Or.inl (by omega))
          · have hg' : ¬ isDig (b.toNat : Int) = true := hg
            rw [if_neg hg']
            simp only [List.length_cons] at hlen
            by_cases h47 : b = 47
            · rw [if_pos (e47.mpr h47)]
              subst h47
              unfold comment
              cases r with
              | nil =>
                obtain ⟨g1, g2, g3⟩ := get_nil h2
                rw [g1, if_neg (by decide), if_neg (by decide)]
                simp only
                rw [alex_slash_nil, ← alex_nil]
                exact (lexLoop_spec N n _ [] g2).weaken (by simp; omega)
              | cons c r' =>
                obtain ⟨g1, g2, s3, g3, g4⟩ := get_cons h2
                have f47 : (c.toNat : Int) = 47 ↔ c = 47 := toNat_eq_iff c 47 (by decide)
                have f42 : (c.toNat : Int) = 42 ↔ c = 42 := toNat_eq_iff c 42 (by decide)
                rw [g1]
                simp only [List.length_cons] at hlen
                by_cases hc : c = 47
                · rw [if_pos (f47.mpr hc)]
                  subst hc
                  rw [alex_line]
                  have hlc := lineComment_spec N s'.get.2.get.2 r' g2
                  cases ha : afterLF r' with
                  | none =>
                    rw [ha] at hlc
                    simp only at hlc ⊢
                    rw [hlc]; rfl
                  | some q =>
                    rw [ha] at hlc
                    simp only at hlc ⊢
                    have := afterLF_length ha
                    rcases hlc with ⟨s4, h, h'⟩ | ⟨h, hl⟩
                    · rw [h]
                      exact (lexLoop_spec N n s4 q h').weaken (by omega)
                    · rw [h]; exact LexAgrees.ranOut (Or.inl (by omega))
                · rw [if_neg (fun e => hc (f47.mp e))]
                  by_cases hc2 : c = 42
                  · rw [if_pos (f42.mpr hc2)]
                    subst hc2
                    rw [alex_block]
                    have := afterBlock_length r'
                    rcases blockComment_spec N s'.get.2.get.2 r' g2 with ⟨s4, h, h'⟩ | ⟨h, hl⟩
                    · rw [h]
                      exact (lexLoop_spec N n s4 _ h').weaken (by omega)
                    · rw [h]; exact LexAgrees.ranOut (Or.inl (by omega))
                  · rw [if_neg (fun e => hc2 (f42.mp e)), alex_slash c r' hc hc2]
                    exact (lexLoop_spec N n _ r' g2).weaken (by omega)
            · rw [if_neg (fun e => h47 (e47.mp e))]
              have hn10 : ¬ ((b.toNat : Int) = 10 ∨ (b.toNat : Int) = 13) := by
                rintro (h | h)
                · rw [e10.mp h] at hws; cases hws
                · rw [e13.mp h] at hws; cases hws
              rw [if_neg hn10]
              by_cases h34 : b = 34
              · rw [if_pos (e34.mpr h34)]
                subst h34
                rw [alex_quote]
                exact (stringLoop_spec _ _ N [] _ r h2).weaken (by omega)
              · rw [if_neg (fun e => h34 (e34.mp e)),
                  alex_symbol r hws (by simpa using hl) (by simpa using hg) h47 h34]
                cases hsy : symbol (b.toNat : Int) with
                | some c => exact Or.inl ⟨_, _, rfl, rfl, rfl, h2⟩
                | none => exact Or.inl ⟨_, rfl, rfl⟩
    · rw [e1]
      exact LexAgrees.ranOut (Or.inl e2)

theorem lex_spec (N : Nat) (s : In) (bs : Bytes) (h : Sees s bs) :
    LexAgrees (N ≤ bs.length) (alex bs) (lex N s) :=
  (lexLoop_spec N N s bs h).weaken (by simp)

end PG.Proto
