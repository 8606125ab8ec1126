import Verif.Proofs.ProtoWrite
/-
What an accepted text is: the parser accepts only texts that are (taken for) the lexical elements of a schema.
-/
set_option autoImplicit false
namespace PG.Proto

/-! ### Lexical analysis -/

/-- One lexical element, after what is skipped. -/
def Step (s : Bytes) (l : Lexeme) (s' : Bytes) : Prop :=
  ∃ g, LooseGap g ∧ s = g ++ l.text ++ s' ∧ l.Valid ∧ l.Ends s'
/-- The end, after what is skipped. -/
def Fin (s : Bytes) : Prop := ∃ g e, LooseGap g ∧ LooseEnd e ∧ s = g ++ e

/-- The outcome of the tokenizer: the end or a lexical element. -/
def Seen (s : Bytes) (c : Code) (v : Bytes) (s' : Bytes) : Prop :=
  (c = .eof ∧ Fin s) ∨ ∃ l, (c, v) = l.tok ∧ Step s l s'

theorem mem_takeWhile {p : Byte → Bool} : ∀ {l : Bytes} {b : Byte}, b ∈ l.takeWhile p → p b = true
  | x :: l, b, h => by
    by_cases hx : p x = true
    · rw [List.takeWhile_cons_of_pos hx] at h
      rcases List.mem_cons.mp h with rfl | h
      · exact hx
      · exact mem_takeWhile h
    · rw [List.takeWhile_cons_of_neg hx] at h; cases h

theorem erase_erase (m : Message) : m.erase.erase = m.erase := by
  have ho : ∀ o : OptMap, OptMap.erase (OptMap.erase o) = OptMap.erase o := by
    intro o; simp [OptMap.erase, OptEntry.erase]
  simp only [Message.erase, ho, List.map_map]
  congr 1
  refine List.map_congr_left fun f _ => ?_
  simp [Field.erase, ho]

theorem seen_gap {g s s' : Bytes} {c : Code} {v : Bytes} (wrap : ∀ h, LooseGap h → LooseGap (g ++ h))
    (h : Seen s c v s') : Seen (g ++ s) c v s' := by
  rcases h with ⟨h1, g', e, h2, h3, rfl⟩ | ⟨l, h1, g', h2, rfl, h3, h4⟩
  · exact Or.inl ⟨h1, g ++ g', e, wrap _ h2, h3, by simp⟩
  · exact Or.inr ⟨l, h1, g ++ g', wrap _ h2, by simp, h3, h4⟩

theorem afterLF_split : ∀ {bs q : Bytes}, afterLF bs = some q → ∃ c, 10 ∉ c ∧ bs = c ++ 10 :: q
  | [], _, h => by cases h
  | b :: r, q, h => by
    rw [afterLF] at h
    split at h
    · rename_i e; injection h with h; subst e h; exact ⟨[], by simp, rfl⟩
    · rename_i e
      obtain ⟨c, h1, rfl⟩ := afterLF_split h
      exact ⟨b :: c, by simp only [List.mem_cons, not_or]; exact ⟨Ne.symm e, h1⟩, rfl⟩

theorem no_close_cons {b : Byte} {c : Bytes} (hc : ¬ ∃ p q, c = p ++ b!"*/" ++ q)
    (hb : ¬ (b = 42 ∧ ∃ r, c = 47 :: r)) : ¬ ∃ p q, b :: c = p ++ b!"*/" ++ q := by
  rintro ⟨p, q, h⟩
  cases p with
  | nil =>
    injection h with h1 h2
    exact hb ⟨h1, q, h2⟩
  | cons x p =>
    injection h with h1 h2
    exact hc ⟨p, q, h2⟩

theorem afterBlock_cases : ∀ (n : Nat) (bs : Bytes), bs.length ≤ n →
    (∃ c, (¬ ∃ p q, c = p ++ b!"*/" ++ q) ∧ bs = c ++ 42 :: 47 :: afterBlock bs) ∨
    ((¬ ∃ p q, bs = p ++ b!"*/" ++ q) ∧ afterBlock bs = [])
  | n, [], _ => Or.inr ⟨by rintro ⟨p, q, h⟩; simp at h, rfl⟩
  | 0, b :: r, h => by simp at h
  | n + 1, b :: r, h => by
    simp only [List.length_cons, Nat.add_le_add_iff_right] at h
    by_cases hb : b = 42
    · subst hb
      cases r with
      | nil =>
        refine Or.inr ⟨?_, by simp [afterBlock]⟩
        rintro ⟨p, q, h⟩
        have := congrArg List.length h
        simp at this
        omega
      | cons c r =>
        rw [afterBlock_star]
        by_cases hc : c = 47
        · subst hc
          rw [if_pos rfl]
          exact Or.inl ⟨[], by rintro ⟨p, q, h⟩; simp at h, rfl⟩
        · rw [if_neg hc]
          rcases afterBlock_cases n (c :: r) h with ⟨d, h1, h2⟩ | ⟨h1, h2⟩
          · refine Or.inl ⟨42 :: d, no_close_cons h1 ?_, by rw [List.cons_append, ← h2]⟩
            rintro ⟨_, r', rfl⟩
            injection h2 with h2 _
            exact hc h2
          · refine Or.inr ⟨no_close_cons h1 ?_, h2⟩
            rintro ⟨_, r', h3⟩
            injection h3 with h3 _
            exact hc h3
    · rw [afterBlock_other r hb]
      rcases afterBlock_cases n r h with ⟨d, h1, h2⟩ | ⟨h1, h2⟩
      · exact Or.inl ⟨b :: d, no_close_cons h1 (fun h => hb h.1), by rw [List.cons_append, ← h2]⟩
      · exact Or.inr ⟨no_close_cons h1 (fun h => hb h.1), h2⟩

theorem astr_cases : ∀ (bs v : Bytes) (c : Code) (w r : Bytes), astr v bs = .tok c w r →
    (∃ s, Quotable s ∧ c = .string ∧ w = v ++ s ∧ bs = s ++ 34 :: r) ∨
    (∃ s b, Quotable s ∧ (b = 10 ∨ b = 0) ∧ c = .eof ∧ bs = s ++ b :: r)
  | [], _, _, _, _, h => by cases h
  | b :: t, v, c, w, r, h => by
    have hq : Quotable [] := ⟨by simp, by simp, by simp⟩
    rw [astr] at h
    split at h
    · rename_i e
      injection h with h1 h2 h3
      subst h1 h3
      exact Or.inr ⟨[], b, hq, e, rfl, rfl⟩
    · rename_i e
      split at h
      · rename_i e2
        injection h with h1 h2 h3
        subst h1 h2 h3 e2
        exact Or.inl ⟨[], hq, rfl, by simp, rfl⟩
      · rename_i e2
        have wrap : ∀ s, Quotable s → Quotable (b :: s) := by
          rintro s ⟨q1, q2, q3⟩
          refine ⟨?_, ?_, ?_⟩ <;> simp only [List.mem_cons, not_or]
          · exact ⟨fun x => e (Or.inl x.symm), q1⟩
          · exact ⟨fun x => e (Or.inr x.symm), q2⟩
          · exact ⟨Ne.symm e2, q3⟩
        rcases astr_cases t (v ++ [b]) c w r h with ⟨s, h1, h2, h3, h4⟩ | ⟨s, x, h1, h2, h3, h4⟩
        · exact Or.inl ⟨b :: s, wrap s h1, h2, by rw [h3]; simp, by rw [h4]; rfl⟩
        · exact Or.inr ⟨b :: s, x, wrap s h1, h2, h3, by rw [h4]; rfl⟩

theorem word_isIdent {bs : Bytes} (h : word bs ≠ []) : Ident (word bs) := by
  cases bs with
  | nil => exact absurd rfl h
  | cons b r =>
    unfold word at h ⊢
    dsimp only at h ⊢
    split
    · rename_i hb
      have hw : wordB b = true := by rw [wordB, hb]; rfl
      rw [List.takeWhile_cons_of_pos hw]
      refine ⟨b, _, rfl, (letterB_iff b).mp hb, fun c hc => (wordB_iff c).mp ?_⟩
      exact (mem_takeWhile hc)
    · rename_i hb; rw [if_neg hb] at h; exact absurd rfl h

theorem afterWord_stops (bs : Bytes) (h : word bs ≠ []) : Stops wordB (afterWord bs) := by
  cases bs with
  | nil => exact absurd rfl h
  | cons b r =>
    unfold word at h
    unfold afterWord
    dsimp only at h ⊢
    split
    · cases hx : (b :: r).dropWhile wordB with
      | nil => trivial
      | cons x t => exact dropWhile_head hx
    · rename_i hb; rw [if_neg hb] at h; exact absurd rfl h

theorem dotname_snoc {n w : Bytes} (h : DotName n) (hw : Ident w) : DotName (n ++ 46 :: w) := by
  induction h with
  | one h => exact .more h (.one hw)
  | more h t ih => rw [List.append_assoc]; exact .more h ih

theorem aqname_cases : ∀ (k : Nat) (type : Code) (name bs : Bytes) (c : Code) (v r : Bytes), DotName name →
    Stops wordB bs → aqname k type name bs = some (c, v, r) →
    DotName v ∧ v ++ r = name ++ bs ∧ Lexeme.Ends (.word v) r ∧ ((v = name ∧ c = type) ∨ (46 ∈ v ∧ c = .qname))
  | 0, _, _, _, _, _, _, _, _, h => by cases h
  | k + 1, type, name, [], c, v, r, hn, _, h => by
    simp only [aqname, Option.some.injEq, Prod.mk.injEq] at h
    obtain ⟨rfl, rfl, rfl⟩ := h
    exact ⟨hn, rfl, trivial, Or.inl ⟨rfl, rfl⟩⟩
  | k + 1, type, name, b :: t, c, v, r, hn, hs, h => by
    simp only [aqname] at h
    split at h
    · rename_i e
      split at h
      · cases h
      · rename_i hw
        subst e
        obtain ⟨h1, h2, h3, h4⟩ := aqname_cases k .qname (name ++ 46 :: word t) (afterWord t) c v r
          (dotname_snoc hn (word_isIdent hw)) (afterWord_stops t hw) h
        refine ⟨h1, ?_, h3, Or.inr ?_⟩
        · rw [h2]; simp [word_append]
        · rcases h4 with ⟨rfl, rfl⟩ | h4
          · exact ⟨by simp, rfl⟩
          · exact h4
    · rename_i e
      simp only [Option.some.injEq, Prod.mk.injEq] at h
      obtain ⟨rfl, rfl, rfl⟩ := h
      have hs : wordB b = false := hs
      refine ⟨hn, rfl, ⟨?_, ?_, e⟩, Or.inl ⟨rfl, rfl⟩⟩
      · intro hl; rw [(wordB_iff b).mpr (Or.inl hl)] at hs; cases hs
      · intro hl; rw [(wordB_iff b).mpr (Or.inr hl)] at hs; cases hs

theorem symbol_mem {b : Byte} {c : Code} (h : symbol b.toNat = some c) : b ∈ b!"={};,<>[]" := by
  unfold symbol at h
  have key : ∀ n : Nat, n < 256 → ((b.toNat : Int) = (n : Int)) → b = UInt8.ofNat n := fun n hn h =>
    (toNat_eq_iff b n hn).mp h
  split at h
  · rename_i e; rw [key 61 (by decide) e]; decide
  split at h
  · rename_i e; rw [key 123 (by decide) e]; decide
  split at h
  · rename_i e; rw [key 125 (by decide) e]; decide
  split at h
  · rename_i e; rw [key 59 (by decide) e]; decide
  split at h
  · rename_i e; rw [key 44 (by decide) e]; decide
  split at h
  · rename_i e; rw [key 60 (by decide) e]; decide
  split at h
  · rename_i e; rw [key 62 (by decide) e]; decide
  split at h
  · rename_i e; rw [key 91 (by decide) e]; decide
  split at h
  · rename_i e; rw [key 93 (by decide) e]; decide
  · cases h

theorem alex_seen : ∀ (n : Nat) (bs : Bytes), bs.length ≤ n → ∀ (c : Code) (v r : Bytes), alex bs = .tok c v r →
    Seen bs c v r
  | n, [], _, c, v, r, h => by
    rw [alex_nil] at h
    injection h with h1 h2 h3
    exact Or.inl ⟨h1.symm, [], [], .nil, .nil, rfl⟩
  | 0, b :: t, hl, _, _, _, _ => by simp at hl
  | n + 1, b :: t, hl, c, v, r, h => by
    simp only [List.length_cons, Nat.add_le_add_iff_right] at hl
    by_cases hw : wsB b = true
    · rw [alex_ws t hw] at h
      exact seen_gap (g := [b]) (fun g hg => .space ((wsB_iff b).mp hw) hg) (alex_seen n t hl c v r h)
    rw [Bool.not_eq_true] at hw
    by_cases hlt : letterB b = true
    · rw [alex_letter t hw hlt] at h
      have hne : word (b :: t) ≠ [] := by simp [word, hlt, wordB]
      have hid := word_isIdent hne
      split at h
      · rename_i cc vv rr heq
        injection h with h1 h2 h3
        subst h1 h2 h3
        obtain ⟨k1, k2, k3, k4⟩ := aqname_cases _ _ _ _ _ _ _ (.one hid) (afterWord_stops _ hne) heq
        rw [word_append] at k2
        refine Or.inr ⟨.word vv, ?_, [], .nil, by rw [← k2]; rfl, k1, k3⟩
        unfold Lexeme.tok
        rcases k4 with ⟨rfl, rfl⟩ | ⟨k4, rfl⟩
        · simp [ident_nodot hid]
        · simp [k4]
      · cases h
    rw [Bool.not_eq_true] at hlt
    by_cases hd : digitB b = true
    · rw [alex_digit t hw hlt hd] at h
      injection h with h1 h2 h3
      subst h1 h2 h3
      refine Or.inr ⟨.int (b :: t.takeWhile digitB), rfl, [], .nil, ?_, ⟨by simp, ?_⟩, ?_⟩
      · simp [Lexeme.text, List.takeWhile_append_dropWhile]
      · intro x hx
        rcases List.mem_cons.mp hx with rfl | hx
        · exact (digitB_iff _).mp hd
        · exact (digitB_iff _).mp (mem_takeWhile hx)
      · cases hx : t.dropWhile digitB with
        | nil => trivial
        | cons x r =>
          intro hdx
          have := dropWhile_head hx
          rw [(digitB_iff x).mpr hdx] at this
          cases this
    rw [Bool.not_eq_true] at hd
    by_cases h47 : b = 47
    · subst h47
      cases t with
      | nil =>
        rw [alex_slash_nil] at h
        injection h with h1 h2 h3
        exact Or.inl ⟨h1.symm, [], b!"/", .nil, .slash, rfl⟩
      | cons x t =>
        simp only [List.length_cons] at hl
        by_cases hx : x = 47
        · subst hx
          rw [alex_line] at h
          split at h
          · cases h
          · rename_i q hq
            have hlen := afterLF_length hq
            obtain ⟨d, hd10, rfl⟩ := afterLF_split hq
            have := seen_gap (g := b!"//" ++ d ++ [10])
              (fun g hg => by
                rw [show b!"//" ++ d ++ [10] ++ g = b!"//" ++ d ++ 10 :: g by simp]
                exact .line hd10 hg)
              (alex_seen n q (by omega) c v r h)
            rw [show (47 :: 47 :: (d ++ 10 :: q) : Bytes) = b!"//" ++ d ++ [10] ++ q by simp]
            exact this
        by_cases hx2 : x = 42
        · subst hx2
          rw [alex_block] at h
          have hlen := afterBlock_length t
          have ih := alex_seen n _ (by omega) c v r h
          rcases afterBlock_cases t.length t (Nat.le_refl _) with ⟨d, h1, h2⟩ | ⟨h1, h2⟩
          · have := seen_gap (g := b!"/*" ++ d ++ b!"*/") (fun g hg => .block h1 hg) ih
            rw [show (47 :: 42 :: t : Bytes) = b!"/*" ++ d ++ b!"*/" ++ afterBlock t by
              conv => lhs; rw [h2]
              simp]
            exact this
          · rw [h2, alex_nil] at h
            injection h with e1 e2 e3
            exact Or.inl ⟨e1.symm, [], b!"/*" ++ t, .nil, .block h1, rfl⟩
        · rw [alex_slash x t hx hx2] at h
          exact seen_gap (g := [47, x]) (fun g hg => .slash hx hx2 hg) (alex_seen n t (by omega) c v r h)
    by_cases h34 : b = 34
    · subst h34
      rw [alex_quote] at h
      rcases astr_cases _ _ _ _ _ h with ⟨s, h1, h2, h3, h4⟩ | ⟨s, x, h1, h2, h3, h4⟩
      · subst h2 h3 h4
        refine Or.inr ⟨.str _, rfl, [], .nil, by simp [Lexeme.text], h1, trivial⟩
      · subst h3 h4
        exact Or.inl ⟨rfl, [], _, .nil, .string h1 h2, rfl⟩
    rw [alex_symbol t hw hlt hd h47 h34] at h
    split at h
    · rename_i cc hs
      injection h with h1 h2 h3
      subst h1 h2 h3
      refine Or.inr ⟨.sym b, ?_, [], .nil, rfl, symbol_mem hs, trivial⟩
      simp [Lexeme.tok, hs]
    · cases h

/-! ### The parser -/

/-- A property of the result, if there is one. -/
def Okay {α : Type} (Q : α → Prop) (o : Out α) : Prop := ∀ a, o = .ok a → Q a

theorem Okay.bind {α β : Type} {P : α → Prop} {Q : β → Prop} {o : Out α} {f : α → Out β} (h : Okay P o)
    (hf : ∀ a, P a → Okay Q (f a)) : Okay Q (o.bind f) := by
  intro b hb
  cases o with
  | ok a => exact hf a (h a rfl) b hb
  | exc e => cases hb
  | runtime => cases hb
  | fuel => cases hb

theorem Okay.ok {α : Type} {Q : α → Prop} {a : α} (h : Q a) : Okay Q (.ok a) := by
  intro b hb; injection hb with hb; subst hb; exact h

theorem Okay.fail {α σ : Type} {Q : α → Prop} {tk : Tk σ} {k : Kind} : Okay Q (tk.fail k : Out α) := by
  intro b hb; cases hb

theorem Okay.fuel {α : Type} {Q : α → Prop} : Okay Q (.fuel : Out α) := by
  intro b hb; cases hb

theorem Okay.mono {α : Type} {P Q : α → Prop} {o : Out α} (h : Okay P o) (hq : ∀ a, P a → Q a) : Okay Q o :=
  fun a ha => hq a (h a ha)

/-- Lexical elements read one after the other. -/
inductive Reads : Bytes → List Lexeme → Bytes → Prop
  | nil {s : Bytes} : Reads s [] s
  | cons {s s' s'' : Bytes} {l : Lexeme} {ls : List Lexeme} (h : Step s l s') (t : Reads s' ls s'') :
      Reads s (l :: ls) s''

theorem Reads.append {a b c : Bytes} {l m : List Lexeme} (h : Reads a l b) (k : Reads b m c) : Reads a (l ++ m) c := by
  induction h with
  | nil => exact k
  | cons h t ih => exact .cons h (ih k)

theorem Reads.one {a b : Bytes} {l : Lexeme} (h : Step a l b) : Reads a [l] b := .cons h .nil

theorem Reads.snoc {a b c : Bytes} {l : List Lexeme} {x : Lexeme} (h : Reads a l b) (k : Step b x c) :
    Reads a (l ++ [x]) c := h.append (.one k)

theorem Reads.loose {a b : Bytes} {l : List Lexeme} (h : Reads a l b) (hf : Fin b) : LooseLayout l a := by
  induction h with
  | nil => obtain ⟨g, e, h1, h2, rfl⟩ := hf; exact .done h1 h2
  | cons h t ih => obtain ⟨g, h1, rfl, h2, h3⟩ := h; exact .next h1 h2 h3 (ih hf)

/-- The current token was read at `s`. -/
def Got (s : Bytes) (tk : Tk Bytes) : Prop := tk.ungot = false ∧ Seen s tk.cur.code tk.cur.value tk.src

/-- The next token will be read at `s`. -/
def Src (s : Bytes) (tk : Tk Bytes) : Prop :=
  (tk.ungot = false ∧ tk.src = s) ∨ (tk.ungot = true ∧ Seen s tk.cur.code tk.cur.value tk.src)

theorem Src.plain {tk : Tk Bytes} (h : tk.ungot = false) : Src tk.src tk := Or.inl ⟨h, rfl⟩

theorem s_next {s : Bytes} {tk : Tk Bytes} (h : Src s tk) : Okay (Got s) (tk.next anext) := by
  unfold Tk.next
  rcases h with ⟨h1, rfl⟩ | ⟨h1, h2⟩
  · rw [h1]
    simp only [Bool.false_eq_true, if_false]
    refine Okay.bind (P := fun r => Seen tk.src r.1.code r.1.value r.2) ?_ fun r hr => Okay.ok ⟨rfl, hr⟩
    intro r hr
    unfold anext at hr
    split at hr
    · rename_i c v r' e
      injection hr with hr; subst hr
      exact alex_seen _ _ (Nat.le_refl _) _ _ _ e
    · cases hr
    · cases hr
  · rw [h1]
    exact Okay.ok ⟨rfl, h2⟩

theorem s_unget {s : Bytes} {tk : Tk Bytes} (h : Got s tk) :
    Okay (fun t => Src s t ∧ t.ungot = true ∧ t.cur = tk.cur ∧ t.src = tk.src) tk.unget := by
  unfold Tk.unget
  rw [h.1]
  exact Okay.ok ⟨Or.inr ⟨rfl, h.2⟩, rfl, rfl, rfl⟩

theorem Got.src {s : Bytes} {tk : Tk Bytes} (h : Got s tk) : Src tk.src tk := Or.inl ⟨h.1, rfl⟩

theorem got_lexeme {s : Bytes} {tk : Tk Bytes} (h : Got s tk) (hc : tk.cur.code ≠ .eof) :
    ∃ l, l.Valid ∧ (tk.cur.code, tk.cur.value) = l.tok ∧ Step s l tk.src := by
  rcases h.2 with ⟨h1, _⟩ | ⟨l, h1, h2⟩
  · exact absurd h1 hc
  · obtain ⟨g, _, _, h3, _⟩ := id h2
    exact ⟨l, h3, h1, h2⟩

theorem got_end {s : Bytes} {tk : Tk Bytes} (h : Got s tk) (hc : tk.cur.code = .eof) : Fin s := by
  rcases h.2 with ⟨_, h1⟩ | ⟨l, h1, h2⟩
  · exact h1
  · obtain ⟨g, _, _, h3, _⟩ := h2
    exact absurd hc (tok_not_eof h3 h1)

section got
variable {s : Bytes} {tk : Tk Bytes} (h : Got s tk)
include h

theorem got_name (hc : tk.cur.code = .name ∨ tk.cur.code = .qname) :
    Step s (.word tk.cur.value) tk.src ∧ DotName tk.cur.value ∧ tk.cur.value ∉ reserved := by
  obtain ⟨l, h1, h2, h3⟩ := got_lexeme h (by rcases hc with e | e <;> rw [e] <;> decide)
  obtain ⟨rfl, h5, h6⟩ := tok_name h1 h2 hc
  exact ⟨h3, h5, h6⟩

theorem got_nameOK (hc : isNameCode tk.cur.code = true) :
    Step s (.word tk.cur.value) tk.src ∧ NameOK tk.cur.value := by
  obtain ⟨l, h1, h2, h3⟩ := got_lexeme h (by intro e; rw [e] at hc; revert hc; decide)
  obtain ⟨rfl, h5⟩ := tok_nameOK h1 h2 hc
  exact ⟨h3, h5⟩

theorem got_int (hc : tk.cur.code = .integer) : Step s (.int tk.cur.value) tk.src ∧ Digits tk.cur.value := by
  obtain ⟨l, h1, h2, h3⟩ := got_lexeme h (by rw [hc]; decide)
  obtain ⟨rfl, h5⟩ := tok_int h1 h2 hc
  exact ⟨h3, h5⟩

theorem got_str (hc : tk.cur.code = .string) : Step s (.str tk.cur.value) tk.src ∧ Quotable tk.cur.value := by
  obtain ⟨l, h1, h2, h3⟩ := got_lexeme h (by rw [hc]; decide)
  obtain ⟨rfl, h5⟩ := tok_str h1 h2 hc
  exact ⟨h3, h5⟩

theorem got_equal (hc : tk.cur.code = .equal) : Step s (.sym c!"=") tk.src := by
  obtain ⟨l, h1, h2, h3⟩ := got_lexeme h (by rw [hc]; decide)
  have := (tok_sym h1 h2).1 hc; subst this; exact h3
theorem got_begin (hc : tk.cur.code = .begin) : Step s (.sym c!"{") tk.src := by
  obtain ⟨l, h1, h2, h3⟩ := got_lexeme h (by rw [hc]; decide)
  have := (tok_sym h1 h2).2.1 hc; subst this; exact h3
theorem got_close (hc : tk.cur.code = .end) : Step s (.sym c!"}") tk.src := by
  obtain ⟨l, h1, h2, h3⟩ := got_lexeme h (by rw [hc]; decide)
  have := (tok_sym h1 h2).2.2.1 hc; subst this; exact h3
theorem got_scolon (hc : tk.cur.code = .scolon) : Step s (.sym c!";") tk.src := by
  obtain ⟨l, h1, h2, h3⟩ := got_lexeme h (by rw [hc]; decide)
  have := (tok_sym h1 h2).2.2.2.1 hc; subst this; exact h3
theorem got_comma (hc : tk.cur.code = .comma) : Step s (.sym c!",") tk.src := by
  obtain ⟨l, h1, h2, h3⟩ := got_lexeme h (by rw [hc]; decide)
  have := (tok_sym h1 h2).2.2.2.2.1 hc; subst this; exact h3
theorem got_lbracket (hc : tk.cur.code = .lbracket) : Step s (.sym c!"[") tk.src := by
  obtain ⟨l, h1, h2, h3⟩ := got_lexeme h (by rw [hc]; decide)
  have := (tok_sym h1 h2).2.2.2.2.2.1 hc; subst this; exact h3
theorem got_rbracket (hc : tk.cur.code = .rbracket) : Step s (.sym c!"]") tk.src := by
  obtain ⟨l, h1, h2, h3⟩ := got_lexeme h (by rw [hc]; decide)
  have := (tok_sym h1 h2).2.2.2.2.2.2 hc; subst this; exact h3

theorem got_message (hc : tk.cur.code = .message) : Step s (.word b!"message") tk.src := by
  obtain ⟨l, h1, h2, h3⟩ := got_lexeme h (by rw [hc]; decide)
  have := (tok_keyword h1 h2).1 hc; subst this; exact h3
theorem got_package (hc : tk.cur.code = .package) : Step s (.word b!"package") tk.src := by
  obtain ⟨l, h1, h2, h3⟩ := got_lexeme h (by rw [hc]; decide)
  have := (tok_keyword h1 h2).2.1 hc; subst this; exact h3
theorem got_syntax (hc : tk.cur.code = .syntax) : Step s (.word b!"syntax") tk.src := by
  obtain ⟨l, h1, h2, h3⟩ := got_lexeme h (by rw [hc]; decide)
  have := (tok_keyword h1 h2).2.2.1 hc; subst this; exact h3
theorem got_option (hc : tk.cur.code = .option) : Step s (.word b!"option") tk.src := by
  obtain ⟨l, h1, h2, h3⟩ := got_lexeme h (by rw [hc]; decide)
  have := (tok_keyword h1 h2).2.2.2.1 hc; subst this; exact h3
theorem got_true (hc : tk.cur.code = .true) : Step s (.word b!"true") tk.src ∧ tk.cur.value = b!"true" := by
  obtain ⟨l, h1, h2, h3⟩ := got_lexeme h (by rw [hc]; decide)
  have := (tok_keyword h1 h2).2.2.2.2.1 hc
  obtain ⟨rfl, hv⟩ := this; exact ⟨h3, hv⟩
theorem got_false (hc : tk.cur.code = .false) : Step s (.word b!"false") tk.src ∧ tk.cur.value = b!"false" := by
  obtain ⟨l, h1, h2, h3⟩ := got_lexeme h (by rw [hc]; decide)
  have := (tok_keyword h1 h2).2.2.2.2.2.1 hc
  obtain ⟨rfl, hv⟩ := this; exact ⟨h3, hv⟩
theorem got_repeated (hc : tk.cur.code = .repeated) : Step s (.word b!"repeated") tk.src := by
  obtain ⟨l, h1, h2, h3⟩ := got_lexeme h (by rw [hc]; decide)
  have := (tok_keyword h1 h2).2.2.2.2.2.2.1 hc; subst this; exact h3
theorem got_optional (hc : tk.cur.code = .optional) : Step s (.word b!"optional") tk.src := by
  obtain ⟨l, h1, h2, h3⟩ := got_lexeme h (by rw [hc]; decide)
  have := (tok_keyword h1 h2).2.2.2.2.2.2.2.1 hc; subst this; exact h3
theorem got_ty {t : Scalar} (hc : tk.cur.code = .ty t) : Step s (.word t.text) tk.src := by
  obtain ⟨l, h1, h2, h3⟩ := got_lexeme h (by rw [hc]; simp)
  have := (tok_keyword h1 h2).2.2.2.2.2.2.2.2 t hc; subst this; exact h3

/-- A token accepted as the value of an option. -/
theorem got_value {ty : OptType} (hc : optType tk.cur.code = some ty) :
    ∃ v : Value, v.WF ∧ v.type = ty ∧ v.value = tk.cur.value ∧ Step s v.lexeme tk.src := by
  cases hcode : tk.cur.code <;> rw [hcode] at hc <;> simp only [optType, Option.some.injEq, reduceCtorEq] at hc
  case true => obtain ⟨h1, h2⟩ := got_true h hcode; exact ⟨.bool true, trivial, hc, h2.symm, h1⟩
  case false => obtain ⟨h1, h2⟩ := got_false h hcode; exact ⟨.bool false, trivial, hc, h2.symm, h1⟩
  case name => obtain ⟨h1, h2, h3⟩ := got_name h (Or.inl hcode); exact ⟨.ident _, ⟨h2, h3⟩, hc, rfl, h1⟩
  case qname => obtain ⟨h1, h2, h3⟩ := got_name h (Or.inr hcode); exact ⟨.ident _, ⟨h2, h3⟩, hc, rfl, h1⟩
  case integer => obtain ⟨h1, h2⟩ := got_int h hcode; exact ⟨.int _, h2, hc, rfl, h1⟩
  case string => obtain ⟨h1, h2⟩ := got_str h hcode; exact ⟨.str _, h2, hc, rfl, h1⟩

end got

theorem s_option {s : Bytes} {tk : Tk Bytes} (h : Src s tk) :
    Okay (fun r => ∃ o : OptDecl, o.WF ∧ r.1.erase = o.entry ∧ Reads s o.lexemes r.2.src ∧ r.2.ungot = false)
      (parseOption anext tk) := by
  unfold parseOption
  dsimp only
  refine Okay.bind (s_next h) fun a ha => ?_
  split
  · exact Okay.fail
  rename_i hc
  obtain ⟨a1, a2, a3⟩ := got_name ha (by
    rcases Decidable.em (a.cur.code = .name) with e | e
    · exact Or.inl e
    · exact Or.inr (Decidable.not_not.mp fun e2 => hc ⟨e, e2⟩))
  refine Okay.bind (s_next ha.src) fun b hb => ?_
  split
  · exact Okay.fail
  rename_i hc2
  have b1 := got_equal hb (Decidable.not_not.mp hc2)
  refine Okay.bind (s_next hb.src) fun c hcc => ?_
  split
  · exact Okay.fail
  · rename_i ty hty
    obtain ⟨v, v1, v2, v3, v4⟩ := got_value hcc hty
    refine Okay.ok ⟨⟨a.cur.value, v⟩, ⟨a2, a3, v1⟩, ?_, .cons a1 (.cons b1 (.one v4)), hcc.1⟩
    simp [OptEntry.erase, OptDecl.entry, v2, v3]

theorem erase_set_entry {m : OptMap} {e : OptEntry} {o : OptDecl} (h : e.erase = o.entry) :
    OptMap.erase (OptMap.set m e.name e) = OptMap.set (OptMap.erase m) o.name o.entry := by
  rw [OptMap.erase_set, h]
  have : e.name = o.name := by have k := congrArg OptEntry.name h; exact k
  rw [this]

theorem s_fieldOptions : ∀ (n : Nat) (m : OptMap) (tk : Tk Bytes) (s : Bytes), Src s tk →
    Okay (fun r => ∃ l : List (OptDecl × Bool), (∀ p ∈ l, p.1.WF) ∧
      OptMap.erase r.1 = (l.map (·.1)).foldl (fun m o => OptMap.set m o.name o.entry) (OptMap.erase m) ∧
      ∃ s', Reads s (optsLexemes l) s' ∧ Src s' r.2)
      (parseFieldOptions anext n m tk)
  | 0, _, _, _, _ => Okay.fuel
  | n + 1, m, tk, s, h => by
    rw [parseFieldOptions]
    refine Okay.bind (s_next h) fun a ha => ?_
    split
    · refine Okay.bind (s_unget ha) fun b hb => ?_
      exact Okay.ok ⟨[], by simp, rfl, s, .nil, hb.1⟩
    · refine Okay.bind (s_unget ha) fun b hb => ?_
      refine Okay.bind (s_option hb.1) fun c ⟨o, c1, c2, c3, c4⟩ => ?_
      dsimp only
      refine Okay.bind (s_next (Src.plain c4)) fun d hd => ?_
      have fin : ∀ (comma : Bool) (s1 : Bytes) (e : Tk Bytes),
          Reads s (o.lexemes ++ if comma then [.sym c!","] else []) s1 → Src s1 e →
          Okay (fun r => ∃ l : List (OptDecl × Bool), (∀ p ∈ l, p.1.WF) ∧
            OptMap.erase r.1 = (l.map (·.1)).foldl (fun m o => OptMap.set m o.name o.entry) (OptMap.erase m) ∧
            ∃ s', Reads s (optsLexemes l) s' ∧ Src s' r.2)
            (parseFieldOptions anext n (OptMap.set m c.1.name c.1) e) := by
        intro comma s1 e hr he
        refine (s_fieldOptions n _ e s1 he).mono fun r ⟨l, l1, l2, s', l3, l4⟩ => ?_
        refine ⟨(o, comma) :: l, ?_, ?_, s', ?_, l4⟩
        · intro p hp
          rcases List.mem_cons.mp hp with rfl | hp
          · exact c1
          · exact l1 p hp
        · rw [l2, erase_set_entry c2]; rfl
        · exact hr.append l3
      split
      · rename_i hcc
        refine Okay.bind (s_unget hd) fun e he => fin false _ e ?_ he.1
        simpa using c3
      · rename_i hcc
        rw [bind_ok]
        exact fin true d.src d (c3.snoc (got_comma hd (Decidable.not_not.mp hcc))) hd.src

theorem s_standardOption {s : Bytes} {tk : Tk Bytes} {m : OptMap} (h : Src s tk) :
    Okay (fun r => ∃ o : OptDecl, o.WF ∧ OptMap.erase r.1 = OptMap.set (OptMap.erase m) o.name o.entry ∧
      Reads s (o.lexemes ++ [.sym c!";"]) r.2.src ∧ r.2.ungot = false ∧ r.2.cur.code = .scolon)
      (parseStandardOption anext m tk) := by
  unfold parseStandardOption
  refine Okay.bind (s_option h) fun c ⟨o, c1, c2, c3, c4⟩ => ?_
  dsimp only
  refine Okay.bind (s_next (Src.plain c4)) fun d hd => ?_
  split
  · exact Okay.fail
  rename_i hcc
  have hcc := Decidable.not_not.mp hcc
  exact Okay.ok ⟨o, c1, erase_set_entry c2, c3.snoc (got_scolon hd hcc), hd.1, hcc⟩

theorem s_brackets {s : Bytes} {tk : Tk Bytes} {N : Nat} (h : Got s tk) :
    Okay (fun r => ∃ b : Brackets, (∀ o ∈ bracketOpts b, o.WF) ∧ OptMap.erase r.1 = optionMap (bracketOpts b) ∧
      ∃ s', Reads s (bracketLexemes b) s' ∧ Got s' r.2) (parseBrackets anext N tk) := by
  unfold parseBrackets
  split
  · rename_i hc
    refine Okay.bind (s_fieldOptions N [] tk _ h.src) fun r ⟨l, l1, l2, s1, l3, l4⟩ => ?_
    dsimp only
    refine Okay.bind (s_next l4) fun a ha => ?_
    split
    · exact Okay.fail
    rename_i hc2
    refine Okay.bind (s_next ha.src) fun b hb => ?_
    refine Okay.ok ⟨some l, ?_, l2, _, ?_, hb⟩
    · intro o ho
      simp only [bracketOpts, List.mem_map] at ho
      obtain ⟨p, hp, rfl⟩ := ho
      exact l1 p hp
    · exact .cons (got_lbracket h hc) (l3.snoc (got_rbracket ha (Decidable.not_not.mp hc2)))
  · exact Okay.ok ⟨none, by simp [bracketOpts], rfl, s, .nil, h⟩

theorem s_label {s : Bytes} {tk : Tk Bytes} (h : Got s tk) :
    Okay (fun r => ∃ lab : Label, r.1 = (lab == .repeated, lab == .optional) ∧ ∃ s', Reads s lab.lexemes s' ∧
      Got s' r.2) (parseLabel anext tk) := by
  unfold parseLabel
  split
  · rename_i hc
    refine Okay.bind (s_next h.src) fun a ha => ?_
    exact Okay.ok ⟨.repeated, rfl, _, .one (got_repeated h hc), ha⟩
  · split
    · rename_i hc
      refine Okay.bind (s_next h.src) fun a ha => ?_
      exact Okay.ok ⟨.optional, rfl, _, .one (got_optional h hc), ha⟩
    · exact Okay.ok ⟨.none, rfl, s, .nil, h⟩

theorem s_type {s : Bytes} {tk : Tk Bytes} (h : Got s tk) {msgs : List Message} {p : Bytes} {lab : Label} :
    Okay (fun r => ∃ t : TypeRef, t.WF ∧ Step s t.lexeme tk.src ∧ ∀ name num opts,
      r = (FieldDecl.mk lab t name num opts).typeInfo p (findMessage msgs))
      (parseType msgs p (lab == .repeated) (lab == .optional) tk) := by
  unfold parseType
  split
  · rename_i t hc
    exact Okay.ok ⟨.scalar t, trivial, got_ty h hc, fun _ _ _ => rfl⟩
  · dsimp only
    split
    · rename_i hc
      obtain ⟨h1, h2, h3⟩ := got_name h hc
      refine Okay.ok ⟨.named tk.cur.value, ⟨h2, h3⟩, h1, fun _ _ _ => ?_⟩
      have key : (if p ≠ [] then p ++ [46] else []) ++ tk.cur.value = qualify p tk.cur.value := by
        unfold qualify; by_cases hp : p = [] <;> simp [hp]
      rw [key]
      rfl
    · exact Okay.fail

theorem s_field {s : Bytes} {tk : Tk Bytes} {N : Nat} {msgs : List Message} {m : Message} (h : Got s tk) :
    Okay (fun r => ∃ f : FieldDecl, f.WF ∧ GoodIndex f.index ∧ f.index ∉ m.fields.map (·.index) ∧
      r.1.erase = addItem msgs m.erase (.field f) ∧ Reads s f.lexemes r.2.src ∧ r.2.ungot = false)
      (parseField anext N msgs m tk) := by
  unfold parseField
  refine Okay.bind (s_label h) fun a ⟨lab, a1, s1, a2, a3⟩ => ?_
  obtain ⟨⟨rp, op⟩, tk1⟩ := a
  injection a1 with a1 a1'
  subst a1 a1'
  dsimp only at a3 ⊢
  refine Okay.bind (s_type (lab := lab) a3) fun ti ⟨t, t1, t2, t3⟩ => ?_
  refine Okay.bind (s_next a3.src) fun b hb => ?_
  split
  · exact Okay.fail
  rename_i hname
  rw [Bool.not_eq_true, Bool.not_eq_false'] at hname
  obtain ⟨b1, b2⟩ := got_nameOK hb hname
  refine Okay.bind (s_next hb.src) fun c hc => ?_
  split
  · exact Okay.fail
  rename_i hc1
  have c1 := got_equal hc (Decidable.not_not.mp hc1)
  refine Okay.bind (s_next hc.src) fun d hd => ?_
  split
  · exact Okay.fail
  rename_i hd1
  obtain ⟨d1, d2⟩ := got_int hd (Decidable.not_not.mp hd1)
  split
  · exact Okay.fail
  rename_i hbad
  rw [Bool.not_eq_true] at hbad
  refine Okay.bind (s_next hd.src) fun e he => ?_
  refine Okay.bind (s_brackets he) fun r ⟨br, r1, r2, s2, r3, r4⟩ => ?_
  split
  · exact Okay.fail
  rename_i hsc
  have k1 := got_scolon r4 (Decidable.not_not.mp hsc)
  split
  · exact Okay.fail
  rename_i hany
  have hidx := fieldIndex_digits d2
  refine Okay.ok ⟨⟨lab, t, b.cur.value, d.cur.value, br⟩, ⟨t1, b2, d2, r1⟩, ?_, ?_, ?_, ?_, r4.1⟩
  · rw [← badIndex_iff]
    show badIndex (asInt32 (number d.cur.value)) = false
    rw [← hidx]; exact hbad
  · intro hm
    apply hany
    rw [List.any_eq_true]
    obtain ⟨g, hg, hg2⟩ := List.mem_map.mp hm
    refine ⟨g, hg, ?_⟩
    rw [beq_iff_eq, hg2, hidx]; rfl
  · simp only [Message.erase, addItem, List.map_append, List.map_cons, List.map_nil]
    congr 2
    simp only [Field.erase, FieldDecl.meaning]
    rw [r2, t3 b.cur.value d.cur.value br, hidx]
    rfl
  · unfold FieldDecl.lexemes
    have : Reads s (lab.lexemes ++ [t.lexeme, .word b.cur.value, .sym c!"=", .int d.cur.value]) d.src :=
      a2.append (.cons t2 (.cons b1 (.cons c1 (.one d1))))
    exact (this.append r3).snoc k1

theorem erase_indices (m : Message) : m.erase.fields.map (·.index) = m.fields.map (·.index) := by
  simp [Message.erase, Field.erase]

theorem addItem_indices (msgs : List Message) (m : Message) (f : FieldDecl) :
    (addItem msgs m (.field f)).fields.map (·.index) = m.fields.map (·.index) ++ [f.index] := by
  simp [addItem, FieldDecl.meaning]

theorem s_body (N : Nat) (msgs : List Message) : ∀ (n : Nat) (m : Message) (tk : Tk Bytes), tk.ungot = false →
    Okay (fun r => ∃ body : List Item, (∀ i ∈ body, i.WF) ∧ BodyOK (m.fields.map (·.index)) body ∧
      r.1.erase = body.foldl (addItem msgs) m.erase ∧ r.2.ungot = false ∧
      ∃ s', Reads tk.src (body.flatMap Item.lexemes) s' ∧
        ((Step s' (.sym c!"}") r.2.src ∧ r.2.cur.code = .end) ∨ (r.2.cur.code = .eof ∧ Fin s')))
      (parseBody anext N msgs n m tk)
  | 0, _, _, _ => Okay.fuel
  | n + 1, m, tk, h => by
    rw [parseBody]
    refine Okay.bind (s_next (Src.plain h)) fun a ha => ?_
    split
    · rename_i hc
      exact Okay.ok ⟨[], by simp, trivial, rfl, ha.1, tk.src, .nil, Or.inr ⟨hc, got_end ha hc⟩⟩
    split
    · rename_i hc
      exact Okay.ok ⟨[], by simp, trivial, rfl, ha.1, tk.src, .nil, Or.inl ⟨got_close ha hc, hc⟩⟩
    split
    · rename_i hc
      refine Okay.bind (s_standardOption ha.src) fun r ⟨o, o1, o2, o3, o4, _⟩ => ?_
      dsimp only
      refine (s_body N msgs n { m with options := r.1 } r.2 o4).mono fun q ⟨body, b1, b2, b3, b4, s', b5, b6⟩ => ?_
      refine ⟨.option o :: body, ?_, b2, ?_, b4, s', ?_, b6⟩
      · intro i hi
        rcases List.mem_cons.mp hi with rfl | hi
        · exact o1
        · exact b1 i hi
      · rw [b3]
        show body.foldl _ { m.erase with options := OptMap.erase r.1 } = body.foldl _ (addItem msgs m.erase (.option o))
        rw [o2]; rfl
      · show Reads tk.src ((Lexeme.word b!"option" :: o.lexemes ++ [.sym c!";"]) ++ body.flatMap Item.lexemes) s'
        exact Reads.append (.cons (got_option ha hc) o3) b5
    · refine Okay.bind (s_field ha) fun r ⟨f, f1, f2, f3, f4, f5, f6⟩ => ?_
      dsimp only
      refine (s_body N msgs n r.1 r.2 f6).mono fun q ⟨body, b1, b2, b3, b4, s', b5, b6⟩ => ?_
      refine ⟨.field f :: body, ?_, ⟨f2, f3, ?_⟩, ?_, b4, s', ?_, b6⟩
      · intro i hi
        rcases List.mem_cons.mp hi with rfl | hi
        · exact f1
        · exact b1 i hi
      · rw [← erase_indices, f4, addItem_indices, erase_indices] at b2
        exact b2
      · rw [b3, f4]; rfl
      · exact f5.append b5

/-- What one iteration of the parser reads. -/
def ItemRead (s : Bytes) (t : Tree) (r : Tree × Tk Bytes) : Prop :=
  ∃ d : Decl, d.WF ∧ DeclOK d ∧ r.1.erase = addDecl t.erase d ∧ r.2.ungot = false ∧
    ((Reads s d.lexemes r.2.src ∧ r.2.cur.code ≠ .eof) ∨
     (∃ s', (∃ name body, d = .message name body) ∧ Reads s d.opening s' ∧ Fin s' ∧ r.2.cur.code = .eof))

theorem findMessage_eraseTree (t : Tree) : findMessage t.erase.messages = findMessage t.messages := by
  funext q; exact findMessage_erase q t.messages

theorem s_item {s : Bytes} {tk : Tk Bytes} {N : Nat} {t : Tree} (h : Got s tk) :
    Okay (ItemRead s t) (parseItem anext N t tk) := by
  unfold parseItem
  split
  · rename_i hm
    unfold parseMessage
    rw [if_pos hm]
    refine Okay.bind (s_next h.src) fun a ha => ?_
    split
    · rename_i hn
      obtain ⟨a1, a2⟩ := got_nameOK ha hn
      dsimp only
      refine Okay.bind (s_next ha.src) fun b hb => ?_
      split
      · exact Okay.fail
      rename_i hbeg
      have b1 := got_begin hb (Decidable.not_not.mp hbeg)
      refine Okay.bind (s_body N t.messages N _ b hb.1) fun r ⟨body, r1, r2, r3, r4, s', r5, r6⟩ => ?_
      have hop : Reads s (Decl.message a.cur.value body).opening s' :=
        .cons (got_message h hm) (.cons a1 (.cons b1 r5))
      refine Okay.ok ⟨.message a.cur.value body, ⟨a2, r1⟩, r2, ?_, r4, ?_⟩
      · simp only [Tree.erase, addDecl, List.map_append, List.map_cons, List.map_nil]
        congr 2
        rw [r3, foldl_addItem]
        have e := findMessage_eraseTree t
        simp only [Tree.erase] at e
        rw [e]
        rfl
      · rcases r6 with ⟨k1, k2⟩ | ⟨k1, k2⟩
        · refine Or.inl ⟨hop.snoc k1, by rw [k2]; decide⟩
        · exact Or.inr ⟨s', ⟨_, _, rfl⟩, hop, k2, k1⟩
    · exact Okay.fail
  split
  · rename_i hm
    unfold parsePackage
    refine Okay.bind (s_next h.src) fun a ha => ?_
    split
    · rename_i hn
      obtain ⟨a1, a2, a3⟩ := got_name ha hn
      dsimp only
      refine Okay.bind (s_next ha.src) fun b hb => ?_
      split
      · rename_i hsc
        refine Okay.ok ⟨.package a.cur.value, ⟨a2, a3⟩, trivial, rfl, hb.1, Or.inl ⟨?_, by rw [hsc]; decide⟩⟩
        exact .cons (got_package h hm) (.cons a1 (.one (got_scolon hb hsc)))
      · exact Okay.fail
    · exact Okay.fail
  split
  · rename_i hm
    unfold parseSyntax
    refine Okay.bind (P := fun r => r.ungot = false ∧ Reads s Decl.syntax.lexemes r.src ∧ r.cur.code ≠ .eof) ?_
      fun r ⟨r1, r2, r3⟩ => Okay.ok ⟨.syntax, trivial, trivial, rfl, r1, Or.inl ⟨r2, r3⟩⟩
    refine Okay.bind (s_next h.src) fun a ha => ?_
    split
    · exact Okay.fail
    rename_i hn
    have a1 := got_equal ha (Decidable.not_not.mp hn)
    refine Okay.bind (s_next ha.src) fun b hb => ?_
    split
    · rename_i hst
      obtain ⟨b1, _⟩ := got_str hb hst
      dsimp only
      refine Okay.bind (s_next hb.src) fun c hc => ?_
      split
      · rename_i hsc
        split
        · exact Okay.fail
        · rename_i hv
          have hv := Decidable.not_not.mp hv
          rw [hv] at b1
          exact Okay.ok ⟨hc.1, .cons (got_syntax h hm) (.cons a1 (.cons b1 (.one (got_scolon hc hsc)))),
            by rw [hsc]; decide⟩
      · exact Okay.fail
    · exact Okay.fail
  split
  · rename_i hm
    refine Okay.bind (s_standardOption (m := t.options) h.src) fun r ⟨o, o1, o2, o3, o4, o5⟩ => ?_
    refine Okay.ok ⟨.option o, o1, trivial, ?_, o4, Or.inl ⟨.cons (got_option h hm) o3, by rw [o5]; decide⟩⟩
    show { t.erase with options := OptMap.erase r.1 } = addDecl t.erase (.option o)
    rw [o2]; rfl
  · exact Okay.fail

theorem s_proto (N : Nat) : ∀ (n : Nat) (t : Tree) (tk : Tk Bytes), tk.ungot = false →
    Okay (fun r => ∃ ds : List Decl, (∀ d ∈ ds, d.WF) ∧ (∀ d ∈ ds, DeclOK d) ∧ r.erase = ds.foldl addDecl t.erase ∧
      (LooseLayout (fileLexemes ds) tk.src ∨
       ∃ ds' name body, ds = ds' ++ [.message name body] ∧ LooseLayout (openLexemes ds' name body) tk.src))
      (parseProto anext N n t tk)
  | 0, _, _, _ => Okay.fuel
  | n + 1, t, tk, h => by
    rw [parseProto]
    refine Okay.bind (s_next (Src.plain h)) fun a ha => ?_
    split
    · rename_i hc
      exact Okay.ok ⟨[], by simp, by simp, rfl, Or.inl (Reads.nil.loose (got_end ha hc))⟩
    refine Okay.bind (s_item ha) fun r ⟨d, d1, d2, d3, d4, d5⟩ => ?_
    dsimp only
    split
    · rename_i hc
      rcases d5 with ⟨_, k⟩ | ⟨s', ⟨name, body, rfl⟩, k2, k3, k4⟩
      · exact absurd hc k
      · refine Okay.ok ⟨[.message name body], by simpa using d1, by simpa using d2, d3, Or.inr ⟨[], name, body, rfl, ?_⟩⟩
        exact Reads.loose (by simpa [openLexemes, fileLexemes] using k2) k3
    · rename_i hc
      rcases d5 with ⟨k, _⟩ | ⟨s', _, _, _, k4⟩
      · refine (s_proto N n r.1 r.2 d4).mono fun q ⟨ds, q1, q2, q3, q4⟩ => ?_
        have pre : ∀ {ls : List Lexeme}, LooseLayout ls r.2.src → LooseLayout (d.lexemes ++ ls) tk.src := by
          intro ls hl
          have key : ∀ {a b : Bytes} {l : List Lexeme}, Reads a l b → LooseLayout ls b → LooseLayout (l ++ ls) a := by
            intro a b l hr hb
            induction hr with
            | nil => exact hb
            | cons h t ih => obtain ⟨g, h1, rfl, h2, h3⟩ := h; exact .next h1 h2 h3 (ih hb)
          exact key k hl
        refine ⟨d :: ds, ?_, ?_, ?_, ?_⟩
        · intro x hx
          rcases List.mem_cons.mp hx with rfl | hx
          · exact d1
          · exact q1 x hx
        · intro x hx
          rcases List.mem_cons.mp hx with rfl | hx
          · exact d2
          · exact q2 x hx
        · rw [q3, d3]; rfl
        · rcases q4 with q4 | ⟨ds', name, body, rfl, q4⟩
          · exact Or.inl (pre q4)
          · refine Or.inr ⟨d :: ds', name, body, rfl, ?_⟩
            have := pre q4
            simpa [openLexemes, fileLexemes] using this
      · exact absurd k4 hc

theorem end_nil : IsEnd [] := ⟨[], [], alex_nil⟩

/-- What the parser accepts over the lexical analysis of a text. -/
theorem s_parse {N : Nat} {text : Bytes} {t : Tree} (h : parseFrom anext N text = .ok t) :
    ∃ ds : List Decl, (∀ d ∈ ds, d.WF) ∧ Consistent ds ∧ t.erase = denote ds ∧
      (LooseLayout (fileLexemes ds) text ∨
       ∃ ds' name body, ds = ds' ++ [.message name body] ∧ LooseLayout (openLexemes ds' name body) text) := by
  unfold parseFrom at h
  cases hp : parseProto anext N N Tree.empty { cur := Tok.default, ungot := false, src := text } with
  | exc e => rw [hp] at h; cases h
  | runtime => rw [hp] at h; cases h
  | fuel => rw [hp] at h; cases h
  | ok tree =>
    rw [hp, bind_ok] at h
    obtain ⟨ds, h1, h2, h3, h4⟩ := s_proto N N _ _ rfl tree hp
    have h3 : tree.erase = ds.foldl addDecl Tree.empty := h3
    have hmsgs : tree.messages.map Message.erase = (ds.foldl addDecl Tree.empty).messages := by
      rw [← h3]; rfl
    have herase : (ds.foldl addDecl Tree.empty).messages.map Message.erase = (ds.foldl addDecl Tree.empty).messages := by
      rw [← hmsgs, List.map_map]
      refine List.map_congr_left fun m _ => ?_
      exact erase_erase m
    have hrel := rel_resolveMessages (small := False) (hmsgs.trans herase.symm) _ _ (hmsgs.trans herase.symm)
    cases hres : resolveMessages tree.messages tree.messages with
    | exc e => rw [hres] at h; cases h
    | runtime => rw [hres] at h; cases h
    | fuel => rw [hres] at h; cases h
    | ok msgs =>
      rw [hres, bind_ok] at h
      injection h with h
      rw [hres] at hrel
      have hcons : Consistent ds := by
        refine ⟨(declOK_iff ds).mp h2, fun m hm f hf n hn => ?_⟩
        refine Classical.byContradiction fun hq => ?_
        cases hu : unknownTypes ds with
        | nil => exact (unknownTypes_ne_nil ds).mpr ⟨m, hm, f, hf, n, hn, hq⟩ hu
        | cons q r => rw [w_unknown hu] at hrel; exact hrel
      have hd : ∀ N, (fileLexemes ds).length < N → parseFrom lnext N (fileLexemes ds, []) = .ok (denote ds) :=
        fun N hN => w_consistent end_nil h1 hcons hN
      have hd := hd _ (Nat.lt_succ_self _)
      rw [w_parse end_nil h1 h2 (Nat.lt_succ_self _)] at hd
      cases hr2 : resolveMessages (ds.foldl addDecl Tree.empty).messages (ds.foldl addDecl Tree.empty).messages with
      | exc e => rw [hr2] at hd; cases hd
      | runtime => rw [hr2] at hd; cases hd
      | fuel => rw [hr2] at hd; cases hd
      | ok msgs2 =>
        rw [hr2, bind_ok] at hd
        injection hd with hd
        rw [hr2] at hrel
        refine ⟨ds, h1, hcons, ?_, h4⟩
        have hrel : msgs.map Message.erase = msgs2.map Message.erase := hrel
        have hden : (denote ds).messages.map Message.erase = (denote ds).messages := by
          have : ∀ m ∈ (denote ds).messages, m.erase = m := by
            intro m hm
            simp only [denote, List.mem_map] at hm
            obtain ⟨x, _, rfl⟩ := hm
            have ho : ∀ os : List OptDecl, OptMap.erase (optionMap os) = optionMap os := by
              intro os
              have : ∀ (os : List OptDecl) (m : OptMap), OptMap.erase m = m →
                  OptMap.erase (os.foldl (fun m o => m.set o.name o.entry) m) =
                    os.foldl (fun m o => m.set o.name o.entry) m := by
                intro os
                induction os with
                | nil => intro m h; exact h
                | cons o os ih =>
                  intro m h
                  refine ih _ ?_
                  rw [OptMap.erase_set, h]; rfl
              exact this os [] rfl
            simp only [Message.erase, bodyMeaning, ho, List.map_map]
            congr 1
            refine List.map_congr_left fun f _ => ?_
            simp [Field.erase, FieldDecl.meaning, ho]
          conv => rhs; rw [← List.map_id (denote ds).messages]
          exact List.map_congr_left this
        rw [← h, ← hd]
        show ({ tree.erase with messages := msgs.map Message.erase } : Tree) = _
        rw [hrel, h3]
        rw [← hd] at hden
        have hden : msgs2.map Message.erase = msgs2 := hden
        rw [hden]

/-! ### Texts against lists of lexical elements -/

/-- A text that starts with these lexical elements and goes on with `z`. -/
def Pieces (bs : Bytes) (p : LSrc) : Prop := Reads bs p.1 p.2

theorem alex_looseGap {g : Bytes} (h : LooseGap g) (rest : Bytes) : alex (g ++ rest) = alex rest := by
  induction h with
  | nil => rfl
  | space hb _ ih =>
    rw [List.cons_append, alex_ws _ ((wsB_iff _).mpr hb), ih]
  | @line c g hc _ ih =>
    rw [show (b!"//" ++ c ++ 10 :: g ++ rest : Bytes) = 47 :: 47 :: (c ++ 10 :: (g ++ rest)) by simp, alex_line,
      afterLF_line hc]
    exact ih
  | @block c g hc _ ih =>
    rw [show (b!"/*" ++ c ++ b!"*/" ++ g ++ rest : Bytes) = 47 :: 42 :: (c ++ 42 :: 47 :: (g ++ rest)) by simp,
      alex_block, afterBlock_block c _ hc]
    exact ih
  | @slash b g h1 h2 _ ih =>
    rw [List.cons_append, List.cons_append, alex_slash b _ h1 h2, ih]

theorem afterBlock_open {c : Bytes} (hc : ¬ ∃ p q, c = p ++ b!"*/" ++ q) : afterBlock c = [] := by
  rcases afterBlock_cases _ c (Nat.le_refl _) with ⟨d, _, h2⟩ | h
  · exact absurd ⟨d, afterBlock c, by simpa using h2⟩ hc
  · exact h.2

theorem astr_broken : ∀ (s v rest : Bytes) (b : Byte), Quotable s → (b = 10 ∨ b = 0) →
    astr v (s ++ b :: rest) = .tok .eof [] rest
  | [], v, rest, b, _, h => by rw [List.nil_append, astr, if_pos h]
  | x :: s, v, rest, b, ⟨h1, h2, h3⟩, h => by
    simp only [List.mem_cons, not_or] at h1 h2 h3
    simp only [List.cons_append, astr]
    rw [if_neg (by rintro (h | h); exact h1.1 h.symm; exact h2.1 h.symm), if_neg (Ne.symm h3.1),
      astr_broken s (v ++ [x]) rest b ⟨h1.2, h2.2, h3.2⟩ h]

theorem looseEnd_end {e : Bytes} (h : LooseEnd e) : IsEnd e := by
  cases h with
  | nil => exact end_nil
  | slash => exact ⟨_, _, alex_slash_nil⟩
  | @block c hc =>
    refine ⟨[], [], ?_⟩
    show alex (47 :: 42 :: c) = _
    rw [alex_block, afterBlock_open hc, alex_nil]
  | @string s rest b hs hb =>
    refine ⟨[], rest, ?_⟩
    show alex (34 :: (s ++ b :: rest)) = _
    rw [alex_quote, astr_broken s [] rest b hs hb]

theorem fin_end {z : Bytes} (h : Fin z) : IsEnd z := by
  obtain ⟨g, e, h1, h2, rfl⟩ := h
  obtain ⟨v, r, h3⟩ := looseEnd_end h2
  exact ⟨v, r, by rw [alex_looseGap h1, h3]⟩

theorem loose_pieces {ls : List Lexeme} {bs : Bytes} (h : LooseLayout ls bs) : ∃ z, IsEnd z ∧ Pieces bs (ls, z) := by
  induction h with
  | done hg he => exact ⟨_, fin_end ⟨_, _, hg, he, rfl⟩, .nil⟩
  | next hg hl he h ih =>
    obtain ⟨z, h1, h2⟩ := ih
    exact ⟨z, h1, .cons ⟨_, hg, rfl, hl, he⟩ h2⟩

theorem loose_of_gap {g : Bytes} (h : Gap g) : LooseGap g := by
  induction h with
  | nil => exact .nil
  | space hb _ ih => exact .space hb ih
  | line hc _ ih => exact .line hc ih
  | block hc _ ih => exact .block hc ih

/-- A layout is in particular a loose one. -/
theorem loose_of_layout {ls : List Lexeme} {bs : Bytes} (h : Layout ls bs) : LooseLayout ls bs := by
  induction h with
  | @done g h => have := LooseLayout.done (loose_of_gap h) .nil; rwa [List.append_nil] at this
  | next hg hl he _ ih => exact .next (loose_of_gap hg) hl he ih

theorem pieces_lnext : SameTokens Pieces False anext lnext := by
  rintro bs ⟨ls, z⟩ h
  cases h with
  | nil =>
    unfold lnext
    dsimp only
    unfold anext
    split
    · exact ⟨rfl, rfl, .nil⟩
    · rfl
    · trivial
  | cons h t =>
    obtain ⟨g, h1, e, h2, h3⟩ := h
    subst e
    unfold anext
    rw [List.append_assoc, alex_looseGap h1, alex_lexeme h2 h3]
    exact ⟨rfl, rfl, t⟩

theorem loose_length {ls : List Lexeme} {text : Bytes} (h : LooseLayout ls text) : ls.length ≤ text.length := by
  induction h with
  | done => simp
  | next hg hl he h ih =>
    have := valid_length hl
    simp only [List.length_append, List.length_cons]
    omega

/-- The parser on a text against the parser on its lexical elements. -/
theorem parse_loose {ls : List Lexeme} {text : Bytes} (h : LooseLayout ls text) {N : Nat} (hN : text.length < N) :
    ∃ z, IsEnd z ∧ Rel False (fun x y => x.erase = y.erase) (parse N text) (parseFrom lnext N (ls, z)) := by
  obtain ⟨z, hz, hp⟩ := loose_pieces h
  refine ⟨z, hz, ?_⟩
  have h1 := parse_tokens N text
  have h2 := rel_parseFrom pieces_lnext N (s := text) (t := (ls, z)) hp
  revert h1 h2
  generalize parse N text = p
  generalize parseFrom anext N text = u
  generalize parseFrom lnext N (ls, z) = v
  intro h1 h2
  have n1 : ¬ N ≤ text.length := by omega
  cases p <;> cases u <;> cases v <;> simp_all [Rel] <;> omega

/-- The parser accepts only what `s_parse` says. -/
theorem parse_sound {N : Nat} {text : Bytes} {t : Tree} (h : parse N text = .ok t) :
    ∃ ds : List Decl, (∀ d ∈ ds, d.WF) ∧ Consistent ds ∧ t.erase = denote ds ∧
      (LooseLayout (fileLexemes ds) text ∨
       ∃ ds' name body, ds = ds' ++ [.message name body] ∧ LooseLayout (openLexemes ds' name body) text) := by
  have hr := parse_tokens N text
  rw [h] at hr
  cases hu : parseFrom anext N text with
  | ok u =>
    rw [hu] at hr
    have hr : t.erase = u.erase := hr
    rw [hr]
    exact s_parse hu
  | exc e => rw [hu] at hr; exact hr.elim
  | runtime => rw [hu] at hr; exact hr.elim
  | fuel => rw [hu] at hr; exact hr.elim

end PG.Proto
