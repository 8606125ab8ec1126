import Verif.Spec.Schema
import Verif.Proofs.ProtoRun
/-
The tokens of a laid out text.
-/
set_option autoImplicit false
namespace PG.Proto

theorem letterB_iff (b : Byte) : letterB b = true ↔ Letter b := by
  simp only [letterB, isLetter, Letter, UInt8.le_iff_toNat_le, Bool.or_eq_true, Bool.and_eq_true, decide_eq_true_eq,
    beq_iff_eq, ge_iff_le]
  rw [show (b = 95 ↔ (b.toNat : Int) = 95) from (toNat_eq_iff b 95 (by decide)).symm]
  have e1 : (65 : UInt8).toNat = 65 := rfl
  have e2 : (90 : UInt8).toNat = 90 := rfl
  have e3 : (97 : UInt8).toNat = 97 := rfl
  have e4 : (122 : UInt8).toNat = 122 := rfl
  rw [e1, e2, e3, e4]
  omega

theorem digitB_iff (b : Byte) : digitB b = true ↔ Digit b := by
  simp only [digitB, isDig, Digit, UInt8.le_iff_toNat_le, Bool.and_eq_true, decide_eq_true_eq, ge_iff_le]
  have e1 : (48 : UInt8).toNat = 48 := rfl
  have e2 : (57 : UInt8).toNat = 57 := rfl
  rw [e1, e2]
  omega

theorem wordB_iff (b : Byte) : wordB b = true ↔ Letter b ∨ Digit b := by
  rw [wordB, Bool.or_eq_true, letterB_iff, digitB_iff]

theorem wsB_iff (b : Byte) : wsB b = true ↔ b ∈ b!" \t\n\r" := by
  simp only [wsB, In.isWs, Bool.or_eq_true, beq_iff_eq]
  rw [show ((b.toNat : Int) = 32 ↔ b = 32) from toNat_eq_iff b 32 (by decide),
    show ((b.toNat : Int) = 9 ↔ b = 9) from toNat_eq_iff b 9 (by decide),
    show ((b.toNat : Int) = 10 ↔ b = 10) from toNat_eq_iff b 10 (by decide),
    show ((b.toNat : Int) = 13 ↔ b = 13) from toNat_eq_iff b 13 (by decide)]
  simp [or_assoc]

theorem letter_not_ws {b : Byte} (h : letterB b = true) : wsB b = false := by
  cases hw : wsB b with
  | false => rfl
  | true =>
    rw [wsB_iff] at hw
    simp only [List.mem_cons, List.not_mem_nil, or_false] at hw
    rcases hw with rfl | rfl | rfl | rfl <;> revert h <;> decide

theorem digit_not_ws {b : Byte} (h : digitB b = true) : wsB b = false := by
  cases hw : wsB b with
  | false => rfl
  | true =>
    rw [wsB_iff] at hw
    simp only [List.mem_cons, List.not_mem_nil, or_false] at hw
    rcases hw with rfl | rfl | rfl | rfl <;> revert h <;> decide

theorem digit_not_letter {b : Byte} (h : digitB b = true) : letterB b = false := by
  cases hl : letterB b with
  | false => rfl
  | true =>
    simp only [letterB, isLetter, digitB, isDig, Bool.or_eq_true, Bool.and_eq_true, decide_eq_true_eq,
      beq_iff_eq, ge_iff_le] at hl h
    omega

/-- The token of a lexical element. -/
def Lexeme.tok : Lexeme → Code × Bytes
  | .word n => (if 46 ∈ n then .qname else findKeyword n keywords, n)
  | .int d => (.integer, d)
  | .str s => (.string, s)
  | .sym b => ((symbol b.toNat).getD .eof, [])

/-- The text does not start with such a character. -/
def Stops (p : Byte → Bool) : Bytes → Prop
  | [] => True
  | b :: _ => p b = false

/-- The text does not start with a character of an identifier. -/
abbrev NoWord : Bytes → Prop := Stops wordB

theorem takeWhile_all {p : Byte → Bool} : ∀ {a rest : Bytes}, (∀ c ∈ a, p c = true) →
    Stops p rest → (a ++ rest).takeWhile p = a ∧ (a ++ rest).dropWhile p = rest
  | [], [], _, _ => ⟨rfl, rfl⟩
  | [], b :: r, _, h => by
    have h : p b = false := h
    constructor
    · simp [h]
    · simp [h]
  | c :: a, rest, ha, h => by
    have hc := ha c List.mem_cons_self
    obtain ⟨h1, h2⟩ := takeWhile_all (a := a) (fun x hx => ha x (List.mem_cons_of_mem _ hx)) h
    simp only [List.cons_append]
    rw [List.takeWhile_cons_of_pos hc, List.dropWhile_cons_of_pos hc, h1, h2]
    exact ⟨rfl, rfl⟩

theorem word_ident {n rest : Bytes} (h : Ident n) (hr : NoWord rest) : word (n ++ rest) = n ∧ afterWord (n ++ rest) = rest := by
  obtain ⟨b, r, rfl, hb, hrest⟩ := h
  have hl := (letterB_iff b).mpr hb
  have hall : ∀ c ∈ b :: r, wordB c = true := by
    intro c hc
    rcases List.mem_cons.mp hc with rfl | hc
    · rw [wordB, hl]; rfl
    · exact (wordB_iff c).mpr (hrest c hc)
  obtain ⟨h1, h2⟩ := takeWhile_all hall hr
  have e : (b :: r) ++ rest = b :: (r ++ rest) := rfl
  unfold word afterWord
  rw [e] at h1 h2 ⊢
  simp only [hl, if_true]
  exact ⟨h1, h2⟩

theorem ident_ne {n : Bytes} (h : Ident n) : n ≠ [] := by
  obtain ⟨b, r, rfl, _⟩ := h; simp

theorem ident_nodot {n : Bytes} (h : Ident n) : 46 ∉ n := by
  obtain ⟨b, r, rfl, hb, hr⟩ := h
  intro hm
  have key : ¬ (Letter 46 ∨ Digit 46) := by decide
  rcases List.mem_cons.mp hm with e | e
  · exact key (Or.inl (e ▸ hb))
  · exact key (hr 46 e)

theorem ends_noWord {n rest : Bytes} (h : Lexeme.Ends (.word n) rest) :
    NoWord rest ∧ ∀ b r, rest = b :: r → b ≠ 46 := by
  cases rest with
  | nil => exact ⟨trivial, by simp⟩
  | cons b r =>
    obtain ⟨h1, h2, h3⟩ := h
    refine ⟨?_, fun x y e => ?_⟩
    · show wordB b = false
      cases hw : wordB b with
      | false => rfl
      | true =>
        rcases (wordB_iff b).mp hw with h | h
        · exact absurd h h1
        · exact absurd h h2
    · injection e with e _; subst e; exact h3

theorem dotname_word {n rest : Bytes} (h : DotName n) (hr : NoWord rest) :
    word (n ++ rest) ≠ [] ∧ (afterWord (n ++ rest)).length < (n ++ rest).length := by
  have hne : word (n ++ rest) ≠ [] := by
    cases h with
    | one h => rw [(word_ident h hr).1]; exact ident_ne h
    | more h t =>
      rw [List.append_assoc, List.cons_append, (word_ident h (rest := 46 :: (_ ++ rest)) (show wordB 46 = false by decide)).1]
      exact ident_ne h
  refine ⟨hne, ?_⟩
  have := afterWord_length (n ++ rest)
  have : (word (n ++ rest)).length ≠ 0 := by simpa using hne
  omega

theorem aqname_dotname {rest : Bytes} (hr : NoWord rest) (hd : ∀ b r, rest = b :: r → b ≠ 46) {n : Bytes}
    (h : DotName n) : ∀ (k : Nat) (type : Code) (name : Bytes), (afterWord (n ++ rest)).length < k →
    aqname k type (name ++ word (n ++ rest)) (afterWord (n ++ rest)) =
      some (if 46 ∈ n then .qname else type, name ++ n, rest) := by
  induction h with
  | one h =>
    intro k type name hk
    obtain ⟨h1, h2⟩ := word_ident h hr
    rw [h2] at hk
    rw [h1, h2, if_neg (ident_nodot h)]
    cases k with
    | zero => omega
    | succ k =>
      cases rest with
      | nil => rfl
      | cons b r => simp [aqname, hd b r rfl]
  | more h t ih =>
    rename_i p n
    intro k type name hk
    have e : p ++ 46 :: n ++ rest = p ++ 46 :: (n ++ rest) := by simp
    rw [e] at hk ⊢
    obtain ⟨h1, h2⟩ := word_ident h (rest := 46 :: (n ++ rest)) (show wordB 46 = false by decide)
    obtain ⟨g1, g2⟩ := dotname_word t hr
    rw [h2] at hk
    rw [h1, h2]
    cases k with
    | zero => omega
    | succ k =>
      simp only [List.length_cons] at hk
      simp only [aqname, if_true, g1, if_false]
      have := ih k .qname (name ++ p ++ [46]) (by omega)
      simp only [List.append_assoc, List.singleton_append] at this ⊢
      rw [this]
      simp

theorem symbol_cases {b : Byte} (h : b ∈ b!"={};,<>[]") : ∃ c, symbol b.toNat = some c ∧
    wsB b = false ∧ letterB b = false ∧ digitB b = false ∧ b ≠ 47 ∧ b ≠ 34 ∧ c ≠ .eof := by
  simp only [List.mem_cons, List.not_mem_nil, or_false] at h
  rcases h with rfl | rfl | rfl | rfl | rfl | rfl | rfl | rfl | rfl <;>
    exact ⟨_, rfl, by decide, by decide, by decide, by decide, by decide, by decide⟩

theorem astr_quotable : ∀ (s v rest : Bytes), Quotable s → astr v (s ++ 34 :: rest) = .tok .string (v ++ s) rest
  | [], v, rest, _ => by simp [astr]
  | b :: s, v, rest, ⟨h1, h2, h3⟩ => by
    simp only [List.mem_cons, not_or] at h1 h2 h3
    simp only [List.cons_append, astr]
    rw [if_neg (by rintro (h | h); exact h1.1 h.symm; exact h2.1 h.symm), if_neg (Ne.symm h3.1),
      astr_quotable s (v ++ [b]) rest ⟨h1.2, h2.2, h3.2⟩]
    simp

/-- The tokenizer reads a lexical element that ends where it should. -/
theorem alex_lexeme {l : Lexeme} {rest : Bytes} (hl : l.Valid) (he : l.Ends rest) :
    alex (l.text ++ rest) = .tok l.tok.1 l.tok.2 rest := by
  cases l with
  | word n =>
    obtain ⟨hr, hd⟩ := ends_noWord he
    have hn : DotName n := hl
    have hq := aqname_dotname hr hd hn
    obtain ⟨g1, g2⟩ := dotname_word hn hr
    show alex (n ++ rest) = .tok (if 46 ∈ n then .qname else findKeyword n keywords) n rest
    cases hx : n ++ rest with
    | nil => rw [hx] at g1; exact absurd rfl g1
    | cons b t =>
      rw [hx] at g1 g2 hq
      have hlb : letterB b = true := by
        cases hb : letterB b with
        | true => rfl
        | false => rw [word] at g1; simp [hb] at g1
      rw [alex_letter t (letter_not_ws hlb) hlb]
      have := hq (t.length + 2) .name [] (by simp at g2; omega)
      simp only [List.nil_append] at this
      rw [this]
      by_cases h46 : 46 ∈ n
      · simp [h46]
      · simp [h46]
  | int d =>
    obtain ⟨hne, hall⟩ := hl
    show alex (d ++ rest) = .tok .integer d rest
    cases d with
    | nil => exact absurd rfl hne
    | cons b r =>
      have hb := (digitB_iff b).mpr (hall b List.mem_cons_self)
      have hr' : Stops digitB rest := by
        cases rest with
        | nil => trivial
        | cons x t =>
          show digitB x = false
          cases hx : digitB x with
          | false => rfl
          | true => exact absurd ((digitB_iff x).mp hx) he
      obtain ⟨h1, h2⟩ := takeWhile_all (a := r)
        (fun c hc => (digitB_iff c).mpr (hall c (List.mem_cons_of_mem _ hc))) hr'
      rw [List.cons_append, alex_digit _ (digit_not_ws hb) (digit_not_letter hb) hb, h1, h2]
  | str s =>
    show alex (34 :: s ++ [34] ++ rest) = .tok .string s rest
    rw [show (34 :: s ++ [34] ++ rest : Bytes) = 34 :: (s ++ 34 :: rest) by simp, alex_quote, astr_quotable s [] rest hl]
    rfl
  | sym b =>
    obtain ⟨c, h1, h2, h3, h4, h5, h6, _⟩ := symbol_cases hl
    show alex (b :: rest) = .tok ((symbol b.toNat).getD .eof) [] rest
    rw [alex_symbol rest h2 h3 h4 h5 h6, h1]
    rfl

theorem afterLF_line {c g : Bytes} (h : 10 ∉ c) : afterLF (c ++ 10 :: g) = some g := by
  induction c with
  | nil => simp [afterLF]
  | cons b c ih =>
    simp only [List.mem_cons, not_or] at h
    rw [List.cons_append, afterLF, if_neg (Ne.symm h.1), ih h.2]

theorem afterBlock_block : ∀ (c g : Bytes), (¬ ∃ p q, c = p ++ b!"*/" ++ q) → afterBlock (c ++ 42 :: 47 :: g) = g
  | [], g, _ => by rw [List.nil_append, afterBlock_star, if_pos rfl]
  | b :: c, g, h => by
    have hc : ¬ ∃ p q, c = p ++ b!"*/" ++ q := by
      rintro ⟨p, q, rfl⟩
      exact h ⟨b :: p, q, rfl⟩
    have ih := afterBlock_block c g hc
    rw [List.cons_append]
    by_cases hb : b = 42
    · subst hb
      cases c with
      | nil => rw [List.nil_append, afterBlock_star, if_neg (by decide)]; exact ih
      | cons x c =>
        rw [List.cons_append, afterBlock_star]
        have hx : x ≠ 47 := by
          rintro rfl
          exact h ⟨[], c, rfl⟩
        rw [if_neg hx]
        exact ih
    · rw [afterBlock_other _ hb]
      exact ih

theorem alex_gap {g : Bytes} (h : Gap g) (rest : Bytes) : alex (g ++ rest) = alex rest := by
  induction h with
  | nil => rfl
  | space hb _ ih =>
    rw [List.cons_append, alex_ws _ ((wsB_iff _).mpr hb), ih]
  | @line c g hc _ ih =>
    rw [show (b!"//" ++ c ++ 10 :: g ++ rest : Bytes) = 47 :: 47 :: (c ++ 10 :: (g ++ rest)) by simp, alex_line,
      afterLF_line hc]
    exact ih
  | @block c g hc _ ih =>
    rw [show (b!"/*" ++ c ++ b!"*/" ++ g ++ rest : Bytes) = 47 :: 42 :: (c ++ 42 :: 47 :: (g ++ rest)) by simp,
      alex_block, afterBlock_block c _ hc]
    exact ih

theorem alex_layout_done {bs : Bytes} (h : Layout [] bs) : alex bs = .tok .eof [] [] := by
  cases h with
  | done h =>
    have := alex_gap h []
    rw [List.append_nil] at this
    rw [this, alex_nil]

theorem alex_layout {l : Lexeme} {ls : List Lexeme} {bs : Bytes} (h : Layout (l :: ls) bs) :
    ∃ rest, alex bs = .tok l.tok.1 l.tok.2 rest ∧ Layout ls rest := by
  cases h with
  | next hg hl he h =>
    rw [List.append_assoc, alex_gap hg]
    exact ⟨_, alex_lexeme hl he, h⟩

/-- Two texts made of the same lexical elements. -/
def SameLexemes (a b : Bytes) : Prop := ∃ ls, Layout ls a ∧ Layout ls b

theorem same_layout : SameTokens SameLexemes False anext anext := by
  rintro a b ⟨ls, ha, hb⟩
  unfold anext
  cases ls with
  | nil =>
    rw [alex_layout_done ha, alex_layout_done hb]
    exact ⟨rfl, rfl, [], .done .nil, .done .nil⟩
  | cons l ls =>
    obtain ⟨r, e1, h1⟩ := alex_layout ha
    obtain ⟨r', e2, h2⟩ := alex_layout hb
    rw [e1, e2]
    exact ⟨rfl, rfl, ls, h1, h2⟩

end PG.Proto
