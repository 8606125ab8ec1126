import Verif.Proofs.ProtoText
/-
Tokens and lexical elements: each kind of token comes from one kind of lexical element.
-/
set_option autoImplicit false
namespace PG.Proto

theorem findKeyword_inv (n : Bytes) : ∀ (ks : List (Bytes × Code)) (c : Code), findKeyword n ks = c →
    (c = .name ∧ n ∉ ks.map (·.1)) ∨ (n, c) ∈ ks
  | [], c, h => Or.inl ⟨h.symm, by simp⟩
  | (k, d) :: ks, c, h => by
    rw [findKeyword] at h
    split at h
    · rename_i e; subst e h; exact Or.inr List.mem_cons_self
    · rename_i e
      rcases findKeyword_inv n ks c h with ⟨h1, h2⟩ | h
      · exact Or.inl ⟨h1, by simp only [List.map_cons, List.mem_cons, not_or]; exact ⟨e, h2⟩⟩
      · exact Or.inr (List.mem_cons_of_mem _ h)

theorem findKeyword_none (n : Bytes) : ∀ (ks : List (Bytes × Code)), n ∉ ks.map (·.1) → findKeyword n ks = .name
  | [], _ => rfl
  | (k, d) :: ks, h => by
    simp only [List.map_cons, List.mem_cons, not_or] at h
    rw [findKeyword, if_neg h.1, findKeyword_none n ks h.2]

theorem keywords_reserved : keywords.map (·.1) = reserved := by decide +kernel

theorem keywords_not_name : ∀ p ∈ keywords, p.2 ≠ .name ∧ p.2 ≠ .qname ∧ p.2 ≠ .integer ∧ p.2 ≠ .string ∧ p.2 ≠ .eof ∧
    46 ∉ p.1 := by decide +kernel

theorem keywords_symbols : ∀ p ∈ keywords, p.2 ≠ .equal ∧ p.2 ≠ .begin ∧ p.2 ≠ .end ∧ p.2 ≠ .scolon ∧ p.2 ≠ .comma ∧
    p.2 ≠ .lt ∧ p.2 ≠ .gt ∧ p.2 ≠ .lbracket ∧ p.2 ≠ .rbracket := by decide +kernel

theorem keywords_ty : ∀ p ∈ keywords, ∀ t : Scalar, p.2 = .ty t → p.1 = t.text := by
  intro p hp t
  cases t <;> revert p <;> decide +kernel

theorem keyword_text : ∀ p ∈ keywords,
    (p.2 = .message → p.1 = b!"message") ∧ (p.2 = .package → p.1 = b!"package") ∧ (p.2 = .syntax → p.1 = b!"syntax") ∧
    (p.2 = .option → p.1 = b!"option") ∧ (p.2 = .true → p.1 = b!"true") ∧ (p.2 = .false → p.1 = b!"false") ∧
    (p.2 = .repeated → p.1 = b!"repeated") ∧ (p.2 = .optional → p.1 = b!"optional") := by decide +kernel

theorem dotname_nodot {n : Bytes} (h : DotName n) (hd : 46 ∉ n) : Ident n := by
  cases h with
  | one h => exact h
  | more h t => exact absurd (List.mem_append_right _ List.mem_cons_self) hd

/-- The codes of words. -/
theorem word_code {n : Bytes} {c : Code} (h : (Lexeme.word n).tok.1 = c) :
    (c = .qname ∧ 46 ∈ n) ∨ (c = .name ∧ 46 ∉ n ∧ n ∉ reserved) ∨ ((n, c) ∈ keywords ∧ 46 ∉ n) := by
  simp only [Lexeme.tok] at h
  split at h
  · rename_i h46; exact Or.inl ⟨h.symm, h46⟩
  · rename_i h46
    rcases findKeyword_inv n keywords c h with ⟨h1, h2⟩ | h1
    · rw [keywords_reserved] at h2; exact Or.inr (Or.inl ⟨h1, h46, h2⟩)
    · exact Or.inr (Or.inr ⟨h1, h46⟩)

theorem reserved_nodot : ∀ n ∈ reserved, 46 ∉ n := by decide +kernel

theorem qname_not_reserved {n : Bytes} (h : 46 ∈ n) : n ∉ reserved := fun hn => reserved_nodot n hn h

/-- A name that is not reserved is a token NAME or QNAME. -/
theorem code_of_name {n : Bytes} (h : n ∉ reserved) :
    (Lexeme.word n).tok.1 = .name ∨ (Lexeme.word n).tok.1 = .qname := by
  simp only [Lexeme.tok]
  split
  · exact Or.inr rfl
  · rw [findKeyword_none]; exact Or.inl rfl
    rw [keywords_reserved]; exact h

theorem code_of_nameOK {n : Bytes} (h : NameOK n) : isNameCode (Lexeme.word n).tok.1 = true := by
  rcases h.2 with h1 | h1 | h1
  · have h2 := ident_nodot h.1
    simp only [Lexeme.tok, h2, if_false]
    rw [findKeyword_none]; rfl
    rw [keywords_reserved]; exact h1
  · subst h1; decide +kernel
  · subst h1; decide +kernel

theorem symbol_inv {b : Byte} {c : Code} (h : b ∈ b!"={};,<>[]") (hc : (symbol b.toNat).getD .eof = c) :
    (c = .equal ∧ b = c!"=") ∨ (c = .begin ∧ b = c!"{") ∨ (c = .end ∧ b = c!"}") ∨ (c = .scolon ∧ b = c!";") ∨
    (c = .comma ∧ b = c!",") ∨ (c = .lt ∧ b = c!"<") ∨ (c = .gt ∧ b = c!">") ∨ (c = .lbracket ∧ b = c!"[") ∨
    (c = .rbracket ∧ b = c!"]") := by
  simp only [List.mem_cons, List.not_mem_nil, or_false] at h
  subst hc
  rcases h with rfl | rfl | rfl | rfl | rfl | rfl | rfl | rfl | rfl <;> decide

section inversion
variable {l : Lexeme} {c : Code} {v : Bytes}

/-- Every token of a valid lexical element is of one of these forms. -/
theorem tok_cases (hl : l.Valid) (h : (c, v) = l.tok) :
    (∃ n, l = .word n ∧ v = n ∧ DotName n ∧
      ((c = .qname ∧ 46 ∈ n) ∨ (c = .name ∧ 46 ∉ n ∧ n ∉ reserved) ∨ ((n, c) ∈ keywords ∧ 46 ∉ n))) ∨
    (l = .int v ∧ c = .integer ∧ Digits v) ∨ (l = .str v ∧ c = .string ∧ Quotable v) ∨
    (∃ b, l = .sym b ∧ v = [] ∧ ((c = .equal ∧ b = c!"=") ∨ (c = .begin ∧ b = c!"{") ∨ (c = .end ∧ b = c!"}") ∨
      (c = .scolon ∧ b = c!";") ∨ (c = .comma ∧ b = c!",") ∨ (c = .lt ∧ b = c!"<") ∨ (c = .gt ∧ b = c!">") ∨
      (c = .lbracket ∧ b = c!"[") ∨ (c = .rbracket ∧ b = c!"]"))) := by
  cases l with
  | word n =>
    left
    refine ⟨n, rfl, (Prod.mk.inj h).2, hl, word_code (Prod.mk.inj h).1.symm⟩
  | int d =>
    obtain ⟨h1, h2⟩ := Prod.mk.inj h
    subst h1 h2
    exact Or.inr (Or.inl ⟨rfl, rfl, hl⟩)
  | str s =>
    obtain ⟨h1, h2⟩ := Prod.mk.inj h
    subst h1 h2
    exact Or.inr (Or.inr (Or.inl ⟨rfl, rfl, hl⟩))
  | sym b =>
    obtain ⟨h1, h2⟩ := Prod.mk.inj h
    exact Or.inr (Or.inr (Or.inr ⟨b, rfl, h2, symbol_inv hl h1.symm⟩))

theorem tok_not_eof (hl : l.Valid) (h : (c, v) = l.tok) : c ≠ .eof := by
  rcases tok_cases hl h with ⟨n, _, _, _, h | h | h⟩ | h | h | ⟨b, _, _, h⟩
  · rw [h.1]; decide
  · rw [h.1]; decide
  · exact (keywords_not_name _ h.1).2.2.2.2.1
  · rw [h.2.1]; decide
  · rw [h.2.1]; decide
  · rcases h with h | h | h | h | h | h | h | h | h <;> (rw [h.1]; decide)

theorem tok_name (hl : l.Valid) (h : (c, v) = l.tok) (hc : c = .name ∨ c = .qname) :
    l = .word v ∧ DotName v ∧ v ∉ reserved := by
  rcases tok_cases hl h with ⟨n, h1, h2, h3, h | h | h⟩ | h | h | ⟨b, _, _, h⟩
  · subst h2; exact ⟨h1, h3, qname_not_reserved h.2⟩
  · subst h2; exact ⟨h1, h3, h.2.2⟩
  · have := keywords_not_name _ h.1
    rcases hc with hc | hc
    · exact absurd hc this.1
    · exact absurd hc this.2.1
  · rcases hc with hc | hc <;> (rw [hc] at h; exact absurd h.2.1 (by decide))
  · rcases hc with hc | hc <;> (rw [hc] at h; exact absurd h.2.1 (by decide))
  · rcases hc with hc | hc <;> rw [hc] at h <;> exact absurd h (by simp)

theorem tok_nameOK (hl : l.Valid) (h : (c, v) = l.tok) (hc : isNameCode c = true) : l = .word v ∧ NameOK v := by
  simp only [isNameCode, Bool.or_eq_true, beq_iff_eq] at hc
  rcases tok_cases hl h with ⟨n, h1, h2, h3, h | h | h⟩ | h | h | ⟨b, _, _, h⟩
  · rw [h.1] at hc; simp at hc
  · subst h2; exact ⟨h1, dotname_nodot h3 h.2.1, Or.inl h.2.2⟩
  · subst h2
    have h4 := keyword_text _ h.1
    have h5 := keywords_not_name _ h.1
    refine ⟨h1, dotname_nodot h3 h.2, ?_⟩
    rcases hc with (hc | hc) | hc
    · exact absurd hc h5.1
    · exact Or.inr (Or.inl (h4.1 hc))
    · exact Or.inr (Or.inr (h4.2.1 hc))
  · rw [h.2.1] at hc; simp at hc
  · rw [h.2.1] at hc; simp at hc
  · rcases h with h | h | h | h | h | h | h | h | h <;> (rw [h.1] at hc; simp at hc)

theorem tok_int (hl : l.Valid) (h : (c, v) = l.tok) (hc : c = .integer) : l = .int v ∧ Digits v := by
  rcases tok_cases hl h with ⟨n, h1, h2, h3, h | h | h⟩ | h | h | ⟨b, _, _, h⟩
  · rw [h.1] at hc; simp at hc
  · rw [h.1] at hc; simp at hc
  · exact absurd hc (keywords_not_name _ h.1).2.2.1
  · exact ⟨h.1, h.2.2⟩
  · rw [h.2.1] at hc; simp at hc
  · rcases h with h | h | h | h | h | h | h | h | h <;> (rw [h.1] at hc; simp at hc)

theorem tok_str (hl : l.Valid) (h : (c, v) = l.tok) (hc : c = .string) : l = .str v ∧ Quotable v := by
  rcases tok_cases hl h with ⟨n, h1, h2, h3, h | h | h⟩ | h | h | ⟨b, _, _, h⟩
  · rw [h.1] at hc; simp at hc
  · rw [h.1] at hc; simp at hc
  · exact absurd hc (keywords_not_name _ h.1).2.2.2.1
  · rw [h.2.1] at hc; simp at hc
  · exact ⟨h.1, h.2.2⟩
  · rcases h with h | h | h | h | h | h | h | h | h <;> (rw [h.1] at hc; simp at hc)

theorem tok_sym (hl : l.Valid) (h : (c, v) = l.tok) :
    (c = .equal → l = .sym c!"=") ∧ (c = .begin → l = .sym c!"{") ∧ (c = .end → l = .sym c!"}") ∧
    (c = .scolon → l = .sym c!";") ∧ (c = .comma → l = .sym c!",") ∧ (c = .lbracket → l = .sym c!"[") ∧
    (c = .rbracket → l = .sym c!"]") := by
  rcases tok_cases hl h with ⟨n, h1, h2, h3, h | h | h⟩ | h | h | ⟨b, hb, _, hs⟩
  · rw [h.1]; simp
  · rw [h.1]; simp
  · have := keywords_symbols _ h.1
    simp only at this
    simp [this]
  · rw [h.2.1]; simp
  · rw [h.2.1]; simp
  · rcases hs with hs | hs | hs | hs | hs | hs | hs | hs | hs <;> (rw [hb, hs.1, hs.2]; simp)

theorem tok_keyword (hl : l.Valid) (h : (c, v) = l.tok) :
    (c = .message → l = .word b!"message") ∧ (c = .package → l = .word b!"package") ∧
    (c = .syntax → l = .word b!"syntax") ∧ (c = .option → l = .word b!"option") ∧
    (c = .true → l = .word b!"true" ∧ v = b!"true") ∧ (c = .false → l = .word b!"false" ∧ v = b!"false") ∧
    (c = .repeated → l = .word b!"repeated") ∧ (c = .optional → l = .word b!"optional") ∧
    (∀ t, c = .ty t → l = .word t.text) := by
  rcases tok_cases hl h with ⟨n, h1, h2, h3, h | h | h⟩ | h | h | ⟨b, hb, _, h⟩
  · rw [h.1]; simp
  · rw [h.1]; simp
  · have h4 := keyword_text _ h.1
    have h5 := keywords_ty _ h.1
    subst h1 h2
    obtain ⟨a1, a2, a3, a4, a5, a6, a7, a8⟩ := h4
    simp only at a1 a2 a3 a4 a5 a6 a7 a8 h5
    exact ⟨fun e => by rw [a1 e], fun e => by rw [a2 e], fun e => by rw [a3 e], fun e => by rw [a4 e],
      fun e => by rw [a5 e]; exact ⟨rfl, rfl⟩, fun e => by rw [a6 e]; exact ⟨rfl, rfl⟩, fun e => by rw [a7 e],
      fun e => by rw [a8 e], fun t e => by rw [h5 t e]⟩
  · rw [h.2.1]; simp
  · rw [h.2.1]; simp
  · rcases h with h | h | h | h | h | h | h | h | h <;> (rw [h.1]; simp)

end inversion

theorem ident_of_list (n : Bytes) (h : (match n with | [] => false | b :: r => letterB b && r.all wordB) = true) :
    Ident n := by
  cases n with
  | nil => cases h
  | cons b r =>
    simp only [Bool.and_eq_true, List.all_eq_true] at h
    exact ⟨b, r, rfl, (letterB_iff b).mp h.1, fun c hc => (wordB_iff c).mp (h.2 c hc)⟩

theorem reserved_ident : ∀ n ∈ reserved, Ident n := by
  intro n hn
  have h : ∀ n ∈ reserved, (match n with | [] => false | b :: r => letterB b && r.all wordB) = true := by
    decide +kernel
  exact ident_of_list n (h n hn)

theorem scalar_tok (t : Scalar) : (Lexeme.word t.text).tok = (.ty t, t.text) := by cases t <;> decide +kernel

theorem scalar_valid (t : Scalar) : (Lexeme.word t.text).Valid :=
  .one (reserved_ident _ (by cases t <;> decide +kernel))

end PG.Proto
