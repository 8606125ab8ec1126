import Verif.Model.Token
import Verif.Spec.Json
/-
The tokenizer recognises the tokens of the wide grammar.
-/
namespace PG

theorem u8_eq_of_toNat {a b : UInt8} (h : a.toNat = b.toNat) : a = b := UInt8.toNat_inj.mp h

namespace IStream

theorem skip_nl (bs : Bytes) (l c : Nat) : skip (10 :: bs) l c = skip bs (l + 1) 1 := by
  simp [skip]

theorem skip_cons {b : Byte} (h : b ≠ 10) (bs : Bytes) (l c : Nat) : skip (b :: bs) l c = ⟨b :: bs, l, c⟩ := by
  simp [skip, h]

theorem skip_eof {b : Byte} (h : b ≠ 10) (bs : Bytes) (l c : Nat) : (skip (b :: bs) l c).eof = false := by
  simp [skip_cons h, eof]

theorem skip_peek {b : Byte} (h : b ≠ 10) (bs : Bytes) (l c : Nat) : (skip (b :: bs) l c).peek = b := by
  simp [skip_cons h, peek]

theorem skip_next {b : Byte} (h : b ≠ 10) (bs : Bytes) (l c : Nat) :
    (skip (b :: bs) l c).next = skip bs l (c + 1) := by
  simp [skip_cons h, next]

theorem skip_line {b : Byte} (h : b ≠ 10) (bs : Bytes) (l c : Nat) : (skip (b :: bs) l c).line = l := by
  simp [skip_cons h]

theorem skip_col {b : Byte} (h : b ≠ 10) (bs : Bytes) (l c : Nat) : (skip (b :: bs) l c).col = c := by
  simp [skip_cons h]

end IStream

open IStream

/-- The first byte of a text that is not a line feed. -/
def firstByte : Bytes → Option Byte
  | [] => none
  | b :: t => if b = 10 then firstByte t else some b

theorem firstByte_cons {b : Byte} (h : b ≠ 10) (t : Bytes) : firstByte (b :: t) = some b := by
  simp [firstByte, h]

theorem skip_firstByte_none {bs : Bytes} (h : firstByte bs = none) (l c : Nat) : (skip bs l c).eof = true := by
  induction bs generalizing l c with
  | nil => simp [skip, eof]
  | cons b t ih =>
    unfold firstByte at h
    by_cases hb : b = 10
    · subst hb; rw [skip_nl]; exact ih (by simpa using h) _ _
    · simp [hb] at h

theorem skip_firstByte_some {bs : Bytes} {b : Byte} (h : firstByte bs = some b) (l c : Nat) :
    (skip bs l c).eof = false ∧ (skip bs l c).peek = b ∧ b ≠ 10 := by
  induction bs generalizing l c with
  | nil => simp [firstByte] at h
  | cons x t ih =>
    unfold firstByte at h
    by_cases hb : x = 10
    · subst hb; rw [skip_nl]; exact ih (by simpa using h) _ _
    · simp [hb] at h; subst h
      exact ⟨skip_eof hb _ _ _, skip_peek hb _ _ _, hb⟩

/-- The text ends here, or goes on with a byte that cannot continue a number or a keyword. -/
def Delim (rest : Bytes) : Prop := ∀ b, firstByte rest = some b → numByte b = false ∧ isAlpha b = false

/-- What follows cannot continue a number. -/
def NumEnd (rest : Bytes) : Prop := ∀ b, firstByte rest = some b → numByte b = false

/-- What follows cannot continue a keyword. -/
def WordEnd (rest : Bytes) : Prop := ∀ b, firstByte rest = some b → isAlpha b = false

theorem Delim.num {rest : Bytes} (h : Delim rest) : NumEnd rest := fun b hb => (h b hb).1
theorem Delim.word {rest : Bytes} (h : Delim rest) : WordEnd rest := fun b hb => (h b hb).2

theorem numByte_eq (b : Byte) : numByte b = isNumChar b := by
  unfold numByte isNumChar isDigit
  cases (decide (48 ≤ b) && decide (b ≤ 57)) <;> cases (b == 46) <;> simp

theorem Delim.cons {b : Byte} {t : Bytes} (h10 : b ≠ 10) (h1 : numByte b = false) (h2 : isAlpha b = false) :
    Delim (b :: t) := by
  intro x hx
  rw [firstByte_cons h10] at hx
  cases hx; exact ⟨h1, h2⟩

theorem Delim.nil : Delim [] := by intro b h; simp [firstByte] at h

theorem wsByte_delim {b : Byte} (h : wsByte b = true) : b = 10 ∨ (b ≠ 10 ∧ numByte b = false ∧ isAlpha b = false) := by
  have : b = 32 ∨ b = 9 ∨ b = 10 ∨ b = 13 := by
    simp [wsByte] at h; rcases h with ((h | h) | h) | h <;> simp [h]
  rcases this with h | h | h | h <;> subst h <;> decide

theorem Delim.ws {w t : Bytes} (hw : Ws w) (ht : Delim t) : Delim (w ++ t) := by
  induction w with
  | nil => exact ht
  | cons b w ih =>
    have hb := hw b (by simp)
    have ih := ih (fun x hx => hw x (by simp [hx]))
    rcases wsByte_delim hb with h | ⟨h1, h2, h3⟩
    · subst h
      intro x hx
      rw [List.cons_append] at hx
      simp only [firstByte, if_true] at hx
      exact ih x hx
    · exact Delim.cons h1 h2 h3

/-- Lexing at `bs` gives a token with this identifier and value and leaves `rest`. -/
def LexTo (bs : Bytes) (id : TId) (val : Bytes) (rest : Bytes) : Prop :=
  ∀ l c, ∃ tl tc l' c', lex (skip bs l c) = (⟨id, val, tl, tc⟩, skip rest l' c')

/-- The tokenizer's current token is the first token of `bs` (positions are left open). -/
def At (tz : Tz) (bs : Bytes) : Prop := ∃ l c, lex (skip bs l c) = (tz.cur, tz.inp)

theorem At.tok {tz : Tz} {bs id val rest} (h : At tz bs) (hl : LexTo bs id val rest) :
    tz.cur.id = id ∧ tz.cur.value = val ∧ At tz.next rest := by
  obtain ⟨l, c, h⟩ := h
  obtain ⟨tl, tc, l', c', h'⟩ := hl l c
  rw [h'] at h
  injection h with h1 h2
  refine ⟨by rw [← h1], by rw [← h1], l', c', ?_⟩
  simp only [Tz.next, ← h2]

theorem At.error {tz : Tz} {bs : Bytes} (h : At tz bs) (e : ECode) : At (tz.error e).2 bs := by
  unfold Tz.error; split <;> exact h

theorem At.open (bs : Bytes) (e : ErrInfo) : At (Tz.open' (IStream.open' bs) e) bs :=
  ⟨1, 1, rfl⟩

theorem At.unique_id {tz : Tz} {bs id val rest} (h : At tz bs) (hl : LexTo bs id val rest) : tz.cur.id = id :=
  (h.tok hl).1

theorem LexTo.ws1 {b : Byte} {bs id val rest} (hb : wsByte b = true) (h : LexTo bs id val rest) :
    LexTo (b :: bs) id val rest := by
  intro l c
  by_cases h10 : b = 10
  · subst h10; rw [skip_nl]; exact h _ _
  · have hc : b = 32 ∨ b = 9 ∨ b = 13 := by
      simp [wsByte] at hb; rcases hb with ((h | h) | h) | h
      · exact .inl h
      · exact .inr (.inl h)
      · exact absurd h h10
      · exact .inr (.inr h)
    rw [lex]
    rw [dif_pos (skip_eof h10 _ _ _)]
    simp only [skip_peek h10, skip_next h10]
    rw [if_pos (by rcases hc with h | h | h <;> subst h <;> decide)]
    exact h _ _

theorem LexTo.ws {w bs id val rest} (hw : Ws w) (h : LexTo bs id val rest) : LexTo (w ++ bs) id val rest := by
  induction w with
  | nil => exact h
  | cons b w ih =>
    exact LexTo.ws1 (hw b (by simp)) (ih (fun x hx => hw x (by simp [hx])))

/-- One-character tokens. -/
theorem LexTo.objs (rest : Bytes) : LexTo (c!"{" :: rest) .objs [] rest := by
  intro l c
  rw [lex, dif_pos (skip_eof (by decide) _ _ _)]
  simp only [skip_peek (b := 123) (by decide), skip_next (b := 123) (by decide)]
  exact ⟨_, _, _, _, rfl⟩

theorem LexTo.obje (rest : Bytes) : LexTo (c!"}" :: rest) .obje [] rest := by
  intro l c
  rw [lex, dif_pos (skip_eof (by decide) _ _ _)]
  simp only [skip_peek (b := 125) (by decide), skip_next (b := 125) (by decide)]
  exact ⟨_, _, _, _, rfl⟩

theorem LexTo.arrs (rest : Bytes) : LexTo (c!"[" :: rest) .arrs [] rest := by
  intro l c
  rw [lex, dif_pos (skip_eof (by decide) _ _ _)]
  simp only [skip_peek (b := 91) (by decide), skip_next (b := 91) (by decide)]
  exact ⟨_, _, _, _, rfl⟩

theorem LexTo.arre (rest : Bytes) : LexTo (c!"]" :: rest) .arre [] rest := by
  intro l c
  rw [lex, dif_pos (skip_eof (by decide) _ _ _)]
  simp only [skip_peek (b := 93) (by decide), skip_next (b := 93) (by decide)]
  exact ⟨_, _, _, _, rfl⟩

theorem LexTo.colon (rest : Bytes) : LexTo (c!":" :: rest) .colon [] rest := by
  intro l c
  rw [lex, dif_pos (skip_eof (by decide) _ _ _)]
  simp only [skip_peek (b := 58) (by decide), skip_next (b := 58) (by decide)]
  exact ⟨_, _, _, _, rfl⟩

theorem LexTo.comma (rest : Bytes) : LexTo (c!"," :: rest) .comma [] rest := by
  intro l c
  rw [lex, dif_pos (skip_eof (by decide) _ _ _)]
  simp only [skip_peek (b := 44) (by decide), skip_next (b := 44) (by decide)]
  exact ⟨_, _, _, _, rfl⟩

/-- The number loop takes all number characters. -/
theorem lexNumber_run {ds rest : Bytes} (hd : ∀ b ∈ ds, numByte b = true)
    (hr : ∀ b, firstByte rest = some b → numByte b = false) (l c : Nat) (acc : Bytes) :
    ∃ l' c', lexNumber (skip (ds ++ rest) l c) acc = (acc ++ ds, skip rest l' c') := by
  induction ds generalizing l c acc with
  | nil =>
    refine ⟨l, c, ?_⟩
    simp only [List.nil_append, List.append_nil]
    rw [lexNumber]
    cases hf : firstByte rest with
    | none => rw [dif_neg]; simp [skip_firstByte_none hf]
    | some b =>
      obtain ⟨h1, h2, _⟩ := skip_firstByte_some hf l c
      rw [dif_pos h1, h2, ← numByte_eq, hr b hf]; rfl
  | cons b ds ih =>
    have hb := hd b (by simp)
    have h10 : b ≠ 10 := by intro h; subst h; exact absurd hb (by decide)
    obtain ⟨l', c', h⟩ := ih (fun x hx => hd x (by simp [hx])) l (c + 1) (acc ++ [b])
    refine ⟨l', c', ?_⟩
    rw [List.cons_append, lexNumber, dif_pos (skip_eof h10 _ _ _), skip_peek h10, skip_next h10, ← numByte_eq, hb]
    simp [h]

theorem LexTo.number {ds rest : Bytes} (hn : SloppyNum ds) (hr : NumEnd rest) :
    LexTo (ds ++ rest) .number ds rest := by
  intro l c
  obtain ⟨⟨b, t, hds, hb⟩, hall⟩ := hn
  obtain ⟨l', c', h⟩ := lexNumber_run hall hr l c []
  have hb' : b = 45 ∨ b = 48 ∨ b = 49 ∨ b = 50 ∨ b = 51 ∨ b = 52 ∨ b = 53 ∨ b = 54 ∨ b = 55 ∨ b = 56 ∨ b = 57 := by
    rcases hb with h | ⟨h1, h2⟩
    · exact .inl h
    · have h1' := UInt8.le_iff_toNat_le.mp h1
      have h2' := UInt8.le_iff_toNat_le.mp h2
      have e1 : (48 : UInt8).toNat = 48 := rfl
      have e2 : (57 : UInt8).toNat = 57 := rfl
      rw [e1] at h1'; rw [e2] at h2'
      have : b.toNat = 48 ∨ b.toNat = 49 ∨ b.toNat = 50 ∨ b.toNat = 51 ∨ b.toNat = 52 ∨ b.toNat = 53 ∨ b.toNat = 54 ∨
        b.toNat = 55 ∨ b.toNat = 56 ∨ b.toNat = 57 := by omega
      right
      rcases this with h | h | h | h | h | h | h | h | h | h
      · left; exact u8_eq_of_toNat h
      · right; left; exact u8_eq_of_toNat h
      · right; right; left; exact u8_eq_of_toNat h
      · right; right; right; left; exact u8_eq_of_toNat h
      · right; right; right; right; left; exact u8_eq_of_toNat h
      · right; right; right; right; right; left; exact u8_eq_of_toNat h
      · right; right; right; right; right; right; left; exact u8_eq_of_toNat h
      · right; right; right; right; right; right; right; left; exact u8_eq_of_toNat h
      · right; right; right; right; right; right; right; right; left; exact u8_eq_of_toNat h
      · right; right; right; right; right; right; right; right; right; exact u8_eq_of_toNat h
  have h10 : b ≠ 10 := by rcases hb' with h | h | h | h | h | h | h | h | h | h | h <;> subst h <;> decide
  subst hds
  rw [List.cons_append] at h ⊢
  rw [lex, dif_pos (skip_eof h10 _ _ _)]
  rw [h]
  simp only [skip_peek h10, skip_next h10, skip_line h10, skip_col h10]
  refine ⟨l, c, l', c', ?_⟩
  rcases hb' with h | h | h | h | h | h | h | h | h | h | h <;> subst h <;> rfl

/-- The identifier loop takes all letters. -/
theorem lexIdent_run {ds rest : Bytes} (hd : ∀ b ∈ ds, isAlpha b = true)
    (hr : ∀ b, firstByte rest = some b → isAlpha b = false) (l c : Nat) (acc : Bytes) :
    ∃ l' c', lexIdent (skip (ds ++ rest) l c) acc = (acc ++ ds, skip rest l' c') := by
  induction ds generalizing l c acc with
  | nil =>
    refine ⟨l, c, ?_⟩
    simp only [List.nil_append, List.append_nil]
    rw [lexIdent]
    cases hf : firstByte rest with
    | none => rw [dif_neg]; simp [skip_firstByte_none hf]
    | some b =>
      obtain ⟨h1, h2, _⟩ := skip_firstByte_some hf l c
      rw [dif_pos h1, h2, hr b hf]; rfl
  | cons b ds ih =>
    have hb := hd b (by simp)
    have h10 : b ≠ 10 := by intro h; subst h; exact absurd hb (by decide)
    obtain ⟨l', c', h⟩ := ih (fun x hx => hd x (by simp [hx])) l (c + 1) (acc ++ [b])
    refine ⟨l', c', ?_⟩
    rw [List.cons_append, lexIdent, dif_pos (skip_eof h10 _ _ _), skip_peek h10, skip_next h10, hb]
    simp [h]

theorem LexTo.null {rest : Bytes} (hr : WordEnd rest) : LexTo (b!"null" ++ rest) .nil [] rest := by
  intro l c
  obtain ⟨l', c', h⟩ := lexIdent_run (ds := b!"null") (rest := rest) (by decide) hr l c []
  rw [List.cons_append] at h ⊢
  rw [lex, dif_pos (skip_eof (by decide) _ _ _), h]
  simp only [skip_peek (b := 110) (by decide)]
  exact ⟨_, _, l', c', rfl⟩

theorem LexTo.true {rest : Bytes} (hr : WordEnd rest) : LexTo (b!"true" ++ rest) .btrue [] rest := by
  intro l c
  obtain ⟨l', c', h⟩ := lexIdent_run (ds := b!"true") (rest := rest) (by decide) hr l c []
  rw [List.cons_append] at h ⊢
  rw [lex, dif_pos (skip_eof (by decide) _ _ _), h]
  simp only [skip_peek (b := 116) (by decide)]
  exact ⟨_, _, l', c', rfl⟩

theorem LexTo.false {rest : Bytes} (hr : WordEnd rest) : LexTo (b!"false" ++ rest) .bfalse [] rest := by
  intro l c
  obtain ⟨l', c', h⟩ := lexIdent_run (ds := b!"false") (rest := rest) (by decide) hr l c []
  rw [List.cons_append] at h ⊢
  rw [lex, dif_pos (skip_eof (by decide) _ _ _), h]
  simp only [skip_peek (b := 102) (by decide)]
  exact ⟨_, _, l', c', rfl⟩

end PG
