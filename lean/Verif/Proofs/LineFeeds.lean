import Verif.Proofs.Unlex
import Verif.Proofs.Bisim
import Verif.Proofs.LexStr
/-
Line feeds carry no meaning: the tokenizer gives the same tokens for a text and the text without them.
-/
set_option autoImplicit false
namespace PG
open IStream

/-- The two cursors show the same characters. -/
def Same (s s' : IStream) : Prop := Norm s ∧ Norm s' ∧ clean s.rest = clean s'.rest

theorem clean_cons {b : Byte} (h : b ≠ 10) (t : Bytes) : clean (b :: t) = b :: clean t := by
  simp [clean, h]

theorem skip_shows (bs : Bytes) (l c : Nat) : clean (skip bs l c).rest = clean bs := by
  obtain ⟨-, pre, h1, h2, -⟩ := skip_adv bs l c
  conv => rhs; rw [h1, clean_append, h2]
  rfl

/-- Either both cursors are at the end, or they show the same character and what follows is the same. -/
theorem Same.cases {s s' : IStream} (h : Same s s') :
    (s.eof = true ∧ s'.eof = true ∧ s.peek = 0 ∧ s'.peek = 0 ∧ s.next = s ∧ s'.next = s') ∨
    (s.eof = false ∧ s'.eof = false ∧ s.peek = s'.peek ∧ Same s.next s'.next) := by
  obtain ⟨hn, hn', hc⟩ := h
  cases hr : s.rest with
  | nil =>
    cases hr' : s'.rest with
    | nil =>
      refine .inl ⟨by simp [eof, hr], by simp [eof, hr'], by simp [peek, hr], by simp [peek, hr'], ?_, ?_⟩
      · unfold IStream.next; rw [hr]
      · unfold IStream.next; rw [hr']
    | cons b' t' =>
      have hb' : b' ≠ 10 := fun e => hn' t' (by rw [hr', e])
      rw [hr, hr', clean_cons hb'] at hc
      cases hc
  | cons b t =>
    have hb : b ≠ 10 := fun e => hn t (by rw [hr, e])
    cases hr' : s'.rest with
    | nil =>
      rw [hr, hr', clean_cons hb] at hc
      cases hc
    | cons b' t' =>
      have hb' : b' ≠ 10 := fun e => hn' t' (by rw [hr', e])
      rw [hr, hr', clean_cons hb, clean_cons hb'] at hc
      simp only [List.cons.injEq] at hc
      refine .inr ⟨by simp [eof, hr], by simp [eof, hr'], by simp [peek, hr, hr', hc.1], ?_⟩
      unfold IStream.next
      rw [hr, hr']
      exact ⟨skip_norm _ _ _, skip_norm _ _ _, by rw [skip_shows, skip_shows, hc.2]⟩

theorem Same.peek {s s' : IStream} (h : Same s s') : s.peek = s'.peek := by
  rcases h.cases with ⟨-, -, h1, h2, -⟩ | ⟨-, -, h1, -⟩
  · rw [h1, h2]
  · exact h1

theorem Same.next {s s' : IStream} (h : Same s s') : Same s.next s'.next := by
  rcases h.cases with ⟨-, -, -, -, h1, h2⟩ | ⟨-, -, -, h1⟩
  · rw [h1, h2]; exact h
  · exact h1

theorem Same.eof {s s' : IStream} (h : Same s s') : s.eof = s'.eof := by
  rcases h.cases with ⟨h1, h2, -⟩ | ⟨h1, h2, -⟩ <;> rw [h1, h2]

theorem Same.ident (s s' : IStream) (acc : Bytes) (h : Same s s') :
    (lexIdent s acc).1 = (lexIdent s' acc).1 ∧ Same (lexIdent s acc).2 (lexIdent s' acc).2 := by
  induction hk : s.rest.length using Nat.strongRecOn generalizing s s' acc with
  | ind k ih =>
    unfold lexIdent
    rcases h.cases with ⟨h1, h2, -⟩ | ⟨h1, h2, h3, h4⟩
    · rw [dif_neg (by simp [h1]), dif_neg (by simp [h2])]
      exact ⟨rfl, h⟩
    · rw [dif_pos h1, dif_pos h2, h3]
      split
      · have := s.next_length_lt h1
        exact ih _ (by omega) _ _ _ h4 rfl
      · exact ⟨rfl, h⟩

theorem Same.number (s s' : IStream) (acc : Bytes) (h : Same s s') :
    (lexNumber s acc).1 = (lexNumber s' acc).1 ∧ Same (lexNumber s acc).2 (lexNumber s' acc).2 := by
  induction hk : s.rest.length using Nat.strongRecOn generalizing s s' acc with
  | ind k ih =>
    unfold lexNumber
    rcases h.cases with ⟨h1, h2, -⟩ | ⟨h1, h2, h3, h4⟩
    · rw [dif_neg (by simp [h1]), dif_neg (by simp [h2])]
      exact ⟨rfl, h⟩
    · rw [dif_pos h1, dif_pos h2, h3]
      split
      · have := s.next_length_lt h1
        exact ih _ (by omega) _ _ _ h4 rfl
      · exact ⟨rfl, h⟩

theorem Same.hex (n v : Nat) (s s' : IStream) (h : Same s s') :
    (lexHex n v s).1 = (lexHex n v s').1 ∧ Same (lexHex n v s).2 (lexHex n v s').2 := by
  induction n generalizing v s s' with
  | zero => exact ⟨rfl, h⟩
  | succ n ih =>
    unfold lexHex
    simp only [h.next.peek]
    cases hexVal s'.next.peek with
    | none => exact ⟨rfl, h.next⟩
    | some d => exact ih _ _ _ h.next

theorem Same.string (s s' : IStream) (lead : Nat) (value : Bytes) (h : Same s s') :
    (lexString s lead value).1 = (lexString s' lead value).1 ∧ Same (lexString s lead value).2 (lexString s' lead value).2 := by
  induction hk : s.rest.length using Nat.strongRecOn generalizing s s' lead value with
  | ind k ih =>
    unfold lexString
    rcases h.cases with ⟨h1, h2, -⟩ | ⟨h1, h2, h3, h4⟩
    · rw [dif_neg (by simp [h1]), dif_neg (by simp [h2])]
      exact ⟨rfl, h⟩
    · have l1 := s.next_length_lt h1
      have l2 := s.next.next_length_le
      have l3 := lexHex_length_le 4 0 s.next.next
      rw [dif_pos h1, dif_pos h2]
      simp only [h4.peek, h4.next.peek]
      split
      · exact ⟨rfl, h4.next⟩
      · split
        · split
          · obtain ⟨e1, e2⟩ := Same.hex 4 0 _ _ h4.next
            rw [e1]
            cases (lexHex 4 0 s'.next.next).1 with
            | none => exact ⟨rfl, e2⟩
            | some cp =>
              simp only
              cases putCodeUnit value lead cp with
              | none => exact ⟨rfl, e2⟩
              | some q => exact ih _ (by omega) _ _ _ _ e2 rfl
          · cases simpleEscape s'.next.next.peek with
            | none => exact ⟨rfl, h4.next⟩
            | some e => exact ih _ (by omega) _ _ _ _ h4.next rfl
        · split
          · exact ⟨rfl, h4⟩
          · exact ih _ (by omega) _ _ _ _ h4 rfl

theorem identToken_at (v : Bytes) (l c l' c' : Nat) : (identToken v l c).id = (identToken v l' c').id ∧
    (identToken v l c).value = (identToken v l' c').value := by
  unfold identToken
  split
  · exact ⟨rfl, rfl⟩
  · split
    · exact ⟨rfl, rfl⟩
    · split <;> exact ⟨rfl, rfl⟩

theorem Same.lex (s s' : IStream) (h : Same s s') :
    (lex s).1.id = (lex s').1.id ∧ (lex s).1.value = (lex s').1.value ∧ Same (lex s).2 (lex s').2 := by
  induction hk : s.rest.length using Nat.strongRecOn generalizing s s' with
  | ind k ih =>
    unfold PG.lex
    rcases h.cases with ⟨h1, h2, -⟩ | ⟨h1, h2, h3, h4⟩
    · rw [dif_neg (by simp [h1]), dif_neg (by simp [h2])]
      exact ⟨rfl, rfl, h⟩
    · have l1 := s.next_length_lt h1
      rw [dif_pos h1, dif_pos h2]
      simp only [h3]
      split
      · exact ih _ (by omega) _ _ h4 rfl
      · split
        · exact ⟨rfl, rfl, h4⟩
        · split
          · exact ⟨rfl, rfl, h4⟩
          · split
            · exact ⟨rfl, rfl, h4⟩
            · split
              · exact ⟨rfl, rfl, h4⟩
              · split
                · exact ⟨rfl, rfl, h4⟩
                · split
                  · exact ⟨rfl, rfl, h4⟩
                  · split
                    · unfold parseString
                      obtain ⟨e1, e2⟩ := Same.string s s' 0 [] h
                      cases hx : lexString s 0 [] with
                      | mk a x =>
                      cases hy : lexString s' 0 [] with
                      | mk b y =>
                      rw [hx, hy] at e1 e2
                      simp only at e1 e2
                      subst e1
                      cases a with
                      | none => exact ⟨rfl, rfl, e2⟩
                      | some v => exact ⟨rfl, rfl, e2⟩
                    · split
                      · obtain ⟨e1, e2⟩ := Same.number s s' [] h
                        exact ⟨rfl, e1, e2⟩
                      · obtain ⟨e1, e2⟩ := Same.ident s s' [] h
                        simp only [e1]
                        obtain ⟨e3, e4⟩ := identToken_at (lexIdent s' []).1 s.line s.col s'.line s'.col
                        exact ⟨e3, e4, e2⟩

/-- The relation between the tokenizers of two texts that differ in line feeds only. -/
def SameTz (a b : Tz) : Prop :=
  a.cur.id = b.cur.id ∧ a.cur.value = b.cur.value ∧ Same a.inp b.inp ∧ a.err.code = b.err.code

theorem sameTz_bi : TzBi SameTz where
  id h := h.1
  value h := h.2.1
  next h := by
    obtain ⟨h1, h2, h3⟩ := Same.lex _ _ h.2.2.1
    exact ⟨h1, h2, h3, h.2.2.2⟩
  error {a b} c h := by
    obtain ⟨h1, h2, h3, h4⟩ := h
    unfold Tz.error
    rw [h4]
    split
    · exact ⟨h1, h2, h3, h4⟩
    · exact ⟨h1, h2, h3, rfl⟩

theorem same_open {a b : Bytes} (h : clean a = clean b) (e : ErrInfo) :
    SameTz (Tz.open' (IStream.open' a) e) (Tz.open' (IStream.open' b) e) := by
  have hs : Same (IStream.open' a) (IStream.open' b) :=
    ⟨skip_norm _ _ _, skip_norm _ _ _, by unfold IStream.open'; rw [skip_shows, skip_shows, h]⟩
  obtain ⟨h1, h2, h3⟩ := Same.lex _ _ hs
  exact ⟨h1, h2, h3, rfl⟩

theorem clean_clean (a : Bytes) : clean (clean a) = clean a := by
  simp [clean, List.filter_filter]

/-- The tokenizer decodes the strings of the lenient grammar. -/
theorem lexString_means {p : Option Nat} {body content : Bytes} (h : StrMeans p body content) (rest : Bytes) :
    ∀ {x : Byte}, x ≠ 10 → ∀ (l c lead : Nat) (value : Bytes),
      (p = none → lead = 0) → (∀ hi, p = some hi → lead = hi ∧ 0xD800 ≤ hi ∧ hi ≤ 0xDBFF) → ∃ l' c',
      lexString (skip (x :: (body ++ c!"\"" :: rest)) l c) lead value = (some (value ++ content), skip rest l' c') := by
  induction h with
  | nil =>
    intro x hx l c lead value _ _
    refine ⟨l, c + 1 + 1, ?_⟩
    rw [lexString, dif_pos (skip_eof hx _ _ _)]
    simp only [List.nil_append, skip_next hx, skip_peek (b := 34) (by decide), if_true, skip_next (b := 34) (by decide),
      List.append_nil]
  | @raw p b t cnt hr _ ih =>
    intro x hx l c lead value p0 p1
    obtain ⟨h0, h10, h34, h92⟩ := hr
    obtain ⟨l', c', ih⟩ := ih h10 l (c + 1) lead (value ++ [b]) p0 p1
    refine ⟨l', c', ?_⟩
    rw [lexString, dif_pos (skip_eof hx _ _ _)]
    simp only [List.cons_append, skip_next hx, skip_peek h10]
    rw [if_neg h34, if_neg h92, if_neg h0, ih]
    simp
  | @esc p e b t cnt he _ ih =>
    intro x hx l c lead value p0 p1
    obtain ⟨h1, h10, hu⟩ := simpleEscape_of he
    obtain ⟨l', c', ih⟩ := ih h10 l (c + 1 + 1) lead (value ++ [b]) p0 p1
    refine ⟨l', c', ?_⟩
    rw [lexString, dif_pos (skip_eof hx _ _ _)]
    simp only [List.cons_append, skip_next hx, skip_peek (b := 92) (by decide), skip_next (b := 92) (by decide),
      skip_peek h10]
    rw [if_neg (by decide), if_pos trivial, if_neg hu, h1]
    simp only
    rw [ih]
    simp
  | @uni p hx4 cp t cnt hh hs hcp _ ih =>
    intro x hx l c lead value p0 p1
    obtain ⟨d, hd, c1, h1⟩ := lexHex_run hh (x := 117) (by decide) (t ++ 34 :: rest) l (c + 1 + 1)
    obtain ⟨l', c', ih⟩ := ih hd l c1 0 (value ++ utf8 cp) (fun _ => rfl) (fun hi h => by cases h)
    refine ⟨l', c', ?_⟩
    rw [lexString, dif_pos (skip_eof hx _ _ _)]
    simp only [List.cons_append, List.append_assoc, skip_next hx, skip_peek (b := 92) (by decide),
      skip_next (b := 92) (by decide), skip_peek (b := 117) (by decide)]
    rw [if_neg (by decide), if_pos trivial, if_pos trivial]
    simp only [h1, putCodeUnit_single value lead hcp hh.lt hs]
    rw [ih]
    simp
  | @high p hx4 hi t cnt hh b1 b2 _ ih =>
    intro x hx l c lead value p0 p1
    obtain ⟨d, hd, c1, h1⟩ := lexHex_run hh (x := 117) (by decide) (t ++ 34 :: rest) l (c + 1 + 1)
    obtain ⟨l', c', ih⟩ := ih hd l c1 hi value (fun h => by cases h) (fun k h => by cases h; exact ⟨rfl, b1, b2⟩)
    refine ⟨l', c', ?_⟩
    rw [lexString, dif_pos (skip_eof hx _ _ _)]
    simp only [List.cons_append, List.append_assoc, skip_next hx, skip_peek (b := 92) (by decide),
      skip_next (b := 92) (by decide), skip_peek (b := 117) (by decide)]
    rw [if_neg (by decide), if_pos trivial, if_pos trivial]
    simp only [h1, putCodeUnit_lead value lead b1 b2]
    rw [ih]
  | @low hx4 hi lo t cnt hh b3 b4 _ ih =>
    intro x hx l c lead value p0 p1
    obtain ⟨rfl, b1, b2⟩ := p1 hi rfl
    obtain ⟨d, hd, c1, h1⟩ := lexHex_run hh (x := 117) (by decide) (t ++ 34 :: rest) l (c + 1 + 1)
    obtain ⟨l', c', ih⟩ := ih hd l c1 0 (value ++ utf8 (0x10000 + (lead - 0xD800) * 0x400 + (lo - 0xDC00))) (fun _ => rfl)
      (fun hi h => by cases h)
    refine ⟨l', c', ?_⟩
    rw [lexString, dif_pos (skip_eof hx _ _ _)]
    simp only [List.cons_append, List.append_assoc, skip_next hx, skip_peek (b := 92) (by decide),
      skip_next (b := 92) (by decide), skip_peek (b := 117) (by decide)]
    rw [if_neg (by decide), if_pos trivial, if_pos trivial]
    simp only [h1, putCodeUnit_trail value b1 b2 b3 b4]
    rw [ih]
    simp

theorem LexTo.means {body content : Bytes} (h : StrMeans none body content) (rest : Bytes) :
    LexTo (c!"\"" :: (body ++ c!"\"" :: rest)) .string content rest := by
  intro l c
  obtain ⟨l', c', h⟩ := lexString_means h rest (x := 34) (by decide) l c 0 [] (fun _ => rfl) (fun hi h => by cases h)
  rw [PG.lex, dif_pos (skip_eof (by decide) _ _ _)]
  simp only [skip_peek (b := 34) (by decide)]
  refine ⟨0, 0, l', c', ?_⟩
  unfold parseString
  rw [h]
  rfl

end PG
