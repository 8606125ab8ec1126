import Verif.Proofs.Refuse
/-
The token at the place of an error and the text that stands there.
-/
set_option autoImplicit false
namespace PG
open IStream

theorem clean_noLF (r : Bytes) : clean r = r ↔ ∀ b ∈ r, b ≠ 10 := by
  unfold clean
  rw [List.filter_eq_self]
  simp

theorem firstByte_clean {r : Bytes} (h : clean r = r) : firstByte r = r.head? := by
  cases r with
  | nil => rfl
  | cons b t =>
    rw [firstByte_cons ((clean_noLF _).1 h b (by simp))]; rfl

theorem clean_suffix {a b : Bytes} (h : clean (a ++ b) = a ++ b) : clean b = b := by
  rw [clean_noLF] at h ⊢
  exact fun x hx => h x (by simp [hx])

theorem wordEnd_of {t : Bytes} (hc : clean t = t) (h : ∀ b u, t = b :: u → isAlpha b = false) : WordEnd t := by
  intro b hb
  rw [firstByte_clean hc] at hb
  cases t with
  | nil => cases hb
  | cons x u => cases hb; exact h _ _ rfl

theorem numEnd_of {t : Bytes} (hc : clean t = t) (h : ∀ b u, t = b :: u → numByte b = false) : NumEnd t := by
  intro b hb
  rw [firstByte_clean hc] at hb
  cases t with
  | nil => cases hb
  | cons x u => cases hb; exact h _ _ rfl

theorem takeWhile_num (t : Bytes) : ∀ b ∈ t.takeWhile numByte, numByte b = true := by
  intro b hb
  induction t with
  | nil => cases hb
  | cons x t ih =>
    by_cases hx : numByte x = true
    · rw [List.takeWhile_cons_of_pos hx] at hb
      rcases List.mem_cons.mp hb with rfl | hb
      · exact hx
      · exact ih hb
    · rw [List.takeWhile_cons_of_neg hx] at hb; cases hb

theorem dropWhile_num (t : Bytes) : ∀ b u, t.dropWhile numByte = b :: u → numByte b = false := by
  intro b u h
  induction t with
  | nil => cases h
  | cons x t ih =>
    by_cases hx : numByte x = true
    · rw [List.dropWhile_cons_of_pos hx] at h; exact ih h
    · rw [List.dropWhile_cons_of_neg hx] at h
      cases h; simpa using hx

theorem digit_num : ∀ n : _root_.Fin 256, (UInt8.ofNat n.val = 45 ∨ 48 ≤ UInt8.ofNat n.val ∧ UInt8.ofNat n.val ≤ 57) →
    numByte (UInt8.ofNat n.val) = true := by decide +kernel

theorem digit_num' (b : Byte) (h : b = 45 ∨ 48 ≤ b ∧ b ≤ 57) : numByte b = true := by
  have := digit_num ⟨b.toNat, b.toNat_lt⟩
  simp only [UInt8.ofNat_toNat] at this
  exact this h

/-- A text that starts with a token shows that token. -/
theorem Starts.kind {k : TId} {r : Bytes} (h : Starts k r) (hc : clean r = r) : KindAt r k := by
  intro tz hs
  obtain ⟨bs, hu, ha⟩ := hs
  have hu : bs = r := hu
  subst hu
  have tok : ∀ {v t}, LexTo bs k v t → tz.cur.id = k := fun hl => (ha.tok hl).1
  cases k with
  | none => exact h.elim
  | eos =>
    have h : bs = [] := h
    subst h
    obtain ⟨l, c, ha⟩ := ha
    rw [lex, dif_neg (by simp [skip, IStream.eof])] at ha
    exact congrArg (fun p => p.1.id) ha.symm
  | objs => obtain ⟨t, rfl⟩ := h; exact tok (LexTo.objs t)
  | obje => obtain ⟨t, rfl⟩ := h; exact tok (LexTo.obje t)
  | arrs => obtain ⟨t, rfl⟩ := h; exact tok (LexTo.arrs t)
  | arre => obtain ⟨t, rfl⟩ := h; exact tok (LexTo.arre t)
  | colon => obtain ⟨t, rfl⟩ := h; exact tok (LexTo.colon t)
  | comma => obtain ⟨t, rfl⟩ := h; exact tok (LexTo.comma t)
  | string => obtain ⟨body, s, t, rfl, hm⟩ := h; exact tok (LexTo.means hm t)
  | nil => obtain ⟨t, rfl, h⟩ := h; exact tok (LexTo.null (wordEnd_of (clean_suffix hc) h))
  | btrue => obtain ⟨t, rfl, h⟩ := h; exact tok (LexTo.true (wordEnd_of (clean_suffix hc) h))
  | bfalse => obtain ⟨t, rfl, h⟩ := h; exact tok (LexTo.false (wordEnd_of (clean_suffix hc) h))
  | number =>
    obtain ⟨b, t, rfl, hb⟩ := h
    have e : b :: t = (b :: t.takeWhile numByte) ++ t.dropWhile numByte := by
      rw [List.cons_append, List.takeWhile_append_dropWhile]
    have hn : SloppyNum (b :: t.takeWhile numByte) := by
      refine ⟨⟨b, _, rfl, hb⟩, fun x hx => ?_⟩
      rcases List.mem_cons.mp hx with rfl | hx
      · exact digit_num' _ hb
      · exact takeWhile_num t x hx
    rw [e] at hc
    have := LexTo.number hn (numEnd_of (clean_suffix hc) (dropWhile_num t))
    rw [← e] at this
    exact tok this

/-- What a token says about the text where it starts. -/
theorem TokText.starts {k : TId} {val txt : Bytes} {s : IStream} (h : TokText k val txt s) (hk : k ≠ .none) (hn : Norm s) :
    Starts k (txt ++ clean s.rest) := by
  have word : (s.eof = true ∨ isAlpha s.peek = false) → ∀ b u, clean s.rest = b :: u → isAlpha b = false := by
    intro h b u hb
    unfold IStream.eof IStream.peek at h
    cases hr : s.rest with
    | nil => rw [hr] at hb; simp [clean] at hb
    | cons x t =>
      have hx : x ≠ 10 := fun hx => hn t (by rw [hr, hx])
      rw [hr, clean_cons hx] at hb
      cases hb
      rw [hr] at h
      simpa using h
  unfold TokText at h
  cases k with
  | none => exact absurd rfl hk
  | eos =>
    obtain ⟨rfl, h⟩ := h
    cases hr : s.rest with
    | nil => simp [Starts, clean]
    | cons x t => simp [IStream.eof, hr] at h
  | string =>
    obtain ⟨body, rfl, hm⟩ := h
    exact ⟨body, val, clean s.rest, by simp, hm⟩
  | number =>
    obtain ⟨rfl, ⟨⟨b, t, rfl, hb⟩, -⟩, -⟩ := h
    exact ⟨b, t ++ clean s.rest, rfl, hb⟩
  | nil => obtain ⟨rfl, h⟩ := h; exact ⟨_, rfl, word h⟩
  | btrue => obtain ⟨rfl, h⟩ := h; exact ⟨_, rfl, word h⟩
  | bfalse => obtain ⟨rfl, h⟩ := h; exact ⟨_, rfl, word h⟩
  | _ => subst h; exact ⟨_, rfl⟩

/-- The current token stands after white space, at its position, and the text begins with it. -/
theorem Cur.begins {tz : Tz} {s : IStream} (h : Cur tz s) : ∃ w s0, Adv s s0 w ∧ Ws w ∧ Begins tz.cur.id (clean s0.rest) ∧
    (if tz.cur.id = .string then tz.cur.line = 0 ∧ tz.cur.col = 0 else tz.cur.line = s0.line ∧ tz.cur.col = s0.col) := by
  obtain ⟨w, txt, s0, h1, h2, h3, h4, h5, h6⟩ := lex_inv s h.1
  have hx := h.2
  rw [hx] at h3 h4 h5
  refine ⟨w, s0, h1, h2, ⟨?_, ?_⟩, h5⟩
  · intro b t hb
    unfold IStream.eof IStream.peek at h6
    cases hr : s0.rest with
    | nil => rw [hr] at hb; simp [clean] at hb
    | cons x u =>
      have hx : x ≠ 10 := fun hx => h1.1 u (by rw [hr, hx])
      rw [hr, clean_cons hx] at hb
      cases hb
      rw [hr] at h6
      simpa using h6
  · obtain ⟨hn, pre, e1, e2, -⟩ := h3
    have he : clean s0.rest = txt ++ clean tz.inp.rest := by rw [e1, clean_append, e2]
    split
    · rename_i hnone
      intro k' hst
      have hk := hst.kind (clean_clean _)
      obtain ⟨-, pre', e3, e4, -⟩ := h1
      have hsame : Same s (IStream.open' (clean s.rest)) :=
        ⟨h.1, skip_norm _ _ _, by unfold IStream.open'; rw [skip_shows, clean_clean]⟩
      obtain ⟨hid, -, -⟩ := Same.lex _ _ hsame
      rw [hx] at hid
      have hat := At.open (clean s.rest) {}
      have e5 : clean s.rest = w ++ clean s0.rest := by rw [e3, clean_append, e4]
      have hat2 : At (Tz.open' (IStream.open' (clean s.rest)) {}) (w ++ clean s0.rest) := by rw [← e5]; exact hat
      have := hk _ ⟨_, rfl, hat2.dropWs h2⟩
      have h7 : (Tz.open' (IStream.open' (clean s.rest)) {}).cur.id = tz.cur.id := hid.symm
      rw [h7, hnone] at this
      subst this
      exact hst
    · rename_i hne
      rw [he]
      exact h4.starts hne hn

theorem Begins.kind {k : TId} {r : Bytes} (h : Begins k r) (hc : clean r = r) : KindAt r k := by
  obtain ⟨h1, h2⟩ := h
  by_cases hk : k = .none
  · rw [if_pos hk] at h2
    subst hk
    intro tz hs
    obtain ⟨bs, hu, l, c, ha⟩ := hs
    have hu : bs = r := hu
    subst hu
    have hcur : Cur tz (skip bs l c) := ⟨skip_norm _ _ _, ha⟩
    obtain ⟨w, s0, h3, h4, h5, -⟩ := hcur.begins
    obtain ⟨-, pre, e1, e2, -⟩ := h3
    have e3 : bs = w ++ clean s0.rest := by
      rw [← hc, ← skip_shows bs l c, e1, clean_append, e2]
    have hw : w = [] := by
      cases w with
      | nil => rfl
      | cons b w =>
        have h6 := h1 b _ e3
        have h7 := h4 b (by simp)
        rw [h6] at h7; cases h7
    rw [hw, List.nil_append] at e3
    rw [← e3] at h5
    apply Classical.byContradiction
    intro hne
    have h8 := h5.2
    rw [if_neg hne] at h8
    exact h2 _ h8
  · rw [if_neg hk] at h2
    exact h2.kind hc

theorem Ended.last {ls : List Bytes} {bs : Bytes} (h : Ended ls bs) (hc : clean bs = bs) : LastEnd ls bs := by
  intro l j hl hs
  cases j with
  | null => exact wordEnd_of hc (fun b u hb => (h l b u hl hb).2 (.inl hs))
  | bool x => exact wordEnd_of hc (fun b u hb => (h l b u hl hb).2 (by cases x; exact .inr (.inr hs); exact .inr (.inl hs)))
  | num n => exact numEnd_of hc (fun b u hb => (h l b u hl hb).1 hs.2)
  | str _ => trivial
  | arr _ => trivial
  | obj _ => trivial

theorem EndAfter.byte {l : Bytes} {s : IStream} (h : EndAfter l s) (hn : Norm s) {b : Byte} {t : Bytes} (hb : clean s.rest = b :: t) :
    (SloppyNum l → numByte b = false) ∧ (l = b!"null" ∨ l = b!"true" ∨ l = b!"false" → isAlpha b = false) := by
  unfold EndAfter IStream.eof IStream.peek at h
  cases hr : s.rest with
  | nil => rw [hr] at hb; simp [clean] at hb
  | cons x u =>
    have hx : x ≠ 10 := fun hx => hn u (by rw [hr, hx])
    rw [hr, clean_cons hx] at hb
    cases hb
    rw [hr] at h
    simpa using h

theorem Passed.ended : (ls : List Bytes) → {a b : IStream} → Passed a ls b → Ended ls (clean b.rest)
  | [], a, b, h => fun l x t hl => by simp at hl
  | [l], a, b, h => by
    obtain ⟨w, s0, s1, h3, h4, h5, h6, h7⟩ := h
    have h7 : b = s1 := h7
    subst h7
    intro l' x t hl hb
    simp only [List.getLast?_singleton, Option.some.injEq] at hl
    subst hl
    exact h6.byte h5.1 hb
  | l :: l' :: ls, a, b, h => by
    obtain ⟨w, s0, s1, h3, h4, h5, h6, h7⟩ := h
    have := Passed.ended (l' :: ls) h7
    intro x y t hx
    rw [List.getLast?_cons_cons] at hx
    exact this x y t hx

theorem Passed.upto : (ls : List Bytes) → {a b : IStream} → Passed a ls b → Norm a →
    ∃ pre text, a.rest = pre ++ b.rest ∧ clean pre = text ∧ Norm b ∧ posFrom (a.line, a.col) pre = (b.line, b.col) ∧ ∀ r, Upto ls r (text ++ r)
  | [], a, b, h, hn => by
    have h : b = a := h
    subst h
    exact ⟨[], [], rfl, rfl, hn, rfl, fun r => rfl⟩
  | l :: ls, a, b, h, hn => by
    obtain ⟨w, s0, s1, ⟨h0, p1, e1, e2, e3⟩, h4, ⟨h5, p2, e4, e5, e6⟩, -, h7⟩ := h
    obtain ⟨pre, text, e7, e8, e9, e10, e11⟩ := Passed.upto ls h7 h5
    refine ⟨p1 ++ (p2 ++ pre), w ++ (l ++ text), ?_, ?_, e9, ?_, ?_⟩
    · rw [e1, e4, e7]; simp
    · rw [clean_append, clean_append, e2, e5, e8]
    · rw [posFrom_append, posFrom_append, e3, e6, e10]
    · intro r
      exact ⟨w, text ++ r, by simp, h4, e11 r⟩

end PG
