import Verif.Proofs.Errors
import Verif.Spec.Loose
/-
What a token says about the text it was read from, and where it stands.
-/
set_option autoImplicit false
namespace PG
open IStream

/-- The text without line feeds: `iterator_istream` never shows them (protogen.hh:184-192). -/
def clean (bs : Bytes) : Bytes := bs.filter (fun b => b ≠ 10)

theorem clean_append (a b : Bytes) : clean (a ++ b) = clean a ++ clean b := List.filter_append ..

/-- Line and column after reading `bs` from a given position. -/
def posFrom : Nat × Nat → Bytes → Nat × Nat
  | p, [] => p
  | p, b :: bs => posFrom (if b = 10 then (p.1 + 1, 1) else (p.1, p.2 + 1)) bs

theorem posFrom_append (p : Nat × Nat) (a b : Bytes) : posFrom p (a ++ b) = posFrom (posFrom p a) b := by
  induction a generalizing p with
  | nil => rfl
  | cons x a ih => simp only [List.cons_append, posFrom]; exact ih _

/-- The cursor is not on a line feed. -/
def Norm (s : IStream) : Prop := ∀ t, s.rest ≠ 10 :: t

/-- From `s` the cursor has moved to `s'` over the visible characters `t`. -/
def Adv (s s' : IStream) (t : Bytes) : Prop :=
  Norm s' ∧ ∃ pre, s.rest = pre ++ s'.rest ∧ clean pre = t ∧ posFrom (s.line, s.col) pre = (s'.line, s'.col)

theorem Adv.refl {s : IStream} (h : Norm s) : Adv s s [] := ⟨h, [], rfl, rfl, rfl⟩

theorem Adv.trans {a b c : IStream} {t u : Bytes} (h : Adv a b t) (h' : Adv b c u) : Adv a c (t ++ u) := by
  obtain ⟨_, p, h1, h2, h3⟩ := h
  obtain ⟨hn, q, h4, h5, h6⟩ := h'
  exact ⟨hn, p ++ q, by rw [h1, h4, List.append_assoc], by rw [clean_append, h2, h5], by rw [posFrom_append, h3, h6]⟩

theorem skip_adv (bs : Bytes) (l c : Nat) : Norm (skip bs l c) ∧
    ∃ pre, bs = pre ++ (skip bs l c).rest ∧ clean pre = [] ∧ posFrom (l, c) pre = ((skip bs l c).line, (skip bs l c).col) := by
  induction bs generalizing l c with
  | nil => exact ⟨fun t h => by simp [skip] at h, [], rfl, rfl, rfl⟩
  | cons b bs ih =>
    by_cases hb : b = 10
    · subst hb
      rw [skip_nl]
      obtain ⟨h1, pre, h2, h3, h4⟩ := ih (l + 1) 1
      exact ⟨h1, 10 :: pre, by rw [List.cons_append, ← h2], by simpa [clean] using h3, by simpa [posFrom] using h4⟩
    · rw [skip_cons hb]
      exact ⟨fun t h => hb (by simp at h; exact h.1), [], rfl, rfl, rfl⟩

theorem skip_norm (bs : Bytes) (l c : Nat) : Norm (skip bs l c) := (skip_adv bs l c).1

theorem next_adv {s : IStream} (hn : Norm s) (he : s.eof = false) : Adv s s.next [s.peek] := by
  unfold IStream.next IStream.peek
  cases hr : s.rest with
  | nil => simp [eof, hr] at he
  | cons b bs =>
    simp only
    have hb : b ≠ 10 := fun h => hn bs (by rw [hr, h])
    obtain ⟨h1, pre, h2, h3, h4⟩ := skip_adv bs s.line (s.col + 1)
    refine ⟨h1, b :: pre, by rw [hr, List.cons_append, ← h2], ?_, ?_⟩
    · simp only [clean] at h3 ⊢
      rw [List.filter_cons_of_pos (by simpa using hb), h3]
    · simp only [posFrom, if_neg hb]; exact h4

theorem next_norm {s : IStream} (hn : Norm s) : Norm s.next := by
  cases he : s.eof with
  | false => exact (next_adv hn he).1
  | true =>
    unfold IStream.next
    split
    · exact hn
    · exact skip_norm _ _ _

theorem next_any {s : IStream} (hn : Norm s) : ∃ t, Adv s s.next t := by
  cases he : s.eof with
  | false => exact ⟨_, next_adv hn he⟩
  | true =>
    refine ⟨[], ?_⟩
    have : s.rest = [] := by simpa [eof] using he
    have : s.next = s := by unfold IStream.next; rw [this]
    rw [this]; exact Adv.refl hn

theorem not_eof_of_peek {s : IStream} (h : s.peek ≠ 0) : s.eof = false := by
  unfold IStream.peek at h
  unfold eof
  cases hr : s.rest with
  | nil => rw [hr] at h; exact absurd rfl h
  | cons b t => rfl

theorem lexIdent_adv (s : IStream) (acc : Bytes) (hn : Norm s) : ∃ t, Adv s (lexIdent s acc).2 t ∧ (lexIdent s acc).1 = acc ++ t ∧
    (∀ b ∈ t, isAlpha b = true) ∧ ((lexIdent s acc).2.eof = true ∨ isAlpha (lexIdent s acc).2.peek = false) := by
  induction h : s.rest.length using Nat.strongRecOn generalizing s acc with
  | ind k ih =>
    unfold lexIdent
    split
    · rename_i he
      split
      · rename_i ha
        have h1 := s.next_length_lt he
        obtain ⟨t, ht, h2, h3, h4⟩ := ih s.next.rest.length (by omega) s.next (acc ++ [s.peek]) (next_norm hn) rfl
        refine ⟨s.peek :: t, (next_adv hn he).trans ht, by rw [h2]; simp, ?_, h4⟩
        intro b hb
        rcases List.mem_cons.mp hb with rfl | hb
        · exact ha
        · exact h3 b hb
      · rename_i ha
        exact ⟨[], Adv.refl hn, by simp, by simp, .inr (by simpa using ha)⟩
    · rename_i he
      exact ⟨[], Adv.refl hn, by simp, by simp, .inl (by simpa using he)⟩

theorem lexNumber_adv (s : IStream) (acc : Bytes) (hn : Norm s) : ∃ t, Adv s (lexNumber s acc).2 t ∧ (lexNumber s acc).1 = acc ++ t ∧
    (∀ b ∈ t, isNumChar b = true) ∧ ((lexNumber s acc).2.eof = true ∨ isNumChar (lexNumber s acc).2.peek = false) := by
  induction h : s.rest.length using Nat.strongRecOn generalizing s acc with
  | ind k ih =>
    unfold lexNumber
    split
    · rename_i he
      split
      · rename_i ha
        have h1 := s.next_length_lt he
        obtain ⟨t, ht, h2, h3, h4⟩ := ih s.next.rest.length (by omega) s.next (acc ++ [s.peek]) (next_norm hn) rfl
        refine ⟨s.peek :: t, (next_adv hn he).trans ht, by rw [h2]; simp, ?_, h4⟩
        intro b hb
        rcases List.mem_cons.mp hb with rfl | hb
        · exact ha
        · exact h3 b hb
      · rename_i ha
        exact ⟨[], Adv.refl hn, by simp, by simp, .inr (by simpa using ha)⟩
    · rename_i he
      exact ⟨[], Adv.refl hn, by simp, by simp, .inl (by simpa using he)⟩

theorem lexHex_adv_any : (n v : Nat) → (s : IStream) → Norm s → ∃ t, Adv s (lexHex n v s).2 t
  | 0, v, s, hn => ⟨[], Adv.refl hn⟩
  | n + 1, v, s, hn => by
    obtain ⟨t, ht⟩ := next_any hn
    unfold lexHex
    simp only
    split
    · rename_i d _
      obtain ⟨u, hu⟩ := lexHex_adv_any n (v * 16 + d) s.next (next_norm hn)
      exact ⟨_, ht.trans hu⟩
    · exact ⟨_, ht⟩

theorem hexDigit_of {b : Byte} {d : Nat} (h : hexVal b = some d) : HexDigit b d := by
  unfold hexVal at h
  split at h
  · rename_i h1
    simp only [Bool.and_eq_true, decide_eq_true_eq] at h1
    injection h with h; exact .inl ⟨h1.1, h1.2, h.symm⟩
  · split at h
    · rename_i h1
      simp only [Bool.and_eq_true, decide_eq_true_eq] at h1
      injection h with h; exact .inr (.inl ⟨h1.1, h1.2, h.symm⟩)
    · split at h
      · rename_i h1
        simp only [Bool.and_eq_true, decide_eq_true_eq] at h1
        injection h with h; exact .inr (.inr ⟨h1.1, h1.2, h.symm⟩)
      · cases h

theorem hexVal_zero : hexVal 0 = none := by decide

/-- `n` digits `t` read after the value `v` give the value `r`. -/
def HexRun : Nat → Nat → Bytes → Nat → Prop
  | 0, v, t, r => t = [] ∧ r = v
  | n + 1, v, t, r => ∃ b d t', t = b :: t' ∧ HexDigit b d ∧ HexRun n (v * 16 + d) t' r

theorem HexRun.hex4 {t : Bytes} {r : Nat} (h : HexRun 4 0 t r) : Hex4 t r := by
  obtain ⟨a, va, _, rfl, ha, b, vb, _, rfl, hb, c, vc, _, rfl, hc, d, vd, _, rfl, hd, rfl, rfl⟩ := h
  exact ⟨a, b, c, d, va, vb, vc, vd, rfl, ha, hb, hc, hd, by omega⟩

/-- `n` more digits: the characters from the old cursor on are `u` and the new cursor character. -/
theorem lexHex_adv : (n v r : Nat) → (s s' : IStream) → Norm s → s.eof = false → lexHex n v s = (some r, s') →
    s'.eof = false ∧ ∃ t u, Adv s s' u ∧ s.peek :: t = u ++ [s'.peek] ∧ HexRun n v t r
  | 0, v, r, s, s', hn, he, h => by
    simp only [lexHex, Prod.mk.injEq] at h
    rw [← h.2]
    exact ⟨he, [], [], Adv.refl hn, by simp, rfl, by have := h.1; injection this with this; exact this.symm⟩
  | n + 1, v, r, s, s', hn, he, h => by
    unfold lexHex at h
    simp only at h
    split at h
    · rename_i d hd
      have he1 : s.next.eof = false := not_eof_of_peek (fun h0 => by rw [h0, hexVal_zero] at hd; cases hd)
      obtain ⟨h1, t, u, h2, h3, h4⟩ := lexHex_adv n _ r s.next s' (next_norm hn) he1 h
      exact ⟨h1, s.next.peek :: t, s.peek :: u, (next_adv hn he).trans h2, by rw [h3]; simp,
        s.next.peek, d, t, rfl, hexDigit_of hd, h4⟩
    · simp at h

theorem simpleEscape_shape {e b : Byte} (h : simpleEscape e = some b) : (e, b) ∈ shortEscapes := by
  unfold simpleEscape at h
  unfold shortEscapes
  (repeat' split at h) <;> first | cases h | skip
  all_goals subst_vars; decide

theorem lexString_adv_any (s : IStream) (lead : Nat) (value : Bytes) (hn : Norm s) : ∃ t, Adv s (lexString s lead value).2 t := by
  induction h : s.rest.length using Nat.strongRecOn generalizing s lead value with
  | ind k ih =>
    unfold lexString
    obtain ⟨t1, ht1⟩ := next_any hn
    obtain ⟨t2, ht2⟩ := next_any (next_norm hn)
    obtain ⟨t3, ht3⟩ := lexHex_adv_any 4 0 s.next.next (next_norm (next_norm hn))
    split
    · rename_i he
      have h1 := s.next_length_lt he
      have h2 := s.next.next_length_le
      have h3 := lexHex_length_le 4 0 s.next.next
      simp only
      split
      · exact ⟨_, ht1.trans ht2⟩
      · split
        · split
          · split
            · exact ⟨_, ht1.trans (ht2.trans ht3)⟩
            · split
              · exact ⟨_, ht1.trans (ht2.trans ht3)⟩
              · obtain ⟨t, ht⟩ := ih _ (by omega) (lexHex 4 0 s.next.next).2 _ _ ht3.1 rfl
                exact ⟨_, ht1.trans (ht2.trans (ht3.trans ht))⟩
          · split
            · obtain ⟨t, ht⟩ := ih _ (by omega) s.next.next lead _ ht2.1 rfl
              exact ⟨_, ht1.trans (ht2.trans ht)⟩
            · exact ⟨_, ht1.trans ht2⟩
        · split
          · exact ⟨_, ht1⟩
          · obtain ⟨t, ht⟩ := ih _ (by omega) s.next lead _ ht1.1 rfl
            exact ⟨_, ht1.trans ht⟩
    · exact ⟨_, Adv.refl hn⟩

/-- The variable `lead` of the tokenizer. -/
def Lead : Option Nat → Nat → Prop
  | none, lead => lead = 0
  | some hi, lead => lead = hi ∧ 0xD800 ≤ hi ∧ hi ≤ 0xDBFF

/-- What one `\\u` escape does. -/
theorem putCodeUnit_inv {value value' : Bytes} {lead lead' cp : Nat} {p : Option Nat} (hp : Lead p lead) (hcp : cp < 0x10000)
    (h : putCodeUnit value lead cp = some (value', lead')) :
    (∃ (_ : 0xD800 ≤ cp) (_ : cp ≤ 0xDBFF), value' = value ∧ Lead (some cp) lead') ∨
    (∃ hi, p = some hi ∧ 0xDC00 ≤ cp ∧ cp ≤ 0xDFFF ∧
      value' = value ++ utf8 (0x10000 + (hi - 0xD800) * 0x400 + (cp - 0xDC00)) ∧ Lead none lead') ∨
    ((cp < 0xD800 ∨ 0xE000 ≤ cp) ∧ 0x80 ≤ cp ∧ value' = value ++ utf8 cp ∧ Lead none lead') := by
  by_cases h1 : 0xD800 ≤ cp ∧ cp ≤ 0xDBFF
  · rw [putCodeUnit_lead value lead h1.1 h1.2] at h
    simp only [Option.some.injEq, Prod.mk.injEq] at h
    exact Or.inl ⟨h1.1, h1.2, h.1.symm, h.2.symm, h1.1, h1.2⟩
  · by_cases h2 : 0xDC00 ≤ cp ∧ cp ≤ 0xDFFF
    · cases p with
      | none =>
        have : lead = 0 := hp
        subst this
        unfold putCodeUnit at h
        rw [if_neg (by simp; omega), if_pos (by simp; omega), if_pos rfl] at h
        cases h
      | some hi =>
        obtain ⟨rfl, h3, h4⟩ := hp
        rw [putCodeUnit_trail value h3 h4 h2.1 h2.2] at h
        simp only [Option.some.injEq, Prod.mk.injEq] at h
        exact Or.inr (Or.inl ⟨lead, rfl, h2.1, h2.2, h.1.symm, h.2.symm⟩)
    · by_cases h3 : 0x80 ≤ cp
      · rw [putCodeUnit_single value lead h3 hcp (by omega)] at h
        simp only [Option.some.injEq, Prod.mk.injEq] at h
        exact Or.inr (Or.inr ⟨by omega, h3, h.1.symm, h.2.symm⟩)
      · unfold putCodeUnit at h
        rw [if_neg (by simp; omega), if_neg (by simp; omega), if_neg (by simp; omega), if_neg (by simp; omega)] at h
        cases h

theorem peek_not_lf {s : IStream} (hn : Norm s) : s.peek ≠ 10 := by
  unfold IStream.peek
  cases hr : s.rest with
  | nil => decide
  | cons b bs => exact fun hb => hn bs (by rw [hr]; simp only at hb; rw [hb])

theorem lexString_adv (s : IStream) (lead : Nat) (p : Option Nat) (value v : Bytes) (s' : IStream) (hn : Norm s)
    (hp : Lead p lead) (h : lexString s lead value = (some v, s')) :
    ∃ body c, StrMeans p body c ∧ v = value ++ c ∧ Adv s s' (s.peek :: (body ++ [c!"\""])) := by
  induction hk : s.rest.length using Nat.strongRecOn generalizing s lead value p with
  | ind k ih =>
    unfold lexString at h
    split at h
    · rename_i he
      have h1 := s.next_length_lt he
      have h2 := s.next.next_length_le
      have h3 := lexHex_length_le 4 0 s.next.next
      have a1 := next_adv hn he
      simp only at h
      split at h
      · rename_i hq
        simp only [Prod.mk.injEq] at h
        rw [← h.2]
        have he1 : s.next.eof = false := not_eof_of_peek (by rw [hq]; decide)
        refine ⟨[], [], .nil, by have := h.1; injection this with this; rw [← this]; simp, ?_⟩
        have := a1.trans (next_adv a1.1 he1)
        rw [hq] at this
        exact this
      · split at h
        · rename_i hnq hb
          have he1 : s.next.eof = false := not_eof_of_peek (by rw [hb]; decide)
          have a2 := next_adv a1.1 he1
          rw [hb] at a2
          split at h
          · rename_i hu
            have he2 : s.next.next.eof = false := not_eof_of_peek (by rw [hu]; decide)
            split at h
            · simp at h
            · rename_i cp hcp
              split at h
              · simp at h
              · rename_i value' lead' hv
                obtain ⟨he3, t, u, a3, e3, hh⟩ := lexHex_adv 4 0 cp s.next.next (lexHex 4 0 s.next.next).2 a2.1 he2
                  (Prod.ext hcp rfl)
                have hx4 := hh.hex4
                have text : ∀ body, Adv (lexHex 4 0 s.next.next).2 s' ((lexHex 4 0 s.next.next).2.peek :: (body ++ [c!"\""])) →
                    Adv s s' (s.peek :: ((c!"\\" :: c!"u" :: (t ++ body)) ++ [c!"\""])) := by
                  intro body a4
                  have := a1.trans (a2.trans (a3.trans a4))
                  rw [show u ++ (lexHex 4 0 s.next.next).2.peek :: (body ++ [c!"\""]) =
                    (u ++ [(lexHex 4 0 s.next.next).2.peek]) ++ (body ++ [c!"\""]) by simp, ← e3, hu] at this
                  simpa using this
                rcases putCodeUnit_inv hp hx4.lt hv with ⟨k1, k2, k3, k4⟩ | ⟨hi, k0, k1, k2, k3, k4⟩ | ⟨k1, k2, k3, k4⟩
                · obtain ⟨body, c, hs, hv', a4⟩ := ih _ (by omega) (lexHex 4 0 s.next.next).2 lead' _ value' a3.1 k4 h rfl
                  exact ⟨_, c, .high hx4 k1 k2 hs, by rw [hv', k3], text body a4⟩
                · obtain ⟨body, c, hs, hv', a4⟩ := ih _ (by omega) (lexHex 4 0 s.next.next).2 lead' _ value' a3.1 k4 h rfl
                  subst k0
                  exact ⟨_, _, .low hx4 k1 k2 hs, by rw [hv', k3]; simp, text body a4⟩
                · obtain ⟨body, c, hs, hv', a4⟩ := ih _ (by omega) (lexHex 4 0 s.next.next).2 lead' _ value' a3.1 k4 h rfl
                  exact ⟨_, _, .uni hx4 k1 k2 hs, by rw [hv', k3]; simp, text body a4⟩
          · split at h
            · rename_i e hesc
              obtain ⟨body, c, hs, hv, a4⟩ := ih _ (by omega) s.next.next lead p _ a2.1 hp h rfl
              refine ⟨c!"\\" :: s.next.next.peek :: body, _, .esc (simpleEscape_shape hesc) hs, by rw [hv]; simp, ?_⟩
              have := a1.trans (a2.trans a4)
              simpa using this
            · simp at h
        · rename_i hnq hnb
          split at h
          · simp at h
          · rename_i h0
            obtain ⟨body, c, hs, hv, a4⟩ := ih _ (by omega) s.next lead p _ a1.1 hp h rfl
            refine ⟨s.next.peek :: body, _, .raw ⟨h0, peek_not_lf a1.1, hnq, hnb⟩ hs, by rw [hv]; simp, ?_⟩
            have := a1.trans a4
            simpa using this
    · simp at h

/-- The text of a token; `s'` is the stream behind it. -/
def TokText (id : TId) (value txt : Bytes) (s' : IStream) : Prop :=
  match id with
  | .objs => txt = b!"{"
  | .obje => txt = b!"}"
  | .arrs => txt = b!"["
  | .arre => txt = b!"]"
  | .colon => txt = b!":"
  | .comma => txt = b!","
  | .string => ∃ body, txt = c!"\"" :: (body ++ [c!"\""]) ∧ StrMeans none body value
  | .number => txt = value ∧ SloppyNum txt ∧ (s'.eof = true ∨ numByte s'.peek = false)
  | .nil => txt = b!"null" ∧ (s'.eof = true ∨ isAlpha s'.peek = false)
  | .btrue => txt = b!"true" ∧ (s'.eof = true ∨ isAlpha s'.peek = false)
  | .bfalse => txt = b!"false" ∧ (s'.eof = true ∨ isAlpha s'.peek = false)
  | .eos => txt = [] ∧ s'.eof = true
  | .none => True

/-- Everything a token says: white space, then the token's text, starting at the token's position (STRING tokens carry
0, 0 instead). -/
def TokOk (s : IStream) (r : Token × IStream) : Prop := ∃ w txt s0, Adv s s0 w ∧ Ws w ∧ Adv s0 r.2 txt ∧
    TokText r.1.id r.1.value txt r.2 ∧
    (if r.1.id = .string then r.1.line = 0 ∧ r.1.col = 0 else r.1.line = s0.line ∧ r.1.col = s0.col) ∧
    (s0.eof = true ∨ wsByte s0.peek = false)

theorem lex_inv (s : IStream) (hn : Norm s) : TokOk s (lex s) := by
  induction h : s.rest.length using Nat.strongRecOn generalizing s with
  | ind k ih =>
    unfold lex
    split
    · rename_i he
      have h1 := s.next_length_lt he
      have a1 := next_adv hn he
      simp only
      split
      · rename_i hw
        obtain ⟨w, txt, s0, h2, h3, h4⟩ := ih s.next.rest.length (by omega) s.next a1.1 rfl
        refine ⟨s.peek :: w, txt, s0, a1.trans h2, ?_, h4⟩
        intro b hb
        rcases List.mem_cons.mp hb with rfl | hb
        · simp only [Bool.or_eq_true, decide_eq_true_eq] at hw
          rcases hw with ((hw | hw) | hw) | hw <;> rw [hw] <;> decide
        · exact h3 b hb
      · rename_i hw
        have hws : wsByte s.peek = false := by
          simp only [Bool.or_eq_true, decide_eq_true_eq, not_or] at hw
          simp [wsByte, hw]
        have one : ∀ (c : Byte) (id : TId), s.peek = c → id ≠ .string → (∀ v, TokText id v [c] s.next) →
            TokOk s ({ id := id, line := s.line, col := s.col }, s.next) := by
          intro c id hc hid ht
          rw [hc] at a1
          exact ⟨[], [c], s, Adv.refl hn, by simp [Ws], a1, ht _, by simp [hid], .inr hws⟩
        split
        · rename_i hc; exact one _ .objs hc (by decide) (fun _ => rfl)
        · split
          · rename_i hc; exact one _ .obje hc (by decide) (fun _ => rfl)
          · split
            · rename_i hc; exact one _ .arrs hc (by decide) (fun _ => rfl)
            · split
              · rename_i hc; exact one _ .arre hc (by decide) (fun _ => rfl)
              · split
                · rename_i hc; exact one _ .colon hc (by decide) (fun _ => rfl)
                · split
                  · rename_i hc; exact one _ .comma hc (by decide) (fun _ => rfl)
                  · split
                    · rename_i hq
                      unfold parseString
                      cases hl : lexString s 0 [] with
                      | mk o s' =>
                        cases o with
                        | none =>
                          obtain ⟨t, ht⟩ := lexString_adv_any s 0 [] hn
                          rw [hl] at ht
                          exact ⟨[], t, s, Adv.refl hn, by simp [Ws], ht, trivial, by simp, .inr hws⟩
                        | some v =>
                          obtain ⟨body, c, hb, hv, ha⟩ := lexString_adv s 0 none [] v s' hn rfl hl
                          rw [hq] at ha
                          rw [List.nil_append] at hv
                          subst hv
                          exact ⟨[], _, s, Adv.refl hn, by simp [Ws], ha, ⟨body, rfl, hb⟩, by simp, .inr hws⟩
                    · split
                      · rename_i hd
                        obtain ⟨t, ht, h2, h3, h4⟩ := lexNumber_adv s [] hn
                        have hf := lexNumber_first he (by
                          unfold isNumChar
                          simp only [Bool.or_eq_true, decide_eq_true_eq, beq_iff_eq] at hd ⊢
                          rcases hd with hc | hc
                          · right; exact hc
                          · simp [hc])
                        rw [List.nil_append] at h2
                        refine ⟨[], t, s, Adv.refl hn, by simp [Ws], ht, ⟨h2.symm, ⟨?_, ?_⟩, ?_⟩, by simp, .inr hws⟩
                        · cases t with
                          | nil =>
                            exfalso
                            obtain ⟨-, pre, e1, e2, -⟩ := ht
                            cases pre with
                            | nil => rw [List.nil_append] at e1; rw [← e1] at hf; omega
                            | cons x pre =>
                              have hx : x ≠ 10 := fun hx => hn (pre ++ (lexNumber s []).2.rest) (by rw [e1, hx]; rfl)
                              rw [clean, List.filter_cons_of_pos (by simpa using hx)] at e2
                              cases e2
                          | cons b t =>
                            refine ⟨b, t, rfl, ?_⟩
                            have hb : b = s.peek := by
                              obtain ⟨-, pre, e1, e2, -⟩ := ht
                              cases pre with
                              | nil => simp [clean] at e2
                              | cons x pre =>
                                have hx : x ≠ 10 := fun hx => hn (pre ++ (lexNumber s []).2.rest) (by rw [e1, hx]; rfl)
                                rw [clean, List.filter_cons_of_pos (by simpa using hx)] at e2
                                injection e2 with e2 _
                                rw [← e2]
                                unfold IStream.peek
                                rw [e1]; rfl
                            simp only [Bool.or_eq_true, decide_eq_true_eq, isDigit, Bool.and_eq_true] at hd
                            rw [hb]
                            exact hd
                        · intro b hb; rw [numByte_eq]; exact h3 b hb
                        · rw [numByte_eq]; exact h4
                      · obtain ⟨t, ht, h2, h3, h4⟩ := lexIdent_adv s [] hn
                        rw [List.nil_append] at h2
                        rw [h2]
                        have hid : ∃ id, identToken t s.line s.col = { id := id, line := s.line, col := s.col } ∧ id ≠ .string ∧
                            ∀ v, TokText id v t (lexIdent s []).2 := by
                          unfold identToken
                          split
                          · rename_i ht; exact ⟨.btrue, rfl, by decide, fun _ => ⟨ht, h4⟩⟩
                          · split
                            · rename_i ht; exact ⟨.bfalse, rfl, by decide, fun _ => ⟨ht, h4⟩⟩
                            · split
                              · rename_i ht; exact ⟨.nil, rfl, by decide, fun _ => ⟨ht, h4⟩⟩
                              · exact ⟨.none, rfl, by decide, fun _ => trivial⟩
                        obtain ⟨id, hid, hs, htt⟩ := hid
                        rw [hid]
                        exact ⟨[], t, s, Adv.refl hn, by simp [Ws], ht, htt _, by simp [hs], .inr hws⟩
    · rename_i he
      have he : s.eof = true := by simpa using he
      exact ⟨[], [], s, Adv.refl hn, by simp [Ws], Adv.refl hn, ⟨rfl, he⟩, by simp, .inl he⟩

end PG
