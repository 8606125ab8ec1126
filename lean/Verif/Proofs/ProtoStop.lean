import Verif.Proofs.ProtoWalk
/-
Where the parser stops, in terms of the text: at an offender, at the end of the file, or never, inside a comment or a
string that the end of the file cuts off.
-/
set_option autoImplicit false
namespace PG.Proto

/-! ### Cut off comments and strings -/

theorem afterLF_none_iff : ∀ c : Bytes, afterLF c = none ↔ 10 ∉ c
  | [] => by simp [afterLF]
  | b :: c => by
    rw [afterLF]
    by_cases h : b = 10
    · simp [h]
    · rw [if_neg h, afterLF_none_iff c]
      simp only [List.mem_cons, not_or]
      exact ⟨fun k => ⟨fun e => h e.symm, k⟩, fun k => k.2⟩

theorem astr_hangs : ∀ (c v : Bytes), Quotable c → astr v c = .hang
  | [], _, _ => rfl
  | b :: r, v, h => by
    obtain ⟨k1, k2, k3⟩ := h
    rw [List.mem_cons, not_or] at k1 k2 k3
    rw [astr, if_neg (by rintro (e | e) <;> first | exact k1.1 e.symm | exact k2.1 e.symm | exact k3.1 e.symm),
      if_neg (by intro e; first | exact k1.1 e.symm | exact k2.1 e.symm | exact k3.1 e.symm)]
    exact astr_hangs r _ ⟨k1.2, k2.2, k3.2⟩

/-- A comment or a string without an end. -/
def Open (z : Bytes) : Prop := (∃ c, z = 47 :: 47 :: c ∧ 10 ∉ c) ∨ ∃ c, z = 34 :: c ∧ Quotable c

theorem alex_open {z : Bytes} (h : Open z) : alex z = .hang := by
  rcases h with ⟨c, rfl, hc⟩ | ⟨c, rfl, hc⟩
  · rw [alex_line, (afterLF_none_iff c).mpr hc]
  · rw [alex_quote, astr_hangs c [] hc]

theorem alex_hang : ∀ (n : Nat) (bs : Bytes), bs.length ≤ n → alex bs = .hang →
    ∃ g z, LooseGap g ∧ bs = g ++ z ∧ Open z
  | n, [], _, h => by rw [alex_nil] at h; cases h
  | 0, b :: t, hl, _ => by simp at hl
  | n + 1, b :: t, hl, h => by
    simp only [List.length_cons, Nat.add_le_add_iff_right] at hl
    by_cases hw : wsB b = true
    · rw [alex_ws t hw] at h
      obtain ⟨g, z, h1, h2, h3⟩ := alex_hang n t hl h
      exact ⟨b :: g, z, .space ((wsB_iff b).mp hw) h1, by rw [h2]; rfl, h3⟩
    rw [Bool.not_eq_true] at hw
    by_cases hlt : letterB b = true
    · rw [alex_letter t hw hlt] at h
      split at h <;> cases h
    rw [Bool.not_eq_true] at hlt
    by_cases hd : digitB b = true
    · rw [alex_digit t hw hlt hd] at h
      cases h
    rw [Bool.not_eq_true] at hd
    by_cases h47 : b = 47
    · subst h47
      cases t with
      | nil => rw [alex_slash_nil] at h; cases h
      | cons x t =>
        simp only [List.length_cons] at hl
        by_cases hx : x = 47
        · subst hx
          rw [alex_line] at h
          split at h
          · rename_i ha
            exact ⟨[], 47 :: 47 :: t, .nil, rfl, Or.inl ⟨t, rfl, (afterLF_none_iff t).mp ha⟩⟩
          · rename_i q ha
            have := afterLF_length ha
            obtain ⟨d, hd1, hd2⟩ := afterLF_split ha
            obtain ⟨g, z, h1, h2, h3⟩ := alex_hang n q (by omega) h
            refine ⟨b!"//" ++ d ++ 10 :: g, z, .line hd1 h1, ?_, h3⟩
            rw [hd2, h2]
            simp
        · by_cases hx2 : x = 42
          · subst hx2
            rw [alex_block] at h
            have := afterBlock_length t
            rcases afterBlock_cases _ t (Nat.le_refl _) with ⟨d, hd1, hd2⟩ | ⟨_, hd2⟩
            · obtain ⟨g, z, h1, h2, h3⟩ := alex_hang n (afterBlock t) (by omega) h
              refine ⟨b!"/*" ++ d ++ b!"*/" ++ g, z, .block hd1 h1, ?_, h3⟩
              rw [hd2, h2]
              simp
            · rw [hd2, alex_nil] at h; cases h
          · rw [alex_slash x t hx hx2] at h
            obtain ⟨g, z, h1, h2, h3⟩ := alex_hang n t (by omega) h
            exact ⟨47 :: x :: g, z, .slash hx hx2 h1, by rw [h2]; rfl, h3⟩
    by_cases h34 : b = 34
    · subst h34
      rw [alex_quote] at h
      exact ⟨[], 34 :: t, .nil, rfl, Or.inr ⟨t, rfl, astr_hang [] t h⟩⟩
    · rw [alex_symbol t hw hlt hd h47 h34] at h
      split at h <;> cases h

/-! ### Texts and walks -/

/-- The tokens of a stream, from token number `c` of the file on. -/
def From (toks : Nat → Out Tok) (M : Nat) (s : In) (c : Nat) : Prop := ∀ i, toks (c + i) = tokFrom M s i

theorem From.here {toks : Nat → Out Tok} {M : Nat} {s : In} {c : Nat} (h : From toks M s c) :
    toks c = (lex M s).bind fun q => .ok q.1 := h 0

theorem From.next {toks : Nat → Out Tok} {M : Nat} {s s' : In} {t : Tok} {c : Nat} (h : From toks M s c)
    (hl : lex M s = .ok (t, s')) : From toks M s' (c + 1) := by
  intro i
  have := h (i + 1)
  rw [tokFrom, hl] at this
  rw [← show toks (c + (i + 1)) = tokFrom M s' i from this]
  congr 1
  omega

theorem steps_of_reads {toks : Nat → Out Tok} {M : Nat} {bs z : Bytes} {ls : List Lexeme} (h : Reads bs ls z) :
    ∀ {s : In} {c : Nat} {p q : Place} {pre : Bytes}, From toks M s c → Tracks (pre ++ bs) s → Sees s bs →
    bs.length < M → p.after ls = some q →
    ∃ s' pre', Steps toks p c q (c + ls.length) ∧ From toks M s' (c + ls.length) ∧ pre' ++ z = pre ++ bs ∧
      Tracks (pre' ++ z) s' ∧ Sees s' z ∧ z.length ≤ bs.length := by
  induction h with
  | nil =>
    intro s c p q pre hf ht hs hM ha
    injection ha with ha
    subst ha
    exact ⟨s, pre, .refl, hf, rfl, ht, hs, Nat.le_refl _⟩
  | @cons bs bs' z l ls h t ih =>
    intro s c p q pre hf ht hs hM ha
    obtain ⟨g, h1, h2, h3, h4⟩ := h
    have e : bs = g ++ ((Offender.lexeme l).text ++ bs') := by rw [h2]; simp [Offender.text]
    rw [Place.after] at ha
    split at ha
    · rename_i p' hn
      rw [e] at ht hs hM
      obtain ⟨k1, k2⟩ := lex_piece (x := .lexeme l) ht hs h1 h3 h4 hM
      obtain ⟨tk, s1, e1, e2, e3⟩ := k2 l rfl
      have hh := hf.here
      rw [k1] at hh
      rw [next_tok h3] at hn
      have hne : l.tok.1 ≠ .eof := tok_not_eof h3 (v := l.tok.2) rfl
      have e4 : pre ++ (g ++ ((Offender.lexeme l).text ++ bs')) = (pre ++ g ++ l.text) ++ bs' := by
        simp [Offender.text]
      rw [e4] at e2
      obtain ⟨s', pre', m1, m2, m3, m4, m5, m6⟩ := ih (c := c + 1) (hf.next e1) e2 e3
        (by simp only [List.length_append] at hM; omega) ha
      refine ⟨s', pre', .step hh hne hn ?_, ?_, ?_, m4, m5, ?_⟩
      · rw [show c + (l :: ls).length = c + 1 + ls.length by simp; omega]; exact m1
      · rw [show c + (l :: ls).length = c + 1 + ls.length by simp; omega]; exact m2
      · rw [m3, e]; simp [Offender.text]
      · rw [e]; simp only [List.length_append]; omega
    · cases ha

theorem reads_of_steps {toks : Nat → Out Tok} {M : Nat} {p q : Place} {c d : Nat} (h : Steps toks p c q d) :
    ∀ {s : In} {pre bs : Bytes}, From toks M s c → Tracks (pre ++ bs) s → Sees s bs → bs.length < M →
    ∃ ls z s' pre', Reads bs ls z ∧ p.after ls = some q ∧ d = c + ls.length ∧ From toks M s' d ∧
      pre' ++ z = pre ++ bs ∧ Tracks (pre' ++ z) s' ∧ Sees s' z ∧ z.length + ls.length ≤ bs.length := by
  induction h with
  | refl =>
    intro s pre bs hf ht hs hM
    exact ⟨[], bs, s, pre, .nil, rfl, rfl, hf, rfl, ht, hs, by simp⟩
  | @step p p' q c d t h he hm hsteps ih =>
    intro s pre bs hf ht hs hM
    have hh := hf.here
    have hsp := lex_spec M s bs hs
    have hpl := lexLoop_placed (text := pre ++ bs) M M s pre bs rfl ht hs
    rw [show lexLoop M M s = lex M s from rfl] at hpl
    rw [h] at hh
    cases hl : lex M s with
    | ok w =>
      obtain ⟨t', s1⟩ := w
      rw [hl] at hh hpl
      injection hh with hh
      simp only at hh
      subst hh
      cases ha : alex bs with
      | tok co v r =>
        rw [ha] at hsp
        rcases hsp with ⟨t', s', k1, k2, k3, k4⟩ | ⟨k, _⟩
        case inr => rw [hl] at k; cases k
        rw [hl] at k1
        injection k1 with k1
        injection k1 with e1 e2
        subst e1 e2
        rcases alex_seen _ bs (Nat.le_refl _) co v r ha with ⟨h, _⟩ | ⟨l, h1, g, g1, g2, g3, g4⟩
        · rw [k2] at he; exact absurd h he
        · have e : pre ++ bs = (pre ++ g ++ l.text) ++ r := by rw [g2]; simp
          have hlen : 0 < l.text.length := by
            obtain ⟨b, q, hb, _⟩ := lexeme_starts g3 []
            rw [List.append_nil] at hb
            rw [hb]; simp
          have hbl : bs.length = g.length + l.text.length + r.length := by rw [g2]; simp; omega
          obtain ⟨ls, z, s', pre', r1, r2, r3, r4, r5, r6, r7, r8⟩ := ih (hf.next hl) (by rw [← e]; exact hpl.1) k4 (by omega)
          refine ⟨l :: ls, z, s', pre', .cons ⟨g, g1, g2, g3, g4⟩ r1, ?_, ?_, r4, ?_, r6, r7, ?_⟩
          · rw [Place.after, next_tok g3, ← h1]
            simp only
            rw [← k2, ← k3, hm]
            exact r2
          · rw [r3]; simp; omega
          · rw [r5, e]
          · simp only [List.length_cons]; omega
      | exc k =>
        rw [ha] at hsp
        rcases hsp with ⟨e, k1, _⟩ | ⟨k, _⟩
        · rw [hl] at k1; cases k1
        · rw [hl] at k; cases k
      | hang =>
        rw [ha] at hsp
        have : lex M s = .fuel := hsp
        rw [hl] at this; cases this
    | exc e => rw [hl] at hh; cases hh
    | runtime => rw [hl] at hh; cases hh
    | fuel => rw [hl] at hh; cases hh

/-! ### How a walk ends -/

/-- The end of a walk. -/
inductive Stop
  | accepted
  | failed (e : Exc)
  | endless

/-- The walk ends at place `p`, before token number `c`. -/
def StopAt (toks : Nat → Out Tok) (p : Place) (c : Nat) : Stop → Prop
  | .accepted => p.atEnd = none ∧ ∃ t, toks c = .ok t ∧ t.code = .eof
  | .failed e => Fails toks p c e
  | .endless => toks c = .fuel

theorem StopAt.steps {toks : Nat → Out Tok} {p q : Place} {c d : Nat} {o : Stop} (h : StopAt toks p c o)
    (hs : Steps toks p c q d) : q = p ∧ d = c := by
  cases hs with
  | refl => exact ⟨rfl, rfl⟩
  | step h1 he hm _ =>
    exfalso
    cases o with
    | accepted =>
      obtain ⟨_, t, h2, h3⟩ := h
      rw [h1] at h2
      injection h2 with h2
      subst h2
      exact he h3
    | failed e =>
      rcases h with h | ⟨t, h2, _, _, _, h3⟩
      · rw [h1] at h; cases h
      · rw [h1] at h2
        injection h2 with h2
        subst h2
        rw [h3 he] at hm
        cases hm
    | endless =>
      have : toks c = .fuel := h
      rw [h1] at this
      cases this

theorem StopAt.unique {toks : Nat → Out Tok} {p : Place} {c : Nat} {o o' : Stop} (h : StopAt toks p c o)
    (h' : StopAt toks p c o') : o = o' := by
  have aux : ∀ {e : Exc}, Fails toks p c e → ∀ {o' : Stop}, StopAt toks p c o' → o' = .failed e := by
    intro e h o' h'
    cases o' with
    | accepted =>
      obtain ⟨ha, t, h2, h3⟩ := h'
      rcases h with h | ⟨t', k2, _, _, k3, _⟩
      · rw [h2] at h; cases h
      · rw [h2] at k2
        injection k2 with k2
        subst k2
        rw [k3 h3] at ha
        cases ha
    | failed e' =>
      rcases h with h | ⟨t, h2, h3, h4, h5, h6⟩ <;> rcases h' with h' | ⟨t', k2, k3, k4, k5, k6⟩
      · rw [h] at h'; injection h' with h'; rw [h']
      · rw [h] at k2; cases k2
      · rw [h2] at h'; cases h'
      · rw [h2] at k2
        injection k2 with k2
        subst k2
        have hk : e'.kind = e.kind := by
          by_cases he : t.code = .eof
          · have a := h5 he
            rw [k5 he] at a
            injection a
          · have a := h6 he
            rw [k6 he] at a
            injection a
        obtain ⟨a, b, c⟩ := e
        obtain ⟨a', b', c'⟩ := e'
        simp only at *
        subst h3 h4 k3 k4 hk
        rfl
    | endless =>
      have h' : toks c = .fuel := h'
      rcases h with h | ⟨t, h2, _⟩
      · rw [h] at h'; cases h'
      · rw [h2] at h'; cases h'
  cases o with
  | failed e => exact (aux h h').symm
  | accepted =>
    cases o' with
    | accepted => rfl
    | failed e => exact aux h' h
    | endless =>
      obtain ⟨_, t, h2, _⟩ := h
      have h' : toks c = .fuel := h'
      rw [h2] at h'; cases h'
  | endless =>
    have h : toks c = .fuel := h
    cases o' with
    | accepted =>
      obtain ⟨_, t, h2, _⟩ := h'
      rw [h2] at h; cases h
    | failed e => exact aux h' (o' := .endless) h
    | endless => rfl

theorem stop_unique {toks : Nat → Out Tok} {p q : Place} {c d : Nat} (hs : Steps toks p c q d) :
    ∀ {q' : Place} {d' : Nat} {o o' : Stop}, StopAt toks q d o → Steps toks p c q' d' → StopAt toks q' d' o' →
    q' = q ∧ d' = d ∧ o' = o := by
  induction hs with
  | refl =>
    intro q' d' o o' h hs' h'
    obtain ⟨rfl, rfl⟩ := h.steps hs'
    exact ⟨rfl, rfl, h'.unique h⟩
  | step h1 he hm hs ih =>
    intro q' d' o o' h hs' h'
    cases hs' with
    | refl =>
      obtain ⟨e1, e2⟩ := h'.steps (.step h1 he hm hs)
      subst e1 e2
      exact ⟨rfl, rfl, h'.unique h⟩
    | step h1' he' hm' hs'' =>
      rw [h1] at h1'
      injection h1' with h1'
      subst h1'
      rw [hm] at hm'
      injection hm' with hm'
      subst hm'
      exact ih h hs'' h'

/-! ### The end of a walk in the text -/

/-- How a text ends the walk over it. -/
def Verdict (text : Bytes) : Stop → Prop
  | .accepted => Whole text
  | .failed e => Refused text e
  | .endless => Endless text

theorem reads_det {bs z : Bytes} {ls : List Lexeme} (h : Reads bs ls z) : ∀ {z' : Bytes}, Reads bs ls z' → z' = z := by
  induction h with
  | nil => intro z' h; cases h; rfl
  | @cons s s1 s2 l ls h t ih =>
    intro z' h'
    cases h' with
    | @cons _ s1' _ _ _ k t' =>
      obtain ⟨g, h1, h2, h3, h4⟩ := h
      obtain ⟨g', k1, k2, k3, k4⟩ := k
      have e1 := alex_looseGap h1 (l.text ++ s1)
      rw [alex_lexeme h3 h4] at e1
      have e2 := alex_looseGap k1 (l.text ++ s1')
      rw [alex_lexeme k3 k4, ← List.append_assoc, ← k2, h2, List.append_assoc, e1] at e2
      injection e2 with _ _ e2
      subst e2
      exact ih t'

theorem before_reads {ls : List Lexeme} {pre tail : Bytes} (h : Before ls pre tail) :
    ∃ g, LooseGap g ∧ Reads (pre ++ tail) ls (g ++ tail) := by
  induction h with
  | gap h => exact ⟨_, h, .nil⟩
  | @lexeme l ls g rest tail hg hl he h ih =>
    obtain ⟨k, k1, k2⟩ := ih
    exact ⟨k, k1, .cons ⟨g, hg, by simp, hl, he⟩ k2⟩

theorem EndsAt.unique {text : Bytes} {ls : List Lexeme} {a b a' b' : Nat} (h : EndsAt text ls a b)
    (h' : EndsAt text ls a' b') : a = a' ∧ b = b' := by
  rcases h with ⟨h1, rfl, rfl⟩ | ⟨h1, h2, h3⟩ <;> rcases h' with ⟨k1, rfl, rfl⟩ | ⟨k1, k2, k3⟩
  · exact ⟨rfl, rfl⟩
  · exact absurd h1 k1
  · exact absurd k1 h1
  · exact ⟨by omega, by omega⟩

theorem quote_starts (r : Bytes) : Starts (34 :: r) := ⟨34, r, rfl, by decide, by decide⟩

/-- What the token after these lexical elements is. -/
theorem settle {toks : Nat → Out Tok} {M d : Nat} {s : In} {text pre z : Bytes} {ls : List Lexeme}
    (hf : From toks M s d) (ht : Tracks (pre ++ z) s) (hs : Sees s z) (hM : z.length < M) (hr : Reads text ls z)
    (he : pre ++ z = text) :
    (∃ t, toks d = .ok t ∧ t.code = .eof ∧ Fin z ∧ EndsAt text ls t.line t.col) ∨
    (∃ (g : Bytes) (x : Offender) (r : Bytes), LooseGap g ∧ z = g ++ (x.text ++ r) ∧ x.Valid ∧ x.Ends r ∧ toks d = x.at (pre ++ g)) ∨
    (∃ g w, LooseGap g ∧ z = g ++ w ∧ Open w ∧ toks d = .fuel) := by
  have hh := hf.here
  have hsp := lex_spec M s z hs
  have hpl := lexLoop_placed (text := pre ++ z) M M s pre z rfl ht hs
  rw [show lexLoop M M s = lex M s from rfl] at hpl
  have small : ¬ M ≤ z.length := by omega
  cases ha : alex z with
  | tok c v r =>
    rw [ha] at hsp
    rcases hsp with ⟨t, s', k1, k2, k3, k4⟩ | ⟨_, k⟩
    case inr => exact absurd k small
    rw [k1] at hh hpl
    have hh : toks d = .ok t := hh
    rcases alex_seen _ z (Nat.le_refl _) c v r ha with ⟨h, hfin⟩ | ⟨l, h1, g, g1, g2, g3, g4⟩
    · refine Or.inl ⟨t, hh, by rw [k2, h], hfin, ?_⟩
      obtain ⟨_, hpl⟩ := hpl
      rcases hpl with ⟨g, bs1, i1, i2, i3, i4 | ⟨i4, q, i5⟩⟩ | ⟨i1, i2, i3, i4⟩
      · rw [k2, h] at i4; exact absurd rfl i4.1
      · subst i4 i5
        refine Or.inl ⟨?_, rfl, rfl⟩
        rw [i2, alex_looseGap i1, alex_quote, h] at ha
        rcases astr_cases _ _ _ _ _ ha with ⟨_, _, j, _⟩ | ⟨u, b, j1, j2, _, j3⟩
        · cases j
        · subst j3
          rw [i2] at hr
          obtain ⟨p', p1, p2⟩ := reads_before i1 hr
          exact ⟨p' ++ g, u, b, r, by rw [p1]; simp, by simpa using p2, j1, j2⟩
      · refine Or.inr ⟨?_, by rw [← he]; exact i3, by rw [← he]; exact i4⟩
        rintro ⟨p', u, b, q, b1, b2, b3, b4⟩
        obtain ⟨g, h1, h2⟩ := before_reads b2
        rw [← b1] at h2
        have := reads_det hr h2
        exact i1 g _ h1 this.symm (quote_starts _)
    · refine Or.inr (Or.inl ⟨g, .lexeme l, r, g1, by rw [g2]; simp [Offender.text], g3, g4, ?_⟩)
      have e : z = g ++ ((Offender.lexeme l).text ++ r) := by rw [g2]; simp [Offender.text]
      rw [e] at ht hs hM
      rw [hf.here]
      exact (lex_piece (x := .lexeme l) ht hs g1 g3 g4 hM).1
  | exc k =>
    rw [ha] at hsp
    rcases hsp with ⟨e, k1, k2⟩ | ⟨_, k⟩
    case inr => exact absurd k small
    rw [k1] at hpl
    obtain ⟨g, bs1, i1, i2, i3, _⟩ := hpl
    rw [i2, alex_looseGap i1] at ha
    obtain ⟨x, r, x1, x2, x3, x4⟩ := offender_of_exc i3 ha
    rw [x1] at i2
    refine Or.inr (Or.inl ⟨g, x, r, i1, i2, x2, x3, ?_⟩)
    rw [i2] at ht hs hM
    rw [hf.here]
    exact (lex_piece ht hs i1 x2 x3 hM).1
  | hang =>
    rw [ha] at hsp
    have hsp : lex M s = .fuel := hsp
    rw [hsp] at hh
    obtain ⟨g, w, w1, w2, w3⟩ := alex_hang _ z (Nat.le_refl _) ha
    exact Or.inr (Or.inr ⟨g, w, w1, w2, w3, hh⟩)

theorem at_ok {x : Offender} {pre : Bytes} {t : Tok} (h : x.at pre = .ok t) :
    ∃ l, x = .lexeme l ∧ t = { code := l.tok.1, value := l.tok.2, line := lineAt pre, col := colAt pre } := by
  cases x with
  | lexeme l => injection h with h; exact ⟨l, rfl, h.symm⟩
  | stray b => cases h
  | ident n => cases h

theorem at_fuel {x : Offender} {pre : Bytes} : x.at pre ≠ .fuel := by cases x <;> simp [Offender.at]

/-- An offender stops the walk with the error it deserves, and with no other. -/
theorem fails_at {toks : Nat → Out Tok} {q : Place} {d : Nat} {x : Offender} {pre : Bytes} {e : Exc} (hv : x.Valid)
    (h : toks d = x.at pre) :
    Fails toks q d e ↔ q.error x = some e.kind ∧ e.line = lineAt pre ∧ e.col = colAt pre := by
  obtain ⟨k, li, co⟩ := e
  unfold Fails
  rw [h]
  cases x with
  | lexeme l =>
    have hne : l.tok.1 ≠ .eof := tok_not_eof hv (v := l.tok.2) rfl
    show (_ ∨ ∃ t, _) ↔ (match q.next l with | .ok _ => none | .error k => some k) = some k ∧ _
    rw [next_tok hv]
    constructor
    · rintro (h | ⟨t, h1, h2, h3, h4, h5⟩)
      · cases h
      · injection h1 with h1
        subst h1
        have := h5 hne
        simp only at this h2 h3 ⊢
        rw [this]
        exact ⟨rfl, h2, h3⟩
    · rintro ⟨h1, h2, h3⟩
      refine Or.inr ⟨_, rfl, h2, h3, fun h => absurd h hne, fun _ => ?_⟩
      simp only
      split at h1
      · cases h1
      · rename_i k' hk
        injection h1 with h1
        subst h1
        exact hk
  | stray b =>
    show (_ ∨ ∃ t, _) ↔ some Kind.invalidSymbol = some k ∧ _
    constructor
    · rintro (h | ⟨t, h1, _⟩)
      · injection h with h
        injection h with h1 h2 h3
        subst h1 h2 h3
        exact ⟨rfl, rfl, rfl⟩
      · cases h1
    · rintro ⟨h1, h2, h3⟩
      injection h1 with h1
      simp only at h2 h3
      subst h1 h2 h3
      exact Or.inl rfl
  | ident n =>
    show (_ ∨ ∃ t, _) ↔ some Kind.invalidIdentifier = some k ∧ _
    constructor
    · rintro (h | ⟨t, h1, _⟩)
      · injection h with h
        injection h with h1 h2 h3
        subst h1 h2 h3
        exact ⟨rfl, rfl, rfl⟩
      · cases h1
    · rintro ⟨h1, h2, h3⟩
      injection h1 with h1
      simp only at h2 h3
      subst h1 h2 h3
      exact Or.inl rfl

section
variable {M : Nat} {text : Bytes}

theorem from_open : From (tokFrom M (In.open text)) M (In.open text) 0 := fun i => by rw [Nat.zero_add]

theorem verdict_of_stop (hM : text.length < M) {q : Place} {d : Nat} {o : Stop}
    (hs : Steps (tokFrom M (In.open text)) .top 0 q d) (h : StopAt (tokFrom M (In.open text)) q d o) :
    Verdict text o ∧ d ≤ text.length := by
  obtain ⟨ls, z, s', pre, r1, r2, r3, r4, r5, r6, r7, r8⟩ :=
    reads_of_steps hs (pre := []) from_open (tracks_open text) (sees_open text) hM
  rw [List.nil_append] at r5
  refine ⟨?_, by omega⟩
  rcases settle r4 r6 r7 (by omega) r1 r5 with ⟨t, h1, h2, h3, h4⟩ | ⟨g, x, r, g1, g2, g3, g4, h1⟩ |
    ⟨g, w, w1, w2, w3, h1⟩
  · have hl := reads_layout r1 h3
    cases o with
    | accepted => exact ⟨ls, q, hl, r2, h.1⟩
    | failed e =>
      rcases h with h | ⟨t', k1, k2, k3, k4, k5⟩
      · rw [h1] at h; cases h
      · rw [h1] at k1
        injection k1 with k1
        subst k1
        exact Or.inr ⟨ls, q, hl, r2, k4 h2, by rw [k2, k3]; exact h4⟩
    | endless =>
      have h : _ = _ := h
      rw [h1] at h; cases h
  · subst g2
    obtain ⟨p', p1, p2⟩ := reads_before g1 r1
    have hp : p' = pre := List.append_cancel_right (p1.symm.trans r5.symm)
    subst hp
    have hoff : Offends text ls (p' ++ g) x r := ⟨by rw [p1]; simp, p2, g3, g4⟩
    cases o with
    | accepted =>
      obtain ⟨_, t, k1, k2⟩ := h
      rw [h1] at k1
      obtain ⟨l, rfl, rfl⟩ := at_ok k1
      exact absurd k2 (tok_not_eof g3 (v := l.tok.2) rfl)
    | failed e =>
      obtain ⟨k1, k2, k3⟩ := (fails_at g3 h1).mp h
      exact Or.inl ⟨ls, p' ++ g, x, r, q, hoff, r2, k1, k2, k3⟩
    | endless =>
      have h : _ = _ := h
      rw [h1] at h
      exact absurd h at_fuel
  · subst w2
    obtain ⟨p', p1, p2⟩ := reads_before w1 r1
    cases o with
    | accepted =>
      obtain ⟨_, t, k1, _⟩ := h
      rw [h1] at k1; cases k1
    | failed e =>
      rcases h with h | ⟨t', k1, _⟩
      · rw [h1] at h; cases h
      · rw [h1] at k1; cases k1
    | endless =>
      refine ⟨ls, q, ?_, r2⟩
      rcases w3 with ⟨c, rfl, hc⟩ | ⟨c, rfl, hc⟩
      · exact ⟨p' ++ g, c, Or.inl ⟨p2, by rw [p1]; simp, hc⟩⟩
      · exact ⟨p' ++ g, c, Or.inr ⟨p2, by rw [p1]; simp, hc⟩⟩

theorem stop_of_verdict (hM : text.length < M) {o : Stop} (h : Verdict text o) :
    ∃ q d, Steps (tokFrom M (In.open text)) .top 0 q d ∧ StopAt (tokFrom M (In.open text)) q d o := by
  have walk : ∀ {ls : List Lexeme} {z : Bytes} {q : Place}, Reads text ls z → Place.top.after ls = some q →
      ∃ s' pre', Steps (tokFrom M (In.open text)) .top 0 q (0 + ls.length) ∧
        From (tokFrom M (In.open text)) M s' (0 + ls.length) ∧ pre' ++ z = text ∧
        Tracks (pre' ++ z) s' ∧ Sees s' z ∧ z.length < M := by
    intro ls z q hr ha
    obtain ⟨s', pre', m1, m2, m3, m4, m5, m6⟩ :=
      steps_of_reads hr (pre := []) from_open (tracks_open text) (sees_open text) hM ha
    exact ⟨s', pre', m1, m2, m3, m4, m5, by omega⟩
  have atEof : ∀ {ls : List Lexeme} {q : Place}, LooseLayout ls text → Place.top.after ls = some q →
      ∃ d t, Steps (tokFrom M (In.open text)) .top 0 q d ∧ tokFrom M (In.open text) d = .ok t ∧ t.code = .eof ∧
        EndsAt text ls t.line t.col := by
    intro ls q hl ha
    obtain ⟨z, ⟨v, r, hz⟩, hp⟩ := loose_pieces hl
    have hp : Reads text ls z := hp
    obtain ⟨s', pre', m1, m2, m3, m4, m5, m6⟩ := walk hp ha
    rcases settle m2 m4 m5 m6 hp m3 with ⟨t, h1, h2, h3, h4⟩ | ⟨g, x, r', g1, g2, g3, g4, h1⟩ |
      ⟨g, w, w1, w2, w3, h1⟩
    · exact ⟨_, t, m1, h1, h2, h4⟩
    · rw [g2, alex_looseGap g1, alex_offender g3 g4] at hz
      cases x with
      | lexeme l => injection hz with hz; exact absurd hz (tok_not_eof g3 (v := l.tok.2) rfl)
      | stray b => cases hz
      | ident n => cases hz
    · rw [w2, alex_looseGap w1, alex_open w3] at hz
      cases hz
  cases o with
  | accepted =>
    obtain ⟨ls, q, hl, ha, hq⟩ := h
    obtain ⟨d, t, h1, h2, h3, _⟩ := atEof hl ha
    exact ⟨q, d, h1, hq, t, h2, h3⟩
  | failed e =>
    rcases h with ⟨ls, pre, x, r, q, ⟨hsp, hb, hv, hends⟩, ha, hk, hli, hco⟩ | ⟨ls, q, hl, ha, hk, hpos⟩
    · obtain ⟨g, g1, g2⟩ := before_reads hb
      rw [← hsp] at g2
      obtain ⟨s', pre', m1, m2, m3, m4, m5, m6⟩ := walk g2 ha
      have hpre : pre' ++ g = pre := by
        have : pre' ++ g ++ (x.text ++ r) = pre ++ (x.text ++ r) := by rw [List.append_assoc, m3, ← hsp]
        exact List.append_cancel_right this
      refine ⟨q, _, m1, (fails_at (pre := pre) hv ?_).mpr ⟨hk, hli, hco⟩⟩
      rw [m2.here, (lex_piece m4 m5 g1 hv hends m6).1, hpre]
    · obtain ⟨d, t, h1, h2, h3, h4⟩ := atEof hl ha
      obtain ⟨e1, e2⟩ := hpos.unique h4
      exact ⟨q, d, h1, Or.inr ⟨t, h2, e1, e2, fun _ => hk, fun hne => absurd h3 hne⟩⟩
  | endless =>
    obtain ⟨ls, q, ⟨pre, c, hc⟩, ha⟩ := h
    have key : ∀ {w : Bytes}, Before ls pre w → text = pre ++ w → Open w →
        ∃ q d, Steps (tokFrom M (In.open text)) .top 0 q d ∧ StopAt (tokFrom M (In.open text)) q d .endless := by
      intro w hb hsp ho
      obtain ⟨g, g1, g2⟩ := before_reads hb
      rw [← hsp] at g2
      obtain ⟨s', pre', m1, m2, m3, m4, m5, m6⟩ := walk g2 ha
      refine ⟨q, _, m1, ?_⟩
      have := lex_spec M s' _ m5
      rw [alex_looseGap g1, alex_open ho] at this
      have this : lex M s' = .fuel := this
      show _ = _
      rw [m2.here, this]
      rfl
    rcases hc with ⟨h1, h2, h3⟩ | ⟨h1, h2, h3⟩
    · exact key h1 h2 (Or.inl ⟨c, rfl, h3⟩)
    · exact key h1 h2 (Or.inr ⟨c, rfl, h3⟩)

/-- Every text has one verdict at most. -/
theorem verdict_unique {o o' : Stop} (h : Verdict text o) (h' : Verdict text o') : o = o' := by
  obtain ⟨q, d, h1, h2⟩ := stop_of_verdict (Nat.lt_succ_self _) h
  obtain ⟨q', d', k1, k2⟩ := stop_of_verdict (Nat.lt_succ_self _) h'
  exact (stop_unique k1 k2 h1 h2).2.2

/-- The parser, before it looks up the types, follows the verdict. -/
theorem proto_verdict (hM : text.length < M) :
    (∃ t, parseProto (lex M) M M Tree.empty (start (In.open text)) = .ok t ∧ Verdict text .accepted) ∨
    (∃ e, parseProto (lex M) M M Tree.empty (start (In.open text)) = .exc e ∧ Verdict text (.failed e)) ∨
    parseProto (lex M) M M Tree.empty (start (In.open text)) = .runtime ∨
    (parseProto (lex M) M M Tree.empty (start (In.open text)) = .fuel ∧ Verdict text .endless) := by
  have hw := p_proto (N := M) (delivers_lex M (In.open text)) M Tree.empty (start (In.open text)) 0 (by omega)
    ⟨rfl, fun i => by rw [Nat.zero_add]; rfl⟩
  cases h : parseProto (lex M) M M Tree.empty (start (In.open text)) with
  | ok t =>
    rw [h] at hw
    obtain ⟨q, d, h1, h2⟩ := hw
    exact Or.inl ⟨t, rfl, (verdict_of_stop hM h1 (o := .accepted) h2).1⟩
  | exc e =>
    rw [h] at hw
    obtain ⟨q, d, h1, h2⟩ := hw
    exact Or.inr (Or.inl ⟨e, rfl, (verdict_of_stop hM h1 (o := .failed e) h2).1⟩)
  | runtime => exact Or.inr (Or.inr (Or.inl rfl))
  | fuel =>
    rw [h] at hw
    obtain ⟨q, d, h1, h2 | h2⟩ := hw
    · exact Or.inr (Or.inr (Or.inr ⟨rfl, (verdict_of_stop hM h1 (o := .endless) h2).1⟩))
    · obtain ⟨ls, z, s', pre, _, _, r3, _, _, _, _, r8⟩ :=
        reads_of_steps h1 (pre := []) from_open (tracks_open text) (sees_open text) hM
      omega
end

end PG.Proto
