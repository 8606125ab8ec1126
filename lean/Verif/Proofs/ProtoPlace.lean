import Verif.Proofs.ProtoPos
import Verif.Proofs.ProtoLay
import Verif.Proofs.ProtoCut
import Verif.Proofs.ProtoMono
/-
The tokens of a text with their positions, and how far they are determined by a part of the text.
-/
set_option autoImplicit false
namespace PG.Proto

/-! ### Offenders -/

/-- What the tokenizer does with it. -/
def Offender.outcome : Offender → Bytes → ALex
  | .lexeme l, r => .tok l.tok.1 l.tok.2 r
  | .stray _, _ => .exc .invalidSymbol
  | .ident _, _ => .exc .invalidIdentifier

theorem aqname_dot {r : Bytes} (hr : ∀ b q, r = b :: q → ¬ Letter b) {n : Bytes} (h : DotName n) :
    ∀ (k : Nat) (type : Code) (name : Bytes),
    aqname k type (name ++ word (n ++ 46 :: r)) (afterWord (n ++ 46 :: r)) = none := by
  have hw : word r = [] := by
    cases r with
    | nil => rfl
    | cons b q =>
      have : letterB b ≠ true := fun e => hr b q rfl ((letterB_iff b).mp e)
      simp [word, this]
  have h46 : NoWord (46 :: r) := (show wordB 46 = false by decide)
  induction h with
  | one h =>
    intro k type name
    obtain ⟨h1, h2⟩ := word_ident h h46
    rw [h1, h2]
    cases k with
    | zero => rfl
    | succ k => simp [aqname, hw]
  | more h t ih =>
    rename_i p n
    intro k type name
    have e : p ++ 46 :: n ++ 46 :: r = p ++ 46 :: (n ++ 46 :: r) := by simp
    rw [e]
    obtain ⟨h1, h2⟩ := word_ident h (rest := 46 :: (n ++ 46 :: r)) (show wordB 46 = false by decide)
    obtain ⟨g1, g2⟩ := dotname_word t h46
    rw [h1, h2]
    cases k with
    | zero => rfl
    | succ k =>
      simp only [aqname, if_true, g1, if_false]
      have := ih k .qname (name ++ p ++ [46])
      simp only [List.append_assoc, List.singleton_append] at this ⊢
      exact this

theorem dotname_head {n : Bytes} (h : DotName n) : ∃ b t, n = b :: t ∧ letterB b = true := by
  cases h with
  | one h => obtain ⟨b, r, rfl, hb, _⟩ := h; exact ⟨b, r, rfl, (letterB_iff b).mpr hb⟩
  | more h t => obtain ⟨b, r, rfl, hb, _⟩ := h; exact ⟨b, _, rfl, (letterB_iff b).mpr hb⟩

theorem letter_not_slash {b : Byte} (h : letterB b = true) : b ≠ 47 := by
  intro e; subst e; revert h; decide

theorem dot_table : wsB 46 = false ∧ letterB 46 = false ∧ digitB 46 = false ∧ symbol ((46 : Byte).toNat : Int) = none := by
  decide

theorem alex_offender {x : Offender} {r : Bytes} (hv : x.Valid) (he : x.Ends r) :
    alex (x.text ++ r) = x.outcome r := by
  cases x with
  | lexeme l => exact alex_lexeme hv he
  | stray b =>
    rcases hv with h | rfl
    · exact alex_stray h r
    · show alex (46 :: r) = .exc .invalidSymbol
      obtain ⟨h1, h2, h3, h4⟩ := dot_table
      rw [alex_symbol r h1 h2 h3 (by decide) (by decide), h4]
  | ident n =>
    show alex (n ++ [46] ++ r) = .exc .invalidIdentifier
    rw [List.append_assoc, List.singleton_append]
    have ha := aqname_dot he hv
    obtain ⟨b, t, rfl, hb⟩ := dotname_head hv
    have hq := ha ((t ++ 46 :: r).length + 2) .name []
    rw [List.nil_append] at hq
    rw [List.cons_append, alex_letter _ (letter_not_ws hb) hb, ← List.cons_append, hq]

theorem lexeme_starts {l : Lexeme} (h : l.Valid) (r : Bytes) : Starts (l.text ++ r) := by
  cases l with
  | word n =>
    obtain ⟨b, t, rfl, hb⟩ := dotname_head h
    exact ⟨b, t ++ r, rfl, letter_not_ws hb, letter_not_slash hb⟩
  | int d =>
    obtain ⟨hne, hall⟩ := h
    cases d with
    | nil => exact absurd rfl hne
    | cons b t =>
      have hb := (digitB_iff b).mpr (hall b List.mem_cons_self)
      refine ⟨b, t ++ r, rfl, digit_not_ws hb, ?_⟩
      intro e; subst e; revert hb; decide
  | str s => exact ⟨34, s ++ [34] ++ r, by simp [Lexeme.text], by decide, by decide⟩
  | sym b =>
    obtain ⟨c, h1, h2, h3, h4, h5, h6, _⟩ := symbol_cases h
    exact ⟨b, r, rfl, h2, h5⟩

theorem offender_starts {x : Offender} (h : x.Valid) (r : Bytes) : Starts (x.text ++ r) := by
  cases x with
  | lexeme l => exact lexeme_starts h r
  | stray b =>
    rcases h with h | rfl
    · obtain ⟨h1, h2, h3, h4⟩ := stray_table b h
      refine ⟨b, r, rfl, h1, ?_⟩
      intro e; subst e; revert h; decide
    · exact ⟨46, r, rfl, by decide, by decide⟩
  | ident n =>
    obtain ⟨b, t, rfl, hb⟩ := dotname_head h
    exact ⟨b, t ++ [46] ++ r, rfl, letter_not_ws hb, letter_not_slash hb⟩

theorem aqname_none : ∀ (k : Nat) (type : Code) (name bs : Bytes), bs.length < k → DotName name →
    aqname k type name bs = none → ∃ n r, name ++ bs = n ++ 46 :: r ∧ DotName n ∧ ∀ b q, r = b :: q → ¬ Letter b
  | 0, _, _, bs, hk, _, _ => absurd hk (Nat.not_lt_zero _)
  | k + 1, type, name, [], _, _, h => by simp [aqname] at h
  | k + 1, type, name, b :: t, hk, hn, h => by
    simp only [List.length_cons, Nat.add_lt_add_iff_right] at hk
    simp only [aqname] at h
    split at h
    · rename_i e
      subst e
      split at h
      · rename_i hw
        refine ⟨name, t, rfl, hn, ?_⟩
        intro c q e hl
        subst e
        simp [word, (letterB_iff c).mpr hl] at hw
        simp [wordB, (letterB_iff c).mpr hl] at hw
      · rename_i hw
        have hl := afterWord_length t
        obtain ⟨n, r, h1, h2, h3⟩ := aqname_none k .qname (name ++ 46 :: word t) (afterWord t) (by omega)
          (dotname_snoc hn (word_isIdent hw)) h
        refine ⟨n, r, ?_, h2, h3⟩
        rw [← h1]
        simp [word_append]
    · cases h

theorem symbol_none_table : ∀ n : _root_.Fin 256, wsB (UInt8.ofNat n.val) = false → letterB (UInt8.ofNat n.val) = false →
    digitB (UInt8.ofNat n.val) = false → UInt8.ofNat n.val ≠ 47 → UInt8.ofNat n.val ≠ 34 →
    symbol ((UInt8.ofNat n.val).toNat : Int) = none →
    Stray (UInt8.ofNat n.val) ∨ UInt8.ofNat n.val = 46 := by decide +kernel

theorem astr_not_exc : ∀ (bs v : Bytes) (k : Kind), astr v bs ≠ .exc k
  | [], _, _ => by simp [astr]
  | b :: t, v, k => by
    rw [astr]
    split
    · simp
    · split
      · simp
      · exact astr_not_exc t _ k

theorem offender_of_exc {bs : Bytes} (hs : Starts bs) {k : Kind} (h : alex bs = .exc k) :
    ∃ (x : Offender) (r : Bytes), bs = x.text ++ r ∧ x.Valid ∧ x.Ends r ∧ x.outcome r = .exc k := by
  obtain ⟨b, r, rfl, hw, h47⟩ := hs
  by_cases hl : letterB b = true
  · rw [alex_letter r hw hl] at h
    split at h
    · cases h
    · rename_i hn
      injection h with h
      subst h
      have hne : word (b :: r) ≠ [] := by simp [word, hl, wordB]
      have hlen := afterWord_length (b :: r)
      simp only [List.length_cons] at hlen
      obtain ⟨n, q, h1, h2, h3⟩ := aqname_none _ .name _ _ (by omega) (.one (word_isIdent hne)) hn
      rw [word_append] at h1
      exact ⟨.ident n, q, by rw [h1]; simp [Offender.text], h2, h3, rfl⟩
  · have hl : letterB b = false := by simpa using hl
    by_cases hd : digitB b = true
    · rw [alex_digit r hw hl hd] at h; cases h
    · have hd : digitB b = false := by simpa using hd
      by_cases h34 : b = 34
      · subst h34
        rw [alex_quote] at h
        exact absurd h (astr_not_exc _ _ _)
      · rw [alex_symbol r hw hl hd h47 h34] at h
        split at h
        · cases h
        · rename_i hn
          injection h with h
          subst h
          have := symbol_none_table ⟨b.toNat, b.toNat_lt⟩
          simp only [UInt8.ofNat_toNat] at this
          exact ⟨.stray b, r, rfl, this hw hl hd h47 h34 hn, trivial, rfl⟩

/-! ### The token at a place -/

/-- The outcome of the tokenizer at an offender that follows `pre`. -/
def Offender.at (x : Offender) (pre : Bytes) : Out Tok :=
  match x with
  | .lexeme l => .ok { code := l.tok.1, value := l.tok.2, line := lineAt pre, col := colAt pre }
  | .stray _ => .exc ⟨.invalidSymbol, lineAt pre, colAt pre⟩
  | .ident _ => .exc ⟨.invalidIdentifier, lineAt pre, colAt pre⟩

theorem lex_piece {M : Nat} {s : In} {p g r : Bytes} {x : Offender} (ht : Tracks (p ++ (g ++ (x.text ++ r))) s)
    (hs : Sees s (g ++ (x.text ++ r))) (hg : LooseGap g) (hv : x.Valid) (he : x.Ends r)
    (hM : (g ++ (x.text ++ r)).length < M) :
    (lex M s).bind (fun q => .ok q.1) = x.at (p ++ g) ∧
    ∀ l, x = .lexeme l → ∃ t s', lex M s = .ok (t, s') ∧ Tracks (p ++ (g ++ (x.text ++ r))) s' ∧ Sees s' r := by
  have h1 := lex_spec M s _ hs
  rw [alex_looseGap hg, alex_offender hv he] at h1
  have h2 := lexLoop_placed (text := p ++ (g ++ (x.text ++ r))) M M s p _ rfl ht hs
  rw [show lexLoop M M s = lex M s from rfl] at h2
  have small : ¬ M ≤ (g ++ (x.text ++ r)).length := by omega
  have uniq : ∀ g' bs1, LooseGap g' → g ++ (x.text ++ r) = g' ++ bs1 → Starts bs1 → g' = g := by
    intro g' bs1 k1 k2 k3
    exact gap_unique k1 hg k3 (offender_starts hv r) k2.symm
  cases x with
  | lexeme l =>
    rcases h1 with ⟨t, s', k1, k2, k3, k4⟩ | ⟨_, k⟩
    case inr => exact absurd k small
    rw [k1] at h2 ⊢
    obtain ⟨j1, j2⟩ := h2
    have hne : t.code ≠ .eof := by
      rw [k2]; exact tok_not_eof hv (v := l.tok.2) rfl
    refine ⟨?_, fun l' _ => ⟨t, s', rfl, j1, k4⟩⟩
    rcases j2 with ⟨g', bs1, i1, i2, i3, i4⟩ | ⟨_, i1, _⟩
    case inr => exact absurd i1 hne
    have e := uniq g' bs1 i1 i2 i3
    subst e
    rcases i4 with ⟨_, i5, i6⟩ | ⟨i5, _⟩
    case inr => rw [i5] at hne; exact absurd rfl hne
    obtain ⟨c, v, li, co⟩ := t
    simp only at k2 k3 i5 i6
    subst k2 k3 i5 i6
    rfl
  | stray b =>
    rcases h1 with ⟨e, k1, k2⟩ | ⟨_, k⟩
    case inr => exact absurd k small
    rw [k1] at h2 ⊢
    obtain ⟨g', bs1, i1, i2, i3, i4, i5⟩ := h2
    have e' := uniq g' bs1 i1 i2 i3
    subst e'
    refine ⟨?_, fun l' h => by cases h⟩
    obtain ⟨k, li, co⟩ := e
    simp only at k2 i4 i5
    subst k2 i4 i5
    rfl
  | ident n =>
    rcases h1 with ⟨e, k1, k2⟩ | ⟨_, k⟩
    case inr => exact absurd k small
    rw [k1] at h2 ⊢
    obtain ⟨g', bs1, i1, i2, i3, i4, i5⟩ := h2
    have e' := uniq g' bs1 i1 i2 i3
    subst e'
    refine ⟨?_, fun l' h => by cases h⟩
    obtain ⟨k, li, co⟩ := e
    simp only at k2 i4 i5
    subst k2 i4 i5
    rfl

/-- The tokens from a state of the stream on. -/
def tokFrom (N : Nat) : In → Nat → Out Tok
  | s, 0 => (lex N s).bind fun q => .ok q.1
  | s, i + 1 => match lex N s with
    | .ok q => tokFrom N q.2 i
    | _ => .fuel

theorem delivers_lex (N : Nat) (s0 : In) :
    Delivers (fun s c => ∀ i, tokFrom N s0 (c + i) = tokFrom N s i) (lex N) (tokFrom N s0) := by
  intro s c h
  have h0 := h 0
  rw [Nat.add_zero, tokFrom] at h0
  cases hl : lex N s with
  | ok q =>
    obtain ⟨t, s'⟩ := q
    rw [hl] at h0
    refine ⟨h0, fun i => ?_⟩
    have := h (i + 1)
    rw [tokFrom, hl] at this
    rw [← show tokFrom N s0 (c + (i + 1)) = tokFrom N s' i from this]
    congr 1
    omega
  | exc e => rw [hl] at h0; exact h0
  | runtime => trivial
  | fuel => rw [hl] at h0; exact h0

/-- What follows does not matter for what comes before, as long as something follows. -/
theorem Before.retail {ls : List Lexeme} {pre : Bytes} {b : Byte} {t t' : Bytes} (h : Before ls pre (b :: t)) :
    Before ls pre (b :: t') := by
  generalize ht : b :: t = tail at h
  induction h with
  | gap h => exact .gap h
  | @lexeme l ls g rest tail hg hl he h ih =>
    subst ht
    refine .lexeme hg hl ?_ (ih rfl)
    cases rest with
    | nil => cases l <;> exact he
    | cons c rest => cases l <;> exact he

/-- The tokens up to and including an offender are determined by the text up to its end. -/
theorem tokFrom_agree {M M' : Nat} {x : Offender} (hv : x.Valid) {r r' : Bytes} (he : x.Ends r) (he' : x.Ends r') :
    ∀ {ls : List Lexeme} {pre : Bytes}, Before ls pre (x.text ++ r) →
    ∀ (p : Bytes) (s s' : In), Tracks (p ++ (pre ++ (x.text ++ r))) s → Sees s (pre ++ (x.text ++ r)) →
    Tracks (p ++ (pre ++ (x.text ++ r'))) s' → Sees s' (pre ++ (x.text ++ r')) →
    (pre ++ (x.text ++ r)).length < M → (pre ++ (x.text ++ r')).length < M' →
    (∀ i, i ≤ ls.length → tokFrom M s i = tokFrom M' s' i) := by
  intro ls
  induction ls with
  | nil =>
    intro pre hb p s s' t1 s1 t2 s2 m1 m2 i hi
    cases hb with
    | gap hg =>
      obtain rfl : i = 0 := by simpa using hi
      rw [tokFrom, tokFrom, (lex_piece t1 s1 hg hv he m1).1, (lex_piece t2 s2 hg hv he' m2).1]
  | cons l ls ih =>
    intro pre hb p s s' t1 s1 t2 s2 m1 m2 i hi
    have hx : ∃ b t, x.text = b :: t := by
      obtain ⟨b, q, h, _⟩ := offender_starts hv []
      rw [List.append_nil] at h
      exact ⟨b, q, h⟩
    obtain ⟨b, t, hx⟩ := hx
    cases hb with
    | lexeme hg hl hel hrest =>
      rename_i g rest
      have hel' : l.Ends (rest ++ (x.text ++ r')) := by
        cases rest with
        | nil => rw [hx] at hel ⊢; cases l <;> exact hel
        | cons c rest => cases l <;> exact hel
      have a1 : ∀ q : Bytes, g ++ l.text ++ rest ++ q = g ++ (l.text ++ (rest ++ q)) := by intro q; simp
      rw [a1] at t1 s1 t2 s2 m1 m2
      obtain ⟨k1, k2⟩ := lex_piece (x := .lexeme l) t1 s1 hg hl hel m1
      obtain ⟨j1, j2⟩ := lex_piece (x := .lexeme l) t2 s2 hg hl hel' m2
      obtain ⟨t, q, e1, e2, e3⟩ := k2 l rfl
      obtain ⟨t', q', f1, f2, f3⟩ := j2 l rfl
      cases i with
      | zero => rw [tokFrom, tokFrom, k1, j1]
      | succ i =>
        rw [tokFrom, tokFrom, e1, f1]
        simp only
        have a2 : ∀ q : Bytes, p ++ (g ++ (l.text ++ (rest ++ q))) = (p ++ (g ++ l.text)) ++ (rest ++ q) := by
          intro q; simp
        rw [show (Offender.lexeme l).text = l.text from rfl, a2] at e2 f2
        refine ih hrest _ q q' e2 e3 f2 f3 ?_ ?_ i (by simpa using hi)
        · simp only [List.length_append] at m1 ⊢; omega
        · simp only [List.length_append] at m2 ⊢; omega

/-- The tokens before one that is not preceded by the end of the file. -/
theorem tokFrom_read (N : Nat) : ∀ (i : Nat) (s : In) (p bs : Bytes), Tracks (p ++ bs) s → Sees s bs →
    NoEnd (tokFrom N s) i → tokFrom N s i ≠ .fuel →
    ∃ ls p' bs' s', ls.length = i ∧ p ++ bs = p' ++ bs' ∧ Reads bs ls bs' ∧ Tracks (p ++ bs) s' ∧ Sees s' bs' ∧
      tokFrom N s i = (lex N s').bind fun q => .ok q.1
  | 0, s, p, bs, ht, hs, _, _ => ⟨[], p, bs, s, rfl, rfl, .nil, ht, hs, rfl⟩
  | i + 1, s, p, bs, ht, hs, hn, hf => by
    cases hl : lex N s with
    | ok q =>
      obtain ⟨t, s1⟩ := q
      have h0 : t.code ≠ .eof := hn 0 (by omega) t (by rw [tokFrom, hl]; rfl)
      have hsp := lex_spec N s bs hs
      have hpl := lexLoop_placed (text := p ++ bs) N N s p bs rfl ht hs
      rw [show lexLoop N N s = lex N s from rfl, hl] at hpl
      cases ha : alex bs with
      | tok c v r =>
        rw [ha] at hsp
        rcases hsp with ⟨t', s', k1, k2, k3, k4⟩ | ⟨k, _⟩
        case inr => rw [hl] at k; cases k
        rw [hl] at k1
        injection k1 with k1
        injection k1 with e1 e2
        subst e1 e2
        rcases alex_seen _ bs (Nat.le_refl _) c v r ha with ⟨h, _⟩ | ⟨l, h1, hstep⟩
        · rw [k2] at h0; exact absurd h h0
        · obtain ⟨g, g1, g2, g3, g4⟩ := hstep
          have e : p ++ bs = (p ++ g ++ l.text) ++ r := by rw [g2]; simp
          obtain ⟨ls, p', bs', s', r1, r2, r3, r4, r5, r6⟩ := tokFrom_read N i s1 (p ++ g ++ l.text) r
            (by rw [← e]; exact hpl.1) k4
            (by
              intro j hj u hu
              exact hn (j + 1) (by omega) u (by rw [tokFrom, hl]; exact hu))
            (by intro h; apply hf; rw [tokFrom, hl]; exact h)
          rw [← e] at r2 r4
          refine ⟨l :: ls, p', bs', s', by simp [r1], r2, .cons ⟨g, g1, g2, g3, g4⟩ r3, r4, r5, ?_⟩
          rw [tokFrom, hl]
          exact r6
      | exc k =>
        rw [ha] at hsp
        rcases hsp with ⟨e, k1, _⟩ | ⟨k, _⟩
        · rw [hl] at k1; cases k1
        · rw [hl] at k; cases k
      | hang =>
        rw [ha] at hsp
        have : lex N s = .fuel := hsp
        rw [hl] at this; cases this
    | exc e => rw [tokFrom, hl] at hf; exact absurd rfl hf
    | runtime => rw [tokFrom, hl] at hf; exact absurd rfl hf
    | fuel => rw [tokFrom, hl] at hf; exact absurd rfl hf

theorem reads_before {s g tail : Bytes} {ls : List Lexeme} (hg : LooseGap g) (h : Reads s ls (g ++ tail)) :
    ∃ pre, s = pre ++ (g ++ tail) ∧ Before ls (pre ++ g) tail := by
  generalize hz : g ++ tail = z at h
  induction h with
  | nil => exact ⟨[], rfl, .gap hg⟩
  | @cons s s' s'' l ls h t ih =>
    subst hz
    obtain ⟨pre, h1, h2⟩ := ih rfl
    obtain ⟨g', k1, k2, k3, k4⟩ := h
    refine ⟨g' ++ l.text ++ pre, by rw [k2, h1]; simp, ?_⟩
    rw [List.append_assoc]
    refine .lexeme k1 k3 ?_ h2
    rw [h1] at k4
    simpa using k4

theorem reads_layout {s z : Bytes} {ls : List Lexeme} (h : Reads s ls z) (hz : Fin z) : LooseLayout ls s := by
  induction h with
  | nil => obtain ⟨g, e, h1, h2, rfl⟩ := hz; exact .done h1 h2
  | cons h t ih =>
    obtain ⟨g', k1, k2, k3, k4⟩ := h
    rw [k2]
    exact .next k1 k3 k4 (ih hz)

theorem resolveFields_exc (msgs : List Message) : ∀ (l : List Field) (e : Exc), resolveFields msgs l = .exc e →
    ∃ q, e = ⟨.unresolved q, 0, 0⟩
  | [], e, h => by cases h
  | f :: l, e, h => by
    rw [resolveFields] at h
    have tail : ∀ g : List Field → List Field,
        ((resolveFields msgs l).bind fun r => .ok (g r)) = .exc e → ∃ q, e = ⟨.unresolved q, 0, 0⟩ := by
      intro g h
      cases hl : resolveFields msgs l with
      | ok r => rw [hl] at h; cases h
      | exc x => rw [hl] at h; injection h with h; subst h; exact resolveFields_exc msgs l x hl
      | runtime => rw [hl] at h; cases h
      | fuel => rw [hl] at h; cases h
    split at h
    · exact tail _ h
    · split at h
      · injection h with h; exact ⟨_, h.symm⟩
      · exact tail _ h

theorem resolveMessages_exc (msgs : List Message) : ∀ (l : List Message) (e : Exc), resolveMessages msgs l = .exc e →
    ∃ q, e = ⟨.unresolved q, 0, 0⟩
  | [], e, h => by cases h
  | m :: l, e, h => by
    rw [resolveMessages] at h
    cases hf : resolveFields msgs m.fields with
    | ok fs =>
      rw [hf] at h
      simp only [Out.bind] at h
      cases hl : resolveMessages msgs l with
      | ok r => rw [hl] at h; cases h
      | exc x => rw [hl] at h; injection h with h; subst h; exact resolveMessages_exc msgs l x hl
      | runtime => rw [hl] at h; cases h
      | fuel => rw [hl] at h; cases h
    | exc x => rw [hf] at h; injection h with h; subst h; exact resolveFields_exc msgs _ x hf
    | runtime => rw [hf] at h; cases h
    | fuel => rw [hf] at h; cases h

/-- The state of the parser at the start. -/
def start {σ : Type} (s : σ) : Tk σ := { cur := Tok.default, ungot := false, src := s }

theorem parseFrom_exc {σ : Type} {nx : σ → Out (Tok × σ)} {N : Nat} {s : σ} {e : Exc} (h : parseFrom nx N s = .exc e) :
    parseProto nx N N Tree.empty (start s) = .exc e ∨ ∃ q, e = ⟨.unresolved q, 0, 0⟩ := by
  unfold parseFrom at h
  change (parseProto nx N N Tree.empty (start s)).bind _ = _ at h
  cases hp : parseProto nx N N Tree.empty (start s) with
  | ok t =>
    rw [hp] at h
    simp only [Out.bind] at h
    cases hr : resolveMessages t.messages t.messages with
    | ok ms => rw [hr] at h; cases h
    | exc x => rw [hr] at h; injection h with h; subst h; exact Or.inr (resolveMessages_exc _ _ _ hr)
    | runtime => rw [hr] at h; cases h
    | fuel => rw [hr] at h; cases h
  | exc x => rw [hp] at h; injection h with h; subst h; exact Or.inl rfl
  | runtime => rw [hp] at h; cases h
  | fuel => rw [hp] at h; cases h

/-- The offender and the exception it causes by itself. -/
def Offender.Fits : Offender → Kind → Prop
  | .lexeme _, _ => True
  | .stray _, k => k = .invalidSymbol
  | .ident _, k => k = .invalidIdentifier

theorem offends_again {N : Nat} {text : Bytes} {e : Exc} (hN : text.length < N)
    (hp : parseProto (lex N) N N Tree.empty (start (In.open text)) = .exc e)
    {ls : List Lexeme} {pre : Bytes} {x : Offender} {r : Bytes} (ho : Offends text ls pre x r)
    (hj : parseProto (cut (tokFrom N (In.open text)) (ls.length + 1)) N N Tree.empty (start 0) = .exc e)
    {r' : Bytes} {M : Nat} (hr : x.Ends r') (hM : N ≤ M) (hM' : (pre ++ (x.text ++ r')).length < M) :
    parse M (pre ++ (x.text ++ r')) = .exc e := by
  obtain ⟨rfl, hb, hv, he⟩ := ho
  have hag := tokFrom_agree (M := N) (M' := M) hv he hr hb [] _ _
    (tracks_open _) (sees_open _) (tracks_open _) (sees_open _) hN hM'
  simp only [List.nil_append] at hag
  have hcut : cut (tokFrom N (In.open (pre ++ (x.text ++ r)))) (ls.length + 1) =
      cut (tokFrom M (In.open (pre ++ (x.text ++ r')))) (ls.length + 1) := by
    funext c
    unfold cut
    split
    · rw [hag c (by omega)]
    · rfl
  rw [hcut] at hj
  have hj' : parseProto (cut (tokFrom M (In.open (pre ++ (x.text ++ r')))) (ls.length + 1)) M M Tree.empty (start 0) =
      .exc e := by
    rcases mono_parseProto (nx := cut (tokFrom M (In.open (pre ++ (x.text ++ r')))) (ls.length + 1))
      (ny := cut (tokFrom M (In.open (pre ++ (x.text ++ r')))) (ls.length + 1)) (fun _ => .refl _) hM N M Tree.empty
      (start 0) hM with h | h
    · rw [hj] at h; cases h
    · rw [← h, hj]
  have hc := c_parse (delivers_lex M (In.open (pre ++ (x.text ++ r')))) M (s := In.open (pre ++ (x.text ++ r')))
    (fun i => by rw [Nat.zero_add])
  change Cut _ _ _ (parseProto (lex M) M M Tree.empty (start (In.open (pre ++ (x.text ++ r')))))
    (fun k => parseProto (cut _ k) M M Tree.empty (start 0)) at hc
  have hsafe := parse_safe M (pre ++ (x.text ++ r'))
  unfold parse parseFrom at hsafe ⊢
  change Hoare _ _ ((parseProto (lex M) M M Tree.empty (start (In.open (pre ++ (x.text ++ r'))))).bind _) at hsafe
  change (parseProto (lex M) M M Tree.empty (start (In.open (pre ++ (x.text ++ r'))))).bind _ = _
  cases ho : parseProto (lex M) M M Tree.empty (start (In.open (pre ++ (x.text ++ r')))) with
  | ok t =>
    rw [ho] at hc
    obtain ⟨j, b, _, _, h1, h2⟩ := hc
    exfalso
    by_cases hlt : ls.length + 1 < j
    · have := h1 _ (Nat.zero_le _) hlt
      exact absurd (hj'.symm.trans this) (by simp)
    · have := h2 _ (by omega : j ≤ ls.length + 1)
      exact absurd (hj'.symm.trans this) (by simp)
  | exc e' =>
    rw [ho] at hc
    obtain ⟨j, _, _, h1, h2⟩ := hc
    by_cases hlt : ls.length + 1 < j
    · have := h1 _ (Nat.zero_le _) hlt
      exact absurd (hj'.symm.trans this) (by simp)
    · have := h2 _ (by omega : j ≤ ls.length + 1)
      have this := hj'.symm.trans this
      injection this with this
      subst this
      rfl
  | runtime => rw [ho] at hsafe; exact hsafe.elim
  | fuel =>
    rw [ho] at hc
    have := hc (ls.length + 1) (Nat.zero_le _)
    exact absurd (hj'.symm.trans this) (by simp)

/-- **Where an error is.** -/
theorem parse_exc {N : Nat} {text : Bytes} {e : Exc} (hN : text.length < N) (h : parse N text = .exc e) :
    (∃ q, e = ⟨.unresolved q, 0, 0⟩) ∨
    (∃ ls pre x r, Offends text ls pre x r ∧ x.Fits e.kind ∧ e.line = lineAt pre ∧ e.col = colAt pre ∧
      ∀ r' M, x.Ends r' → N ≤ M → (pre ++ (x.text ++ r')).length < M → parse M (pre ++ (x.text ++ r')) = .exc e) ∨
    (∃ ls, LooseLayout ls text ∧ ((e.line = lineAt text ∧ e.col + 1 = colAt text) ∨
      (e.line = 1 ∧ e.col = 1 ∧ ∃ pre s b rest, Broken text ls pre s b rest))) := by
  rcases parseFrom_exc h with hp | hu
  case inr => exact Or.inl hu
  refine Or.inr ?_
  have hc := c_parse (delivers_lex N (In.open text)) N (s := In.open text) (fun i => by rw [Nat.zero_add])
  change Cut _ _ _ (parseProto (lex N) N N Tree.empty (start (In.open text)))
    (fun k => parseProto (cut _ k) N N Tree.empty (start 0)) at hc
  rw [hp] at hc
  obtain ⟨j, _, ⟨i, rfl, hno, hlast⟩, _, hend⟩ := hc
  have hnf : tokFrom N (In.open text) i ≠ .fuel := by
    rcases hlast with ⟨t, k, _⟩ | k <;> rw [k] <;> simp
  obtain ⟨ls, p, bs, s', l1, l2, l3, l4, l5, l6⟩ := tokFrom_read N i _ [] text (tracks_open text) (sees_open text) hno hnf
  simp only [List.nil_append] at l2 l4
  have hsp := lex_spec N s' bs l5
  have hpl := lexLoop_placed (text := text) N N s' p bs l2 l4 l5
  rw [show lexLoop N N s' = lex N s' from rfl] at hpl
  -- the offender, once it is known
  have found : ∀ (g : Bytes) (x : Offender) (r : Bytes), LooseGap g → bs = g ++ (x.text ++ r) → x.Valid → x.Ends r →
      x.Fits e.kind → e.line = lineAt (p ++ g) → e.col = colAt (p ++ g) →
      ∃ ls pre x r, Offends text ls pre x r ∧ x.Fits e.kind ∧ e.line = lineAt pre ∧ e.col = colAt pre ∧
      ∀ r' M, x.Ends r' → N ≤ M → (pre ++ (x.text ++ r')).length < M → parse M (pre ++ (x.text ++ r')) = .exc e := by
    intro g x r hg hb hv he hk e1 e2
    subst hb
    obtain ⟨pre, b1, b2⟩ := reads_before hg l3
    have hpp : pre = p := List.append_cancel_right (b1.symm.trans l2)
    subst hpp
    have ho : Offends text ls (pre ++ g) x r := ⟨by rw [b1]; simp, b2, hv, he⟩
    refine ⟨ls, pre ++ g, x, r, ho, hk, e1, e2, ?_⟩
    intro r' M hr' hNM hM
    exact offends_again hN hp ho (by rw [l1]; exact hend _ (Nat.le_refl _)) hr' hNM hM
  rw [l6] at hlast
  cases ha : alex bs with
  | hang =>
    rw [ha] at hsp
    have : lex N s' = .fuel := hsp
    rw [l6, this] at hnf
    exact absurd rfl hnf
  | exc k =>
    rw [ha] at hsp
    rcases hsp with ⟨e', k1, k2⟩ | ⟨k1, _⟩
    case inr => rw [l6, k1] at hnf; exact absurd rfl hnf
    rw [k1] at hpl hlast
    obtain ⟨g, bs1, g1, g2, g3, g4, g5⟩ := hpl
    rcases hlast with ⟨t, h1, _⟩ | h1
    · cases h1
    injection h1 with h1
    subst h1
    rw [g2, alex_looseGap g1] at ha
    obtain ⟨x, r, x1, x2, x3, x4⟩ := offender_of_exc g3 ha
    refine Or.inl (found g x r g1 (by rw [g2, x1]) x2 x3 ?_ g4 g5)
    rw [k2]
    cases x with
    | lexeme l => trivial
    | stray b => injection x4 with x4; exact x4.symm
    | ident n => injection x4 with x4; exact x4.symm
  | tok c v r =>
    rw [ha] at hsp
    rcases hsp with ⟨t, s2, k1, k2, k3, k4⟩ | ⟨k1, _⟩
    case inr => rw [l6, k1] at hnf; exact absurd rfl hnf
    rw [k1] at hpl hlast
    have hpos : e.line = t.line ∧ e.col = t.col := by
      rcases hlast with ⟨t', h1, h2⟩ | h1
      · injection h1 with h1
        subst h1
        exact h2
      · cases h1
    obtain ⟨_, hpl⟩ := hpl
    rcases alex_seen _ bs (Nat.le_refl _) c v r ha with ⟨h1, h2⟩ | ⟨l, h1, g, g1, g2, g3, g4⟩
    · refine Or.inr ⟨ls, reads_layout l3 h2, ?_⟩
      rcases hpl with ⟨g, bs1, i1, i2, i3, i4⟩ | ⟨_, i2⟩
      · rcases i4 with ⟨i5, _⟩ | ⟨i5, q, i6⟩
        · exact absurd (k2.trans h1) i5
        · refine Or.inr ⟨by rw [hpos.1, i5]; rfl, by rw [hpos.2, i5]; rfl, ?_⟩
          rw [i2, alex_looseGap i1] at ha
          subst h1
          rcases alex_seen _ bs1 (Nat.le_refl _) _ v r ha with ⟨_, g', e', m1, m2, m3⟩ | ⟨l, n1, _, _, _, n2, _⟩
          · have hg' := starts_not_gap i3 m1 m3
            subst hg'
            rw [List.nil_append] at m3
            subst m3
            subst i6
            generalize hq : (34 :: q : Bytes) = w at m2
            cases m2 with
            | nil => cases hq
            | slash => injection hq with hq; cases hq
            | block _ => injection hq with hq; cases hq
            | @string s rest b hs hb =>
              subst i2
              rw [hq] at l3 l2
              obtain ⟨pre, b1, b2⟩ := reads_before i1 l3
              have hpp : pre = p := List.append_cancel_right (b1.symm.trans l2)
              subst hpp
              exact ⟨pre ++ g, s, b, rest, ⟨by rw [b1]; simp, b2, hs, hb⟩⟩
          · exact absurd (congrArg Prod.fst n1).symm (tok_not_eof n2 (v := l.tok.2) rfl)
      · exact Or.inl (by rw [hpos.1, hpos.2]; exact i2.2)
    · have hne : t.code ≠ .eof := by
        rw [k2, show c = l.tok.1 from congrArg Prod.fst h1]; exact tok_not_eof g3 (v := l.tok.2) rfl
      rcases hpl with ⟨g', bs1, i1, i2, i3, i4⟩ | ⟨_, i1, _⟩
      case inr => exact absurd i1 hne
      have hgg : g' = g := by
        refine gap_unique (x' := l.text ++ r) i1 g1 i3 (offender_starts (x := .lexeme l) g3 r) ?_
        rw [← i2, g2]; simp
      subst hgg
      rcases i4 with ⟨_, i5, i6⟩ | ⟨i5, _⟩
      case inr => rw [i5] at hne; exact absurd rfl hne
      exact Or.inl (found g' (.lexeme l) r g1 (by rw [g2]; simp [Offender.text]) g3 g4 trivial
        (by rw [hpos.1, i5]) (by rw [hpos.2, i6]))

end PG.Proto
