import Verif.Proofs.Lex
/-
The tokenizer decodes the strings of the wide grammar.
-/
namespace PG
open IStream

theorem or_add {b i a : Nat} (h : b < 2 ^ i) : 2 ^ i * a ||| b = 2 ^ i * a + b :=
  (Nat.two_pow_add_eq_or_of_lt h a).symm

theorem and_3F (x : Nat) : x &&& 0x3F = x % 64 := Nat.and_two_pow_sub_one_eq_mod x 6

theorem enc2 {cp : Nat} (h1 : 0x80 ≤ cp) (h2 : cp < 0x800) :
    [byte (0xC0 ||| ((cp >>> 6) &&& 0x1F)), byte (0x80 ||| (cp &&& 0x3F))] = utf8 cp := by
  have e1 : (cp >>> 6) &&& 0x1F = cp / 64 := by
    rw [Nat.shiftRight_eq_div_pow, show (0x1F : Nat) = 2 ^ 5 - 1 from rfl, Nat.and_two_pow_sub_one_eq_mod]
    omega
  have e2 : 0xC0 ||| cp / 64 = 0xC0 + cp / 64 := or_add (i := 5) (a := 6) (by omega)
  have e3 : 0x80 ||| cp % 64 = 0x80 + cp % 64 := or_add (i := 6) (a := 2) (by omega)
  rw [e1, and_3F, e2, e3]
  unfold utf8 byte
  rw [if_neg (by omega), if_pos h2]

theorem enc3 {cp : Nat} (h1 : 0x800 ≤ cp) (h2 : cp < 0x10000) :
    [byte (0xE0 ||| ((cp >>> 12) &&& 0x0F)), byte (0x80 ||| ((cp >>> 6) &&& 0x3F)), byte (0x80 ||| (cp &&& 0x3F))]
      = utf8 cp := by
  have e1 : (cp >>> 12) &&& 0x0F = cp / 4096 := by
    rw [Nat.shiftRight_eq_div_pow, show (0x0F : Nat) = 2 ^ 4 - 1 from rfl, Nat.and_two_pow_sub_one_eq_mod]
    omega
  have e1' : cp >>> 6 = cp / 64 := Nat.shiftRight_eq_div_pow _ _
  have e2 : 0xE0 ||| cp / 4096 = 0xE0 + cp / 4096 := or_add (i := 4) (a := 14) (by omega)
  have e3 : 0x80 ||| cp % 64 = 0x80 + cp % 64 := or_add (i := 6) (a := 2) (by omega)
  have e4 : 0x80 ||| cp / 64 % 64 = 0x80 + cp / 64 % 64 := or_add (i := 6) (a := 2) (by omega)
  rw [e1, e1', and_3F, and_3F, e2, e3, e4]
  unfold utf8 byte
  rw [if_neg (by omega), if_neg (by omega), if_pos h2]

theorem enc4 {cp : Nat} (h1 : 0x10000 ≤ cp) (h2 : cp ≤ 0x10FFFF) :
    [byte (0xF0 ||| ((cp >>> 18) &&& 0x07)), byte (0x80 ||| ((cp >>> 12) &&& 0x3F)),
     byte (0x80 ||| ((cp >>> 6) &&& 0x3F)), byte (0x80 ||| (cp &&& 0x3F))] = utf8 cp := by
  have e1 : (cp >>> 18) &&& 0x07 = cp / 262144 := by
    rw [Nat.shiftRight_eq_div_pow, show (0x07 : Nat) = 2 ^ 3 - 1 from rfl, Nat.and_two_pow_sub_one_eq_mod]
    omega
  have e1' : cp >>> 6 = cp / 64 := Nat.shiftRight_eq_div_pow _ _
  have e1'' : cp >>> 12 = cp / 4096 := Nat.shiftRight_eq_div_pow _ _
  have e2 : 0xF0 ||| cp / 262144 = 0xF0 + cp / 262144 := or_add (i := 3) (a := 30) (by omega)
  have e3 : 0x80 ||| cp % 64 = 0x80 + cp % 64 := or_add (i := 6) (a := 2) (by omega)
  have e4 : 0x80 ||| cp / 64 % 64 = 0x80 + cp / 64 % 64 := or_add (i := 6) (a := 2) (by omega)
  have e5 : 0x80 ||| cp / 4096 % 64 = 0x80 + cp / 4096 % 64 := or_add (i := 6) (a := 2) (by omega)
  rw [e1, e1', e1'', and_3F, and_3F, and_3F, e2, e3, e4, e5]
  unfold utf8 byte
  rw [if_neg (by omega), if_neg (by omega), if_neg (by omega)]

theorem putCodeUnit_single {cp : Nat} (value : Bytes) (lead : Nat) (h1 : 0x80 ≤ cp) (h2 : cp < 0x10000)
    (h3 : cp < 0xD800 ∨ 0xE000 ≤ cp) : putCodeUnit value lead cp = some (value ++ utf8 cp, 0) := by
  unfold putCodeUnit
  rw [if_neg (by simp; omega), if_neg (by simp; omega)]
  by_cases h : cp < 0x800
  · rw [if_pos (by simp; omega), enc2 h1 h]
  · rw [if_neg (by simp; omega), if_pos (by simp; omega), enc3 (by omega) h2]

theorem putCodeUnit_lead {cp : Nat} (value : Bytes) (lead : Nat) (h1 : 0xD800 ≤ cp) (h2 : cp ≤ 0xDBFF) :
    putCodeUnit value lead cp = some (value, cp) := by
  unfold putCodeUnit
  rw [if_pos (by simp; omega)]

theorem putCodeUnit_trail {hi lo : Nat} (value : Bytes) (h1 : 0xD800 ≤ hi) (h2 : hi ≤ 0xDBFF)
    (h3 : 0xDC00 ≤ lo) (h4 : lo ≤ 0xDFFF) :
    putCodeUnit value hi lo = some (value ++ utf8 (0x10000 + (hi - 0xD800) * 0x400 + (lo - 0xDC00)), 0) := by
  unfold putCodeUnit
  rw [if_neg (by simp; omega), if_pos (by simp; omega), if_neg (by omega)]
  have e : (((hi <<< 10 : Nat) : Int) + lo + (0x10000 - 0x3600000 - 0xDC00)).toNat
      = 0x10000 + (hi - 0xD800) * 0x400 + (lo - 0xDC00) := by
    rw [Nat.shiftLeft_eq]; omega
  simp only [e]
  rw [enc4 (by omega) (by omega)]

theorem hexVal_of {b : Byte} {d : Nat} (h : HexDigit b d) : hexVal b = some d ∧ b ≠ 10 ∧ d < 16 := by
  rcases h with ⟨h1, h2, h3⟩ | ⟨h1, h2, h3⟩ | ⟨h1, h2, h3⟩
  all_goals
    have h1' := UInt8.le_iff_toNat_le.mp h1
    have h2' := UInt8.le_iff_toNat_le.mp h2
    refine ⟨?_, ?_, ?_⟩
  · unfold hexVal; rw [if_pos (by simp [h1, h2]), h3]
  · intro h; subst h; exact absurd h1 (by decide)
  · simp at h1' h2'; omega
  · unfold hexVal
    rw [if_neg, if_pos (by simp [h1, h2]), h3]
    simp only [Bool.and_eq_true, decide_eq_true_eq, not_and, UInt8.le_iff_toNat_le]
    intro _; simp at h1' h2' ⊢; omega
  · intro h; subst h; exact absurd h1 (by decide)
  · simp at h1' h2'; omega
  · unfold hexVal
    rw [if_neg, if_neg, if_pos (by simp [h1, h2]), h3]
    · simp only [Bool.and_eq_true, decide_eq_true_eq, not_and, UInt8.le_iff_toNat_le]
      intro _; simp at h1' h2' ⊢; omega
    · simp only [Bool.and_eq_true, decide_eq_true_eq, not_and, UInt8.le_iff_toNat_le]
      intro _; simp at h1' h2' ⊢; omega
  · intro h; subst h; exact absurd h1 (by decide)
  · simp at h1' h2'; omega

theorem Hex4.lt {h : Bytes} {v : Nat} (hh : Hex4 h v) : v < 0x10000 := by
  obtain ⟨a, b, c, d, va, vb, vc, vd, -, ha, hb, hc, hd, hv⟩ := hh
  have := (hexVal_of ha).2.2; have := (hexVal_of hb).2.2; have := (hexVal_of hc).2.2; have := (hexVal_of hd).2.2
  omega

/-- Four hexadecimal digits are read and the cursor stays on the last one. -/
theorem lexHex_run {h : Bytes} {v : Nat} (hh : Hex4 h v) {x : Byte} (hx : x ≠ 10) (t : Bytes) (l c : Nat) :
    ∃ d, d ≠ 10 ∧ ∃ c', lexHex 4 0 (skip (x :: (h ++ t)) l c) = (some v, skip (d :: t) l c') := by
  obtain ⟨a, b, c1, d, va, vb, vc, vd, rfl, ha, hb, hc, hd, hv⟩ := hh
  obtain ⟨ha, ha', -⟩ := hexVal_of ha
  obtain ⟨hb, hb', -⟩ := hexVal_of hb
  obtain ⟨hc, hc', -⟩ := hexVal_of hc
  obtain ⟨hd, hd', -⟩ := hexVal_of hd
  refine ⟨d, hd', c + 1 + 1 + 1 + 1, ?_⟩
  simp only [lexHex, List.cons_append, List.nil_append, skip_next hx, skip_next ha', skip_next hb', skip_next hc',
    skip_peek ha', skip_peek hb', skip_peek hc', skip_peek hd', ha, hb, hc, hd]
  rw [hv]
  congr 2
  omega

theorem simpleEscape_of {e b : Byte} (h : (e, b) ∈ shortEscapes) :
    simpleEscape e = some b ∧ e ≠ 10 ∧ e ≠ c!"u" := by
  simp [shortEscapes] at h
  rcases h with ⟨rfl, rfl⟩ | ⟨rfl, rfl⟩ | ⟨rfl, rfl⟩ | ⟨rfl, rfl⟩ | ⟨rfl, rfl⟩ | ⟨rfl, rfl⟩ | ⟨rfl, rfl⟩ | ⟨rfl, rfl⟩ <;>
    decide

theorem lexString_run {body content : Bytes} (h : StrChars wideRaw (fun cp => 0x80 ≤ cp) body content) (rest : Bytes) :
    ∀ {x : Byte}, x ≠ 10 → ∀ (l c : Nat) (value : Bytes), ∃ l' c',
      lexString (skip (x :: (body ++ c!"\"" :: rest)) l c) 0 value = (some (value ++ content), skip rest l' c') := by
  induction h with
  | nil =>
    intro x hx l c value
    refine ⟨l, c + 1 + 1, ?_⟩
    rw [lexString, dif_pos (skip_eof hx _ _ _)]
    simp only [List.nil_append, skip_next hx, skip_peek (b := 34) (by decide), if_true, skip_next (b := 34) (by decide),
      List.append_nil]
  | @raw b t cnt hr _ ih =>
    intro x hx l c value
    obtain ⟨h0, h10, h34, h92⟩ := hr
    obtain ⟨l', c', ih⟩ := ih h10 l (c + 1) (value ++ [b])
    refine ⟨l', c', ?_⟩
    rw [lexString, dif_pos (skip_eof hx _ _ _)]
    simp only [List.cons_append, skip_next hx, skip_peek h10]
    rw [if_neg h34, if_neg h92, if_neg h0, ih]
    simp
  | @esc e b t cnt he _ ih =>
    intro x hx l c value
    obtain ⟨h1, h10, hu⟩ := simpleEscape_of he
    obtain ⟨l', c', ih⟩ := ih h10 l (c + 1 + 1) (value ++ [b])
    refine ⟨l', c', ?_⟩
    rw [lexString, dif_pos (skip_eof hx _ _ _)]
    simp only [List.cons_append, skip_next hx, skip_peek (b := 92) (by decide), skip_next (b := 92) (by decide),
      skip_peek h10]
    rw [if_neg (by decide), if_pos trivial, if_neg hu, h1]
    simp only
    rw [ih]
    simp
  | @uni hx4 cp t cnt hh hs hcp _ ih =>
    intro x hx l c value
    obtain ⟨d, hd, c1, h1⟩ := lexHex_run hh (x := 117) (by decide) (t ++ 34 :: rest) l (c + 1 + 1)
    obtain ⟨l', c', ih⟩ := ih hd l c1 (value ++ utf8 cp)
    refine ⟨l', c', ?_⟩
    rw [lexString, dif_pos (skip_eof hx _ _ _)]
    simp only [List.cons_append, List.append_assoc, skip_next hx, skip_peek (b := 92) (by decide),
      skip_next (b := 92) (by decide), skip_peek (b := 117) (by decide)]
    rw [if_neg (by decide), if_pos trivial, if_pos trivial]
    simp only [h1, putCodeUnit_single value 0 hcp hh.lt hs]
    rw [ih]
    simp
  | @pair h1 h2 hi lo t cnt hh1 hh2 b1 b2 b3 b4 _ ih =>
    intro x hx l c value
    obtain ⟨d, hd, c1, e1⟩ := lexHex_run hh1 (x := 117) (by decide) (92 :: 117 :: (h2 ++ (t ++ 34 :: rest))) l (c + 1 + 1)
    obtain ⟨d2, hd2, c2, e2⟩ := lexHex_run hh2 (x := 117) (by decide) (t ++ 34 :: rest) l (c1 + 1 + 1)
    obtain ⟨l', c', ih⟩ := ih hd2 l c2 (value ++ utf8 (0x10000 + (hi - 0xD800) * 0x400 + (lo - 0xDC00)))
    refine ⟨l', c', ?_⟩
    rw [lexString, dif_pos (skip_eof hx _ _ _)]
    simp only [List.cons_append, List.append_assoc, skip_next hx, skip_peek (b := 92) (by decide),
      skip_next (b := 92) (by decide), skip_peek (b := 117) (by decide)]
    rw [if_neg (by decide), if_pos trivial, if_pos trivial]
    simp only [e1, putCodeUnit_lead value 0 b1 b2]
    rw [lexString, dif_pos (skip_eof hd _ _ _)]
    simp only [skip_next hd, skip_peek (b := 92) (by decide),
      skip_next (b := 92) (by decide), skip_peek (b := 117) (by decide)]
    rw [if_neg (by decide), if_pos trivial, if_pos trivial]
    simp only [e2, putCodeUnit_trail value b1 b2 b3 b4]
    rw [ih]
    simp

theorem LexTo.string {body content : Bytes} (h : wide.str body content) (rest : Bytes) :
    LexTo (c!"\"" :: (body ++ c!"\"" :: rest)) .string content rest := by
  intro l c
  obtain ⟨l', c', h⟩ := lexString_run h rest (x := 34) (by decide) l c []
  rw [lex, dif_pos (skip_eof (by decide) _ _ _)]
  simp only [skip_peek (b := 34) (by decide)]
  refine ⟨0, 0, l', c', ?_⟩
  unfold parseString
  rw [h]
  rfl

end PG
