import Verif.Spec.Show
import Verif.Proofs.Encode
import Verif.Proofs.FltPrec
import Verif.Proofs.B64
/-
The JSON text of an object determines what it shows: the writer's texts can be taken apart in only one way.
-/
set_option autoImplicit false
set_option exponentiation.threshold 3000
namespace PG

/-! ### Taking texts apart -/

/-- A text that is empty or starts with a byte of a class. -/
def HeadIn (P : Byte → Prop) (r : Bytes) : Prop := r = [] ∨ ∃ b t, r = b :: t ∧ P b

theorem split_unique {P : Byte → Prop} : {x y r r' : Bytes} → (∀ b ∈ x, ¬ P b) → (∀ b ∈ y, ¬ P b) → HeadIn P r → HeadIn P r' →
    x ++ r = y ++ r' → x = y ∧ r = r'
  | [], [], _, _, _, _, _, _, h => ⟨rfl, h⟩
  | [], b :: y, r, r', _, hy, hr, _, h => by
    rcases hr with rfl | ⟨c, t, rfl, hc⟩
    · simp at h
    · simp only [List.nil_append, List.cons_append, List.cons.injEq] at h
      exact absurd (h.1 ▸ hc) (hy b (by simp))
  | a :: x, [], r, r', hx, _, _, hr', h => by
    rcases hr' with rfl | ⟨c, t, rfl, hc⟩
    · simp at h
    · simp only [List.nil_append, List.cons_append, List.cons.injEq] at h
      exact absurd (h.1 ▸ hc) (hx a (by simp))
  | a :: x, b :: y, r, r', hx, hy, hr, hr', h => by
    simp only [List.cons_append, List.cons.injEq] at h
    obtain ⟨e1, e2⟩ := split_unique (fun z hz => hx z (by simp [hz])) (fun z hz => hy z (by simp [hz])) hr hr' h.2
    exact ⟨by rw [h.1, e1], e2⟩

/-- The bytes after a value: comma or a closing bracket. -/
def isSep (b : Byte) : Prop := b = c!"," ∨ b = c!"]" ∨ b = c!"}"

theorem quote_unique {x y r r' : Bytes} (hx : ∀ b ∈ x, rfcRaw b) (hy : ∀ b ∈ y, rfcRaw b)
    (h : x ++ c!"\"" :: r = y ++ c!"\"" :: r') : x = y ∧ r = r' := by
  obtain ⟨e1, e2⟩ := split_unique (P := fun b => b = c!"\"") (fun b hb => (hx b hb).2.1) (fun b hb => (hy b hb).2.1)
    (.inr ⟨_, _, rfl, rfl⟩) (.inr ⟨_, _, rfl, rfl⟩) h
  injection e2 with _ e2
  exact ⟨e1, e2⟩

/-! ### Strings -/

theorem hexDigit_unique {b : Byte} {d e : Nat} (h : HexDigit b d) (h' : HexDigit b e) : d = e := by
  unfold HexDigit at h h'
  simp only [UInt8.le_iff_toNat_le] at h h'
  have e1 : (48 : UInt8).toNat = 48 := rfl
  have e2 : (57 : UInt8).toNat = 57 := rfl
  have e3 : (65 : UInt8).toNat = 65 := rfl
  have e4 : (70 : UInt8).toNat = 70 := rfl
  have e5 : (97 : UInt8).toNat = 97 := rfl
  have e6 : (102 : UInt8).toNat = 102 := rfl
  omega

theorem hex4_unique {h h' t t' : Bytes} {v v' : Nat} (a : Hex4 h v) (b : Hex4 h' v') (e : h ++ t = h' ++ t') :
    h = h' ∧ v = v' ∧ t = t' := by
  obtain ⟨a1, a2, a3, a4, x1, x2, x3, x4, rfl, p1, p2, p3, p4, rfl⟩ := a
  obtain ⟨b1, b2, b3, b4, y1, y2, y3, y4, rfl, q1, q2, q3, q4, rfl⟩ := b
  simp only [List.cons_append, List.nil_append, List.cons.injEq] at e
  obtain ⟨rfl, rfl, rfl, rfl, rfl⟩ := e
  rw [hexDigit_unique p1 q1, hexDigit_unique p2 q2, hexDigit_unique p3 q3, hexDigit_unique p4 q4]
  exact ⟨rfl, rfl, rfl⟩

theorem esc_unique {e b b' : Byte} (h : (e, b) ∈ shortEscapes) (h' : (e, b') ∈ shortEscapes) : b = b' := by
  simp only [shortEscapes, List.mem_cons, Prod.mk.injEq, List.not_mem_nil, or_false] at h h'
  rcases h with h | h | h | h | h | h | h | h <;> obtain ⟨rfl, rfl⟩ := h <;> revert h' <;> simp <;> exact Eq.symm

theorem esc_not_u {b : Byte} (h : (c!"u", b) ∈ shortEscapes) : False := by
  simp [shortEscapes] at h

/-- The bytes that stand for themselves between quotes. -/
def plain (b : Byte) : Prop := b ≠ c!"\"" ∧ b ≠ c!"\\"

theorem chars_unique {u : Nat → Prop} {t c t' c' r r' : Bytes} (h : StrChars plain u t c) (h' : StrChars plain u t' c')
    (e : t ++ c!"\"" :: r = t' ++ c!"\"" :: r') : c = c' ∧ r = r' := by
  induction h generalizing t' c' with
  | nil =>
    cases h' with
    | nil => simpa using e
    | raw hb h2 =>
      simp only [List.nil_append, List.cons_append, List.cons.injEq] at e
      exact absurd e.1.symm hb.1
    | esc _ _ => simp at e
    | uni _ _ _ _ => simp at e
    | pair _ _ _ _ _ _ _ => simp at e
  | raw hb h1 ih =>
    cases h' with
    | nil =>
      simp only [List.nil_append, List.cons_append, List.cons.injEq] at e
      exact absurd e.1 hb.1
    | raw hb' h2 =>
      simp only [List.cons_append, List.cons.injEq] at e
      obtain ⟨e1, e2⟩ := ih h2 e.2
      exact ⟨by rw [e.1, e1], e2⟩
    | esc _ _ =>
      simp only [List.cons_append, List.cons.injEq] at e
      exact absurd e.1 hb.2
    | uni _ _ _ _ =>
      simp only [List.cons_append, List.cons.injEq] at e
      exact absurd e.1 hb.2
    | pair _ _ _ _ _ _ _ =>
      simp only [List.cons_append, List.cons.injEq] at e
      exact absurd e.1 hb.2
  | esc hm h1 ih =>
    cases h' with
    | nil => simp at e
    | raw hb' h2 =>
      simp only [List.cons_append, List.cons.injEq] at e
      exact absurd e.1.symm hb'.2
    | esc hm' h2 =>
      simp only [List.cons_append, List.cons.injEq] at e
      obtain ⟨_, rfl, e⟩ := e
      obtain ⟨e1, e2⟩ := ih h2 e
      exact ⟨by rw [esc_unique hm hm', e1], e2⟩
    | uni _ _ _ _ =>
      simp only [List.cons_append, List.cons.injEq] at e
      obtain ⟨_, rfl, e⟩ := e
      exact (esc_not_u hm).elim
    | pair _ _ _ _ _ _ _ =>
      simp only [List.cons_append, List.cons.injEq] at e
      obtain ⟨_, rfl, e⟩ := e
      exact (esc_not_u hm).elim
  | uni hh hr hu h1 ih =>
    cases h' with
    | nil => simp at e
    | raw hb' h2 =>
      simp only [List.cons_append, List.cons.injEq] at e
      exact absurd e.1.symm hb'.2
    | esc hm' h2 =>
      simp only [List.cons_append, List.cons.injEq] at e
      obtain ⟨_, rfl, e⟩ := e
      exact (esc_not_u hm').elim
    | uni hh' hr' hu' h2 =>
      simp only [List.cons_append, List.cons.injEq, List.append_assoc, true_and] at e
      obtain ⟨_, rfl, e⟩ := hex4_unique hh hh' e
      obtain ⟨e1, e2⟩ := ih h2 e
      exact ⟨by rw [e1], e2⟩
    | pair hh' _ h3 h4 _ _ _ =>
      simp only [List.cons_append, List.cons.injEq, List.append_assoc, true_and] at e
      obtain ⟨_, rfl, e⟩ := hex4_unique hh hh' e
      omega
  | pair hh hl h3 h4 h5 h6 h1 ih =>
    cases h' with
    | nil => simp at e
    | raw hb' h2 =>
      simp only [List.cons_append, List.cons.injEq] at e
      exact absurd e.1.symm hb'.2
    | esc hm' h2 =>
      simp only [List.cons_append, List.cons.injEq] at e
      obtain ⟨_, rfl, e⟩ := e
      exact (esc_not_u hm').elim
    | uni hh' hr' hu' h2 =>
      simp only [List.cons_append, List.cons.injEq, List.append_assoc, true_and] at e
      obtain ⟨_, rfl, e⟩ := hex4_unique hh hh' e
      omega
    | pair hh' hl' _ _ _ _ h2 =>
      simp only [List.cons_append, List.cons.injEq, List.append_assoc, true_and] at e
      obtain ⟨_, rfl, e⟩ := hex4_unique hh hh' e
      simp only [List.cons.injEq, true_and] at e
      obtain ⟨_, rfl, e⟩ := hex4_unique hl hl' e
      obtain ⟨e1, e2⟩ := ih h2 e
      exact ⟨by rw [e1], e2⟩

theorem plain_of_short {b : Byte} (h : hasShort b = false) : plain b := by
  simp only [hasShort, Bool.or_eq_false_iff, beq_eq_false_iff_ne, ne_eq] at h
  exact ⟨h.1.1.1.1.1.1.1, h.1.1.1.1.1.1.2⟩

/-- What stands between the quotes. -/
theorem body_chars {ascii : Bool} {s : Bytes} (h : ascii = true → Utf8 s) :
    (strBody ascii s).2 = true ∧ StrChars plain (fun _ => True) (strBody ascii s).1 s := by
  cases ascii with
  | false => exact strBody_raw s (fun b _ hb => plain_of_short hb)
  | true =>
    obtain ⟨cps, hc, rfl⟩ := h rfl
    exact strBody_ascii cps hc (fun cp _ _ hb => plain_of_short hb) (fun _ _ _ _ => trivial)

theorem stringWrite_eq {ascii : Bool} {s : Bytes} (h : ascii = true → Utf8 s) (e : ErrInfo) :
    stringWrite ascii s e = (.ok, c!"\"" :: (strBody ascii s).1 ++ [c!"\""], e) := by
  unfold stringWrite
  rw [if_pos (body_chars h).1]

/-! ### Numbers -/

theorem millionths_mil (m : Nat) : Millionths m (mil m) := by
  unfold Millionths mil
  rw [← unit_eq]
  have hu := unit_pos
  obtain ⟨h1, h2⟩ := rhe_bound (a := m * 1000000) hu
  refine ⟨?_, ?_⟩
  · unfold distTo
    split <;> omega
  · intro h
    generalize m * 1000000 = a at *
    have e := Nat.div_add_mod a unit
    have hm := Nat.mod_lt a hu
    unfold distTo at h
    unfold rhe at h ⊢
    rw [Nat.mul_comm] at e
    split
    · rename_i h3
      rw [if_pos h3] at h
      split at h <;> omega
    · rename_i h3
      rw [if_neg h3] at h
      split
      · rename_i h4
        rw [if_pos h4] at h
        rw [Nat.add_mul, Nat.one_mul] at h
        split at h <;> omega
      · split
        · assumption
        · omega

theorem millionths_unique {m q q' : Nat} (h : Millionths m q) (h' : Millionths m q') : q = q' := by
  unfold Millionths at h h'
  rw [← unit_eq] at h h'
  have hu := unit_pos
  generalize m * 1000000 = a at *
  generalize unit = u at *
  have key : ∀ {q q' : Nat}, q < q' → (2 * distTo a u q ≤ u ∧ (2 * distTo a u q = u → q % 2 = 0)) →
      (2 * distTo a u q' ≤ u ∧ (2 * distTo a u q' = u → q' % 2 = 0)) → False := by
    intro q q' hlt h h'
    have hm : (q + 1) * u ≤ q' * u := Nat.mul_le_mul_right u hlt
    rw [Nat.add_mul, Nat.one_mul] at hm
    have e1 : 2 * distTo a u q = u ∧ 2 * distTo a u q' = u ∧ (q + 1) * u = q' * u := by
      rw [Nat.add_mul, Nat.one_mul]
      obtain ⟨h1, -⟩ := h
      obtain ⟨h2, -⟩ := h'
      unfold distTo at *
      split at h1 <;> split at h2 <;> simp only [*, if_true, if_false] <;> omega
    have := h.2 e1.1
    have := h'.2 e1.2.1
    have := Nat.eq_of_mul_eq_mul_right hu e1.2.2
    omega
  rcases Nat.lt_trichotomy q q' with hlt | he | hlt
  · exact (key hlt h h').elim
  · exact he
  · exact (key hlt h' h).elim

theorem shows_mil {m n : Nat} : (∃ q, Millionths m q ∧ Millionths n q) ↔ mil m = mil n := by
  constructor
  · rintro ⟨q, h1, h2⟩
    rw [millionths_unique (millionths_mil m) h1, millionths_unique (millionths_mil n) h2]
  · intro h
    refine ⟨mil m, millionths_mil m, ?_⟩
    rw [h]
    exact millionths_mil n

theorem digits_no_dot {ds : Bytes} (h : ∀ b ∈ ds, isDigit b = true) : ∀ b ∈ ds, ¬ (b = c!".") := by
  intro b hb e
  have := h b hb
  subst e
  simp [isDigit] at this

theorem decNat_inj' {m n : Nat} (h : decNat m = decNat n) : m = n := by
  rw [← decNat_val m, ← decNat_val n, h]

theorem fixed6_inj {q q' : Nat} (h : fixed6 q = fixed6 q') : q = q' := by
  unfold fixed6 at h
  obtain ⟨e1, e2⟩ := split_unique (P := fun b => b = c!".") (digits_no_dot (decNat_digits _)) (digits_no_dot (decNat_digits _))
    (.inr ⟨_, _, rfl, rfl⟩) (.inr ⟨_, _, rfl, rfl⟩) h
  injection e2 with _ e2
  have h1 := decNat_inj' e1
  have h2 : digitsVal 0 (dec6 (q % 1000000)) = digitsVal 0 (dec6 (q' % 1000000)) := by rw [e2]
  rw [dec6_val 0 (Nat.mod_lt _ (by decide)), dec6_val 0 (Nat.mod_lt _ (by decide))] at h2
  omega

/-- The characters of numbers, `nan`, `inf`, `true` and `false`. -/
def scalarByte (b : Byte) : Bool := isDigit b || b == c!"." || b == c!"-" || (97 ≤ b && b ≤ 122)

theorem scalar_not_sep {b : Byte} (h : scalarByte b = true) : ¬ isSep b := by
  rintro (rfl | rfl | rfl) <;> simp [scalarByte, isDigit] at h

theorem digit_scalar {b : Byte} (h : isDigit b = true) : scalarByte b = true := by simp [scalarByte, h]

theorem fixed6_head (q : Nat) : ∃ d t, fixed6 q = d :: t ∧ isDigit d = true := by
  unfold fixed6
  have h1 := decNat_digits (q / 1000000)
  have h2 := decNat_ne_nil (q / 1000000)
  cases h : decNat (q / 1000000) with
  | nil => exact absurd h h2
  | cons d t => exact ⟨d, _, rfl, h1 d (by rw [h]; simp)⟩

theorem printfF_inj {k : FKind} {a b : CFlt k} : textOfFlt a = textOfFlt b ↔ a.val.Shows b.val := by
  have hfin : ∀ c : CFlt k, textOfFlt c = printfF c.val := by
    intro c
    obtain ⟨x, hx⟩ := c
    cases x with
    | nan => rfl
    | inf n => cases n <;> rfl
    | fin n m => exact textOfFlt_fin hx
  rw [hfin, hfin]
  generalize a.val = x
  generalize b.val = y
  have hd : ∀ (n : Bool) (m : Nat) (c : Byte) (s : Bytes), isDigit c = false → c ≠ c!"-" → printfF (.fin n m) ≠ c :: s := by
    intro n m c s h1 h2 h
    rw [printfF_fin] at h
    obtain ⟨d, t, e, hd⟩ := fixed6_head (mil m)
    cases n
    · simp only [Bool.false_eq_true, if_false, e, List.cons.injEq] at h
      rw [h.1, h1] at hd
      exact absurd hd (by decide)
    · simp only [if_true, List.cons.injEq] at h
      exact h2 h.1.symm
  have hm : ∀ (n : Bool) (m : Nat), printfF (.fin n m) ≠ b!"-inf" := by
    intro n m h
    rw [printfF_fin] at h
    obtain ⟨d, t, e, hd⟩ := fixed6_head (mil m)
    cases n
    · simp only [Bool.false_eq_true, if_false, e, List.cons.injEq] at h
      rw [h.1] at hd
      exact absurd hd (by decide)
    · simp only [if_true, e, List.cons.injEq] at h
      rw [h.2.1] at hd
      exact absurd hd (by decide)
  cases x with
  | nan =>
    cases y with
    | nan => simp [Flt.Shows]
    | inf n => cases n <;> simp [Flt.Shows, printfF]
    | fin n m =>
      simp only [Flt.Shows, iff_false]
      exact fun h => hd n m _ _ (by decide) (by decide) h.symm
  | inf n =>
    cases y with
    | nan => cases n <;> simp [Flt.Shows, printfF]
    | inf n' => cases n <;> cases n' <;> simp [Flt.Shows, printfF]
    | fin n' m =>
      simp only [Flt.Shows, iff_false]
      cases n
      · exact fun h => hd n' m _ _ (by decide) (by decide) h.symm
      · exact fun h => hm n' m h.symm
  | fin n m =>
    cases y with
    | nan =>
      simp only [Flt.Shows, iff_false]
      exact fun h => hd n m _ _ (by decide) (by decide) h
    | inf n' =>
      simp only [Flt.Shows, iff_false]
      cases n'
      · exact fun h => hd n m _ _ (by decide) (by decide) h
      · exact fun h => hm n m h
    | fin n' m' =>
      simp only [Flt.Shows, shows_mil]
      obtain ⟨d, t, e, hd⟩ := fixed6_head (mil m)
      obtain ⟨d', t', e', hd'⟩ := fixed6_head (mil m')
      rw [printfF_fin, printfF_fin]
      constructor
      · intro h
        cases n <;> cases n' <;> simp only [Bool.false_eq_true, if_false, if_true] at h
        · exact ⟨rfl, fixed6_inj h⟩
        · rw [e, List.cons.injEq] at h
          rw [h.1] at hd
          exact absurd hd (by decide)
        · rw [e', List.cons.injEq] at h
          rw [← h.1] at hd'
          exact absurd hd' (by decide)
        · injection h with _ h
          exact ⟨rfl, fixed6_inj h⟩
      · rintro ⟨rfl, h⟩
        rw [h]

theorem decInt_inj {a b : Int} (h : decInt a = decInt b) : a = b := by
  unfold decInt at h
  have h1 := decNat_digits a.natAbs
  have h2 := decNat_digits b.natAbs
  have hm : isDigit (c!"-") = false := by decide
  split at h <;> split at h
  · injection h with _ h
    have := decNat_inj' h
    omega
  · rw [← h] at h2
    exact absurd (h2 c!"-" (by simp)) (by decide)
  · rw [h] at h1
    exact absurd (h1 c!"-" (by simp)) (by decide)
  · have := decNat_inj' h
    omega

theorem Prim.text_inj (p : Prim) (a b : p.Den) : p.text a = p.text b ↔ p.Shows a b := by
  cases p with
  | int k => exact ⟨fun h => decInt_inj h, fun h => congrArg decInt h⟩
  | flt k => exact printfF_inj
  | bool =>
    show (bif (a : Bool) then b!"true" else b!"false") = (bif (b : Bool) then b!"true" else b!"false") ↔ (a : Bool) = b
    cases (show Bool from a) <;> cases (show Bool from b) <;> simp <;> rfl

theorem Prim.text_bytes (p : Prim) (a : p.Den) : (∀ b ∈ p.text a, scalarByte b = true) ∧ p.text a ≠ [] ∧ p.text a ≠ b!"null" := by
  cases p with
  | int k =>
    show (∀ b ∈ decInt (CInt.val a), _) ∧ decInt (CInt.val a) ≠ [] ∧ decInt (CInt.val a) ≠ b!"null"
    have hd := decNat_digits (CInt.val a).natAbs
    have hn := decNat_ne_nil (CInt.val a).natAbs
    unfold decInt
    split
    · refine ⟨fun b hb => ?_, by simp, by simp⟩
      rcases List.mem_cons.mp hb with rfl | hb
      · decide
      · exact digit_scalar (hd b hb)
    · refine ⟨fun b hb => digit_scalar (hd b hb), hn, fun h => ?_⟩
      rw [h] at hd
      exact absurd (hd c!"n" (by simp)) (by decide)
  | flt k =>
    show (∀ b ∈ textOfFlt (k := k) a, _) ∧ textOfFlt (k := k) a ≠ [] ∧ textOfFlt (k := k) a ≠ b!"null"
    obtain ⟨x, hx⟩ := a
    cases x with
    | nan => exact ⟨by show ∀ b ∈ b!"nan", _; decide, by show b!"nan" ≠ _; decide, by show b!"nan" ≠ _; decide⟩
    | inf n =>
      cases n
      · exact ⟨by show ∀ b ∈ b!"inf", _; decide, by show b!"inf" ≠ _; decide, by show b!"inf" ≠ _; decide⟩
      · exact ⟨by show ∀ b ∈ b!"-inf", _; decide, by show b!"-inf" ≠ _; decide, by show b!"-inf" ≠ _; decide⟩
    | fin n m =>
      rw [textOfFlt_fin hx, printfF_fin]
      obtain ⟨d, t, e, hd⟩ := fixed6_head (mil m)
      have hb : ∀ b ∈ fixed6 (mil m), scalarByte b = true := by
        intro b hb
        unfold fixed6 at hb
        rcases List.mem_append.mp hb with hb | hb
        · exact digit_scalar (decNat_digits _ b hb)
        · rcases List.mem_cons.mp hb with rfl | hb
          · decide
          · exact digit_scalar (dec6_digits _ b hb)
      cases n
      · simp only [Bool.false_eq_true, if_false]
        refine ⟨hb, by rw [e]; simp, fun h => ?_⟩
        rw [e, List.cons.injEq] at h
        rw [h.1] at hd
        exact absurd hd (by decide)
      · simp only [if_true]
        refine ⟨fun b h => ?_, by simp, by simp⟩
        rcases List.mem_cons.mp h with rfl | h
        · decide
        · exact hb b h
  | bool =>
    have key : ∀ c : Bool, (∀ b ∈ (bif c then b!"true" else b!"false"), scalarByte b = true) ∧
        (bif c then b!"true" else b!"false") ≠ [] ∧ (bif c then b!"true" else b!"false") ≠ b!"null" := by decide
    exact key a

/-! ### Emptiness -/

mutual
theorem Ty.empty_iff : (t : Ty) → (v : t.Den) → (t.empty v = true ↔ t.Blank v)
  | .num _, _ => Iff.rfl
  | .raw _, _ => Iff.rfl
  | .str, v => by
    show (v.null && v.value.isEmpty) = true ↔ _
    rw [Bool.and_eq_true, List.isEmpty_iff]
    exact Iff.rfl
  | .bytes, v => List.isEmpty_iff
  | .rep _, v => List.isEmpty_iff
  | .msg _ fs, v => Fields.empty_iff fs v
theorem Fields.empty_iff : (fs : Fields) → (v : fs.Den) → (fs.empty v = true ↔ fs.Blank v)
  | .nil, _ => ⟨fun _ => trivial, fun _ => rfl⟩
  | .cons _ t rest, v => by
    simp only [Fields.empty, Fields.Blank, Bool.and_eq_true]
    rw [Ty.empty_iff t v.1, Fields.empty_iff rest v.2]
end

theorem shown_iff (nulls : Bool) (t : Ty) (v : t.Den) : (nulls || !t.empty v) = true ↔ (nulls = true ∨ ¬ t.Blank v) := by
  rw [Bool.or_eq_true, Bool.not_eq_true', ← t.empty_iff, Bool.not_eq_true]

theorem hidden_iff (nulls : Bool) (t : Ty) (v : t.Den) : (nulls || !t.empty v) = false ↔ (nulls = false ∧ t.Blank v) := by
  rw [Bool.or_eq_false_iff, Bool.not_eq_false', t.empty_iff]

/-! ### Objects that show the same have the same text -/

theorem writeElems_same {α : Type} {wr : α → ErrInfo → WRes} {R : α → α → Prop} {xs ys : List α}
    (h : Each R xs ys) (hw : ∀ x y e e', R x y → (wr x e).2.1 = (wr y e').2.1) :
    ∀ e e', (writeElems wr xs e).1 = (writeElems wr ys e').1 := by
  induction h with
  | nil => intros; rfl
  | cons h t ih =>
    intro e e'
    cases t with
    | nil => exact hw _ _ e e' h
    | cons h2 t2 =>
      simp only [writeElems]
      rw [hw _ _ e e' h, ih _ _]

mutual
theorem Ty.write_same (p : Params) : (t : Ty) → (a b : t.Den) → t.Shows p.serializeNull a b → (e e' : ErrInfo) →
    (t.write p a e).2.1 = (t.write p b e').2.1
  | .num q, a, b, h, e, e' => by
    rcases h with ⟨h1, h2⟩ | ⟨h1, h2, h3⟩
    · simp [Ty.write, h1, h2]
    · simp [Ty.write, h1, h2, (q.text_inj _ _).mpr h3]
  | .raw q, a, b, h, e, e' => (q.text_inj _ _).mpr h
  | .str, a, b, h, e, e' => by
    have he : StrField.empty a = StrField.empty b := by
      unfold StrField.empty
      rw [← h.1]
      cases hv : a.value with
      | nil => rw [h.2 hv]
      | cons => simp
    simp only [Ty.write, he]
    split
    · rfl
    · unfold stringWrite
      rw [h.1]
      simp only
      split <;> rfl
  | .bytes, a, b, h, e, e' => by
    have h : a = b := h
    subst h
    rfl
  | .rep t, a, b, h, e, e' => by
    simp only [Ty.write]
    rw [writeElems_same h (fun x y e e' hr => Ty.write_same p t x y hr e e') e e']
  | .msg _ fs, a, b, h, e, e' => by
    simp only [Ty.write]
    rw [Fields.write_same p fs a b h true e e']
theorem Fields.write_same (p : Params) : (fs : Fields) → (a b : fs.Den) → fs.Shows p.serializeNull a b → (first : Bool) →
    (e e' : ErrInfo) → (fs.write p a first e).1 = (fs.write p b first e').1
  | .nil, _, _, _, _, _, _ => rfl
  | .cons f t rest, a, b, h, first, e, e' => by
    simp only [Fields.write]
    cases hf : f.transient with
    | true => simpa using Fields.write_same p rest a.2 b.2 h.2 first e e'
    | false =>
      simp only [Bool.false_eq_true, if_false]
      rcases h.1 hf with h1 | h1
      · rw [(hidden_iff _ t a.1).mpr ⟨h1.1, h1.2.1⟩, (hidden_iff _ t b.1).mpr ⟨h1.1, h1.2.2⟩]
        exact Fields.write_same p rest a.2 b.2 h.2 first e e'
      · rw [(shown_iff _ t a.1).mpr h1.1, (shown_iff _ t b.1).mpr h1.2.1]
        simp only [if_true]
        rw [Ty.write_same p t a.1 b.1 h1.2.2 e e', Fields.write_same p rest a.2 b.2 h.2 false _ _]
end

/-! ### Objects with the same text show the same -/

theorem Ty.write_head (p : Params) (t : Ty) (v : t.Den) (e : ErrInfo) :
    ∃ c s, (t.write p v e).2.1 = c :: s ∧ ¬ isSep c := by
  have hp : ∀ (q : Prim) (x : q.Den), ∃ c s, q.text x = c :: s ∧ ¬ isSep c := by
    intro q x
    obtain ⟨h1, h2, -⟩ := q.text_bytes x
    cases h : q.text x with
    | nil => exact absurd h h2
    | cons c s => exact ⟨c, s, rfl, scalar_not_sep (h1 c (by rw [h]; simp))⟩
  have hn : ¬ isSep c!"n" := by rintro (h | h | h) <;> exact absurd h (by decide)
  have hq : ¬ isSep c!"\"" := by rintro (h | h | h) <;> exact absurd h (by decide)
  cases t with
  | num q =>
    simp only [Ty.write]
    split
    · exact ⟨_, _, rfl, hn⟩
    · exact hp _ _
  | raw q => exact hp _ _
  | str =>
    simp only [Ty.write]
    split
    · exact ⟨_, _, rfl, hn⟩
    · unfold stringWrite
      simp only
      split
      · exact ⟨_, _, rfl, hq⟩
      · exact ⟨_, _, rfl, hq⟩
  | bytes => exact ⟨_, _, rfl, hq⟩
  | rep t => exact ⟨_, _, rfl, by rintro (h | h | h) <;> exact absurd h (by decide)⟩
  | msg o fs => exact ⟨_, _, rfl, by rintro (h | h | h) <;> exact absurd h (by decide)⟩

theorem sep_close {c : Byte} (h : isSep c) (r : Bytes) : HeadIn isSep (c :: r) := .inr ⟨_, _, rfl, h⟩

/-- The text of a list of elements, with the closing bracket behind it, determines the elements. -/
theorem writeElems_unique {α : Type} {wr : α → ErrInfo → WRes} {R : α → α → Prop}
    (hh : ∀ x e, ∃ c s, (wr x e).2.1 = c :: s ∧ ¬ isSep c) :
    (xs ys : List α) →
    (∀ x ∈ xs, ∀ y ∈ ys, ∀ e e' r r', HeadIn isSep r → HeadIn isSep r' → (wr x e).2.1 ++ r = (wr y e').2.1 ++ r' → R x y ∧ r = r') →
    (e e' : ErrInfo) → (r r' : Bytes) →
    (writeElems wr xs e).1 ++ c!"]" :: r = (writeElems wr ys e').1 ++ c!"]" :: r' → Each R xs ys ∧ r = r'
  | [], [], _, _, _, r, r', h => by
    simp only [writeElems, List.nil_append, List.cons.injEq, true_and] at h
    exact ⟨.nil, h⟩
  | [], y :: ys, _, e, e', r, r', h => by
    exfalso
    obtain ⟨c, s, hc, hs⟩ := hh y e'
    have : ∃ s', (writeElems wr (y :: ys) e').1 = c :: s' := by
      cases ys with
      | nil => exact ⟨s, hc⟩
      | cons z zs =>
        simp only [writeElems, hc]
        exact ⟨_, rfl⟩
    obtain ⟨s', hs'⟩ := this
    rw [hs'] at h
    simp only [writeElems, List.nil_append, List.cons_append, List.cons.injEq] at h
    exact hs (.inr (.inl h.1.symm))
  | x :: xs, [], _, e, e', r, r', h => by
    exfalso
    obtain ⟨c, s, hc, hs⟩ := hh x e
    have : ∃ s', (writeElems wr (x :: xs) e).1 = c :: s' := by
      cases xs with
      | nil => exact ⟨s, hc⟩
      | cons z zs =>
        simp only [writeElems, hc]
        exact ⟨_, rfl⟩
    obtain ⟨s', hs'⟩ := this
    rw [hs'] at h
    simp only [writeElems, List.nil_append, List.cons_append, List.cons.injEq] at h
    exact hs (.inr (.inl h.1))
  | x :: xs, y :: ys, hw, e, e', r, r', h => by
    have hxy := hw x (by simp) y (by simp)
    have hc : ∀ q, HeadIn isSep (c!"," :: q) := fun q => sep_close (.inl rfl) q
    have hb : ∀ q, HeadIn isSep (c!"]" :: q) := fun q => sep_close (.inr (.inl rfl)) q
    cases xs with
    | nil =>
      cases ys with
      | nil =>
        simp only [writeElems] at h
        obtain ⟨h1, h2⟩ := hxy _ _ _ _ (hb _) (hb _) h
        injection h2 with _ h2
        exact ⟨.cons h1 .nil, h2⟩
      | cons z zs =>
        simp only [writeElems, List.append_assoc, List.cons_append] at h
        obtain ⟨-, h2⟩ := hxy _ _ _ _ (hb _) (hc _) h
        simp at h2
    | cons w ws =>
      cases ys with
      | nil =>
        simp only [writeElems, List.append_assoc, List.cons_append] at h
        obtain ⟨-, h2⟩ := hxy _ _ _ _ (hc _) (hb _) h
        simp at h2
      | cons z zs =>
        simp only [writeElems, List.append_assoc, List.cons_append] at h
        obtain ⟨h1, h2⟩ := hxy _ _ _ _ (hc _) (hc _) h
        injection h2 with _ h2
        obtain ⟨h3, h4⟩ := writeElems_unique hh (w :: ws) (z :: zs)
          (fun x hx y hy => hw x (List.mem_cons_of_mem _ hx) y (List.mem_cons_of_mem _ hy)) _ _ r r' h2
        exact ⟨.cons h1 h3, h4⟩

/-- What comes first in the text of a structure. -/
theorem Fields.write_start (p : Params) : (fs : Fields) → (v : fs.Den) → (first : Bool) → (e : ErrInfo) → (fs.LabelsOk) →
    (fs.write p v first e).1 = [] ∨ ∃ l ∈ fs.labels, (∀ b ∈ l, rfcRaw b) ∧
      ∃ s, (fs.write p v first e).1 = (if first then b!"\"" else b!",\"") ++ l ++ c!"\"" :: s
  | .nil, _, _, _, _ => .inl rfl
  | .cons f t rest, v, first, e, hl => by
    simp only [Fields.write, Fields.labels]
    cases hf : f.transient with
    | true => simpa using Fields.write_start p rest v.2 first e hl.2.2
    | false =>
      simp only [Bool.false_eq_true, if_false]
      split
      · refine .inr ⟨f.wlabel, by simp, hl.1 hf,
          c!":" :: ((t.write p v.1 e).2.1 ++ (rest.write p v.2 false (t.write p v.1 e).2.2).1), ?_⟩
        simp only [List.append_assoc, List.cons_append, List.nil_append]
      · rcases Fields.write_start p rest v.2 first e hl.2.2 with h | ⟨l, h1, h2, h3⟩
        · exact .inl h
        · exact .inr ⟨l, List.mem_cons_of_mem _ h1, h2, h3⟩

theorem opener {first : Bool} {x y : Bytes}
    (h : (if first then b!"\"" else b!",\"") ++ x = (if first then b!"\"" else b!",\"") ++ y) : x = y :=
  List.append_cancel_left h

/-- A structure whose first shown label is not among the labels of the other. -/
theorem Fields.write_clash (p : Params) (fs : Fields) (v : fs.Den) (first : Bool) (e : ErrInfo) (hl : fs.LabelsOk) {l s r : Bytes}
    (hr : ∀ b ∈ l, rfcRaw b) (hn : l ∉ fs.labels)
    (h : (if first then b!"\"" else b!",\"") ++ l ++ c!"\"" :: s = (fs.write p v first e).1 ++ c!"}" :: r) : False := by
  rcases Fields.write_start p fs v first e hl with h1 | ⟨l', h1, h2, s', h3⟩
  · rw [h1] at h
    cases first <;> simp at h
  · rw [h3] at h
    simp only [List.append_assoc, List.cons_append] at h
    obtain ⟨h4, -⟩ := quote_unique hr h2 (opener h)
    exact hn (h4 ▸ h1)

mutual
theorem Ty.write_unique (p : Params) : (t : Ty) → t.LabelsOk → (p.serializeNull = true ∨ t.Distinct) → (a b : t.Den) →
    (p.ensureAscii = true → t.Utf8s a) → (p.ensureAscii = true → t.Utf8s b) → (e e' : ErrInfo) → (r r' : Bytes) →
    HeadIn isSep r → HeadIn isSep r' → (t.write p a e).2.1 ++ r = (t.write p b e').2.1 ++ r' →
    t.Shows p.serializeNull a b ∧ r = r'
  | .num q, _, _, a, b, _, _, e, e', r, r', hr, hr', h => by
    have hb : ∀ x : q.Den, ∀ c ∈ q.text x, ¬ isSep c := fun x c hc => scalar_not_sep ((q.text_bytes x).1 c hc)
    have hn : ∀ c ∈ b!"null", ¬ isSep c := fun c hc => scalar_not_sep (by revert c; decide)
    have hne := fun x => (q.text_bytes x).2.2
    simp only [Ty.write] at h
    cases ha : a.empty <;> cases hb' : b.empty <;> simp only [ha, hb', Bool.false_eq_true, if_false, if_true] at h
    · obtain ⟨h1, h2⟩ := split_unique (hb _) (hb _) hr hr' h
      exact ⟨.inr ⟨ha, hb', (q.text_inj _ _).mp h1⟩, h2⟩
    · obtain ⟨h1, h2⟩ := split_unique (hb _) hn hr hr' h
      exact absurd h1 (hne _)
    · obtain ⟨h1, h2⟩ := split_unique hn (hb _) hr hr' h
      exact absurd h1.symm (hne _)
    · obtain ⟨h1, h2⟩ := split_unique hn hn hr hr' h
      exact ⟨.inl ⟨ha, hb'⟩, h2⟩
  | .raw q, _, _, a, b, _, _, e, e', r, r', hr, hr', h => by
    have hb : ∀ x : q.Den, ∀ c ∈ q.text x, ¬ isSep c := fun x c hc => scalar_not_sep ((q.text_bytes x).1 c hc)
    obtain ⟨h1, h2⟩ := split_unique (hb _) (hb _) hr hr' h
    exact ⟨(q.text_inj _ _).mp h1, h2⟩
  | .str, _, _, a, b, ua, ub, e, e', r, r', hr, hr', h => by
    simp only [Ty.write] at h
    have hn : ∀ c ∈ b!"null", ¬ isSep c := fun c hc => scalar_not_sep (by revert c; decide)
    have key : StrField.empty a = StrField.empty b ∧ (StrField.empty a = false → a.value = b.value) ∧ r = r' := by
      cases ha : StrField.empty a <;> cases hb : StrField.empty b <;>
        simp only [ha, hb, Bool.false_eq_true, if_false, if_true] at h
      · rw [stringWrite_eq ua, stringWrite_eq ub] at h
        simp only [List.cons_append, List.append_assoc, List.nil_append, List.cons.injEq, true_and] at h
        obtain ⟨h1, h2⟩ := chars_unique (body_chars ua).2 (body_chars ub).2 h
        exact ⟨rfl, fun _ => h1, h2⟩
      · rw [stringWrite_eq ua] at h
        simp at h
      · rw [stringWrite_eq ub] at h
        simp at h
      · obtain ⟨-, h2⟩ := split_unique hn hn hr hr' h
        exact ⟨rfl, by simp, h2⟩
    obtain ⟨k1, k2, k3⟩ := key
    refine ⟨?_, k3⟩
    show a.value = b.value ∧ (a.value = [] → a.null = b.null)
    unfold StrField.empty at k1 k2
    cases ha : a.value with
    | nil =>
      cases hb : b.value with
      | nil =>
        refine ⟨rfl, fun _ => ?_⟩
        simpa [ha, hb] using k1
      | cons c s =>
        have : (a.null && a.value.isEmpty) = false := by rw [k1, hb]; simp
        have := k2 this
        rw [ha, hb] at this
        cases this
    | cons c s =>
      refine ⟨?_, by simp⟩
      rw [← ha]
      exact k2 (by rw [ha]; simp)
  | .bytes, _, _, a, b, _, _, e, e', r, r', hr, hr', h => by
    simp only [Ty.write, List.cons_append, List.append_assoc, List.nil_append, List.cons.injEq, true_and] at h
    rw [b64Enc_eq, b64Enc_eq] at h
    obtain ⟨h1, h2⟩ := quote_unique (fun c hc => (base64_raw _ c hc).1) (fun c hc => (base64_raw _ c hc).1) h
    refine ⟨?_, h2⟩
    rw [← b64Enc_eq, ← b64Enc_eq] at h1
    have := congrArg b64Dec h1
    rw [b64Dec_enc, b64Dec_enc] at this
    exact congrArg Prod.fst this
  | .rep t, hl, hd, a, b, ua, ub, e, e', r, r', hr, hr', h => by
    simp only [Ty.write, List.cons_append, List.append_assoc, List.nil_append, List.cons.injEq, true_and] at h
    exact writeElems_unique (fun x e => t.write_head p x e) a b
      (fun x hx y hy e e' r r' h1 h2 h3 => Ty.write_unique p t hl hd x y (fun u => ua u x hx) (fun u => ub u y hy) e e' r r' h1 h2 h3)
      e e' r r' h
  | .msg _ fs, hl, hd, a, b, ua, ub, e, e', r, r', hr, hr', h => by
    simp only [Ty.write, List.cons_append, List.append_assoc, List.nil_append, List.cons.injEq, true_and] at h
    exact Fields.write_unique p fs hl hd a b ua ub true e e' r r' h
theorem Fields.write_unique (p : Params) : (fs : Fields) → fs.LabelsOk → (p.serializeNull = true ∨ (fs.labels.Nodup ∧ fs.Distinct)) →
    (a b : fs.Den) → (p.ensureAscii = true → fs.Utf8s a) → (p.ensureAscii = true → fs.Utf8s b) → (first : Bool) →
    (e e' : ErrInfo) → (r r' : Bytes) → (fs.write p a first e).1 ++ c!"}" :: r = (fs.write p b first e').1 ++ c!"}" :: r' →
    fs.Shows p.serializeNull a b ∧ r = r'
  | .nil, _, _, _, _, _, _, _, _, _, r, r', h => by
    simp only [Fields.write, List.nil_append, List.cons.injEq, true_and] at h
    exact ⟨trivial, h⟩
  | .cons f t rest, hl, hd, a, b, ua, ub, first, e, e', r, r', h => by
    simp only [Fields.write] at h
    have hd1 : p.serializeNull = true ∨ t.Distinct := hd.imp id (fun x => x.2.1)
    have hd2 : p.serializeNull = true ∨ (rest.labels.Nodup ∧ rest.Distinct) := by
      refine hd.imp id (fun x => ⟨?_, x.2.2⟩)
      have := x.1
      unfold Fields.labels at this
      split at this
      · exact this
      · exact (List.nodup_cons.mp this).2
    cases hf : f.transient with
    | true =>
      simp only [hf, if_true] at h
      obtain ⟨h1, h2⟩ := Fields.write_unique p rest hl.2.2 hd2 a.2 b.2 (fun u => (ua u).2) (fun u => (ub u).2) first e e' r r' h
      exact ⟨⟨by simp [hf], h1⟩, h2⟩
    | false =>
      have hlab := hl.1 hf
      have hnot : p.serializeNull = false → f.wlabel ∉ rest.labels := by
        intro hs
        rcases hd with hd | hd
        · rw [hs] at hd
          cases hd
        · have := hd.1
          unfold Fields.labels at this
          rw [hf] at this
          exact (List.nodup_cons.mp this).1
      simp only [hf, Bool.false_eq_true, if_false] at h
      cases sa : (p.serializeNull || !t.empty a.1) <;> cases sb : (p.serializeNull || !t.empty b.1) <;>
        simp only [sa, sb, Bool.false_eq_true, if_false, if_true] at h
      · obtain ⟨h1, h2⟩ := Fields.write_unique p rest hl.2.2 hd2 a.2 b.2 (fun u => (ua u).2) (fun u => (ub u).2) first e e' r r' h
        have ea := (hidden_iff _ _ _).mp sa
        have eb := (hidden_iff _ _ _).mp sb
        exact ⟨⟨fun _ => .inl ⟨ea.1, ea.2, eb.2⟩, h1⟩, h2⟩
      · have ea := (hidden_iff _ _ _).mp sa
        refine (Fields.write_clash p rest a.2 first e hl.2.2 hlab (hnot ea.1) (s := ?_) (r := r) ?_).elim
        rotate_left
        · rw [h]
          simp only [List.append_assoc, List.cons_append, List.nil_append]
          rfl
      · have eb := (hidden_iff _ _ _).mp sb
        refine (Fields.write_clash p rest b.2 first e' hl.2.2 hlab (hnot eb.1) (s := ?_) (r := r') ?_).elim
        rotate_left
        · rw [← h]
          simp only [List.append_assoc, List.cons_append, List.nil_append]
          rfl
      · have ea := (shown_iff _ _ _).mp sa
        have eb := (shown_iff _ _ _).mp sb
        simp only [List.append_assoc] at h
        have h := opener h
        have h := List.append_cancel_left h
        simp only [List.cons_append, List.nil_append, List.cons.injEq, true_and] at h
        have hst : ∀ (v : rest.Den) (e : ErrInfo) (r : Bytes), HeadIn isSep ((rest.write p v false e).1 ++ c!"}" :: r) := by
          intro v e r
          rcases Fields.write_start p rest v false e hl.2.2 with h1 | ⟨l', h1, h2, s', h3⟩
          · rw [h1]
            exact sep_close (.inr (.inr rfl)) _
          · rw [h3]
            exact sep_close (.inl rfl) _
        obtain ⟨h1, h2⟩ := Ty.write_unique p t hl.2.1 hd1 a.1 b.1 (fun u => (ua u).1 hf) (fun u => (ub u).1 hf) _ _ _ _
          (hst _ _ _) (hst _ _ _) h
        obtain ⟨h3, h4⟩ := Fields.write_unique p rest hl.2.2 hd2 a.2 b.2 (fun u => (ua u).2) (fun u => (ub u).2) false _ _ r r' h2
        exact ⟨⟨fun _ => .inr ⟨ea, eb, h1⟩, h3⟩, h4⟩
end

end PG
