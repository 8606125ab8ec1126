import Verif.Proofs.Begins
import Verif.Props.Errors
import Verif.Props.Failures
import Verif.Proofs.Survive
/-
The error a malformed base64 string leaves behind without stopping the reader.
-/
set_option autoImplicit false
namespace PG
open IStream

/-- The state after `k` more tokens. -/
def Tz.nth (tz : Tz) : Nat → Tz
  | 0 => tz
  | k + 1 => (tz.nth k).next

/-- The same token and the same input; the error record may be another. -/
def Tz.Same (a b : Tz) : Prop := a.cur = b.cur ∧ a.inp = b.inp

theorem Tz.Same.next {a b : Tz} (h : a.Same b) : a.next.Same b.next := by
  obtain ⟨h1, h2⟩ := h
  unfold Tz.next Tz.Same
  rw [h2]
  exact ⟨rfl, rfl⟩

theorem Tz.same_error {a b : Tz} (h : a.Same b) (c : ECode) : (a.error c).2.Same b := by
  unfold Tz.error
  split
  · exact h
  · exact h

theorem tokText_oneLex {id : TId} {val txt : Bytes} {s : IStream} (h : TokText id val txt s) (hid : id.Proper) : OneLex txt := by
  unfold TokText at h
  cases id with
  | none => exact absurd rfl hid.1
  | eos => exact absurd rfl hid.2
  | string => exact .inl ⟨.str val, h⟩
  | number => exact .inl ⟨.num val, h.1, h.2.1⟩
  | nil => exact .inl ⟨.null, h.1⟩
  | btrue => exact .inl ⟨.bool true, h.1⟩
  | bfalse => exact .inl ⟨.bool false, h.1⟩
  | _ => subst h; exact .inr (by decide)

/-- The way from the first token to the current one. -/
structure Way (tz0 : Tz) (s0 : IStream) (tz : Tz) (k : Nat) (ls : List Bytes) (s : IStream) : Prop where
  same : tz.Same (tz0.nth k)
  cur : Cur tz s
  passed : Passed s0 ls s
  lex : ∀ l ∈ ls, OneLex l

theorem Way.next {tz0 tz : Tz} {s0 s : IStream} {k : Nat} {ls : List Bytes} (h : Way tz0 s0 tz k ls s) (hid : tz.cur.id.Proper) :
    ∃ txt, Way tz0 s0 tz.next (k + 1) (ls ++ [txt]) tz.inp ∧ TokText tz.cur.id tz.cur.value txt tz.inp := by
  obtain ⟨h1, txt, h2, h3⟩ := h.cur.tok hid.1
  refine ⟨txt, ⟨h.same.next, h1, Passed.append ls h.passed h2, ?_⟩, h3⟩
  intro l hl
  rcases List.mem_append.mp hl with hl | hl
  · exact h.lex l hl
  · simp only [List.mem_singleton] at hl
    subst hl
    exact tokText_oneLex h3 hid

theorem Way.error {tz0 tz : Tz} {s0 s : IStream} {k : Nat} {ls : List Bytes} (h : Way tz0 s0 tz k ls s) (c : ECode) :
    Way tz0 s0 (tz.error c).2 k ls s := by
  unfold Tz.error
  split
  · exact h
  · exact ⟨h.same, h.cur, h.passed, h.lex⟩

/-- The record was left by a string that cannot be base64: it carries PGERR_INVALID_OBJECT and the position of the token
behind the string. -/
def LeftBy (tz0 : Tz) (s0 : IStream) (tz : Tz) (k : Nat) : Prop :=
  ∃ i ls l y s, i + 1 ≤ k ∧ (∀ x ∈ ls, OneLex x) ∧ Blot l ∧ (tz0.nth i).cur.id = .string ∧
    (tz0.nth i).cur.value.length % 4 ≠ 0 ∧ Way tz0 s0 y (i + 1) (ls ++ [l]) s ∧
    tz.err = ⟨.invalidBase64, y.cur.line, y.cur.col⟩

/-- The history of a call. -/
def Hist.blots (tz0 : Tz) (s0 : IStream) : Hist where
  K := fun tz => ∃ k ls s, Way tz0 s0 tz k ls s
  B := fun tz => ∃ k ls s, Way tz0 s0 tz k ls s ∧ LeftBy tz0 s0 tz k
  knext := by
    rintro tz ⟨k, ls, s, h⟩ hid
    obtain ⟨txt, h1, -⟩ := h.next hid
    exact ⟨_, _, _, h1⟩
  bnext := by
    rintro tz ⟨k, ls, s, h, i, us, l, y, s', h1, h2⟩ hid
    obtain ⟨txt, h3, -⟩ := h.next hid
    exact ⟨_, _, _, h3, i, us, l, y, s', by omega, h2⟩
  late := by
    rintro tz ⟨k, ls, s, h, i, us, l, y, s', h1, h2, h3, h4, h5, h6, h7⟩ he
    rw [h7] at he
    cases he

theorem strMeans_noNul {o : Option Nat} {body s : Bytes} (h : StrMeans o body s) : (∀ hi, o = some hi → hi ≤ 0xDBFF) → ∀ b ∈ s, b ≠ 0 := by
  induction h with
  | nil => intro _ b hb; cases hb
  | raw hb _ ih =>
    intro ho b hx
    rcases List.mem_cons.mp hx with rfl | hx
    · exact hb.1
    · exact ih ho b hx
  | @esc p e b t c he _ ih =>
    intro ho x hx
    have hkey : ∀ q ∈ shortEscapes, q.2 ≠ 0 := by decide
    rcases List.mem_cons.mp hx with rfl | hx
    · exact hkey _ he
    · exact ih ho x hx
  | @uni p h cp t c hh _ hu _ ih =>
    intro _ x hx
    rcases List.mem_append.mp hx with hx | hx
    · rintro rfl; exact utf8_no_zero hu (Nat.lt_trans hh.lt (by decide)) hx
    · exact ih (by simp) x hx
  | @high p h hi t c hh h1 h2 _ ih =>
    intro _
    exact ih (fun hi' h => by cases h; exact h2)
  | @low h hi lo t c hh h1 h2 _ ih =>
    intro ho x hx
    have := ho _ rfl
    rcases List.mem_append.mp hx with hx | hx
    · rintro rfl; exact utf8_no_zero (by omega) (by omega) hx
    · exact ih (by simp) x hx

theorem Hist.blots_notes (tz0 : Tz) (s0 : IStream) : (Hist.blots tz0 s0).Notes := by
  rintro tz ⟨k, ls, s, h⟩ he hid hb
  obtain ⟨txt, h1, h2⟩ := h.next (by rw [hid]; decide)
  rw [hid] at h2
  have hlen : tz.cur.value.length % 4 ≠ 0 := by
    obtain ⟨body, -, hm⟩ := h2
    exact (b64Dec_length _ (strMeans_noNul hm (by simp))).1 hb
  have hs := h.same.1
  refine ⟨_, _, _, h1.error _, k, ls, txt, (tz.next.error .invalidBase64).2, tz.inp, Nat.le_refl _, h.lex, ⟨_, h2, hlen⟩, by rw [← hs]; exact hid,
    by rw [← hs]; exact hlen, h1.error _, ?_⟩
  have hn : tz.next.err.code = .ok := he
  unfold Tz.error
  rw [if_neg (by rw [hn]; simp)]

theorem nth_steps (tz : Tz) : (k : Nat) → Steps k tz (tz.nth k)
  | 0 => .refl _
  | k + 1 => .next (nth_steps tz k)

theorem blots_open (input : Bytes) (e : ErrInfo) : (Hist.blots (Tz.open' (IStream.open' input) e) (IStream.open' input)).K
    (Tz.open' (IStream.open' input) e) :=
  ⟨0, [], _, ⟨rfl, rfl⟩, ⟨skip_norm _ _ _, rfl⟩, rfl, by simp⟩

end PG
