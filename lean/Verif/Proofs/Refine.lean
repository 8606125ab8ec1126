import Verif.Proofs.LexStr
import Verif.Spec.Absorb
import Verif.Model.Read
/-
The readers refine the abstract semantics on every text of the wide grammar.
-/
namespace PG
open IStream

theorem expect_pos {tz : Tz} {t : TId} (h : tz.cur.id = t) : tz.expect t = (true, tz.next) := by
  simp [Tz.expect, h]

theorem expect_neg {tz : Tz} {t : TId} (h : tz.cur.id ≠ t) : tz.expect t = (false, tz) := by
  simp [Tz.expect, h]

theorem error_fst (tz : Tz) (e : ECode) : (tz.error e).1 = .error := by
  unfold Tz.error; split <;> rfl

theorem lex_ws {w : Bytes} (hw : Ws w) (bs : Bytes) (l c : Nat) :
    ∃ l' c', lex (skip (w ++ bs) l c) = lex (skip bs l' c') := by
  induction w generalizing l c with
  | nil => exact ⟨l, c, rfl⟩
  | cons b w ih =>
    have hb := hw b (by simp)
    have ih := fun l c => ih (fun x hx => hw x (by simp [hx])) l c
    by_cases h10 : b = 10
    · subst h10; rw [List.cons_append, skip_nl]; exact ih _ _
    · have hc : b = 32 ∨ b = 9 ∨ b = 13 := by
        simp [wsByte] at hb; rcases hb with ((h | h) | h) | h
        · exact .inl h
        · exact .inr (.inl h)
        · exact absurd h h10
        · exact .inr (.inr h)
      obtain ⟨l', c', ih⟩ := ih l (c + 1)
      refine ⟨l', c', ?_⟩
      rw [← ih, List.cons_append]
      conv => lhs; rw [lex]
      rw [dif_pos (skip_eof h10 _ _ _)]
      simp only [skip_peek h10, skip_next h10]
      rw [if_pos (by rcases hc with h | h | h <;> subst h <;> decide)]

theorem At.dropWs {tz : Tz} {w bs : Bytes} (h : At tz (w ++ bs)) (hw : Ws w) : At tz bs := by
  obtain ⟨l, c, h⟩ := h
  obtain ⟨l', c', h'⟩ := lex_ws hw bs l c
  exact ⟨l', c', by rw [← h', h]⟩

theorem Delim.comma (t : Bytes) : Delim (c!"," :: t) := Delim.cons (by decide) (by decide) (by decide)
theorem Delim.arre (t : Bytes) : Delim (c!"]" :: t) := Delim.cons (by decide) (by decide) (by decide)
theorem Delim.obje (t : Bytes) : Delim (c!"}" :: t) := Delim.cons (by decide) (by decide) (by decide)

/-- The text after a value is such that the value's last token ends where it should: nothing to ask after a string, an
array or an object. -/
def EndOk (j : J) (rest : Bytes) : Prop :=
  match j with
  | .str _ | .arr _ | .obj _ => True
  | _ => Delim rest

theorem Delim.endOk {rest : Bytes} (h : Delim rest) (j : J) : EndOk j rest := by
  cases j <;> first | exact h | trivial

/-- Identifier of the first token of a value's text. -/
def headTok : J → TId
  | .null => .nil
  | .bool true => .btrue
  | .bool false => .bfalse
  | .num _ => .number
  | .str _ => .string
  | .arr _ => .arrs
  | .obj _ => .objs

/-- Scalars are one token. -/
def scalarVal : J → Option Bytes
  | .null => some []
  | .bool _ => some []
  | .num l => some l
  | .str s => some s
  | .arr _ => none
  | .obj _ => none

theorem lexTo_scalar {j : J} {b rest val : Bytes} (h : JVal wide j b) (hr : EndOk j rest) (hs : scalarVal j = some val) :
    LexTo (b ++ rest) (headTok j) val rest := by
  cases j with
  | null => simp only [scalarVal, Option.some.injEq] at hs; subst hs; unfold JVal at h; subst h; exact LexTo.null hr.word
  | bool x =>
    simp only [scalarVal, Option.some.injEq] at hs; subst hs
    cases x
    · unfold JVal at h; subst h; exact LexTo.false hr.word
    · unfold JVal at h; subst h; exact LexTo.true hr.word
  | num l =>
    simp only [scalarVal, Option.some.injEq] at hs; subst hs; unfold JVal at h
    obtain ⟨rfl, h⟩ := h; exact LexTo.number h hr.num
  | str s =>
    simp only [scalarVal, Option.some.injEq] at hs; subst hs; unfold JVal at h
    obtain ⟨body, rfl, h⟩ := h
    show LexTo _ .string _ _
    simpa using LexTo.string h rest
  | arr _ => simp [scalarVal] at hs
  | obj _ => simp [scalarVal] at hs

theorem At.head {tz : Tz} {j : J} {b rest : Bytes} (ha : At tz (b ++ rest)) (h : JVal wide j b) (hr : EndOk j rest) :
    tz.cur.id = headTok j := by
  cases hj : scalarVal j with
  | some val => exact (ha.tok (lexTo_scalar h hr hj)).1
  | none =>
    cases j with
    | arr xs =>
      unfold JVal at h; obtain ⟨inner, rfl, -⟩ := h
      rw [List.cons_append] at ha
      exact (ha.tok (LexTo.arrs _)).1
    | obj ms =>
      unfold JVal at h; obtain ⟨inner, rfl, -⟩ := h
      rw [List.cons_append] at ha
      exact (ha.tok (LexTo.objs _)).1
    | null | bool | num | str => simp [scalarVal] at hj

theorem JVal_pos {j : J} {b : Bytes} (h : JVal wide j b) : 1 ≤ b.length := by
  cases j with
  | null => unfold JVal at h; subst h; decide
  | bool x => cases x <;> (unfold JVal at h; subst h; decide)
  | num l =>
    unfold JVal at h
    obtain ⟨rfl, ⟨x, t, rfl, -⟩, -⟩ := h
    simp
  | str s => unfold JVal at h; obtain ⟨body, rfl, h⟩ := h; simp
  | arr s => unfold JVal at h; obtain ⟨body, rfl, h⟩ := h; simp
  | obj s => unfold JVal at h; obtain ⟨body, rfl, h⟩ := h; simp

/-- A real token follows. -/
def Follow (rest : Bytes) : Prop := ∃ id val r, LexTo rest id val r ∧ id ≠ .none ∧ id ≠ .eos

theorem Follow.comma {w : Bytes} (hw : Ws w) (t : Bytes) : Follow (w ++ c!"," :: t) :=
  ⟨_, _, _, LexTo.ws hw (LexTo.comma t), by decide, by decide⟩
theorem Follow.arre {w : Bytes} (hw : Ws w) (t : Bytes) : Follow (w ++ c!"]" :: t) :=
  ⟨_, _, _, LexTo.ws hw (LexTo.arre t), by decide, by decide⟩
theorem Follow.obje {w : Bytes} (hw : Ws w) (t : Bytes) : Follow (w ++ c!"}" :: t) :=
  ⟨_, _, _, LexTo.ws hw (LexTo.obje t), by decide, by decide⟩

theorem ignore_scalar {j : J} {b rest val : Bytes} {k : Nat} {tz : Tz} (hs : scalarVal j = some val)
    (h : JVal wide j b) (hr : EndOk j rest) (hf : Follow rest) (hk : 1 ≤ k) (ha : At tz (b ++ rest)) :
    ∃ tz', ignoreValue k tz = (.ok, tz') ∧ At tz' rest := by
  obtain ⟨k, rfl⟩ : ∃ k', k = k' + 1 := ⟨k - 1, by omega⟩
  obtain ⟨h1, h2, h3⟩ := ha.tok (lexTo_scalar h hr hs)
  obtain ⟨id, v, r, hl, hn1, hn2⟩ := hf
  have h4 := (h3.tok hl).1
  refine ⟨tz.next, ?_, h3⟩
  have : tz.next.cur.id ≠ .none ∧ tz.next.cur.id ≠ .eos := by rw [h4]; exact ⟨hn1, hn2⟩
  unfold ignoreValue
  rw [h1]
  cases j with
  | arr _ => simp [scalarVal] at hs
  | obj _ => simp [scalarVal] at hs
  | bool x => cases x <;> simp [headTok, this.1, this.2]
  | _ => simp [headTok, this.1, this.2]

theorem ignoreArrLoop_end {tz : Tz} {w rest : Bytes} {k : Nat} (hw : Ws w) (hk : 1 ≤ k)
    (ha : At tz (w ++ c!"]" :: rest)) : ∃ tz', ignoreArrLoop k tz = (.ok, tz') ∧ At tz' rest := by
  obtain ⟨k, rfl⟩ : ∃ k', k = k' + 1 := ⟨k - 1, by omega⟩
  obtain ⟨h1, _, h3⟩ := ha.tok (LexTo.ws hw (LexTo.arre rest))
  refine ⟨tz.next, ?_, h3⟩
  unfold ignoreArrLoop ignoreArrEnd
  rw [if_pos h1, expect_pos h1]

theorem ignoreObjLoop_end {tz : Tz} {w rest : Bytes} {k : Nat} (hw : Ws w) (hk : 1 ≤ k)
    (ha : At tz (w ++ c!"}" :: rest)) : ∃ tz', ignoreObjLoop k tz = (.ok, tz') ∧ At tz' rest := by
  obtain ⟨k, rfl⟩ : ∃ k', k = k' + 1 := ⟨k - 1, by omega⟩
  obtain ⟨h1, _, h3⟩ := ha.tok (LexTo.ws hw (LexTo.obje rest))
  refine ⟨tz.next, ?_, h3⟩
  unfold ignoreObjLoop ignoreObjEnd
  rw [if_pos h1, expect_pos h1]

mutual

theorem ignore_val : (j : J) → ∀ {b rest : Bytes} {k : Nat} {tz : Tz}, JVal wide j b → Delim rest → Follow rest →
    2 * b.length ≤ k → At tz (b ++ rest) → ∃ tz', ignoreValue k tz = (.ok, tz') ∧ At tz' rest
  | .null, _, _, _, _, h, hr, hf, hk, ha => ignore_scalar rfl h (hr.endOk _) hf (by have := JVal_pos h; omega) ha
  | .bool _, _, _, _, _, h, hr, hf, hk, ha => ignore_scalar rfl h (hr.endOk _) hf (by have := JVal_pos h; omega) ha
  | .num _, _, _, _, _, h, hr, hf, hk, ha => ignore_scalar rfl h (hr.endOk _) hf (by have := JVal_pos h; omega) ha
  | .str _, _, _, _, _, h, hr, hf, hk, ha => ignore_scalar rfl h (hr.endOk _) hf (by have := JVal_pos h; omega) ha
  | .arr xs, b, rest, k, tz, h, _, _, hk, ha => by
    unfold JVal at h
    obtain ⟨inner, rfl, h⟩ := h
    simp only [List.cons_append, List.append_assoc, List.nil_append, List.length_cons, List.length_append,
      List.length_nil] at ha hk
    obtain ⟨k, rfl⟩ : ∃ k', k = k' + 1 := ⟨k - 1, by omega⟩
    obtain ⟨h1, -, h3⟩ := ha.tok (LexTo.arrs _)
    obtain ⟨tz', h4, h5⟩ := ignore_elems xs (k := k) h (by omega) h3
    refine ⟨tz', ?_, h5⟩
    unfold ignoreValue
    rw [h1]; exact h4
  | .obj ms, b, rest, k, tz, h, _, _, hk, ha => by
    unfold JVal at h
    obtain ⟨inner, rfl, h⟩ := h
    simp only [List.cons_append, List.append_assoc, List.nil_append, List.length_cons, List.length_append,
      List.length_nil] at ha hk
    obtain ⟨k, rfl⟩ : ∃ k', k = k' + 1 := ⟨k - 1, by omega⟩
    obtain ⟨h1, -, h3⟩ := ha.tok (LexTo.objs _)
    obtain ⟨tz', h4, h5⟩ := ignore_members ms (k := k) h (by omega) h3
    refine ⟨tz', ?_, h5⟩
    unfold ignoreValue
    rw [h1]; exact h4

theorem ignore_elems : (xs : JL) → ∀ {inner rest : Bytes} {k : Nat} {tz : Tz}, JElems wide xs inner →
    2 * inner.length + 1 ≤ k → At tz (inner ++ c!"]" :: rest) → ∃ tz', ignoreArrLoop k tz = (.ok, tz') ∧ At tz' rest
  | .nil, inner, rest, k, tz, h, hk, ha => by
    unfold JElems at h
    exact ignoreArrLoop_end h (by omega) ha
  | .cons j .nil, inner, rest, k, tz, h, hk, ha => by
    unfold JElems at h
    obtain ⟨w, b, w', rfl, hw, hj, hw'⟩ := h
    simp only [List.append_assoc, List.length_append] at ha hk
    have hb := JVal_pos hj
    obtain ⟨k, rfl⟩ : ∃ k', k = k' + 1 := ⟨k - 1, by omega⟩
    have ha := ha.dropWs hw
    have hd : Delim (w' ++ c!"]" :: rest) := Delim.ws hw' (Delim.arre _)
    have hid := ha.head hj (hd.endOk _)
    obtain ⟨tz1, h1, h2⟩ := ignore_val j (k := k) hj hd (Follow.arre hw' _) (by omega) ha
    have h2' := h2.dropWs hw'
    obtain ⟨h3, -, h4⟩ := h2'.tok (LexTo.arre _)
    refine ⟨tz1.next, ?_, h4⟩
    unfold ignoreArrLoop
    rw [if_neg (by rw [hid]; cases j with | bool x => cases x <;> decide | _ => simp [headTok]), h1]
    simp only
    rw [expect_neg (by rw [h3]; decide)]
    simp only [ignoreArrEnd, expect_pos h3]
  | .cons j (.cons j' t), inner, rest, k, tz, h, hk, ha => by
    unfold JElems at h
    obtain ⟨w, b, w', r, rfl, hw, hj, hw', hr⟩ := h
    simp only [List.append_assoc, List.length_append, List.cons_append, List.length_cons] at ha hk
    have hb := JVal_pos hj
    obtain ⟨k, rfl⟩ : ∃ k', k = k' + 1 := ⟨k - 1, by omega⟩
    have ha := ha.dropWs hw
    have hd : Delim (w' ++ c!"," :: (r ++ c!"]" :: rest)) := Delim.ws hw' (Delim.comma _)
    have hid := ha.head hj (hd.endOk _)
    obtain ⟨tz1, h1, h2⟩ := ignore_val j (k := k) hj hd (Follow.comma hw' _) (by omega) ha
    have h2' := h2.dropWs hw'
    obtain ⟨h3, -, h4⟩ := h2'.tok (LexTo.comma _)
    obtain ⟨tz2, h5, h6⟩ := ignore_elems (.cons j' t) (k := k) hr (by omega) h4
    refine ⟨tz2, ?_, h6⟩
    unfold ignoreArrLoop
    rw [if_neg (by rw [hid]; cases j with | bool x => cases x <;> decide | _ => simp [headTok]), h1]
    simp only
    rw [expect_pos h3]
    exact h5

theorem ignore_members : (ms : JM) → ∀ {inner rest : Bytes} {k : Nat} {tz : Tz}, JMembers wide ms inner →
    2 * inner.length + 1 ≤ k → At tz (inner ++ c!"}" :: rest) → ∃ tz', ignoreObjLoop k tz = (.ok, tz') ∧ At tz' rest
  | .nil, inner, rest, k, tz, h, hk, ha => by
    unfold JMembers at h
    exact ignoreObjLoop_end h (by omega) ha
  | .cons key j .nil, inner, rest, k, tz, h, hk, ha => by
    unfold JMembers at h
    obtain ⟨w, kb, w1, w2, b, w', rfl, hw, hkey, hw1, hw2, hj, hw'⟩ := h
    simp only [List.append_assoc, List.cons_append, List.length_append, List.length_cons] at ha hk
    have hb := JVal_pos hj
    obtain ⟨k, rfl⟩ : ∃ k', k = k' + 1 := ⟨k - 1, by omega⟩
    have ha := ha.dropWs hw
    obtain ⟨a1, -, a2⟩ := ha.tok (LexTo.string hkey _)
    have a2 := a2.dropWs hw1
    obtain ⟨a3, -, a4⟩ := a2.tok (LexTo.colon _)
    have a4 := a4.dropWs hw2
    have hd : Delim (w' ++ c!"}" :: rest) := Delim.ws hw' (Delim.obje _)
    obtain ⟨tz1, h1, h2⟩ := ignore_val j (k := k) hj hd (Follow.obje hw' _) (by omega) a4
    have h2' := h2.dropWs hw'
    obtain ⟨h3, -, h4⟩ := h2'.tok (LexTo.obje _)
    refine ⟨tz1.next, ?_, h4⟩
    unfold ignoreObjLoop
    rw [if_neg (by rw [a1]; decide), expect_pos a1]
    simp only
    rw [expect_pos a3]
    simp only
    rw [h1]
    simp only
    rw [expect_neg (by rw [h3]; decide)]
    simp only [ignoreObjEnd, expect_pos h3]
  | .cons key j (.cons key' j' t), inner, rest, k, tz, h, hk, ha => by
    unfold JMembers at h
    obtain ⟨w, kb, w1, w2, b, w', r, rfl, hw, hkey, hw1, hw2, hj, hw', hr⟩ := h
    simp only [List.append_assoc, List.cons_append, List.length_append, List.length_cons] at ha hk
    have hb := JVal_pos hj
    obtain ⟨k, rfl⟩ : ∃ k', k = k' + 1 := ⟨k - 1, by omega⟩
    have ha := ha.dropWs hw
    obtain ⟨a1, -, a2⟩ := ha.tok (LexTo.string hkey _)
    have a2 := a2.dropWs hw1
    obtain ⟨a3, -, a4⟩ := a2.tok (LexTo.colon _)
    have a4 := a4.dropWs hw2
    have hd : Delim (w' ++ c!"," :: (r ++ c!"}" :: rest)) := Delim.ws hw' (Delim.comma _)
    obtain ⟨tz1, h1, h2⟩ := ignore_val j (k := k) hj hd (Follow.comma hw' _) (by omega) a4
    have h2' := h2.dropWs hw'
    obtain ⟨h3, -, h4⟩ := h2'.tok (LexTo.comma _)
    obtain ⟨tz2, h5, h6⟩ := ignore_members (.cons key' j' t) (k := k) hr (by omega) h4
    refine ⟨tz2, ?_, h6⟩
    unfold ignoreObjLoop
    rw [if_neg (by rw [a1]; decide), expect_pos a1]
    simp only
    rw [expect_pos a3]
    simp only
    rw [h1]
    simp only
    rw [expect_pos h3]
    exact h5

end

/-- The reader result `res`, started at `tz`, agrees with the abstract result `r` and leaves the text `rest`. -/
def Refines {α : Type} (r : RC × α) (res : Res α) (tz : Tz) (rest : Bytes) : Prop :=
  match r.1 with
  | .ok => ∃ tz', res = (.ok, tz', r.2) ∧ At tz' rest
  | .nil => res = (.nil, tz, r.2)
  | .error => ∃ tz', res = (.error, tz', r.2)
  | .fuel => False

theorem refines_error {α : Type} {tz : Tz} {v : α} {e : ECode} {rest : Bytes} {tz0 : Tz} :
    Refines (.error, v) ((tz.error e).1, (tz.error e).2, v) tz0 rest := by
  refine ⟨(tz.error e).2, ?_⟩
  rw [error_fst]

theorem Prim.read_refines (p : Prim) (j : J) {b rest : Bytes} {tz : Tz} (v : p.Den) (h : JVal wide j b) (hr : EndOk j rest)
    (ha : At tz (b ++ rest)) : Refines (p.absorb j v) (p.read tz v) tz rest := by
  have hid := ha.head h hr
  cases p with
  | int k =>
    unfold Prim.read Prim.absorb
    cases j with
    | null => simp [hid, headTok, Refines]
    | num l =>
      obtain ⟨h1, h2, h3⟩ := ha.tok (lexTo_scalar h hr rfl)
      simp only [hid, headTok, Refines]
      exact ⟨tz.next, by simp [h2], h3⟩
    | bool x => cases x <;> (simp only [hid, headTok]; exact refines_error)
    | _ => simp only [hid, headTok]; exact refines_error
  | flt k =>
    unfold Prim.read Prim.absorb
    cases j with
    | null => simp [hid, headTok, Refines]
    | num l =>
      obtain ⟨h1, h2, h3⟩ := ha.tok (lexTo_scalar h hr rfl)
      simp only [hid, headTok, Refines]
      exact ⟨tz.next, by simp [h2], h3⟩
    | bool x => cases x <;> (simp only [hid, headTok]; exact refines_error)
    | _ => simp only [hid, headTok]; exact refines_error
  | bool =>
    unfold Prim.read Prim.absorb
    cases j with
    | null => simp [hid, headTok, Refines]
    | bool x =>
      obtain ⟨h1, h2, h3⟩ := ha.tok (lexTo_scalar h hr rfl)
      cases x <;> simp only [hid, headTok, Refines] <;> exact ⟨tz.next, by simp, h3⟩
    | _ => simp only [hid, headTok]; exact refines_error

theorem str_read_refines (j : J) {b rest : Bytes} {tz : Tz} (v : StrField) (h : JVal wide j b) (hr : EndOk j rest)
    (ha : At tz (b ++ rest)) : Refines (Ty.absorb .str j v) (StrField.read tz v) tz rest := by
  have hid := ha.head h hr
  unfold StrField.read stringRead
  simp only [Ty.absorb]
  cases j with
  | null => simp [hid, headTok, Refines, StrField.assignT]
  | str s =>
    obtain ⟨h1, h2, h3⟩ := ha.tok (lexTo_scalar h hr rfl)
    have h1 : tz.cur.id = .string := h1
    rw [expect_pos h1]
    simp only [h1, Refines]
    exact ⟨tz.next, by simp [h2, StrField.assignT], h3⟩
  | bool x =>
    rw [expect_neg (by rw [hid]; cases x <;> decide)]
    cases x <;> (simp only [hid, headTok, StrField.assignT]; exact refines_error)
  | num _ | arr _ | obj _ =>
    rw [expect_neg (by rw [hid]; simp [headTok])]
    simp only [hid, headTok, StrField.assignT]; exact refines_error

theorem bytes_read_refines (j : J) {b rest : Bytes} {tz : Tz} (v : List Byte) (h : JVal wide j b) (hr : EndOk j rest)
    (ha : At tz (b ++ rest)) : Refines (Ty.absorb .bytes j v) (bytesRead tz v) tz rest := by
  have hid := ha.head h hr
  unfold bytesRead
  simp only [Ty.absorb]
  cases j with
  | null => simp [hid, headTok, Refines]
  | str s =>
    obtain ⟨h1, h2, h3⟩ := ha.tok (lexTo_scalar h hr rfl)
    simp only [hid, headTok, Refines]
    refine ⟨_, by simp [h2]; rfl, ?_⟩
    split
    · exact h3.error _
    · exact h3
  | bool x => cases x <;> (simp only [hid, headTok]; exact refines_error)
  | num _ | arr _ | obj _ => simp only [hid, headTok]; exact refines_error

/-- The element reader behaves on all texts up to a size. -/
def ElemOk {α : Type} (N : Nat) (f : J → RC × α) (rd : Tz → Res α) : Prop :=
  ∀ (j : J) (b rest : Bytes) (tz : Tz), JVal wide j b → b.length ≤ N → Delim rest → At tz (b ++ rest) →
    Refines (f j) (rd tz) tz rest

theorem headTok_not_sep (j : J) : headTok j ≠ .comma ∧ headTok j ≠ .arre ∧ headTok j ≠ .obje ∧ headTok j ≠ .colon := by
  cases j with
  | bool x => cases x <;> simp [headTok]
  | _ => simp [headTok]

theorem readArrLoop_refines {α : Type} {N : Nat} {f : J → RC × α} {rd : Tz → Res α} (hrd : ElemOk N f rd) :
    (xs : JL) → ∀ {inner rest : Bytes} {m : Nat} {tz : Tz} (v : List α), xs ≠ .nil → JElems wide xs inner →
      inner.length ≤ N → inner.length + 1 ≤ m → At tz (inner ++ c!"]" :: rest) →
      ∀ tz0, Refines (absorbElems f xs v) (readArrLoop rd m tz v) tz0 rest
  | .nil, _, _, _, _, _, hne, _, _, _, _ => absurd rfl hne
  | .cons j .nil, inner, rest, m, tz, v, _, h, hN, hm, ha => by
    intro tz0
    unfold JElems at h
    obtain ⟨w, b, w', rfl, hw, hj, hw'⟩ := h
    simp only [List.append_assoc, List.length_append] at ha hm hN
    have hb := JVal_pos hj
    obtain ⟨m, rfl⟩ : ∃ k', m = k' + 1 := ⟨m - 1, by omega⟩
    have ha := ha.dropWs hw
    have hd : Delim (w' ++ c!"]" :: rest) := Delim.ws hw' (Delim.arre _)
    have hid := ha.head hj (hd.endOk _)
    have hR := hrd j b _ tz hj (by omega) hd ha
    unfold absorbElems readArrLoop
    revert hR
    rcases hf : f j with ⟨rc, x⟩
    intro hR
    cases rc with
    | ok =>
      obtain ⟨tz1, h1, h2⟩ := hR
      have h2' := h2.dropWs hw'
      obtain ⟨h3, -, h4⟩ := h2'.tok (LexTo.arre _)
      rw [h1]
      simp only [absorbElems]
      rw [expect_neg (by rw [h3]; decide)]
      simp only
      rw [expect_pos h3]
      exact ⟨tz1.next, rfl, h4⟩
    | nil =>
      unfold Refines at hR
      simp only at hR
      rw [hR]
      simp only
      rw [expect_neg (by rw [hid]; exact (headTok_not_sep j).1)]
      simp only
      rw [expect_neg (by rw [hid]; exact (headTok_not_sep j).2.1)]
      exact refines_error
    | error =>
      obtain ⟨tz1, h1⟩ := hR
      rw [h1]
      exact ⟨tz1, rfl⟩
    | fuel => exact absurd hR id
  | .cons j (.cons j' t), inner, rest, m, tz, v, _, h, hN, hm, ha => by
    intro tz0
    unfold JElems at h
    obtain ⟨w, b, w', r, rfl, hw, hj, hw', hr⟩ := h
    simp only [List.append_assoc, List.length_append, List.cons_append, List.length_cons] at ha hm hN
    have hb := JVal_pos hj
    obtain ⟨m, rfl⟩ : ∃ k', m = k' + 1 := ⟨m - 1, by omega⟩
    have ha := ha.dropWs hw
    have hd : Delim (w' ++ c!"," :: (r ++ c!"]" :: rest)) := Delim.ws hw' (Delim.comma _)
    have hid := ha.head hj (hd.endOk _)
    have hR := hrd j b _ tz hj (by omega) hd ha
    unfold absorbElems readArrLoop
    revert hR
    rcases hf : f j with ⟨rc, x⟩
    intro hR
    cases rc with
    | ok =>
      obtain ⟨tz1, h1, h2⟩ := hR
      have h2' := h2.dropWs hw'
      obtain ⟨h3, -, h4⟩ := h2'.tok (LexTo.comma _)
      rw [h1]
      simp only
      rw [expect_pos h3]
      exact readArrLoop_refines hrd (.cons j' t) (m := m) (v ++ [x]) (by simp) hr (by omega) (by omega) h4 tz0
    | nil =>
      unfold Refines at hR
      simp only at hR
      rw [hR]
      simp only
      rw [expect_neg (by rw [hid]; exact (headTok_not_sep j).1)]
      simp only
      rw [expect_neg (by rw [hid]; exact (headTok_not_sep j).2.1)]
      exact refines_error
    | error =>
      obtain ⟨tz1, h1⟩ := hR
      rw [h1]
      exact ⟨tz1, rfl⟩
    | fuel => exact absurd hR id

theorem readArr_refines {α : Type} {N n : Nat} {f : J → RC × α} {rd : Tz → Res α} (hrd : ElemOk N f rd)
    (j : J) {b rest : Bytes} {tz : Tz} (v : List α) (h : JVal wide j b) (hN : b.length ≤ N) (hn : b.length ≤ n)
    (hr : EndOk j rest) (ha : At tz (b ++ rest)) :
    Refines (match j with
      | .null => (.nil, v)
      | .arr xs => absorbElems f xs v
      | _ => (.error, v)) (readArr rd n tz v) tz rest := by
  have hid := ha.head h hr
  unfold readArr
  cases j with
  | null => simp [hid, headTok, Refines]
  | arr xs =>
    rw [if_neg (by rw [hid]; simp [headTok])]
    unfold JVal at h
    obtain ⟨inner, rfl, h⟩ := h
    simp only [List.cons_append, List.append_assoc, List.nil_append, List.length_cons, List.length_append,
      List.length_nil] at ha hn hN
    obtain ⟨h1, -, h3⟩ := ha.tok (LexTo.arrs _)
    rw [expect_pos h1]
    simp only
    cases xs with
    | nil =>
      unfold JElems at h
      obtain ⟨h4, -, h5⟩ := h3.tok (LexTo.ws h (LexTo.arre rest))
      rw [expect_pos h4]
      simp only [absorbElems]
      exact ⟨_, rfl, h5⟩
    | cons j' t =>
      have hne : tz.next.cur.id ≠ .arre := by
        cases t with
        | nil =>
          unfold JElems at h
          obtain ⟨w, b, w', rfl, hw, hj, hw'⟩ := h
          simp only [List.append_assoc] at h3
          rw [(h3.dropWs hw).head hj ((Delim.ws hw' (Delim.arre _)).endOk _)]
          exact (headTok_not_sep j').2.1
        | cons j'' t' =>
          unfold JElems at h
          obtain ⟨w, b, w', r, rfl, hw, hj, hw', -⟩ := h
          simp only [List.append_assoc, List.cons_append] at h3
          rw [(h3.dropWs hw).head hj ((Delim.ws hw' (Delim.comma _)).endOk _)]
          exact (headTok_not_sep j').2.1
      rw [expect_neg hne]
      exact readArrLoop_refines hrd (.cons j' t) v (by simp) h (by omega) (by omega) h3 tz
  | bool x =>
    rw [expect_neg (by rw [hid]; cases x <;> decide)]
    cases x <;> (simp only [hid, headTok]; exact refines_error)
  | _ =>
    rw [expect_neg (by rw [hid]; simp [headTok])]
    simp only [hid, headTok]; exact refines_error

/-- The field reader behaves on all texts up to a size. -/
def MembOk {α : Type} (N : Nat) (f : Bytes → J → α → RC × α) (rf : Bytes → Tz → α → Res α) : Prop :=
  ∀ (k : Bytes) (j : J) (b rest : Bytes) (tz : Tz) (v : α), JVal wide j b → b.length ≤ N → Delim rest →
    At tz (b ++ rest) → Refines (f k j v) (rf k tz v) tz rest

theorem readObjLoop_refines {α : Type} {N : Nat} {f : Bytes → J → α → RC × α} {rf : Bytes → Tz → α → Res α}
    (hrf : MembOk N f rf) :
    (ms : JM) → ∀ {inner rest : Bytes} {m : Nat} {tz : Tz} (v : α), ms ≠ .nil → JMembers wide ms inner →
      inner.length ≤ N → 2 * inner.length + 1 ≤ m → At tz (inner ++ c!"}" :: rest) →
      ∀ tz0, Refines (absorbMembers f ms v) (readObjLoop rf m tz v) tz0 rest
  | .nil, _, _, _, _, _, hne, _, _, _, _ => absurd rfl hne
  | .cons key j .nil, inner, rest, m, tz, v, _, h, hN, hm, ha => by
    intro tz0
    unfold JMembers at h
    obtain ⟨w, kb, w1, w2, b, w', rfl, hw, hkey, hw1, hw2, hj, hw'⟩ := h
    simp only [List.append_assoc, List.cons_append, List.length_append, List.length_cons] at ha hm hN
    have hb := JVal_pos hj
    obtain ⟨m, rfl⟩ : ∃ k', m = k' + 1 := ⟨m - 1, by omega⟩
    have ha := ha.dropWs hw
    obtain ⟨a1, a1', a2⟩ := ha.tok (LexTo.string hkey _)
    have a2 := a2.dropWs hw1
    obtain ⟨a3, -, a4⟩ := a2.tok (LexTo.colon _)
    have a4 := a4.dropWs hw2
    have hd : Delim (w' ++ c!"}" :: rest) := Delim.ws hw' (Delim.obje _)
    have hR := hrf key j b _ _ v hj (by omega) hd a4
    unfold absorbMembers readObjLoop
    simp only [expect_pos a1, expect_pos a3, a1']
    revert hR
    rcases hf : f key j v with ⟨rc, x⟩
    intro hR
    cases rc with
    | ok =>
      obtain ⟨tz1, h1, h2⟩ := hR
      obtain ⟨h3, -, h4⟩ := (h2.dropWs hw').tok (LexTo.obje _)
      rw [h1]
      simp only [absorbMembers, objStep]
      rw [expect_neg (by rw [h3]; decide)]
      simp only
      rw [expect_pos h3]
      exact ⟨tz1.next, rfl, h4⟩
    | nil =>
      unfold Refines at hR
      simp only at hR
      rw [hR]
      obtain ⟨tz1, h1, h2⟩ := ignore_val j (k := m) hj hd (Follow.obje hw' _) (by omega) a4
      obtain ⟨h3, -, h4⟩ := (h2.dropWs hw').tok (LexTo.obje _)
      simp only
      rw [h1]
      simp only [absorbMembers, objStep]
      rw [expect_neg (by rw [h3]; decide)]
      simp only
      rw [expect_pos h3]
      exact ⟨tz1.next, rfl, h4⟩
    | error =>
      obtain ⟨tz1, h1⟩ := hR
      rw [h1]
      exact ⟨tz1, rfl⟩
    | fuel => exact absurd hR id
  | .cons key j (.cons key' j' t), inner, rest, m, tz, v, _, h, hN, hm, ha => by
    intro tz0
    unfold JMembers at h
    obtain ⟨w, kb, w1, w2, b, w', r, rfl, hw, hkey, hw1, hw2, hj, hw', hr⟩ := h
    simp only [List.append_assoc, List.cons_append, List.length_append, List.length_cons] at ha hm hN
    have hb := JVal_pos hj
    obtain ⟨m, rfl⟩ : ∃ k', m = k' + 1 := ⟨m - 1, by omega⟩
    have ha := ha.dropWs hw
    obtain ⟨a1, a1', a2⟩ := ha.tok (LexTo.string hkey _)
    have a2 := a2.dropWs hw1
    obtain ⟨a3, -, a4⟩ := a2.tok (LexTo.colon _)
    have a4 := a4.dropWs hw2
    have hd : Delim (w' ++ c!"," :: (r ++ c!"}" :: rest)) := Delim.ws hw' (Delim.comma _)
    have hR := hrf key j b _ _ v hj (by omega) hd a4
    unfold absorbMembers readObjLoop
    simp only [expect_pos a1, expect_pos a3, a1']
    revert hR
    rcases hf : f key j v with ⟨rc, x⟩
    intro hR
    cases rc with
    | ok =>
      obtain ⟨tz1, h1, h2⟩ := hR
      obtain ⟨h3, -, h4⟩ := (h2.dropWs hw').tok (LexTo.comma _)
      rw [h1]
      simp only [objStep]
      rw [expect_pos h3]
      exact readObjLoop_refines hrf (.cons key' j' t) (m := m) x (by simp) hr (by omega) (by omega) h4 tz0
    | nil =>
      unfold Refines at hR
      simp only at hR
      rw [hR]
      obtain ⟨tz1, h1, h2⟩ := ignore_val j (k := m) hj hd (Follow.comma hw' _) (by omega) a4
      obtain ⟨h3, -, h4⟩ := (h2.dropWs hw').tok (LexTo.comma _)
      simp only
      rw [h1]
      simp only [objStep]
      rw [expect_pos h3]
      exact readObjLoop_refines hrf (.cons key' j' t) (m := m) x (by simp) hr (by omega) (by omega) h4 tz0
    | error =>
      obtain ⟨tz1, h1⟩ := hR
      rw [h1]
      exact ⟨tz1, rfl⟩
    | fuel => exact absurd hR id

theorem readObj_refines {α : Type} {N n : Nat} {f : Bytes → J → α → RC × α} {rf : Bytes → Tz → α → Res α}
    (hrf : MembOk N f rf) (j : J) {b rest : Bytes} {tz : Tz} (v : α) (h : JVal wide j b) (hN : b.length ≤ N)
    (hn : 2 * b.length ≤ n) (hr : EndOk j rest) (ha : At tz (b ++ rest)) :
    Refines (match j with
      | .null => (.nil, v)
      | .obj ms => absorbMembers f ms v
      | _ => (.error, v)) (readObj rf n tz v) tz rest := by
  have hid := ha.head h hr
  unfold readObj
  cases j with
  | null => simp [hid, headTok, Refines]
  | obj ms =>
    rw [if_neg (by rw [hid]; simp [headTok])]
    unfold JVal at h
    obtain ⟨inner, rfl, h⟩ := h
    simp only [List.cons_append, List.append_assoc, List.nil_append, List.length_cons, List.length_append,
      List.length_nil] at ha hn hN
    obtain ⟨h1, -, h3⟩ := ha.tok (LexTo.objs _)
    rw [expect_pos h1]
    simp only
    cases ms with
    | nil =>
      unfold JMembers at h
      obtain ⟨h4, -, h5⟩ := h3.tok (LexTo.ws h (LexTo.obje rest))
      rw [expect_pos h4]
      simp only [absorbMembers]
      exact ⟨_, rfl, h5⟩
    | cons k' j' t =>
      have hne : tz.next.cur.id ≠ .obje := by
        cases t with
        | nil =>
          unfold JMembers at h
          obtain ⟨w, kb, w1, w2, b, w', rfl, hw, hk, -⟩ := h
          simp only [List.append_assoc, List.cons_append] at h3
          rw [((h3.dropWs hw).tok (LexTo.string hk _)).1]
          decide
        | cons k'' j'' t' =>
          unfold JMembers at h
          obtain ⟨w, kb, w1, w2, b, w', r, rfl, hw, hk, -⟩ := h
          simp only [List.append_assoc, List.cons_append] at h3
          rw [((h3.dropWs hw).tok (LexTo.string hk _)).1]
          decide
      rw [expect_neg hne]
      exact readObjLoop_refines hrf (.cons k' j' t) v (by simp) h (by omega) (by omega) h3 tz
  | bool x =>
    rw [expect_neg (by rw [hid]; cases x <;> decide)]
    cases x <;> (simp only [hid, headTok]; exact refines_error)
  | _ =>
    rw [expect_neg (by rw [hid]; simp [headTok])]
    simp only [hid, headTok]; exact refines_error

theorem Refines.map {α β : Type} (g : α → β) {r : RC × α} {res : Res α} {tz : Tz} {rest : Bytes}
    (h : Refines r res tz rest) : Refines (r.1, g r.2) (res.1, res.2.1, g res.2.2) tz rest := by
  obtain ⟨rc, v⟩ := r
  unfold Refines at h ⊢
  cases rc with
  | ok => obtain ⟨tz', h1, h2⟩ := h; exact ⟨tz', by rw [h1], h2⟩
  | nil => simp only at h ⊢; rw [h]
  | error => obtain ⟨tz', h1⟩ := h; exact ⟨tz', by rw [h1]⟩
  | fuel => exact h

mutual

/-- **Refinement**: on a text of the wide grammar the reader computes the abstract result and stops right after the
value. -/
theorem Ty.read_refines : (t : Ty) → ∀ (n : Nat) (j : J) (b rest : Bytes) (tz : Tz) (v : t.Den), JVal wide j b →
    2 * b.length ≤ n → EndOk j rest → At tz (b ++ rest) → Refines (t.absorb j v) (t.read n tz v) tz rest
  | .num p, n, j, b, rest, tz, v, h, hn, hr, ha => by
    have hR := Prim.read_refines p j p.zero h hr ha
    simp only [Ty.absorb, Ty.read, NumField.read]
    revert hR
    rcases p.absorb j p.zero with ⟨rc, x⟩
    intro hR
    cases rc with
    | ok =>
      obtain ⟨tz1, h1, h2⟩ := hR
      rw [h1]; exact ⟨tz1, by simp [NumField.assignT], h2⟩
    | nil =>
      unfold Refines at hR ⊢; simp only at hR; rw [hR]; simp
    | error =>
      obtain ⟨tz1, h1⟩ := hR
      rw [h1]; exact ⟨tz1, by simp [NumField.assignT]⟩
    | fuel => exact absurd hR id
  | .raw p, n, j, b, rest, tz, v, h, hn, hr, ha => by
    simp only [Ty.absorb, Ty.read]
    exact Prim.read_refines p j v h hr ha
  | .str, n, j, b, rest, tz, v, h, hn, hr, ha => by
    have := str_read_refines j v h hr ha
    simpa only [Ty.read] using this
  | .bytes, n, j, b, rest, tz, v, h, hn, hr, ha => by
    have := bytes_read_refines j v h hr ha
    simpa only [Ty.read] using this
  | .rep t, n, j, b, rest, tz, v, h, hn, hr, ha => by
    have hE : ElemOk b.length (fun j => t.absorb j t.new) (fun tz => t.read n tz t.new) := by
      intro j' b' rest' tz' h' hb' hr' ha'
      exact Ty.read_refines t n j' b' rest' tz' t.new h' (by omega) (hr'.endOk _) ha'
    have := readArr_refines (n := n) hE j v h (Nat.le_refl _) (by omega) hr ha
    cases j <;> (simp only [Ty.read, Ty.absorb]; exact this)
  | .msg obf fs, n, j, b, rest, tz, v, h, hn, hr, ha => by
    have hM : MembOk b.length
        (fun k j (v : fs.Den) => match indexOf obf fs k with | none => (.nil, v) | some i => fs.absorbAt i j v)
        (fun name tz v => match indexOf obf fs name with | none => (.nil, tz, v) | some i => fs.readAt i n tz v) := by
      intro k j' b' rest' tz' v' h' hb' hr' ha'
      simp only
      cases indexOf obf fs k with
      | none => simp [Refines]
      | some i => exact Fields.readAt_refines fs i n j' b' rest' tz' v' h' (by omega) (hr'.endOk _) ha'
    have := readObj_refines hM j v h (Nat.le_refl _) hn hr ha
    cases j <;> (simp only [Ty.read, Ty.absorb]; exact this)

theorem Fields.readAt_refines : (fs : Fields) → ∀ (i n : Nat) (j : J) (b rest : Bytes) (tz : Tz) (v : fs.Den),
    JVal wide j b → 2 * b.length ≤ n → EndOk j rest → At tz (b ++ rest) →
    Refines (fs.absorbAt i j v) (fs.readAt i n tz v) tz rest
  | .nil, i, n, j, b, rest, tz, v, h, hn, hr, ha => by simp [Fields.absorbAt, Fields.readAt, Refines]
  | .cons f t rst, i, n, j, b, rest, tz, v, h, hn, hr, ha => by
    simp only [Fields.absorbAt, Fields.readAt]
    cases f.transient with
    | true => exact (Fields.readAt_refines rst i n j b rest tz v.2 h hn hr ha).map (fun x => (v.1, x))
    | false =>
      cases i with
      | zero => exact (Ty.read_refines t n j b rest tz v.1 h hn hr ha).map (fun x => (x, v.2))
      | succ i => exact (Fields.readAt_refines rst i n j b rest tz v.2 h hn hr ha).map (fun x => (v.1, x))

end

end PG
