import Verif.Proofs.Refine
import Verif.Model.Depth
import Verif.Spec.Depth
/-
The levels the readers use on texts of the wide grammar.
-/
set_option autoImplicit false
namespace PG
open IStream

theorem ignoreDepth_scalar {j : J} {b rest val : Bytes} {k : Nat} {tz : Tz} (hs : scalarVal j = some val)
    (h : JVal wide j b) (hr : EndOk j rest) (hk : 1 ≤ k) (ha : At tz (b ++ rest)) : ignoreDepth k tz = 1 := by
  obtain ⟨k, rfl⟩ : ∃ k', k = k' + 1 := ⟨k - 1, by omega⟩
  have h1 := ha.head h hr
  unfold ignoreDepth
  rw [h1]
  cases j with
  | arr _ => simp [scalarVal] at hs
  | obj _ => simp [scalarVal] at hs
  | bool x => cases x <;> rfl
  | _ => rfl

mutual

theorem ignoreDepth_val : (j : J) → ∀ {b rest : Bytes} {k : Nat} {tz : Tz}, JVal wide j b → Delim rest → 
    2 * b.length ≤ k → At tz (b ++ rest) → ignoreDepth k tz = j.levels
  | .null, _, _, _, _, h, hr, hk, ha => ignoreDepth_scalar rfl h (hr.endOk _) (by have := JVal_pos h; omega) ha
  | .bool _, _, _, _, _, h, hr, hk, ha => ignoreDepth_scalar rfl h (hr.endOk _) (by have := JVal_pos h; omega) ha
  | .num _, _, _, _, _, h, hr, hk, ha => ignoreDepth_scalar rfl h (hr.endOk _) (by have := JVal_pos h; omega) ha
  | .str _, _, _, _, _, h, hr, hk, ha => ignoreDepth_scalar rfl h (hr.endOk _) (by have := JVal_pos h; omega) ha
  | .arr xs, b, rest, k, tz, h, _, hk, ha => by
    unfold JVal at h
    obtain ⟨inner, rfl, h⟩ := h
    simp only [List.cons_append, List.append_assoc, List.nil_append, List.length_cons, List.length_append,
      List.length_nil] at ha hk
    obtain ⟨k, rfl⟩ : ∃ k', k = k' + 1 := ⟨k - 1, by omega⟩
    obtain ⟨h1, -, h3⟩ := ha.tok (LexTo.arrs _)
    have h4 := ignoreDepth_elems xs (k := k) h (by omega) h3
    unfold ignoreDepth J.levels
    rw [h1]
    simp only [h4]
  | .obj ms, b, rest, k, tz, h, _, hk, ha => by
    unfold JVal at h
    obtain ⟨inner, rfl, h⟩ := h
    simp only [List.cons_append, List.append_assoc, List.nil_append, List.length_cons, List.length_append,
      List.length_nil] at ha hk
    obtain ⟨k, rfl⟩ : ∃ k', k = k' + 1 := ⟨k - 1, by omega⟩
    obtain ⟨h1, -, h3⟩ := ha.tok (LexTo.objs _)
    have h4 := ignoreDepth_members ms (k := k) h (by omega) h3
    unfold ignoreDepth J.levels
    rw [h1]
    simp only [h4]

theorem ignoreDepth_elems : (xs : JL) → ∀ {inner rest : Bytes} {k : Nat} {tz : Tz}, JElems wide xs inner →
    2 * inner.length + 1 ≤ k → At tz (inner ++ c!"]" :: rest) → ignoreArrDepth k tz = xs.levels
  | .nil, inner, rest, k, tz, h, hk, ha => by
    unfold JElems at h
    obtain ⟨k, rfl⟩ : ∃ k', k = k' + 1 := ⟨k - 1, by omega⟩
    obtain ⟨h1, _, h3⟩ := ha.tok (LexTo.ws h (LexTo.arre rest))
    unfold ignoreArrDepth
    rw [if_pos h1]; rfl
  | .cons j .nil, inner, rest, k, tz, h, hk, ha => by
    unfold JElems at h
    obtain ⟨w, b, w', rfl, hw, hj, hw'⟩ := h
    simp only [List.append_assoc, List.length_append] at ha hk
    have hb := JVal_pos hj
    obtain ⟨k, rfl⟩ : ∃ k', k = k' + 1 := ⟨k - 1, by omega⟩
    have ha := ha.dropWs hw
    have hd : Delim (w' ++ c!"]" :: rest) := Delim.ws hw' (Delim.arre _)
    have hid := ha.head hj (hd.endOk _)
    have hdp := ignoreDepth_val j (k := k) hj hd (by omega) ha
    obtain ⟨tz1, h1, h2⟩ := ignore_val j (k := k) hj hd (Follow.arre hw' _) (by omega) ha
    have h2' := h2.dropWs hw'
    obtain ⟨h3, -, h4⟩ := h2'.tok (LexTo.arre _)
    unfold ignoreArrDepth
    rw [if_neg (by rw [hid]; cases j with | bool x => cases x <;> decide | _ => simp [headTok]), h1, hdp]
    simp only
    rw [expect_neg (by rw [h3]; decide)]
    rfl
  | .cons j (.cons j' t), inner, rest, k, tz, h, hk, ha => by
    unfold JElems at h
    obtain ⟨w, b, w', r, rfl, hw, hj, hw', hr⟩ := h
    simp only [List.append_assoc, List.length_append, List.cons_append, List.length_cons] at ha hk
    have hb := JVal_pos hj
    obtain ⟨k, rfl⟩ : ∃ k', k = k' + 1 := ⟨k - 1, by omega⟩
    have ha := ha.dropWs hw
    have hd : Delim (w' ++ c!"," :: (r ++ c!"]" :: rest)) := Delim.ws hw' (Delim.comma _)
    have hid := ha.head hj (hd.endOk _)
    have hdp := ignoreDepth_val j (k := k) hj hd (by omega) ha
    obtain ⟨tz1, h1, h2⟩ := ignore_val j (k := k) hj hd (Follow.comma hw' _) (by omega) ha
    have h2' := h2.dropWs hw'
    obtain ⟨h3, -, h4⟩ := h2'.tok (LexTo.comma _)
    have h5 := ignoreDepth_elems (.cons j' t) (k := k) hr (by omega) h4
    unfold ignoreArrDepth
    rw [if_neg (by rw [hid]; cases j with | bool x => cases x <;> decide | _ => simp [headTok]), h1, hdp]
    simp only
    rw [expect_pos h3]
    simp only [h5]
    rfl

theorem ignoreDepth_members : (ms : JM) → ∀ {inner rest : Bytes} {k : Nat} {tz : Tz}, JMembers wide ms inner →
    2 * inner.length + 1 ≤ k → At tz (inner ++ c!"}" :: rest) → ignoreObjDepth k tz = ms.levels
  | .nil, inner, rest, k, tz, h, hk, ha => by
    unfold JMembers at h
    obtain ⟨k, rfl⟩ : ∃ k', k = k' + 1 := ⟨k - 1, by omega⟩
    obtain ⟨h1, _, h3⟩ := ha.tok (LexTo.ws h (LexTo.obje rest))
    unfold ignoreObjDepth
    rw [if_pos h1]; rfl
  | .cons key j .nil, inner, rest, k, tz, h, hk, ha => by
    unfold JMembers at h
    obtain ⟨w, kb, w1, w2, b, w', rfl, hw, hkey, hw1, hw2, hj, hw'⟩ := h
    simp only [List.append_assoc, List.cons_append, List.length_append, List.length_cons] at ha hk
    have hb := JVal_pos hj
    obtain ⟨k, rfl⟩ : ∃ k', k = k' + 1 := ⟨k - 1, by omega⟩
    have ha := ha.dropWs hw
    obtain ⟨a1, -, a2⟩ := ha.tok (LexTo.string hkey _)
    have a2 := a2.dropWs hw1
    obtain ⟨a3, -, a4⟩ := a2.tok (LexTo.colon _)
    have a4 := a4.dropWs hw2
    have hd : Delim (w' ++ c!"}" :: rest) := Delim.ws hw' (Delim.obje _)
    have hdp := ignoreDepth_val j (k := k) hj hd (by omega) a4
    obtain ⟨tz1, h1, h2⟩ := ignore_val j (k := k) hj hd (Follow.obje hw' _) (by omega) a4
    have h2' := h2.dropWs hw'
    obtain ⟨h3, -, h4⟩ := h2'.tok (LexTo.obje _)
    unfold ignoreObjDepth
    rw [if_neg (by rw [a1]; decide), expect_pos a1]
    simp only
    rw [expect_pos a3]
    simp only
    rw [h1, hdp]
    simp only
    rw [expect_neg (by rw [h3]; decide)]
    rfl
  | .cons key j (.cons key' j' t), inner, rest, k, tz, h, hk, ha => by
    unfold JMembers at h
    obtain ⟨w, kb, w1, w2, b, w', r, rfl, hw, hkey, hw1, hw2, hj, hw', hr⟩ := h
    simp only [List.append_assoc, List.cons_append, List.length_append, List.length_cons] at ha hk
    have hb := JVal_pos hj
    obtain ⟨k, rfl⟩ : ∃ k', k = k' + 1 := ⟨k - 1, by omega⟩
    have ha := ha.dropWs hw
    obtain ⟨a1, -, a2⟩ := ha.tok (LexTo.string hkey _)
    have a2 := a2.dropWs hw1
    obtain ⟨a3, -, a4⟩ := a2.tok (LexTo.colon _)
    have a4 := a4.dropWs hw2
    have hd : Delim (w' ++ c!"," :: (r ++ c!"}" :: rest)) := Delim.ws hw' (Delim.comma _)
    have hdp := ignoreDepth_val j (k := k) hj hd (by omega) a4
    obtain ⟨tz1, h1, h2⟩ := ignore_val j (k := k) hj hd (Follow.comma hw' _) (by omega) a4
    have h2' := h2.dropWs hw'
    obtain ⟨h3, -, h4⟩ := h2'.tok (LexTo.comma _)
    have h5 := ignoreDepth_members (.cons key' j' t) (k := k) hr (by omega) h4
    unfold ignoreObjDepth
    rw [if_neg (by rw [a1]; decide), expect_pos a1]
    simp only
    rw [expect_pos a3]
    simp only
    rw [h1, hdp]
    simp only
    rw [expect_pos h3]
    simp only [h5]
    rfl

end

/-- The levels `d` used by a reader with abstract return code `rc`: never more than `l`, and exactly `l` unless reading
fails. -/
def Uses (rc : RC) (d l : Nat) : Prop := d ≤ l ∧ (rc ≠ .error → d = l)

theorem Uses.rfl' {rc : RC} {d : Nat} : Uses rc d d := ⟨Nat.le_refl _, fun _ => rfl⟩

theorem Uses.error {d l : Nat} (h : d ≤ l) : Uses .error d l := ⟨h, fun h => absurd rfl h⟩

/-- The element reader's levels on all texts up to a size. -/
def ElemUses {α : Type} (N : Nat) (f : J → RC × α) (lv : J → Nat) (dp : Tz → Nat) : Prop :=
  ∀ (j : J) (b rest : Bytes) (tz : Tz), JVal wide j b → b.length ≤ N → Delim rest → At tz (b ++ rest) →
    Uses (f j).1 (dp tz) (lv j)

theorem readArrLoop_uses {α : Type} {N : Nat} {f : J → RC × α} {lv : J → Nat} {rd : Tz → Res α} {dp : Tz → Nat}
    (hrd : ElemOk N f rd) (hdp : ElemUses N f lv dp) :
    (xs : JL) → ∀ {inner rest : Bytes} {m : Nat} {tz : Tz} (v : List α), xs ≠ .nil → JElems wide xs inner →
      inner.length ≤ N → inner.length + 1 ≤ m → At tz (inner ++ c!"]" :: rest) →
      Uses (absorbElems f xs v).1 (readArrLoopDepth rd dp m tz) (xs.most lv)
  | .nil, _, _, _, _, _, hne, _, _, _, _ => absurd rfl hne
  | .cons j .nil, inner, rest, m, tz, v, _, h, hN, hm, ha => by
    unfold JElems at h
    obtain ⟨w, b, w', rfl, hw, hj, hw'⟩ := h
    simp only [List.append_assoc, List.length_append] at ha hm hN
    have hb := JVal_pos hj
    obtain ⟨m, rfl⟩ : ∃ k', m = k' + 1 := ⟨m - 1, by omega⟩
    have ha := ha.dropWs hw
    have hd : Delim (w' ++ c!"]" :: rest) := Delim.ws hw' (Delim.arre _)
    have hid := ha.head hj (hd.endOk _)
    have hR := hrd j b _ tz hj (by omega) hd ha
    obtain ⟨hU1, hU2⟩ := hdp j b _ tz hj (by omega) hd ha
    unfold absorbElems readArrLoopDepth
    revert hR hU1 hU2
    rcases hf : f j with ⟨rc, x⟩
    intro hR hU1 hU2
    simp only [JL.most]
    cases rc with
    | ok =>
      obtain ⟨tz1, h1, h2⟩ := hR
      have h2' := h2.dropWs hw'
      obtain ⟨h3, -, h4⟩ := h2'.tok (LexTo.arre _)
      rw [h1]
      simp only [absorbElems]
      rw [expect_neg (by rw [h3]; decide), hU2 (by simp)]
      exact Uses.rfl'
    | nil =>
      unfold Refines at hR
      simp only at hR
      rw [hR]
      simp only
      rw [expect_neg (by rw [hid]; exact (headTok_not_sep j).1)]
      exact Uses.error (Nat.max_le.mpr ⟨Nat.le_trans hU1 (Nat.le_max_left _ _), Nat.zero_le _⟩)
    | error =>
      obtain ⟨tz1, h1⟩ := hR
      rw [h1]
      exact Uses.error (Nat.max_le.mpr ⟨Nat.le_trans hU1 (Nat.le_max_left _ _), Nat.zero_le _⟩)
    | fuel => exact absurd hR id
  | .cons j (.cons j' t), inner, rest, m, tz, v, _, h, hN, hm, ha => by
    unfold JElems at h
    obtain ⟨w, b, w', r, rfl, hw, hj, hw', hr⟩ := h
    simp only [List.append_assoc, List.length_append, List.cons_append, List.length_cons] at ha hm hN
    have hb := JVal_pos hj
    obtain ⟨m, rfl⟩ : ∃ k', m = k' + 1 := ⟨m - 1, by omega⟩
    have ha := ha.dropWs hw
    have hd : Delim (w' ++ c!"," :: (r ++ c!"]" :: rest)) := Delim.ws hw' (Delim.comma _)
    have hid := ha.head hj (hd.endOk _)
    have hR := hrd j b _ tz hj (by omega) hd ha
    obtain ⟨hU1, hU2⟩ := hdp j b _ tz hj (by omega) hd ha
    unfold absorbElems readArrLoopDepth
    revert hR hU1 hU2
    rcases hf : f j with ⟨rc, x⟩
    intro hR hU1 hU2
    rw [show (JL.cons j (.cons j' t)).most lv = Nat.max (lv j) ((JL.cons j' t).most lv) from rfl]
    cases rc with
    | ok =>
      obtain ⟨tz1, h1, h2⟩ := hR
      have h2' := h2.dropWs hw'
      obtain ⟨h3, -, h4⟩ := h2'.tok (LexTo.comma _)
      rw [h1]
      simp only
      rw [expect_pos h3, hU2 (by simp)]
      obtain ⟨g1, g2⟩ := readArrLoop_uses hrd hdp (.cons j' t) (m := m) (v ++ [x]) (by simp) hr (by omega) (by omega) h4
      exact ⟨Nat.max_le.mpr ⟨Nat.le_max_left _ _, Nat.le_trans g1 (Nat.le_max_right _ _)⟩,
        fun hne => by simp only [g2 hne]⟩
    | nil =>
      unfold Refines at hR
      simp only at hR
      rw [hR]
      simp only
      rw [expect_neg (by rw [hid]; exact (headTok_not_sep j).1)]
      exact Uses.error (Nat.max_le.mpr ⟨Nat.le_trans hU1 (Nat.le_max_left _ _), Nat.zero_le _⟩)
    | error =>
      obtain ⟨tz1, h1⟩ := hR
      rw [h1]
      exact Uses.error (Nat.max_le.mpr ⟨Nat.le_trans hU1 (Nat.le_max_left _ _), Nat.zero_le _⟩)
    | fuel => exact absurd hR id

/-- The first token inside the brackets of an array that is not empty does not close it. -/
theorem At.elems_ne {tz : Tz} {j' : J} {t : JL} {inner rest : Bytes} (h : JElems wide (.cons j' t) inner)
    (h3 : At tz (inner ++ c!"]" :: rest)) : tz.cur.id ≠ .arre := by
  cases t with
  | nil =>
    unfold JElems at h
    obtain ⟨w, b, w', rfl, hw, hj, hw'⟩ := h
    simp only [List.append_assoc] at h3
    rw [(h3.dropWs hw).head hj ((Delim.ws hw' (Delim.arre _)).endOk _)]
    exact (headTok_not_sep j').2.1
  | cons j'' t' =>
    unfold JElems at h
    obtain ⟨w, b, w', r, rfl, hw, hj, hw', -⟩ := h
    simp only [List.append_assoc, List.cons_append] at h3
    rw [(h3.dropWs hw).head hj ((Delim.ws hw' (Delim.comma _)).endOk _)]
    exact (headTok_not_sep j').2.1

/-- The first token inside the braces of an object that is not empty does not close it. -/
theorem At.members_ne {tz : Tz} {k' : Bytes} {j' : J} {t : JM} {inner rest : Bytes} (h : JMembers wide (.cons k' j' t) inner)
    (h3 : At tz (inner ++ c!"}" :: rest)) : tz.cur.id ≠ .obje := by
  cases t with
  | nil =>
    unfold JMembers at h
    obtain ⟨w, kb, w1, w2, b, w', rfl, hw, hk, -⟩ := h
    simp only [List.append_assoc, List.cons_append] at h3
    rw [((h3.dropWs hw).tok (LexTo.string hk _)).1]
    decide
  | cons k'' j'' t' =>
    unfold JMembers at h
    obtain ⟨w, kb, w1, w2, b, w', r, rfl, hw, hk, -⟩ := h
    simp only [List.append_assoc, List.cons_append] at h3
    rw [((h3.dropWs hw).tok (LexTo.string hk _)).1]
    decide

theorem readArr_uses {α : Type} {N n : Nat} {f : J → RC × α} {lv : J → Nat} {rd : Tz → Res α} {dp : Tz → Nat}
    (hrd : ElemOk N f rd) (hdp : ElemUses N f lv dp) (j : J) {b rest : Bytes} {tz : Tz} (v : List α) (h : JVal wide j b)
    (hN : b.length ≤ N) (hn : b.length ≤ n) (hr : EndOk j rest) (ha : At tz (b ++ rest)) :
    Uses (match j with
      | .null => (.nil, v)
      | .arr xs => absorbElems f xs v
      | _ => (.error, v) : RC × List α).1 (readArrDepth rd dp n tz) (match j with
      | .arr xs => 1 + xs.most lv
      | _ => 1) := by
  have hid := ha.head h hr
  unfold readArrDepth
  cases j with
  | null => rw [if_pos (by rw [hid]; rfl)]; exact Uses.rfl'
  | arr xs =>
    rw [if_neg (by rw [hid]; simp [headTok])]
    unfold JVal at h
    obtain ⟨inner, rfl, hin⟩ := h
    simp only [List.cons_append, List.append_assoc, List.nil_append, List.length_cons, List.length_append,
      List.length_nil] at ha hn hN
    obtain ⟨h1, -, h3⟩ := ha.tok (LexTo.arrs _)
    rw [expect_pos h1]
    simp only
    cases xs with
    | nil =>
      unfold JElems at hin
      obtain ⟨h4, -, h5⟩ := h3.tok (LexTo.ws hin (LexTo.arre rest))
      rw [expect_pos h4]
      exact Uses.rfl'
    | cons j' t =>
      rw [expect_neg (At.elems_ne hin h3)]
      obtain ⟨g1, g2⟩ := readArrLoop_uses hrd hdp (.cons j' t) (m := n) v (by simp) hin (by omega) (by omega) h3
      exact ⟨Nat.add_le_add_left g1 1, fun hne => by simp only [g2 hne]⟩
  | bool x =>
    rw [if_neg (by rw [hid]; cases x <;> decide), expect_neg (by rw [hid]; cases x <;> decide)]
    exact Uses.rfl'
  | _ =>
    rw [if_neg (by rw [hid]; simp [headTok]), expect_neg (by rw [hid]; simp [headTok])]
    exact Uses.rfl'

/-- The field reader's levels, with those of skipping what it leaves, on all texts up to a size. -/
def MembUses {α : Type} (N : Nat) (f : Bytes → J → α → RC × α) (lv : Bytes → J → Nat) (df : Bytes → Tz → α → Nat) : Prop :=
  ∀ (k : Bytes) (j : J) (b rest : Bytes) (tz : Tz) (v : α), JVal wide j b → b.length ≤ N → Delim rest →
    At tz (b ++ rest) → ((f k j v).1 ≠ .nil → Uses (f k j v).1 (df k tz v) (lv k j)) ∧
      ((f k j v).1 = .nil → Nat.max (df k tz v) j.levels = lv k j)

theorem readObjLoop_uses {α : Type} {N : Nat} {f : Bytes → J → α → RC × α} {lv : Bytes → J → Nat}
    {rf : Bytes → Tz → α → Res α} {df : Bytes → Tz → α → Nat} (hrf : MembOk N f rf) (hdf : MembUses N f lv df) :
    (ms : JM) → ∀ {inner rest : Bytes} {m : Nat} {tz : Tz} (v : α), ms ≠ .nil → JMembers wide ms inner →
      inner.length ≤ N → 2 * inner.length + 1 ≤ m → At tz (inner ++ c!"}" :: rest) →
      Uses (absorbMembers f ms v).1 (readObjLoopDepth rf df m tz v) (ms.most lv)
  | .nil, _, _, _, _, _, hne, _, _, _, _ => absurd rfl hne
  | .cons key j .nil, inner, rest, m, tz, v, _, h, hN, hm, ha => by
    unfold JMembers at h
    obtain ⟨w, kb, w1, w2, b, w', rfl, hw, hkey, hw1, hw2, hj, hw'⟩ := h
    simp only [List.append_assoc, List.cons_append, List.length_append, List.length_cons] at ha hm hN
    have hb := JVal_pos hj
    obtain ⟨m, rfl⟩ : ∃ k', m = k' + 1 := ⟨m - 1, by omega⟩
    have ha := ha.dropWs hw
    obtain ⟨a1, a1', a2⟩ := ha.tok (LexTo.string hkey _)
    have a2 := a2.dropWs hw1
    obtain ⟨a3, -, a4⟩ := a2.tok (LexTo.colon _)
    have a4 := a4.dropWs hw2
    have hd : Delim (w' ++ c!"}" :: rest) := Delim.ws hw' (Delim.obje _)
    have hR := hrf key j b _ _ v hj (by omega) hd a4
    obtain ⟨hU, hV⟩ := hdf key j b _ _ v hj (by omega) hd a4
    unfold absorbMembers readObjLoopDepth
    simp only [expect_pos a1, expect_pos a3, a1']
    revert hR hU hV
    rcases hf : f key j v with ⟨rc, x⟩
    intro hR hU hV
    simp only [JM.most]
    cases rc with
    | ok =>
      obtain ⟨tz1, h1, h2⟩ := hR
      obtain ⟨h3, -, h4⟩ := (h2.dropWs hw').tok (LexTo.obje _)
      rw [h1]
      simp only [absorbMembers, objStep]
      rw [expect_neg (by rw [h3]; decide)]
      simp only
      rw [expect_pos h3, (hU (by simp)).2 (by simp)]
      exact Uses.rfl'
    | nil =>
      unfold Refines at hR
      simp only at hR
      rw [hR]
      obtain ⟨tz1, h1, h2⟩ := ignore_val j (k := m) hj hd (Follow.obje hw' _) (by omega) a4
      have hdp := ignoreDepth_val j (k := m) hj hd (by omega) a4
      obtain ⟨h3, -, h4⟩ := (h2.dropWs hw').tok (LexTo.obje _)
      simp only
      rw [h1, hdp]
      simp only [absorbMembers, objStep]
      rw [expect_neg (by rw [h3]; decide)]
      simp only
      rw [expect_pos h3, ← hV rfl]
      simp only [Nat.max_assoc]
      exact Uses.rfl'
    | error =>
      obtain ⟨tz1, h1⟩ := hR
      rw [h1]
      exact Uses.error (Nat.max_le.mpr ⟨Nat.le_trans (hU (by simp)).1 (Nat.le_max_left _ _), Nat.zero_le _⟩)
    | fuel => exact absurd hR id
  | .cons key j (.cons key' j' t), inner, rest, m, tz, v, _, h, hN, hm, ha => by
    unfold JMembers at h
    obtain ⟨w, kb, w1, w2, b, w', r, rfl, hw, hkey, hw1, hw2, hj, hw', hr⟩ := h
    simp only [List.append_assoc, List.cons_append, List.length_append, List.length_cons] at ha hm hN
    have hb := JVal_pos hj
    obtain ⟨m, rfl⟩ : ∃ k', m = k' + 1 := ⟨m - 1, by omega⟩
    have ha := ha.dropWs hw
    obtain ⟨a1, a1', a2⟩ := ha.tok (LexTo.string hkey _)
    have a2 := a2.dropWs hw1
    obtain ⟨a3, -, a4⟩ := a2.tok (LexTo.colon _)
    have a4 := a4.dropWs hw2
    have hd : Delim (w' ++ c!"," :: (r ++ c!"}" :: rest)) := Delim.ws hw' (Delim.comma _)
    have hR := hrf key j b _ _ v hj (by omega) hd a4
    obtain ⟨hU, hV⟩ := hdf key j b _ _ v hj (by omega) hd a4
    unfold absorbMembers readObjLoopDepth
    simp only [expect_pos a1, expect_pos a3, a1']
    revert hR hU hV
    rcases hf : f key j v with ⟨rc, x⟩
    intro hR hU hV
    rw [show (JM.cons key j (.cons key' j' t)).most lv = Nat.max (lv key j) ((JM.cons key' j' t).most lv) from rfl]
    cases rc with
    | ok =>
      obtain ⟨tz1, h1, h2⟩ := hR
      obtain ⟨h3, -, h4⟩ := (h2.dropWs hw').tok (LexTo.comma _)
      rw [h1]
      simp only [objStep]
      rw [expect_pos h3, (hU (by simp)).2 (by simp)]
      obtain ⟨g1, g2⟩ := readObjLoop_uses hrf hdf (.cons key' j' t) (m := m) x (by simp) hr (by omega) (by omega) h4
      exact ⟨Nat.max_le.mpr ⟨Nat.le_max_left _ _, Nat.le_trans g1 (Nat.le_max_right _ _)⟩,
        fun hne => by simp only [g2 hne]⟩
    | nil =>
      unfold Refines at hR
      simp only at hR
      rw [hR]
      obtain ⟨tz1, h1, h2⟩ := ignore_val j (k := m) hj hd (Follow.comma hw' _) (by omega) a4
      have hdp := ignoreDepth_val j (k := m) hj hd (by omega) a4
      obtain ⟨h3, -, h4⟩ := (h2.dropWs hw').tok (LexTo.comma _)
      simp only
      rw [h1, hdp]
      simp only [objStep]
      rw [expect_pos h3, ← hV rfl]
      obtain ⟨g1, g2⟩ := readObjLoop_uses hrf hdf (.cons key' j' t) (m := m) x (by simp) hr (by omega) (by omega) h4
      simp only [Nat.max_assoc]
      exact ⟨Nat.max_le.mpr ⟨Nat.le_max_left _ _, Nat.max_le.mpr
        ⟨Nat.le_trans (Nat.le_max_left _ _) (Nat.le_max_right _ _),
         Nat.le_trans g1 (Nat.le_trans (Nat.le_max_right _ _) (Nat.le_max_right _ _))⟩⟩,
        fun hne => by simp only [g2 hne]⟩
    | error =>
      obtain ⟨tz1, h1⟩ := hR
      rw [h1]
      exact Uses.error (Nat.max_le.mpr ⟨Nat.le_trans (hU (by simp)).1 (Nat.le_max_left _ _), Nat.zero_le _⟩)
    | fuel => exact absurd hR id

theorem readObj_uses {α : Type} {N n : Nat} {f : Bytes → J → α → RC × α} {lv : Bytes → J → Nat}
    {rf : Bytes → Tz → α → Res α} {df : Bytes → Tz → α → Nat} (hrf : MembOk N f rf) (hdf : MembUses N f lv df)
    (j : J) {b rest : Bytes} {tz : Tz} (v : α) (h : JVal wide j b) (hN : b.length ≤ N)
    (hn : 2 * b.length ≤ n) (hr : EndOk j rest) (ha : At tz (b ++ rest)) :
    Uses (match j with
      | .null => (.nil, v)
      | .obj ms => absorbMembers f ms v
      | _ => (.error, v) : RC × α).1 (readObjDepth rf df n tz v) (match j with
      | .obj ms => 1 + ms.most lv
      | _ => 1) := by
  have hid := ha.head h hr
  unfold readObjDepth
  cases j with
  | null => rw [if_pos (by rw [hid]; rfl)]; exact Uses.rfl'
  | obj ms =>
    rw [if_neg (by rw [hid]; simp [headTok])]
    unfold JVal at h
    obtain ⟨inner, rfl, hin⟩ := h
    simp only [List.cons_append, List.append_assoc, List.nil_append, List.length_cons, List.length_append,
      List.length_nil] at ha hn hN
    obtain ⟨h1, -, h3⟩ := ha.tok (LexTo.objs _)
    rw [expect_pos h1]
    simp only
    cases ms with
    | nil =>
      unfold JMembers at hin
      obtain ⟨h4, -, h5⟩ := h3.tok (LexTo.ws hin (LexTo.obje rest))
      rw [expect_pos h4]
      exact Uses.rfl'
    | cons k' j' t =>
      rw [expect_neg (At.members_ne hin h3)]
      obtain ⟨g1, g2⟩ := readObjLoop_uses hrf hdf (.cons k' j' t) (m := n) v (by simp) hin (by omega) (by omega) h3
      exact ⟨Nat.add_le_add_left g1 1, fun hne => by simp only [g2 hne]⟩
  | bool x =>
    rw [if_neg (by rw [hid]; cases x <;> decide), expect_neg (by rw [hid]; cases x <;> decide)]
    exact Uses.rfl'
  | _ =>
    rw [if_neg (by rw [hid]; simp [headTok]), expect_neg (by rw [hid]; simp [headTok])]
    exact Uses.rfl'

theorem Prim.absorb_null (p : Prim) (v : p.Den) : p.absorb .null v = (.nil, v) := by cases p <;> rfl

theorem absorbElems_ne {α : Type} (f : J → RC × α) : (xs : JL) → ∀ (v : List α), (absorbElems f xs v).1 ≠ .nil
  | .nil, v => by simp [absorbElems]
  | .cons j xs, v => by
    unfold absorbElems
    split
    · exact absorbElems_ne f xs _
    · simp

theorem absorbMembers_ne {α : Type} (f : Bytes → J → α → RC × α) : (ms : JM) → ∀ (v : α), (absorbMembers f ms v).1 ≠ .nil
  | .nil, v => by simp [absorbMembers]
  | .cons k j ms, v => by
    unfold absorbMembers
    split
    · exact absorbMembers_ne f ms _
    · exact absorbMembers_ne f ms _
    · simp

/-- Only `null` is refused without an error, and it has one level. -/
theorem Ty.absorb_nil : (t : Ty) → ∀ (j : J) (v : t.Den), (t.absorb j v).1 = .nil → j = .null
  | .num p, j, v, h => by
    simp only [Ty.absorb] at h
    cases p <;> cases j <;> simp_all [Prim.absorb]
  | .raw p, j, v, h => by
    simp only [Ty.absorb] at h
    cases p <;> cases j <;> simp_all [Prim.absorb]
  | .str, j, v, h => by
    simp only [Ty.absorb] at h
    cases j <;> simp_all
  | .bytes, j, v, h => by
    simp only [Ty.absorb] at h
    cases j <;> simp_all
  | .rep t, j, v, h => by
    simp only [Ty.absorb] at h
    cases j with
    | arr xs =>
      simp only at h
      exact absurd h (absorbElems_ne _ _ _)
    | _ => simp_all
  | .msg obf fs, j, v, h => by
    simp only [Ty.absorb] at h
    cases j with
    | obj ms =>
      simp only at h
      exact absurd h (absorbMembers_ne _ _ _)
    | _ => simp_all

/-- Unless there is such a field: nothing is there. -/
theorem Fields.levelsAt_nil : (fs : Fields) → ∀ (i n : Nat) (j : J) (tz : Tz) (v : fs.Den),
    (fs.absorbAt i j v).1 = .nil → (fs.readAtDepth i n tz v = 0 ∧ fs.levelsAt i j = j.levels) ∨ j = .null
  | .nil, i, n, j, tz, v, h => .inl ⟨rfl, rfl⟩
  | .cons f t rest, i, n, j, tz, v, h => by
    simp only [Fields.absorbAt, Fields.readAtDepth, Fields.levelsAt] at h ⊢
    cases hf : f.transient with
    | true => simp only [hf, if_true] at h ⊢; exact Fields.levelsAt_nil rest i n j tz v.2 h
    | false =>
      simp only [hf] at h ⊢
      cases i with
      | zero => exact .inr (Ty.absorb_nil t j v.1 h)
      | succ i => exact Fields.levelsAt_nil rest i n j tz v.2 h

theorem Ty.levels_null (t : Ty) : t.levels .null = 1 := by cases t <;> rfl

theorem Ty.readDepth_null (t : Ty) (n : Nat) {tz : Tz} (v : t.Den) (h : tz.cur.id = .nil) : t.readDepth n tz v = 1 := by
  cases t with
  | rep t => simp only [Ty.readDepth, readArrDepth, h, if_true]
  | msg obf fs => simp only [Ty.readDepth, readObjDepth, h, if_true]
  | _ => rfl

theorem Fields.null_levels : (fs : Fields) → ∀ (i n : Nat) {tz : Tz} (v : fs.Den), tz.cur.id = .nil →
    Nat.max (fs.readAtDepth i n tz v) J.null.levels = fs.levelsAt i .null
  | .nil, i, n, tz, v, h => rfl
  | .cons f t rest, i, n, tz, v, h => by
    simp only [Fields.readAtDepth, Fields.levelsAt]
    cases hf : f.transient with
    | true => exact Fields.null_levels rest i n v.2 h
    | false =>
      cases i with
      | zero =>
        show Nat.max (t.readDepth n tz v.1) 1 = t.levels .null
        rw [Ty.readDepth_null t n v.1 h, Ty.levels_null]; rfl
      | succ i => exact Fields.null_levels rest i n v.2 h

mutual

/-- On a text of the wide grammar the readers use as many levels as the value has for the type; fewer at most if reading
fails. -/
theorem Ty.readDepth_uses : (t : Ty) → ∀ (n : Nat) (j : J) (b rest : Bytes) (tz : Tz) (v : t.Den), JVal wide j b →
    2 * b.length ≤ n → EndOk j rest → At tz (b ++ rest) → Uses (t.absorb j v).1 (t.readDepth n tz v) (t.levels j)
  | .num p, n, j, b, rest, tz, v, h, hn, hr, ha => by cases j <;> exact Uses.rfl'
  | .raw p, n, j, b, rest, tz, v, h, hn, hr, ha => by cases j <;> exact Uses.rfl'
  | .str, n, j, b, rest, tz, v, h, hn, hr, ha => by cases j <;> exact Uses.rfl'
  | .bytes, n, j, b, rest, tz, v, h, hn, hr, ha => by cases j <;> exact Uses.rfl'
  | .rep t, n, j, b, rest, tz, v, h, hn, hr, ha => by
    have hE : ElemOk b.length (fun j => t.absorb j t.new) (fun tz => t.read n tz t.new) := by
      intro j' b' rest' tz' h' hb' hr' ha'
      exact Ty.read_refines t n j' b' rest' tz' t.new h' (by omega) (hr'.endOk _) ha'
    have hU : ElemUses b.length (fun j => t.absorb j t.new) t.levels (fun tz => t.readDepth n tz t.new) := by
      intro j' b' rest' tz' h' hb' hr' ha'
      exact Ty.readDepth_uses t n j' b' rest' tz' t.new h' (by omega) (hr'.endOk _) ha'
    have := readArr_uses (n := n) hE hU j v h (Nat.le_refl _) (by omega) hr ha
    cases j <;> (simp only [Ty.readDepth, Ty.absorb, Ty.levels]; exact this)
  | .msg obf fs, n, j, b, rest, tz, v, h, hn, hr, ha => by
    have hM : MembOk b.length
        (fun k j (v : fs.Den) => match indexOf obf fs k with | none => (.nil, v) | some i => fs.absorbAt i j v)
        (fun name tz v => match indexOf obf fs name with | none => (.nil, tz, v) | some i => fs.readAt i n tz v) := by
      intro k j' b' rest' tz' v' h' hb' hr' ha'
      simp only
      cases indexOf obf fs k with
      | none => simp [Refines]
      | some i => exact Fields.readAt_refines fs i n j' b' rest' tz' v' h' (by omega) (hr'.endOk _) ha'
    have hU : MembUses b.length
        (fun k j (v : fs.Den) => match indexOf obf fs k with | none => (.nil, v) | some i => fs.absorbAt i j v)
        (fun k j => match indexOf obf fs k with | none => j.levels | some i => fs.levelsAt i j)
        (fun name tz v => match indexOf obf fs name with | none => 0 | some i => fs.readAtDepth i n tz v) := by
      intro k j' b' rest' tz' v' h' hb' hr' ha'
      simp only
      cases indexOf obf fs k with
      | none => exact ⟨fun h => absurd rfl h, fun _ => Nat.max_eq_right (Nat.zero_le _)⟩
      | some i =>
        have hA := Fields.readAtDepth_uses fs i n j' b' rest' tz' v' h' (by omega) (hr'.endOk _) ha'
        refine ⟨hA, fun hnil => ?_⟩
        simp only at hnil ⊢
        rcases Fields.levelsAt_nil fs i n j' tz' v' hnil with ⟨h1, h2⟩ | rfl
        · rw [h1, h2]; exact Nat.max_eq_right (Nat.zero_le _)
        · exact Fields.null_levels fs i n v' (ha'.head h' (hr'.endOk _))
    have := readObj_uses hM hU j v h (Nat.le_refl _) hn hr ha
    cases j <;> (simp only [Ty.readDepth, Ty.absorb, Ty.levels]; exact this)

theorem Fields.readAtDepth_uses : (fs : Fields) → ∀ (i n : Nat) (j : J) (b rest : Bytes) (tz : Tz) (v : fs.Den),
    JVal wide j b → 2 * b.length ≤ n → EndOk j rest → At tz (b ++ rest) → (fs.absorbAt i j v).1 ≠ .nil →
    Uses (fs.absorbAt i j v).1 (fs.readAtDepth i n tz v) (fs.levelsAt i j)
  | .nil, i, n, j, b, rest, tz, v, h, hn, hr, ha, hne => absurd rfl hne
  | .cons f t rst, i, n, j, b, rest, tz, v, h, hn, hr, ha, hne => by
    simp only [Fields.absorbAt, Fields.readAtDepth, Fields.levelsAt] at hne ⊢
    cases hf : f.transient with
    | true =>
      simp only [hf, if_true] at hne ⊢
      exact Fields.readAtDepth_uses rst i n j b rest tz v.2 h hn hr ha hne
    | false =>
      simp only [hf] at hne ⊢
      cases i with
      | zero => exact Ty.readDepth_uses t n j b rest tz v.1 h hn hr ha
      | succ i => exact Fields.readAtDepth_uses rst i n j b rest tz v.2 h hn hr ha hne

end

end PG
