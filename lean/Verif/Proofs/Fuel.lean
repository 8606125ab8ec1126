import Verif.Proofs.Sim
/-
The loops of the readers finish: every iteration consumes at least one token, every token at least one byte.
-/
set_option autoImplicit false
namespace PG

theorem lexIdent_len (s : IStream) (acc : Bytes) :
    (lexIdent s acc).1.length + (lexIdent s acc).2.rest.length ≤ acc.length + s.rest.length := by
  induction h : s.rest.length using Nat.strongRecOn generalizing s acc with
  | ind k ih =>
    unfold lexIdent
    split
    · rename_i he
      split
      · have h1 := s.next_length_lt he
        have := ih s.next.rest.length (by omega) s.next (acc ++ [s.peek]) rfl
        simp only [List.length_append, List.length_singleton] at this
        omega
      · simp only; omega
    · simp only; omega

theorem lexNumber_len (s : IStream) (acc : Bytes) :
    (lexNumber s acc).1.length + (lexNumber s acc).2.rest.length ≤ acc.length + s.rest.length := by
  induction h : s.rest.length using Nat.strongRecOn generalizing s acc with
  | ind k ih =>
    unfold lexNumber
    split
    · rename_i he
      split
      · have h1 := s.next_length_lt he
        have := ih s.next.rest.length (by omega) s.next (acc ++ [s.peek]) rfl
        simp only [List.length_append, List.length_singleton] at this
        omega
      · simp only; omega
    · simp only; omega

theorem lexNumber_first {s : IStream} (he : s.eof = false) (hc : isNumChar s.peek = true) :
    (lexNumber s []).2.rest.length < s.rest.length := by
  unfold lexNumber
  rw [dif_pos he, if_pos hc]
  have h1 := s.next_length_lt he
  have h2 := lexNumber_len s.next ([] ++ [s.peek])
  have h3 : ∀ (s : IStream) (acc : Bytes), acc.length ≤ (lexNumber s acc).1.length := by
    intro s acc
    induction h : s.rest.length using Nat.strongRecOn generalizing s acc with
    | ind k ih =>
      unfold lexNumber
      split
      · rename_i he
        split
        · have h1 := s.next_length_lt he
          have := ih s.next.rest.length (by omega) s.next (acc ++ [s.peek]) rfl
          simp only [List.length_append, List.length_singleton] at this
          omega
        · exact Nat.le_refl _
      · exact Nat.le_refl _
  have := h3 s.next ([] ++ [s.peek])
  simp only [List.nil_append, List.length_singleton] at this h2 ⊢
  omega

theorem lexString_len (s : IStream) (lead : Nat) (value : Bytes) :
    (lexString s lead value).2.rest.length ≤ s.rest.length ∧
    ((lexString s lead value).1 ≠ none → (lexString s lead value).2.rest.length < s.rest.length) := by
  induction h : s.rest.length using Nat.strongRecOn generalizing s lead value with
  | ind k ih =>
    unfold lexString
    split
    · rename_i he
      have h1 := s.next_length_lt he
      have h2 := s.next.next_length_le
      simp only
      split
      · exact ⟨by simp only; omega, fun _ => by simp only; omega⟩
      · split
        · split
          · have h3 := lexHex_length_le 4 0 s.next.next
            split
            · exact ⟨by simp only; omega, fun hh => absurd rfl hh⟩
            · split
              · exact ⟨by simp only; omega, fun hh => absurd rfl hh⟩
              · rename_i value' lead' _
                have := ih (lexHex 4 0 s.next.next).2.rest.length (by omega) (lexHex 4 0 s.next.next).2 lead' value' rfl
                exact ⟨by omega, fun hh => by have := this.2 hh; omega⟩
          · split
            · rename_i e _
              have := ih s.next.next.rest.length (by omega) s.next.next lead (value ++ [e]) rfl
              exact ⟨by omega, fun hh => by have := this.2 hh; omega⟩
            · exact ⟨by simp only; omega, fun hh => absurd rfl hh⟩
        · split
          · exact ⟨by simp only; omega, fun hh => absurd rfl hh⟩
          · have := ih s.next.rest.length (by omega) s.next lead (value ++ [s.next.peek]) rfl
            exact ⟨by omega, fun hh => by have := this.2 hh; omega⟩
    · exact ⟨by simp only; omega, fun hh => absurd rfl hh⟩

/-- Every token other than NONE and EOS takes at least one byte. -/
theorem lex_len (s : IStream) : (lex s).2.rest.length ≤ s.rest.length ∧
    ((lex s).1.id ≠ .none → (lex s).1.id ≠ .eos → (lex s).2.rest.length < s.rest.length) := by
  induction h : s.rest.length using Nat.strongRecOn generalizing s with
  | ind k ih =>
    unfold lex
    split
    · rename_i he
      have h1 := s.next_length_lt he
      simp only
      split
      · have := ih s.next.rest.length (by omega) s.next rfl
        exact ⟨by omega, fun a b => by have := this.2 a b; omega⟩
      · repeat' split
        all_goals first
          | exact ⟨by simp only; omega, fun _ _ => by simp only; omega⟩
          | skip
        · have := lexString_len s 0 []
          unfold parseString
          cases hl : lexString s 0 [] with
          | mk o s' =>
            rw [hl] at this
            cases o with
            | none => exact ⟨by have := this.1; simp only at this ⊢; omega, fun hh => absurd rfl hh⟩
            | some v =>
              have := this.2 (by simp)
              simp only at this ⊢
              exact ⟨by omega, fun _ _ => by omega⟩
        · rename_i hc
          have hn : isNumChar s.peek = true := by
            unfold isNumChar
            simp only [Bool.or_eq_true, decide_eq_true_eq, beq_iff_eq] at hc ⊢
            rcases hc with hc | hc
            · right; exact hc
            · simp [hc]
          have := lexNumber_first he hn
          exact ⟨by simp only; omega, fun _ _ => by simp only; omega⟩
        · have := lexIdent_len s []
          simp only [List.length_nil] at this
          refine ⟨by simp only; omega, fun hh _ => ?_⟩
          simp only at hh ⊢
          have hpos : 0 < (lexIdent s []).1.length := by
            cases hl : (lexIdent s []).1 with
            | nil => rw [hl] at hh; exact absurd (by unfold identToken; rfl) hh
            | cons a b => simp
          omega
    · exact ⟨by simp only; omega, fun _ hh => absurd rfl hh⟩

/-- Bytes not yet consumed, counting the current token as one more. -/
def Tz.m (tz : Tz) : Nat := tz.inp.rest.length + (if tz.cur.id = .none ∨ tz.cur.id = .eos then 0 else 1)

theorem Tz.next_m_le (tz : Tz) : tz.next.m ≤ tz.inp.rest.length := by
  have := lex_len tz.inp
  unfold Tz.m Tz.next
  simp only
  split
  · have := this.1; omega
  · rename_i h
    have := this.2 (fun hh => h (.inl hh)) (fun hh => h (.inr hh))
    omega

theorem Tz.next_m {tz : Tz} (h1 : tz.cur.id ≠ .none) (h2 : tz.cur.id ≠ .eos) : tz.next.m < tz.m := by
  have := tz.next_m_le
  have h3 : tz.m = tz.inp.rest.length + 1 := by unfold Tz.m; rw [if_neg (by simp [h1, h2])]
  omega

theorem Tz.error_m (tz : Tz) (c : ECode) : (tz.error c).2.m = tz.m := by
  unfold Tz.error
  split <;> rfl

/-- The unread part never grows. -/
theorem inv_m (k : Nat) : TzInv (fun tz => tz.m ≤ k) where
  next := fun h h1 h2 => by have := Tz.next_m h1 h2; omega
  error := fun h c => by rw [Tz.error_m]; exact h

/-- The two outcomes of `expect`. -/
theorem Tz.expect_cases (tz : Tz) (t : TId) (h1 : t ≠ .none) (h2 : t ≠ .eos) :
    (∃ tz', tz.expect t = (true, tz') ∧ tz'.m < tz.m) ∨ tz.expect t = (false, tz) := by
  by_cases h : tz.cur.id = t
  · left; exact ⟨_, expect_pos h, Tz.next_m (by rw [h]; exact h1) (by rw [h]; exact h2)⟩
  · right; exact expect_neg h

/-- Finished, and no further than before. -/
def Fin0 (tz : Tz) (r : RC × Tz) : Prop := r.1 ≠ .fuel ∧ r.2.m ≤ tz.m

theorem fin0_error {tz0 tz : Tz} (h : tz.m ≤ tz0.m) (c : ECode) : Fin0 tz0 (tz.error c) :=
  ⟨by rw [error_fst]; decide, by rw [Tz.error_m]; exact h⟩

theorem fin0_arrEnd {tz0 tz : Tz} (h : tz.m ≤ tz0.m) : Fin0 tz0 (ignoreArrEnd tz) := by
  unfold ignoreArrEnd
  rcases tz.expect_cases .arre (by decide) (by decide) with ⟨tz', h1, h2⟩ | h1
  · rw [h1]; exact ⟨by simp only; decide, by simp only; omega⟩
  · rw [h1]; exact fin0_error h _

theorem fin0_objEnd {tz0 tz : Tz} (h : tz.m ≤ tz0.m) : Fin0 tz0 (ignoreObjEnd tz) := by
  unfold ignoreObjEnd
  rcases tz.expect_cases .obje (by decide) (by decide) with ⟨tz', h1, h2⟩ | h1
  · rw [h1]; exact ⟨by simp only; decide, by simp only; omega⟩
  · rw [h1]; exact fin0_error h _

theorem Fin0.mono {tz0 tz1 : Tz} {r : RC × Tz} (h : Fin0 tz1 r) (hm : tz1.m ≤ tz0.m) : Fin0 tz0 r :=
  ⟨h.1, Nat.le_trans h.2 hm⟩

mutual
theorem ignoreValue_fin : (n : Nat) → (tz : Tz) → 2 * tz.m + 1 ≤ n → Fin0 tz (ignoreValue n tz)
  | 0, _, h => by omega
  | n + 1, tz, h => by
    unfold ignoreValue
    have scalar : tz.cur.id ≠ .none → tz.cur.id ≠ .eos →
        Fin0 tz (if (decide (tz.next.cur.id = .none) || decide (tz.next.cur.id = .eos)) = true then tz.next.error .ignoreEnd
          else (.ok, tz.next)) := by
      intro h1 h2
      have hm := Tz.next_m h1 h2
      split
      · exact fin0_error (by omega) _
      · exact ⟨by simp only; decide, by simp only; omega⟩
    cases hid : tz.cur.id with
    | none => exact fin0_error (Nat.le_refl _) _
    | eos => exact fin0_error (Nat.le_refl _) _
    | objs =>
      have hm := Tz.next_m (tz := tz) (by simp [hid]) (by simp [hid])
      exact (ignoreObjLoop_fin n tz.next (by omega)).mono (by omega)
    | arrs =>
      have hm := Tz.next_m (tz := tz) (by simp [hid]) (by simp [hid])
      exact (ignoreArrLoop_fin n tz.next (by omega)).mono (by omega)
    | string => exact scalar (by simp [hid]) (by simp [hid])
    | number => exact scalar (by simp [hid]) (by simp [hid])
    | nil => exact scalar (by simp [hid]) (by simp [hid])
    | btrue => exact scalar (by simp [hid]) (by simp [hid])
    | bfalse => exact scalar (by simp [hid]) (by simp [hid])
    | obje => exact fin0_error (Nat.le_refl _) _
    | colon => exact fin0_error (Nat.le_refl _) _
    | comma => exact fin0_error (Nat.le_refl _) _
    | arre => exact fin0_error (Nat.le_refl _) _
theorem ignoreArrLoop_fin : (n : Nat) → (tz : Tz) → 2 * tz.m + 2 ≤ n → Fin0 tz (ignoreArrLoop n tz)
  | 0, _, h => by omega
  | n + 1, tz, h => by
    unfold ignoreArrLoop
    split
    · exact fin0_arrEnd (Nat.le_refl _)
    · have hv := ignoreValue_fin n tz (by omega)
      cases hx : ignoreValue n tz with
      | mk c x =>
        rw [hx] at hv
        cases c with
        | ok =>
          have hxm : x.m ≤ tz.m := hv.2
          simp only
          rcases x.expect_cases .comma (by decide) (by decide) with ⟨y, h1, h2⟩ | h1
          · rw [h1]; exact (ignoreArrLoop_fin n y (by omega)).mono (by omega)
          · rw [h1]; exact fin0_arrEnd hxm
        | error => exact hv
        | nil => exact hv
        | fuel => exact hv
theorem ignoreObjLoop_fin : (n : Nat) → (tz : Tz) → 2 * tz.m + 2 ≤ n → Fin0 tz (ignoreObjLoop n tz)
  | 0, _, h => by omega
  | n + 1, tz, h => by
    unfold ignoreObjLoop
    split
    · exact fin0_objEnd (Nat.le_refl _)
    · rcases tz.expect_cases .string (by decide) (by decide) with ⟨y1, h1, hm1⟩ | h1
      · rw [h1]
        simp only
        rcases y1.expect_cases .colon (by decide) (by decide) with ⟨y2, h2, hm2⟩ | h2
        · rw [h2]
          simp only
          have hv := ignoreValue_fin n y2 (by omega)
          cases hx : ignoreValue n y2 with
          | mk c x =>
            rw [hx] at hv
            cases c with
            | ok =>
              have hxm : x.m ≤ y2.m := hv.2
              simp only
              rcases x.expect_cases .comma (by decide) (by decide) with ⟨y, h1, h2⟩ | h1
              · rw [h1]; exact (ignoreObjLoop_fin n y (by omega)).mono (by omega)
              · rw [h1]; exact fin0_objEnd (by omega)
            | error => exact hv.mono (by omega)
            | nil => exact hv.mono (by omega)
            | fuel => exact hv.mono (by omega)
        · rw [h2]; exact fin0_error (by omega) _
      · rw [h1]; exact fin0_error (Nat.le_refl _) _
end

/-- Finished, and no further than before. -/
def Fin {α : Type} (tz : Tz) (r : Res α) : Prop := r.1 ≠ .fuel ∧ r.2.1.m ≤ tz.m

theorem Fin.mono {α : Type} {tz0 tz1 : Tz} {r : Res α} (h : Fin tz1 r) (hm : tz1.m ≤ tz0.m) : Fin tz0 r :=
  ⟨h.1, Nat.le_trans h.2 hm⟩

theorem fin_error {α : Type} {tz0 tz : Tz} (h : tz.m ≤ tz0.m) (c : ECode) (v : α) :
    Fin tz0 ((tz.error c).1, (tz.error c).2, v) :=
  ⟨by rw [error_fst]; decide, by simp only; rw [Tz.error_m]; exact h⟩

theorem Prim.read_rc (p : Prim) (tz : Tz) (v : p.Den) : (p.read tz v).1 ≠ .fuel := by
  cases p <;> unfold Prim.read <;> simp only <;> (repeat' split) <;> simp [error_fst]

theorem stringRead_rc (tz : Tz) (v : Bytes) : (stringRead tz v).1 ≠ .fuel := by
  unfold stringRead; (repeat' split) <;> simp [error_fst]

theorem bytesRead_rc (tz : Tz) (v : List Byte) : (bytesRead tz v).1 ≠ .fuel := by
  unfold bytesRead; (repeat' split) <;> simp [error_fst]

theorem readArrLoop_fin {α : Type} {rd : Tz → Res α} {N : Nat} (hrd : ∀ tz, 2 * tz.m + 2 ≤ N → Fin tz (rd tz)) :
    (n : Nat) → (tz : Tz) → 2 * tz.m + 2 ≤ n → 2 * tz.m + 2 ≤ N → (v : List α) → Fin tz (readArrLoop rd n tz v)
  | 0, _, h, _, _ => by omega
  | n + 1, tz, h, hN, v => by
    unfold readArrLoop
    have hr := hrd tz hN
    cases hx : rd tz with
    | mk c xw =>
      obtain ⟨x, w⟩ := xw
      rw [hx] at hr
      have hxm : x.m ≤ tz.m := hr.2
      have tail : ∀ v : List α, Fin tz
          (match x.expect .comma with
            | (true, tz) => readArrLoop rd n tz v
            | (false, tz) =>
              match tz.expect .arre with
              | (true, tz) => (.ok, tz, v)
              | (false, tz) => let e := tz.error .invalidArray; (e.1, e.2, v)) := by
        intro v
        rcases x.expect_cases .comma (by decide) (by decide) with ⟨y, h1, h2⟩ | h1
        · rw [h1]; exact (readArrLoop_fin hrd n y (by omega) (by omega) v).mono (by omega)
        · rw [h1]
          simp only
          rcases x.expect_cases .arre (by decide) (by decide) with ⟨y, h1, h2⟩ | h1
          · rw [h1]; exact ⟨by simp only; decide, by simp only; omega⟩
          · rw [h1]; exact fin_error hxm _ _
      cases c with
      | ok => exact tail _
      | nil => exact tail _
      | error => exact ⟨by simp only; decide, hxm⟩
      | fuel => exact absurd rfl hr.1

theorem readArr_fin {α : Type} {rd : Tz → Res α} {N : Nat} (hrd : ∀ tz, 2 * tz.m + 2 ≤ N → Fin tz (rd tz))
    (n : Nat) (tz : Tz) (h : 2 * tz.m + 2 ≤ n) (hN : 2 * tz.m + 2 ≤ N) (v : List α) : Fin tz (readArr rd n tz v) := by
  unfold readArr
  split
  · exact ⟨by simp only; decide, Nat.le_refl _⟩
  · rcases tz.expect_cases .arrs (by decide) (by decide) with ⟨y, h1, h2⟩ | h1
    · rw [h1]
      simp only
      rcases y.expect_cases .arre (by decide) (by decide) with ⟨y', h1, h2⟩ | h1
      · rw [h1]; exact ⟨by simp only; decide, by simp only; omega⟩
      · rw [h1]; exact (readArrLoop_fin hrd n y (by omega) (by omega) v).mono (by omega)
    · rw [h1]; exact fin_error (Nat.le_refl _) _ _

theorem objStep_fin (tz : Tz) : (objStep tz).1 ≠ some .fuel ∧
    ((objStep tz).2.m ≤ tz.m) ∧ ((objStep tz).1 = none → (objStep tz).2.m < tz.m) := by
  unfold objStep
  rcases tz.expect_cases .comma (by decide) (by decide) with ⟨y, h1, h2⟩ | h1
  · rw [h1]; exact ⟨by simp, by simp only; omega, fun _ => h2⟩
  · rw [h1]
    simp only
    rcases tz.expect_cases .obje (by decide) (by decide) with ⟨y, h1, h2⟩ | h1
    · rw [h1]; exact ⟨by simp, by simp only; omega, by simp⟩
    · rw [h1]; exact ⟨by simp [error_fst], by simp only [Tz.error_m]; omega, by simp⟩

theorem readObjLoop_fin {α : Type} {rf : Bytes → Tz → α → Res α} {N : Nat}
    (hrf : ∀ name tz v, 2 * tz.m + 2 ≤ N → Fin tz (rf name tz v)) :
    (n : Nat) → (tz : Tz) → 2 * tz.m + 2 ≤ n → 2 * tz.m + 2 ≤ N → (v : α) → Fin tz (readObjLoop rf n tz v)
  | 0, _, h, _, _ => by omega
  | n + 1, tz, h, hN, v => by
    unfold readObjLoop
    simp only
    have tail : ∀ (x : Tz) (v : α), x.m ≤ tz.m → Fin tz
        (match objStep x with
          | (none, tz) => readObjLoop rf n tz v
          | (some r, tz) => (r, tz, v)) := by
      intro x v hx
      obtain ⟨h1, h2, h3⟩ := objStep_fin x
      cases ho : objStep x with
      | mk o y =>
        rw [ho] at h1 h2 h3
        cases o with
        | none =>
          have h3 : y.m < x.m := h3 rfl
          exact (readObjLoop_fin hrf n y (by omega) (by omega) v).mono (by omega)
        | some r => exact ⟨fun h => h1 (by simpa using h), Nat.le_trans h2 hx⟩
    rcases tz.expect_cases .string (by decide) (by decide) with ⟨y1, h1, hm1⟩ | h1
    · rw [h1]
      simp only
      rcases y1.expect_cases .colon (by decide) (by decide) with ⟨y2, h2, hm2⟩ | h2
      · rw [h2]
        simp only
        have hr := hrf tz.cur.value y2 v (by omega)
        cases hx : rf tz.cur.value y2 v with
        | mk c xw =>
          obtain ⟨x, w⟩ := xw
          rw [hx] at hr
          have hxm : x.m ≤ y2.m := hr.2
          cases c with
          | ok => exact tail x w (by omega)
          | error => exact ⟨by simp only; decide, by simp only; omega⟩
          | fuel => exact absurd rfl hr.1
          | nil =>
            simp only
            have hv := ignoreValue_fin n x (by omega)
            cases hy : ignoreValue n x with
            | mk c z =>
              rw [hy] at hv
              have hzm : z.m ≤ x.m := hv.2
              cases c with
              | ok => exact tail z w (by omega)
              | nil => exact tail z w (by omega)
              | error => exact ⟨by simp only; decide, by simp only; omega⟩
              | fuel => exact absurd rfl hv.1
      · rw [h2]; exact fin_error (by omega) _ _
    · rw [h1]; exact fin_error (Nat.le_refl _) _ _

theorem readObj_fin {α : Type} {rf : Bytes → Tz → α → Res α} {N : Nat}
    (hrf : ∀ name tz v, 2 * tz.m + 2 ≤ N → Fin tz (rf name tz v)) (n : Nat) (tz : Tz) (h : 2 * tz.m + 2 ≤ n)
    (hN : 2 * tz.m + 2 ≤ N) (v : α) : Fin tz (readObj rf n tz v) := by
  unfold readObj
  split
  · exact ⟨by simp only; decide, Nat.le_refl _⟩
  · rcases tz.expect_cases .objs (by decide) (by decide) with ⟨y, h1, h2⟩ | h1
    · rw [h1]
      simp only
      rcases y.expect_cases .obje (by decide) (by decide) with ⟨y', h1, h2⟩ | h1
      · rw [h1]; exact ⟨by simp only; decide, by simp only; omega⟩
      · rw [h1]; exact (readObjLoop_fin hrf n y (by omega) (by omega) v).mono (by omega)
    · rw [h1]; exact fin_error (Nat.le_refl _) _ _

theorem Fin.of_rc {t : Ty} {n : Nat} {tz : Tz} {v : t.Den} (h : (t.read n tz v).1 ≠ .fuel) : Fin tz (t.read n tz v) :=
  ⟨h, (inv_m tz.m).read t n (Nat.le_refl _) v⟩

mutual
/-- Enough fuel for every reader: two per unread byte, and two. -/
theorem Ty.read_fin : (t : Ty) → (n : Nat) → (tz : Tz) → 2 * tz.m + 2 ≤ n → (v : t.Den) → Fin tz (t.read n tz v)
  | .num p, n, tz, _, v => Fin.of_rc (by simp only [Ty.read, NumField.read]; exact Prim.read_rc _ _ _)
  | .raw p, n, tz, _, v => Fin.of_rc (by simp only [Ty.read]; exact Prim.read_rc _ _ _)
  | .str, n, tz, _, v => Fin.of_rc (by simp only [Ty.read, StrField.read]; exact stringRead_rc _ _)
  | .bytes, n, tz, _, v => Fin.of_rc (by simp only [Ty.read]; exact bytesRead_rc _ _)
  | .rep t, n, tz, h, v => by
    simp only [Ty.read]
    exact readArr_fin (fun tz h => Ty.read_fin t n tz h t.new) n tz h h v
  | .msg obf fs, n, tz, h, v => by
    simp only [Ty.read]
    refine readObj_fin (N := n) (fun name tz v h => ?_) n tz h h v
    cases indexOf obf fs name with
    | none => exact ⟨by simp only; decide, Nat.le_refl _⟩
    | some i => exact Fields.readAt_fin fs i n tz h v
theorem Fields.readAt_fin : (fs : Fields) → (i n : Nat) → (tz : Tz) → 2 * tz.m + 2 ≤ n → (v : fs.Den) → Fin tz (fs.readAt i n tz v)
  | .nil, _, _, _, _, _ => ⟨by simp only [Fields.readAt]; decide, Nat.le_refl _⟩
  | .cons f t rest, i, n, tz, h, v => by
    unfold Fields.readAt
    cases hf : f.transient with
    | true =>
      simp only [if_true]
      exact Fields.readAt_fin rest i n tz h v.2
    | false =>
      simp only [Bool.false_eq_true, if_false]
      cases i with
      | zero => exact Ty.read_fin t n tz h v.1
      | succ i => exact Fields.readAt_fin rest i n tz h v.2
end

/-! ### More fuel changes nothing -/

mutual
theorem ignoreValue_mono : (n k : Nat) → (tz : Tz) → (ignoreValue n tz).1 ≠ .fuel → ignoreValue (n + k) tz = ignoreValue n tz
  | 0, _, _, h => absurd rfl h
  | n + 1, k, tz, h => by
    rw [Nat.add_right_comm]
    unfold ignoreValue at h ⊢
    split
    all_goals simp only [*] at h
    all_goals first
      | rfl
      | exact ignoreObjLoop_mono n k _ h
      | exact ignoreArrLoop_mono n k _ h
theorem ignoreArrLoop_mono : (n k : Nat) → (tz : Tz) → (ignoreArrLoop n tz).1 ≠ .fuel → ignoreArrLoop (n + k) tz = ignoreArrLoop n tz
  | 0, _, _, h => absurd rfl h
  | n + 1, k, tz, h => by
    rw [Nat.add_right_comm]
    unfold ignoreArrLoop at h ⊢
    split
    · rfl
    · rename_i hc
      rw [if_neg hc] at h
      have hv : (ignoreValue n tz).1 ≠ .fuel := by
        intro hf
        cases hx : ignoreValue n tz with
        | mk c x => rw [hx] at h hf; simp only at hf; subst hf; exact h rfl
      rw [ignoreValue_mono n k tz hv]
      cases hx : ignoreValue n tz with
      | mk c x =>
        rw [hx] at h
        cases c with
        | ok =>
          simp only at h ⊢
          cases he : x.expect .comma with
          | mk o y =>
            rw [he] at h
            cases o with
            | true => exact ignoreArrLoop_mono n k y h
            | false => rfl
        | _ => rfl
theorem ignoreObjLoop_mono : (n k : Nat) → (tz : Tz) → (ignoreObjLoop n tz).1 ≠ .fuel → ignoreObjLoop (n + k) tz = ignoreObjLoop n tz
  | 0, _, _, h => absurd rfl h
  | n + 1, k, tz, h => by
    rw [Nat.add_right_comm]
    unfold ignoreObjLoop at h ⊢
    split
    · rfl
    · rename_i hc
      rw [if_neg hc] at h
      cases h1 : tz.expect .string with
      | mk o y1 =>
        rw [h1] at h
        cases o with
        | false => rfl
        | true =>
          simp only at h ⊢
          cases h2 : y1.expect .colon with
          | mk o y2 =>
            rw [h2] at h
            cases o with
            | false => rfl
            | true =>
              simp only at h ⊢
              have hv : (ignoreValue n y2).1 ≠ .fuel := by
                intro hf
                cases hx : ignoreValue n y2 with
                | mk c x => rw [hx] at h hf; simp only at hf; subst hf; exact h rfl
              rw [ignoreValue_mono n k y2 hv]
              cases hx : ignoreValue n y2 with
              | mk c x =>
                rw [hx] at h
                cases c with
                | ok =>
                  simp only at h ⊢
                  cases he : x.expect .comma with
                  | mk o y =>
                    rw [he] at h
                    cases o with
                    | true => exact ignoreObjLoop_mono n k y h
                    | false => rfl
                | _ => rfl
end

theorem readArrLoop_mono {α : Type} {rd rd' : Tz → Res α} (hrd : ∀ tz, (rd tz).1 ≠ .fuel → rd' tz = rd tz) :
    (n k : Nat) → (tz : Tz) → (v : List α) → (readArrLoop rd n tz v).1 ≠ .fuel → readArrLoop rd' (n + k) tz v = readArrLoop rd n tz v
  | 0, _, _, _, h => absurd rfl h
  | n + 1, k, tz, v, h => by
    rw [Nat.add_right_comm]
    unfold readArrLoop at h ⊢
    have hv : (rd tz).1 ≠ .fuel := by
      intro hf
      cases hx : rd tz with
      | mk c x => rw [hx] at h hf; simp only at hf; subst hf; exact h rfl
    rw [hrd tz hv]
    cases hx : rd tz with
    | mk c xw =>
      obtain ⟨x, w⟩ := xw
      rw [hx] at h hv
      cases c with
      | error => rfl
      | fuel => exact absurd rfl hv
      | ok =>
        simp only at h ⊢
        cases he : x.expect .comma with
        | mk o y =>
          rw [he] at h
          cases o with
          | true => exact readArrLoop_mono hrd n k y _ h
          | false => rfl
      | nil =>
        simp only at h ⊢
        cases he : x.expect .comma with
        | mk o y =>
          rw [he] at h
          cases o with
          | true => exact readArrLoop_mono hrd n k y _ h
          | false => rfl

theorem readArr_mono {α : Type} {rd rd' : Tz → Res α} (hrd : ∀ tz, (rd tz).1 ≠ .fuel → rd' tz = rd tz)
    (n k : Nat) (tz : Tz) (v : List α) (h : (readArr rd n tz v).1 ≠ .fuel) : readArr rd' (n + k) tz v = readArr rd n tz v := by
  unfold readArr at h ⊢
  split
  · rfl
  · rename_i hc
    rw [if_neg hc] at h
    cases h1 : tz.expect .arrs with
    | mk o y =>
      rw [h1] at h
      cases o with
      | false => rfl
      | true =>
        simp only at h ⊢
        cases h2 : y.expect .arre with
        | mk o z =>
          rw [h2] at h
          cases o with
          | true => rfl
          | false => exact readArrLoop_mono hrd n k z v h

theorem readObjLoop_mono {α : Type} {rf rf' : Bytes → Tz → α → Res α}
    (hrf : ∀ name tz v, (rf name tz v).1 ≠ .fuel → rf' name tz v = rf name tz v) :
    (n k : Nat) → (tz : Tz) → (v : α) → (readObjLoop rf n tz v).1 ≠ .fuel → readObjLoop rf' (n + k) tz v = readObjLoop rf n tz v
  | 0, _, _, _, h => absurd rfl h
  | n + 1, k, tz, v, h => by
    rw [Nat.add_right_comm]
    unfold readObjLoop at h ⊢
    simp only at h ⊢
    cases h1 : tz.expect .string with
    | mk o y1 =>
      rw [h1] at h
      cases o with
      | false => rfl
      | true =>
        simp only at h ⊢
        cases h2 : y1.expect .colon with
        | mk o y2 =>
          rw [h2] at h
          cases o with
          | false => rfl
          | true =>
            simp only at h ⊢
            have hv : (rf tz.cur.value y2 v).1 ≠ .fuel := by
              intro hf
              cases hx : rf tz.cur.value y2 v with
              | mk c x => rw [hx] at h hf; simp only at hf; subst hf; exact h rfl
            rw [hrf _ _ _ hv]
            have tail : ∀ (x : Tz) (w : α),
                (match objStep x with
                  | (none, tz) => readObjLoop rf n tz w
                  | (some r, tz) => (r, tz, w)).1 ≠ .fuel →
                (match objStep x with
                  | (none, tz) => readObjLoop rf' (n + k) tz w
                  | (some r, tz) => (r, tz, w)) =
                (match objStep x with
                  | (none, tz) => readObjLoop rf n tz w
                  | (some r, tz) => (r, tz, w)) := by
              intro x w h
              cases ho : objStep x with
              | mk o y =>
                rw [ho] at h
                cases o with
                | none => exact readObjLoop_mono hrf n k y w h
                | some r => rfl
            cases hx : rf tz.cur.value y2 v with
            | mk c xw =>
              obtain ⟨x, w⟩ := xw
              rw [hx] at h hv
              cases c with
              | error => rfl
              | fuel => exact absurd rfl hv
              | ok => exact tail x w h
              | nil =>
                simp only at h ⊢
                have hi : (ignoreValue n x).1 ≠ .fuel := by
                  intro hf
                  cases hy : ignoreValue n x with
                  | mk c y => rw [hy] at h hf; simp only at hf; subst hf; exact h rfl
                rw [ignoreValue_mono n k x hi]
                cases hy : ignoreValue n x with
                | mk c y =>
                  rw [hy] at h hi
                  cases c with
                  | error => rfl
                  | fuel => exact absurd rfl hi
                  | ok => exact tail y w h
                  | nil => exact tail y w h

theorem readObj_mono {α : Type} {rf rf' : Bytes → Tz → α → Res α}
    (hrf : ∀ name tz v, (rf name tz v).1 ≠ .fuel → rf' name tz v = rf name tz v)
    (n k : Nat) (tz : Tz) (v : α) (h : (readObj rf n tz v).1 ≠ .fuel) : readObj rf' (n + k) tz v = readObj rf n tz v := by
  unfold readObj at h ⊢
  split
  · rfl
  · rename_i hc
    rw [if_neg hc] at h
    cases h1 : tz.expect .objs with
    | mk o y =>
      rw [h1] at h
      cases o with
      | false => rfl
      | true =>
        simp only at h ⊢
        cases h2 : y.expect .obje with
        | mk o z =>
          rw [h2] at h
          cases o with
          | true => rfl
          | false => exact readObjLoop_mono hrf n k z v h

mutual
/-- A reader that finished gives the same result with more fuel. -/
theorem Ty.read_mono : (t : Ty) → (n k : Nat) → (tz : Tz) → (v : t.Den) → (t.read n tz v).1 ≠ .fuel →
    t.read (n + k) tz v = t.read n tz v
  | .num p, n, k, tz, v, _ => by simp only [Ty.read]
  | .raw p, n, k, tz, v, _ => by simp only [Ty.read]
  | .str, n, k, tz, v, _ => by simp only [Ty.read]
  | .bytes, n, k, tz, v, _ => by simp only [Ty.read]
  | .rep t, n, k, tz, v, h => by
    simp only [Ty.read] at h ⊢
    exact readArr_mono (fun tz h => Ty.read_mono t n k tz t.new h) n k tz v h
  | .msg obf fs, n, k, tz, v, h => by
    simp only [Ty.read] at h ⊢
    refine readObj_mono (fun name tz v h => ?_) n k tz v h
    cases hi : indexOf obf fs name with
    | none => rfl
    | some i => rw [hi] at h; exact Fields.readAt_mono fs i n k tz v h
theorem Fields.readAt_mono : (fs : Fields) → (i n k : Nat) → (tz : Tz) → (v : fs.Den) → (fs.readAt i n tz v).1 ≠ .fuel →
    fs.readAt i (n + k) tz v = fs.readAt i n tz v
  | .nil, _, _, _, _, _, _ => rfl
  | .cons f t rest, i, n, k, tz, v, h => by
    unfold Fields.readAt at h ⊢
    cases hf : f.transient with
    | true =>
      simp only [hf, if_true] at h ⊢
      rw [Fields.readAt_mono rest i n k tz v.2 h]
    | false =>
      simp only [hf, Bool.false_eq_true, if_false] at h ⊢
      cases i with
      | zero => simp only at h ⊢; rw [Ty.read_mono t n k tz v.1 h]
      | succ i => simp only at h ⊢; rw [Fields.readAt_mono rest i n k tz v.2 h]
end

theorem open_m (bs : Bytes) (e : ErrInfo) : (Tz.open' (IStream.open' bs) e).m ≤ bs.length := by
  have h1 := Tz.next_m_le { cur := {}, inp := IStream.open' bs, err := e }
  have h2 := IStream.skip_length_le bs 1 1
  exact Nat.le_trans h1 h2

end PG
