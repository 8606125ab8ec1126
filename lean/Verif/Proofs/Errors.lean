import Verif.Proofs.Fuel
/-
Return codes of the readers: PGR_ERROR always comes with an error record, PGR_NIL only for a `null` token.
-/
set_option autoImplicit false
namespace PG

theorem error_code {tz : Tz} {c : ECode} (h : c ≠ .ok) : (tz.error c).2.err.code ≠ .ok := by
  unfold Tz.error
  split
  · assumption
  · exact h

/-- The error record points to the current token. -/
def Here (tz : Tz) : Prop := tz.err.line = tz.cur.line ∧ tz.err.col = tz.cur.col

/-- A token the tokenizer goes past. -/
def TId.Proper (t : TId) : Prop := t ≠ .none ∧ t ≠ .eos

instance (t : TId) : Decidable t.Proper := inferInstanceAs (Decidable (_ ∧ _))

/-- What is known about the tokens passed so far: `K` while no error is recorded, `B` once a malformed base64 string has
left one without stopping the reader. -/
structure Hist where
  K : Tz → Prop
  B : Tz → Prop
  knext : ∀ {tz}, K tz → tz.cur.id.Proper → K tz.next
  bnext : ∀ {tz}, B tz → tz.cur.id.Proper → B tz.next
  late : ∀ {tz}, B tz → tz.err.code = .ok → ∀ tz', B tz'

/-- Every malformed base64 string that is taken is noted. -/
def Hist.Notes (H : Hist) : Prop :=
  ∀ tz, H.K tz → tz.err.code = .ok → tz.cur.id = .string → (b64Dec tz.cur.value).2 = true → H.B (tz.next.error .invalidBase64).2

/-- Nothing known, no error may have been left. -/
def Hist.strict : Hist := ⟨fun _ => True, fun _ => False, fun _ _ => trivial, fun h _ => h, fun h _ _ => h⟩

/-- Nothing known, an error may have been left. -/
def Hist.loose : Hist := ⟨fun _ => True, fun _ => True, fun _ _ => trivial, fun _ _ => trivial, fun _ _ _ => trivial⟩

theorem Hist.loose_notes : Hist.loose.Notes := fun _ _ _ _ _ => trivial

/-- No error so far, or one left by a malformed base64 string. -/
def NoErr (B : Hist) (tz : Tz) : Prop := (tz.err.code = .ok ∧ B.K tz) ∨ B.B tz

theorem NoErr.next {B : Hist} {tz : Tz} (h : NoErr B tz) (hid : tz.cur.id.Proper) : NoErr B tz.next :=
  h.imp (fun h => ⟨h.1, B.knext h.2 hid⟩) (fun h => B.bnext h hid)

theorem NoErr.step {B : Hist} {tz : Tz} {t : TId} (h : NoErr B tz) (hid : tz.cur.id = t) (ht : t.Proper := by decide) :
    NoErr B tz.next := h.next (by rw [hid]; exact ht)

theorem NoErr.expect {B : Hist} {tz y : Tz} {t : TId} {b : Bool} (h : NoErr B tz) (he : tz.expect t = (b, y))
    (ht : t.Proper := by decide) : NoErr B y := by
  unfold Tz.expect at he
  split at he
  · rename_i hid
    injection he with _ he; subst he; exact h.step hid ht
  · injection he with _ he; subst he; exact h

/-- If the code is PGR_ERROR, an error is recorded, at the current token unless an earlier one was left; otherwise none
is recorded. -/
def EOk {α : Type} (B : Hist) (r : RC × Tz × α) : Prop :=
  (r.1 = .error → r.2.1.err.code ≠ .ok ∧ (Here r.2.1 ∨ B.B r.2.1)) ∧ (r.1 ≠ .error → NoErr B r.2.1)

/-- The same without an object; the code is never PGR_NIL. -/
def EOk0 (B : Hist) (r : RC × Tz) : Prop :=
  (r.1 = .error → r.2.err.code ≠ .ok ∧ (Here r.2 ∨ B.B r.2)) ∧ (r.1 ≠ .error → NoErr B r.2) ∧ r.1 ≠ .nil

theorem error_here {B : Hist} {tz : Tz} (h : NoErr B tz) {c : ECode} (hc : c ≠ .ok) :
    (tz.error c).2.err.code ≠ .ok ∧ (Here (tz.error c).2 ∨ B.B (tz.error c).2) := by
  refine ⟨error_code hc, ?_⟩
  unfold Tz.error
  split
  · rename_i h'
    rcases h with h | h
    · exact absurd h.1 h'
    · exact .inr h
  · exact .inl ⟨rfl, rfl⟩

section
variable {B : Hist}

theorem eok0_error {tz : Tz} (h : NoErr B tz) {c : ECode} (hc : c ≠ .ok) : EOk0 B (tz.error c) :=
  ⟨fun _ => error_here h hc, fun hh => absurd (error_fst tz c) hh, by rw [error_fst]; decide⟩

theorem eok0_ok {tz : Tz} (h : NoErr B tz) : EOk0 B (.ok, tz) := ⟨fun h => (by cases h), fun _ => h, by simp⟩
theorem eok0_fuel {tz : Tz} (h : NoErr B tz) : EOk0 B (.fuel, tz) := ⟨fun h => (by cases h), fun _ => h, by simp⟩

theorem eok0_arrEnd {tz : Tz} (h : NoErr B tz) : EOk0 B (ignoreArrEnd tz) := by
  unfold ignoreArrEnd
  split
  · rename_i he; exact eok0_ok (h.expect he)
  · rename_i he; exact eok0_error (h.expect he) (by decide)

theorem eok0_objEnd {tz : Tz} (h : NoErr B tz) : EOk0 B (ignoreObjEnd tz) := by
  unfold ignoreObjEnd
  split
  · rename_i he; exact eok0_ok (h.expect he)
  · rename_i he; exact eok0_error (h.expect he) (by decide)

mutual
theorem ignoreValue_eok : (n : Nat) → {tz : Tz} → NoErr B tz → EOk0 B (ignoreValue n tz)
  | 0, _, h => eok0_fuel h
  | n + 1, tz, h => by
    unfold ignoreValue
    split
    all_goals first
      | exact eok0_error h (by decide)
      | exact ignoreObjLoop_eok n (h.next (by simp_all [TId.Proper]))
      | exact ignoreArrLoop_eok n (h.next (by simp_all [TId.Proper]))
      | (have hn := h.next (by simp_all [TId.Proper]); simp only; split; exact eok0_error hn (by decide); exact eok0_ok hn)
theorem ignoreArrLoop_eok : (n : Nat) → {tz : Tz} → NoErr B tz → EOk0 B (ignoreArrLoop n tz)
  | 0, _, h => eok0_fuel h
  | n + 1, tz, h => by
    unfold ignoreArrLoop
    split
    · exact eok0_arrEnd h
    · have hv := ignoreValue_eok n h
      split
      · rename_i x hx
        rw [hx] at hv
        have hn : NoErr B x := hv.2.1 (by simp)
        split
        · rename_i he; exact ignoreArrLoop_eok n (hn.expect he)
        · rename_i he; exact eok0_arrEnd (hn.expect he)
      · rename_i r x h
        rw [h] at hv
        exact hv
theorem ignoreObjLoop_eok : (n : Nat) → {tz : Tz} → NoErr B tz → EOk0 B (ignoreObjLoop n tz)
  | 0, _, h => eok0_fuel h
  | n + 1, tz, h => by
    unfold ignoreObjLoop
    split
    · exact eok0_objEnd h
    · split
      · rename_i he; exact eok0_error (h.expect he) (by decide)
      · rename_i he
        have h1 := h.expect he
        split
        · rename_i he; exact eok0_error (h1.expect he) (by decide)
        · rename_i he
          have hv := ignoreValue_eok n (h1.expect he)
          split
          · rename_i x hx
            rw [hx] at hv
            have hn : NoErr B x := hv.2.1 (by simp)
            split
            · rename_i he; exact ignoreObjLoop_eok n (hn.expect he)
            · rename_i he; exact eok0_objEnd (hn.expect he)
          · rename_i r x h
            rw [h] at hv
            exact hv
end

theorem eok_error {α : Type} {tz : Tz} (h : NoErr B tz) {c : ECode} (hc : c ≠ .ok) (v : α) :
    EOk B ((tz.error c).1, (tz.error c).2, v) :=
  ⟨fun _ => error_here h hc, fun hh => absurd (error_fst tz c) hh⟩

theorem eok_of {α : Type} {rc : RC} (hr : rc ≠ .error) {tz : Tz} (h : NoErr B tz) (v : α) : EOk B (rc, tz, v) :=
  ⟨fun hh => absurd hh hr, fun _ => h⟩

theorem Prim.read_eok (p : Prim) {tz : Tz} (h : NoErr B tz) (v : p.Den) : EOk B (p.read tz v) := by
  cases p <;> unfold Prim.read <;> simp only <;> (repeat' split) <;>
    first | exact eok_error h (by decide) _ | exact eok_of (by decide) h _ | exact eok_of (by decide) (h.next ⟨by intro h0; simp_all, by intro h0; simp_all⟩) _

theorem stringRead_eok {tz : Tz} (h : NoErr B tz) (v : Bytes) : EOk B (stringRead tz v) := by
  unfold stringRead
  split
  · exact eok_of (by decide) h _
  · split
    · rename_i he; exact eok_error (h.expect he) (by decide) _
    · rename_i he; exact eok_of (by decide) (h.expect he) _

/-- Here a malformed base64 string leaves an error behind. -/
theorem bytesRead_eok {tz : Tz} (hB : B.Notes) (h : NoErr B tz) (v : List Byte) : EOk B (bytesRead tz v) := by
  unfold bytesRead
  split
  · exact eok_of (by decide) h _
  · split
    · exact eok_error h (by decide) _
    · rename_i hid
      have hid : tz.cur.id = .string := Decidable.byContradiction hid
      refine eok_of (by decide) ?_ _
      split
      · rename_i hb
        rcases h with h | h
        · exact .inr (hB tz h.2 h.1 hid hb)
        · have h := B.bnext h (by rw [hid]; decide)
          unfold Tz.error
          split
          · exact .inr h
          · rename_i he
            exact .inr (B.late h (by simpa using he) _)
      · exact h.step hid

theorem readArrLoop_eok {α : Type} {rd : Tz → Res α} (hrd : ∀ tz, NoErr B tz → EOk B (rd tz)) :
    (n : Nat) → {tz : Tz} → NoErr B tz → (v : List α) → EOk B (readArrLoop rd n tz v)
  | 0, _, h, _ => eok_of (by decide) h _
  | n + 1, tz, h, v => by
    unfold readArrLoop
    have hr := hrd tz h
    split
    · rename_i h; rw [h] at hr; exact hr
    · rename_i h; rw [h] at hr; exact hr
    · rename_i r x w h1 h2 hx
      rw [hx] at hr
      have hn : NoErr B x := hr.2 h1
      simp only
      split
      · rename_i he; exact readArrLoop_eok hrd n (hn.expect he) _
      · rename_i he
        have hn := hn.expect he
        split
        · rename_i he; exact eok_of (by decide) (hn.expect he) _
        · rename_i he; exact eok_error (hn.expect he) (by decide) _

theorem readArr_eok {α : Type} {rd : Tz → Res α} (hrd : ∀ tz, NoErr B tz → EOk B (rd tz)) (n : Nat) {tz : Tz} (h : NoErr B tz)
    (v : List α) : EOk B (readArr rd n tz v) := by
  unfold readArr
  split
  · exact eok_of (by decide) h _
  · split
    · rename_i he; exact eok_error (h.expect he) (by decide) _
    · rename_i he
      have hn := h.expect he
      split
      · rename_i he; exact eok_of (by decide) (hn.expect he) _
      · rename_i he; exact readArrLoop_eok hrd n (hn.expect he) _

theorem objStep_eok {tz : Tz} (h : NoErr B tz) :
    ((objStep tz).1 = some .error → (objStep tz).2.err.code ≠ .ok ∧ (Here (objStep tz).2 ∨ B.B (objStep tz).2)) ∧
    ((objStep tz).1 ≠ some .error → NoErr B (objStep tz).2) ∧ (objStep tz).1 ≠ some .nil := by
  unfold objStep
  split
  · rename_i he; exact ⟨fun h => by simp at h, fun _ => h.expect he, by simp⟩
  · rename_i he
    have hn := h.expect he
    split
    · rename_i he; exact ⟨fun h => by simp at h, fun _ => hn.expect he, by simp⟩
    · rename_i he; exact ⟨fun _ => error_here (hn.expect he) (by decide), fun hh => absurd (by simp [error_fst]) hh, by simp [error_fst]⟩

theorem objStep_tail {α : Type} (P : Res α → Prop) {x : Tz} (h : NoErr B x) (f : Tz → Res α) (w : α)
    (h1 : ∀ y, NoErr B y → P (f y))
    (h2 : ∀ r y, r ≠ .nil → (r = .error → y.err.code ≠ .ok ∧ (Here y ∨ B.B y)) → (r ≠ .error → NoErr B y) → P (r, y, w)) :
    P (match objStep x with
      | (none, tz) => f tz
      | (some r, tz) => (r, tz, w)) := by
  obtain ⟨a, b, c⟩ := objStep_eok h
  cases h : objStep x with
  | mk o y =>
    rw [h] at a b c
    cases o with
    | none => exact h1 y (b (by simp))
    | some r => exact h2 r y (fun hh => c (by rw [hh])) (fun hh => a (by rw [hh])) (fun hh => b (by simpa using hh))

theorem readObjLoop_eok {α : Type} {rf : Bytes → Tz → α → Res α} (hrf : ∀ name tz v, NoErr B tz → EOk B (rf name tz v)) :
    (n : Nat) → {tz : Tz} → NoErr B tz → (v : α) → EOk B (readObjLoop rf n tz v)
  | 0, _, h, _ => eok_of (by decide) h _
  | n + 1, tz, h, v => by
    unfold readObjLoop
    simp only
    split
    · rename_i he; exact eok_error (h.expect he) (by decide) _
    · rename_i he
      have hn := h.expect he
      split
      · rename_i he; exact eok_error (hn.expect he) (by decide) _
      · rename_i y2 he
        have hr := hrf tz.cur.value y2 v (hn.expect he)
        split
        · rename_i h; rw [h] at hr; exact hr
        · rename_i h; rw [h] at hr; exact hr
        · rename_i x w h
          rw [h] at hr
          exact objStep_tail (EOk B) (hr.2 (by simp)) _ _ (fun y hy => readObjLoop_eok hrf n hy _) (fun _ _ _ h1 h2 => ⟨h1, h2⟩)
        · rename_i x w h
          rw [h] at hr
          have hi := ignoreValue_eok n (tz := x) (hr.2 (by simp))
          split
          · rename_i h; rw [h] at hi; exact ⟨hi.1, hi.2.1⟩
          · rename_i h; rw [h] at hi; exact ⟨hi.1, hi.2.1⟩
          · rename_i r y h1 h2 hx
            rw [hx] at hi
            have hn : NoErr B y := hi.2.1 h1
            exact objStep_tail (EOk B) hn _ _ (fun y hy => readObjLoop_eok hrf n hy _) (fun _ _ _ h1 h2 => ⟨h1, h2⟩)

theorem readObj_eok {α : Type} {rf : Bytes → Tz → α → Res α} (hrf : ∀ name tz v, NoErr B tz → EOk B (rf name tz v)) (n : Nat) {tz : Tz}
    (h : NoErr B tz) (v : α) : EOk B (readObj rf n tz v) := by
  unfold readObj
  split
  · exact eok_of (by decide) h _
  · split
    · rename_i he; exact eok_error (h.expect he) (by decide) _
    · rename_i he
      have hn := h.expect he
      split
      · rename_i he; exact eok_of (by decide) (hn.expect he) _
      · rename_i he; exact readObjLoop_eok hrf n (hn.expect he) _
end

mutual
/-- No `bytes` anywhere in the type. -/
def Ty.NoBytes : Ty → Prop
  | .num _ => True
  | .raw _ => True
  | .str => True
  | .bytes => False
  | .rep t => t.NoBytes
  | .msg _ fs => fs.NoBytes
/-- No `bytes` in any field. -/
def Fields.NoBytes : Fields → Prop
  | .nil => True
  | .cons _ t rest => t.NoBytes ∧ rest.NoBytes
end

mutual
/-- PGR_ERROR always comes with an error record; without `bytes` fields it points to the current token. -/
theorem Ty.read_eok {B : Hist} : (t : Ty) → (t.NoBytes ∨ B.Notes) → (n : Nat) → {tz : Tz} → NoErr B tz → (v : t.Den) → EOk B (t.read n tz v)
  | .num p, _, n, tz, h, v => by
    simp only [Ty.read]
    exact Prim.read_eok p h p.zero
  | .raw p, _, n, tz, h, v => by simp only [Ty.read]; exact Prim.read_eok p h v
  | .str, _, n, tz, h, v => by
    simp only [Ty.read]
    exact stringRead_eok h []
  | .bytes, hB, n, tz, h, v => by
    simp only [Ty.read]
    exact bytesRead_eok (hB.resolve_left (by simp [Ty.NoBytes])) h v
  | .rep t, hB, n, tz, h, v => by
    simp only [Ty.read]
    exact readArr_eok (fun tz h => Ty.read_eok t (hB.imp_left (by simp [Ty.NoBytes])) n h t.new) n h v
  | .msg obf fs, hB, n, tz, h, v => by
    simp only [Ty.read]
    refine readObj_eok (fun name tz v h => ?_) n h v
    cases indexOf obf fs name with
    | none => exact eok_of (by decide) h _
    | some i => exact Fields.readAt_eok fs (hB.imp_left (by simp [Ty.NoBytes])) i n h v
theorem Fields.readAt_eok {B : Hist} : (fs : Fields) → (fs.NoBytes ∨ B.Notes) → (i n : Nat) → {tz : Tz} → NoErr B tz → (v : fs.Den) →
    EOk B (fs.readAt i n tz v)
  | .nil, _, _, _, _, h, _ => eok_of (by decide) h _
  | .cons f t rest, hB, i, n, tz, h, v => by
    have hb1 : t.NoBytes ∨ B.Notes := hB.imp_left (fun h => by unfold Fields.NoBytes at h; exact h.1)
    have hb2 : rest.NoBytes ∨ B.Notes := hB.imp_left (fun h => by unfold Fields.NoBytes at h; exact h.2)
    unfold Fields.readAt
    cases hf : f.transient with
    | true => simp only [if_true]; exact Fields.readAt_eok rest hb2 i n h v.2
    | false =>
      simp only [Bool.false_eq_true, if_false]
      cases i with
      | zero => exact Ty.read_eok t hb1 n h v.1
      | succ i => exact Fields.readAt_eok rest hb2 i n h v.2
end

/-! ### PGR_NIL -/

theorem Prim.read_nil (p : Prim) (tz : Tz) (v : p.Den) : (p.read tz v).1 = .nil ↔ tz.cur.id = .nil := by
  cases p <;> unfold Prim.read <;> simp only <;> (repeat' split) <;> simp_all [error_fst]

theorem stringRead_nil (tz : Tz) (v : Bytes) : (stringRead tz v).1 = .nil ↔ tz.cur.id = .nil := by
  unfold stringRead; (repeat' split) <;> simp_all [error_fst]

theorem bytesRead_nil (tz : Tz) (v : List Byte) : (bytesRead tz v).1 = .nil ↔ tz.cur.id = .nil := by
  unfold bytesRead; (repeat' split) <;> simp_all [error_fst]

theorem readArrLoop_nil {α : Type} {rd : Tz → Res α} : (n : Nat) → (tz : Tz) → (v : List α) → (readArrLoop rd n tz v).1 ≠ .nil
  | 0, _, _ => by simp [readArrLoop]
  | n + 1, tz, v => by
    unfold readArrLoop
    split
    · simp
    · simp
    · simp only
      split
      · exact readArrLoop_nil n _ _
      · split
        · simp
        · simp [error_fst]

theorem readObjLoop_nil {α : Type} {rf : Bytes → Tz → α → Res α} :
    (n : Nat) → (tz : Tz) → (v : α) → (readObjLoop rf n tz v).1 ≠ .nil
  | 0, _, _ => by simp [readObjLoop]
  | n + 1, tz, v => by
    unfold readObjLoop
    simp only
    split
    · simp [error_fst]
    · split
      · simp [error_fst]
      · split
        · simp
        · simp
        · exact objStep_tail (B := Hist.loose) (fun r => r.1 ≠ .nil) (.inr trivial) _ _ (fun y _ => readObjLoop_nil n y _) (fun _ _ hh _ _ => hh)
        · split
          · simp
          · simp
          · exact objStep_tail (B := Hist.loose) (fun r => r.1 ≠ .nil) (.inr trivial) _ _ (fun y _ => readObjLoop_nil n y _) (fun _ _ hh _ _ => hh)

/-- A reader answers PGR_NIL exactly when the current token is `null`; it then changes nothing, except that a string
field becomes the empty string. -/
theorem Ty.read_nil (t : Ty) (n : Nat) (tz : Tz) (v : t.Den) : (t.read n tz v).1 = .nil ↔ tz.cur.id = .nil := by
  cases t with
  | num p => simp only [Ty.read, NumField.read]; exact Prim.read_nil p tz _
  | raw p => simp only [Ty.read]; exact Prim.read_nil p tz _
  | str => simp only [Ty.read, StrField.read]; exact stringRead_nil tz _
  | bytes => simp only [Ty.read]; exact bytesRead_nil tz _
  | rep t =>
    simp only [Ty.read]
    unfold readArr
    (repeat' split) <;> first | (simp_all [error_fst]; done) | skip
    exact ⟨fun h => absurd h (readArrLoop_nil n _ _), fun h => by contradiction⟩
  | msg o fs =>
    simp only [Ty.read]
    unfold readObj
    (repeat' split) <;> first | (simp_all [error_fst]; done) | skip
    exact ⟨fun h => absurd h (readObjLoop_nil n _ _), fun h => by contradiction⟩

/-- At a `null` token the tokenizer is not advanced and no error is recorded. -/
theorem Ty.read_nil_tz (t : Ty) (n : Nat) (tz : Tz) (v : t.Den) (h : tz.cur.id = .nil) : (t.read n tz v).2.1 = tz := by
  cases t with
  | num p => simp only [Ty.read, NumField.read]; cases p <;> simp [Prim.read, h]
  | raw p => simp only [Ty.read]; cases p <;> simp [Prim.read, h]
  | str => simp only [Ty.read, StrField.read]; simp [stringRead, h]
  | bytes => simp only [Ty.read]; simp [bytesRead, h]
  | rep t => simp only [Ty.read]; simp [readArr, h]
  | msg o fs => simp only [Ty.read]; simp [readObj, h]

end PG
