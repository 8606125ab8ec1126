import Verif.Spec.Encode
/-
The side conditions of the theorems are decidable; used for the concrete cases.
-/
set_option autoImplicit false
namespace PG

instance (b : Byte) : Decidable (rfcRaw b) := inferInstanceAs (Decidable (_ ∧ _))
instance (b : Byte) : Decidable (wideRaw b) := inferInstanceAs (Decidable (_ ∧ _))

instance Dispatches.dec (obf : Bool) (fs : Fields) : Decidable (Dispatches obf fs) :=
  decidable_of_iff (∀ i, (h : i < fs.labels.length) → indexOf obf fs (fs.labels[i]'h) = some i) <| by
    unfold Dispatches
    constructor
    · intro h i lab hl
      obtain ⟨hi, he⟩ := List.getElem?_eq_some_iff.mp hl
      rw [← he]; exact h i hi
    · intro h i hi
      exact h i _ (List.getElem?_eq_getElem hi)

mutual
def Ty.decLabelsOk : (t : Ty) → Decidable t.LabelsOk
  | .num _ => .isTrue trivial
  | .raw _ => .isTrue trivial
  | .str => .isTrue trivial
  | .bytes => .isTrue trivial
  | .rep t => Ty.decLabelsOk t
  | .msg _ fs => Fields.decLabelsOk fs
def Fields.decLabelsOk : (fs : Fields) → Decidable fs.LabelsOk
  | .nil => .isTrue trivial
  | .cons f t rest =>
    have := Ty.decLabelsOk t
    have := Fields.decLabelsOk rest
    inferInstanceAs (Decidable ((f.transient = false → (∀ b ∈ f.wlabel, rfcRaw b)) ∧ t.LabelsOk ∧ rest.LabelsOk))
end

mutual
def Ty.decDispatchOk : (t : Ty) → Decidable t.DispatchOk
  | .num _ => .isTrue trivial
  | .raw _ => .isTrue trivial
  | .str => .isTrue trivial
  | .bytes => .isTrue trivial
  | .rep t => Ty.decDispatchOk t
  | .msg obf fs =>
    have := Fields.decDispatchOk fs
    inferInstanceAs (Decidable (Dispatches obf fs ∧ fs.DispatchOk))
def Fields.decDispatchOk : (fs : Fields) → Decidable fs.DispatchOk
  | .nil => .isTrue trivial
  | .cons _ t rest =>
    have := Ty.decDispatchOk t
    have := Fields.decDispatchOk rest
    inferInstanceAs (Decidable (t.DispatchOk ∧ rest.DispatchOk))
end

instance (t : Ty) : Decidable t.LabelsOk := Ty.decLabelsOk t
instance (t : Ty) : Decidable t.DispatchOk := Ty.decDispatchOk t

instance (cp : Nat) : Decidable (Scalar cp) := inferInstanceAs (Decidable (_ ∨ _))

/-- A checker for arithmetic values with a JSON form. -/
def Prim.finiteB : (p : Prim) → p.Den → Bool
  | .int _, _ => true
  | .bool, _ => true
  | .flt _, v => match v.val with
    | .fin _ _ => true
    | _ => false

theorem Prim.finiteB_sound (p : Prim) (v : p.Den) (h : p.finiteB v = true) : p.Finite v := by
  cases p with
  | int k => trivial
  | bool => trivial
  | flt k =>
    obtain ⟨x, hx⟩ := v
    cases x with
    | fin n m => exact ⟨n, m, rfl⟩
    | nan => simp [Prim.finiteB] at h
    | inf n => simp [Prim.finiteB] at h

/-- Decoder used to show that concrete strings are UTF-8: the code points. -/
def utf8Decode : Nat → Bytes → List Nat
  | _, [] => []
  | 0, _ => []
  | n + 1, b :: t =>
    let x := b.toNat
    let y := (t.getD 0 0).toNat
    let z := (t.getD 1 0).toNat
    let w := (t.getD 2 0).toNat
    if x < 0x80 then x :: utf8Decode n t
    else if x < 0xE0 then (x % 32 * 64 + y % 64) :: utf8Decode n (t.drop 1)
    else if x < 0xF0 then (x % 16 * 4096 + y % 64 * 64 + z % 64) :: utf8Decode n (t.drop 2)
    else (x % 8 * 262144 + y % 64 * 4096 + z % 64 * 64 + w % 64) :: utf8Decode n (t.drop 3)

/-- A checker for UTF-8. -/
def utf8B (s : Bytes) : Bool :=
  let cps := utf8Decode s.length s
  decide ((∀ cp ∈ cps, Scalar cp) ∧ s = utf8All cps)

theorem utf8B_sound {s : Bytes} (h : utf8B s = true) : Utf8 s := ⟨_, of_decide_eq_true h⟩

mutual
/-- A checker for `Writable` (bytes of strings satisfy `okB`). -/
def Ty.writableB (okB : Byte → Bool) (ascii : Bool) : (t : Ty) → t.Den → Bool
  | .num p, v => v.empty || p.finiteB v.value
  | .raw p, v => p.finiteB v
  | .str, v => v.empty || (v.value.all okB && (!ascii || utf8B v.value))
  | .bytes, _ => true
  | .rep t, v => List.all v (t.writableB okB ascii)
  | .msg _ fs, v => fs.writableB okB ascii v
/-- A checker for `Writable`. -/
def Fields.writableB (okB : Byte → Bool) (ascii : Bool) : (fs : Fields) → fs.Den → Bool
  | .nil, _ => true
  | .cons f t rest, v => (f.transient || t.writableB okB ascii v.1) && rest.writableB okB ascii v.2
end

theorem strOk_of {okB : Byte → Bool} {s : Bytes} {ascii : Bool} (h : (s.all okB && (!ascii || utf8B s)) = true) :
    StrOk (fun b => okB b = true) ascii s := by
  simp only [Bool.and_eq_true, List.all_eq_true, Bool.or_eq_true, Bool.not_eq_true'] at h
  exact ⟨h.1, fun ha => by
    rcases h.2 with h2 | h2
    · simp [ha] at h2
    · exact utf8B_sound h2⟩

mutual
theorem Ty.writableB_sound (okB : Byte → Bool) (ascii : Bool) : (t : Ty) → (v : t.Den) → t.writableB okB ascii v = true →
    t.Writable (fun b => okB b = true) ascii v
  | .num p, v, h => by
    intro he
    have h' : (v.empty || p.finiteB v.value) = true := h
    rw [he, Bool.false_or] at h'
    exact p.finiteB_sound _ h'
  | .raw p, v, h => p.finiteB_sound v h
  | .str, v, h => by
    intro he
    have h' : (v.empty || (v.value.all okB && (!ascii || utf8B v.value))) = true := h
    rw [he, Bool.false_or] at h'
    exact strOk_of h'
  | .bytes, _, _ => trivial
  | .rep t, v, h => fun x hx => Ty.writableB_sound okB ascii t x (List.all_eq_true.mp h x hx)
  | .msg _ fs, v, h => Fields.writableB_sound okB ascii fs v h
theorem Fields.writableB_sound (okB : Byte → Bool) (ascii : Bool) : (fs : Fields) → (v : fs.Den) → fs.writableB okB ascii v = true →
    fs.Writable (fun b => okB b = true) ascii v
  | .nil, _, _ => trivial
  | .cons f t rest, v, h => by
    have h' : ((f.transient || t.writableB okB ascii v.1) && rest.writableB okB ascii v.2) = true := h
    rw [Bool.and_eq_true] at h'
    refine ⟨fun hf => Ty.writableB_sound okB ascii t v.1 ?_, Fields.writableB_sound okB ascii rest v.2 h'.2⟩
    have h1 := h'.1
    rw [hf, Bool.false_or] at h1
    exact h1
end

mutual
/-- A checker for `NoNulls`. -/
def Ty.noNullsB : (t : Ty) → t.Den → Bool
  | .rep t, v => List.all v (fun x => !t.isNull x && t.noNullsB x)
  | .msg _ fs, v => fs.noNullsB v
  | _, _ => true
/-- A checker for `NoNulls`. -/
def Fields.noNullsB : (fs : Fields) → fs.Den → Bool
  | .nil, _ => true
  | .cons f t rest, v => (f.transient || t.noNullsB v.1) && rest.noNullsB v.2
end

mutual
theorem Ty.noNullsB_sound : (t : Ty) → (v : t.Den) → t.noNullsB v = true → t.NoNulls v
  | .rep t, v, h => fun x hx => by
    have := List.all_eq_true.mp h x hx
    rw [Bool.and_eq_true, Bool.not_eq_true'] at this
    exact ⟨this.1, Ty.noNullsB_sound t x this.2⟩
  | .msg _ fs, v, h => Fields.noNullsB_sound fs v h
  | .num _, _, _ => trivial
  | .raw _, _, _ => trivial
  | .str, _, _ => trivial
  | .bytes, _, _ => trivial
theorem Fields.noNullsB_sound : (fs : Fields) → (v : fs.Den) → fs.noNullsB v = true → fs.NoNulls v
  | .nil, _, _ => trivial
  | .cons f t rest, v, h => by
    have h' : ((f.transient || t.noNullsB v.1) && rest.noNullsB v.2) = true := h
    rw [Bool.and_eq_true] at h'
    refine ⟨fun hf => Ty.noNullsB_sound t v.1 ?_, Fields.noNullsB_sound rest v.2 h'.2⟩
    have h1 := h'.1
    rw [hf, Bool.false_or] at h1
    exact h1
end

mutual
theorem Ty.Writable.mono {ok ok' : Byte → Prop} {ascii : Bool} (h : ∀ b, ok b → ok' b) : (t : Ty) → (v : t.Den) →
    t.Writable ok ascii v → t.Writable ok' ascii v
  | .num _, _, hw => hw
  | .raw _, _, hw => hw
  | .str, _, hw => fun he => ⟨fun b hb => h b ((hw he).1 b hb), (hw he).2⟩
  | .bytes, _, _ => trivial
  | .rep t, _, hw => fun x hx => Ty.Writable.mono h t x (hw x hx)
  | .msg _ fs, v, hw => Fields.Writable.mono h fs v hw
theorem Fields.Writable.mono {ok ok' : Byte → Prop} {ascii : Bool} (h : ∀ b, ok b → ok' b) : (fs : Fields) → (v : fs.Den) →
    fs.Writable ok ascii v → fs.Writable ok' ascii v
  | .nil, _, _ => trivial
  | .cons _ t rest, v, hw => ⟨fun hf => Ty.Writable.mono h t v.1 (hw.1 hf), Fields.Writable.mono h rest v.2 hw.2⟩
end

end PG
