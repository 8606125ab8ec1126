import Verif.Props.Demo
import Verif.Props.Members
/-
C13: transient fields and JSON.
-/
set_option autoImplicit false
namespace PG

mutual
/-- `v'` holds the transient data of `v`: transient fields are unchanged, also inside nested messages; the elements of
containers are kept and the transient fields of appended elements are as new. -/
def Ty.Keeps : (t : Ty) → t.Den → t.Den → Prop
  | .rep t, v, v' => ∃ xs, v' = v ++ xs ∧ ∀ x ∈ xs, t.Keeps t.new x
  | .msg _ fs, v, v' => fs.Keeps v v'
  | _, _, _ => True
/-- The fields of `v'` hold the transient data of `v`. -/
def Fields.Keeps : (fs : Fields) → fs.Den → fs.Den → Prop
  | .nil, _, _ => True
  | .cons f t rest, v, v' =>
    (f.transient = true → v'.1 = v.1) ∧ (f.transient = false → t.Keeps v.1 v'.1) ∧ rest.Keeps v.2 v'.2
end

mutual
theorem Ty.Keeps.refl : (t : Ty) → (v : t.Den) → t.Keeps v v
  | .num _, _ => trivial
  | .raw _, _ => trivial
  | .str, _ => trivial
  | .bytes, _ => trivial
  | .rep _, v => ⟨[], by simp, by simp⟩
  | .msg _ fs, v => Fields.Keeps.refl fs v
theorem Fields.Keeps.refl : (fs : Fields) → (v : fs.Den) → fs.Keeps v v
  | .nil, _ => trivial
  | .cons _ t rest, v => ⟨fun _ => rfl, fun _ => Ty.Keeps.refl t v.1, Fields.Keeps.refl rest v.2⟩
end

mutual
theorem Ty.Keeps.trans : (t : Ty) → (a b c : t.Den) → t.Keeps a b → t.Keeps b c → t.Keeps a c
  | .num _, _, _, _, _, _ => trivial
  | .raw _, _, _, _, _, _ => trivial
  | .str, _, _, _, _, _ => trivial
  | .bytes, _, _, _, _, _ => trivial
  | .rep _, a, b, c, h1, h2 => by
    obtain ⟨xs, hx, hxs⟩ := h1
    obtain ⟨ys, hy, hys⟩ := h2
    refine ⟨xs ++ ys, ?_, ?_⟩
    · rw [hy, hx, List.append_assoc]
    · intro x hm
      rcases List.mem_append.mp hm with h | h
      · exact hxs x h
      · exact hys x h
  | .msg _ fs, a, b, c, h1, h2 => Fields.Keeps.trans fs a b c h1 h2
theorem Fields.Keeps.trans : (fs : Fields) → (a b c : fs.Den) → fs.Keeps a b → fs.Keeps b c → fs.Keeps a c
  | .nil, _, _, _, _, _ => trivial
  | .cons _ t rest, a, b, c, h1, h2 =>
    ⟨fun h => (h2.1 h).trans (h1.1 h), fun h => Ty.Keeps.trans t a.1 b.1 c.1 (h1.2.1 h) (h2.2.1 h),
      Fields.Keeps.trans rest a.2 b.2 c.2 h1.2.2 h2.2.2⟩
end

theorem readArrLoop_keeps {α : Type} {rd : Tz → Res α} {P : α → Prop} (hrd : ∀ tz, P (rd tz).2.2) :
    (n : Nat) → (tz : Tz) → (v : List α) → ∃ xs, (readArrLoop rd n tz v).2.2 = v ++ xs ∧ ∀ x ∈ xs, P x
  | 0, _, v => ⟨[], by simp [readArrLoop], by simp⟩
  | n + 1, tz, v => by
    unfold readArrLoop
    have hp := hrd tz
    split
    · exact ⟨[], by simp, by simp⟩
    · exact ⟨[], by simp, by simp⟩
    · rename_i r tz1 x h1 h2 heq
      rw [heq] at hp
      have hp : P x := hp
      have step : ∃ ys, (if r = .ok then v ++ [x] else v) = v ++ ys ∧ ∀ y ∈ ys, P y := by
        split
        · exact ⟨[x], rfl, by simpa using hp⟩
        · exact ⟨[], by simp, by simp⟩
      obtain ⟨ys, hy, hys⟩ := step
      simp only
      rw [hy]
      split
      · obtain ⟨xs, hx, hxs⟩ := readArrLoop_keeps hrd n _ (v ++ ys)
        refine ⟨ys ++ xs, by rw [hx, List.append_assoc], fun z hz => ?_⟩
        rcases List.mem_append.mp hz with h | h
        · exact hys z h
        · exact hxs z h
      · split
        · exact ⟨ys, rfl, hys⟩
        · exact ⟨ys, rfl, hys⟩

theorem readArr_keeps {α : Type} {rd : Tz → Res α} {P : α → Prop} (hrd : ∀ tz, P (rd tz).2.2) (n : Nat) (tz : Tz)
    (v : List α) : ∃ xs, (readArr rd n tz v).2.2 = v ++ xs ∧ ∀ x ∈ xs, P x := by
  unfold readArr
  split
  · exact ⟨[], by simp, by simp⟩
  · split
    · exact ⟨[], by simp, by simp⟩
    · split
      · exact ⟨[], by simp, by simp⟩
      · exact readArrLoop_keeps hrd n _ v

theorem readObjLoop_keeps {α : Type} {rf : Bytes → Tz → α → Res α} {R : α → α → Prop} (hr : ∀ a, R a a)
    (ht : ∀ a b c, R a b → R b c → R a c) (hrf : ∀ name tz v, R v (rf name tz v).2.2) :
    (n : Nat) → (tz : Tz) → (v : α) → R v (readObjLoop rf n tz v).2.2
  | 0, _, v => hr v
  | n + 1, tz, v => by
    unfold readObjLoop
    simp only
    split
    · exact hr v
    · split
      · exact hr v
      · rename_i tz1 _ tz2 _
        have h := hrf tz.cur.value tz2 v
        split
        · rename_i heq; rw [heq] at h; exact h
        · rename_i heq; rw [heq] at h; exact h
        · rename_i heq
          rw [heq] at h
          split
          · exact ht _ _ _ h (readObjLoop_keeps hr ht hrf n _ _)
          · exact h
        · rename_i heq
          rw [heq] at h
          split
          · exact h
          · exact h
          · split
            · exact ht _ _ _ h (readObjLoop_keeps hr ht hrf n _ _)
            · exact h

theorem readObj_keeps {α : Type} {rf : Bytes → Tz → α → Res α} {R : α → α → Prop} (hr : ∀ a, R a a)
    (ht : ∀ a b c, R a b → R b c → R a c) (hrf : ∀ name tz v, R v (rf name tz v).2.2) (n : Nat) (tz : Tz) (v : α) :
    R v (readObj rf n tz v).2.2 := by
  unfold readObj
  split
  · exact hr v
  · split
    · exact hr v
    · split
      · exact hr v
      · exact readObjLoop_keeps hr ht hrf n _ v

mutual
theorem Ty.read_keeps : (t : Ty) → (n : Nat) → (tz : Tz) → (v : t.Den) → t.Keeps v (t.read n tz v).2.2
  | .num _, _, _, _ => trivial
  | .raw _, _, _, _ => trivial
  | .str, _, _, _ => trivial
  | .bytes, _, _, _ => trivial
  | .rep t, n, tz, v => by
    simp only [Ty.read]
    exact readArr_keeps (P := t.Keeps t.new) (fun tz => Ty.read_keeps t n tz t.new) n tz v
  | .msg obf fs, n, tz, v => by
    simp only [Ty.read]
    refine readObj_keeps (R := fs.Keeps) (Fields.Keeps.refl fs) (Fields.Keeps.trans fs) (fun name tz v => ?_) n tz v
    split
    · exact Fields.Keeps.refl fs v
    · exact Fields.readAt_keeps fs _ n tz v
theorem Fields.readAt_keeps : (fs : Fields) → (i n : Nat) → (tz : Tz) → (v : fs.Den) → fs.Keeps v (fs.readAt i n tz v).2.2
  | .nil, _, _, _, _ => trivial
  | .cons f t rest, i, n, tz, v => by
    unfold Fields.readAt
    cases hf : f.transient with
    | true =>
      simp only [if_true]
      exact ⟨fun _ => rfl, fun h => (by rw [hf] at h; cases h), Fields.readAt_keeps rest i n tz v.2⟩
    | false =>
      simp only [Bool.false_eq_true, if_false]
      split
      · exact ⟨fun h => (by rw [hf] at h; cases h), fun _ => Ty.read_keeps t n tz v.1, Fields.Keeps.refl rest v.2⟩
      · exact ⟨fun _ => rfl, fun _ => Ty.Keeps.refl t v.1, Fields.readAt_keeps rest _ n tz v.2⟩
end

/-- C13, reading.  Whatever the input text (any bytes), the parameters and the outcome, `deserialize` leaves every
transient field as it was, at every depth; elements appended to containers have transient fields as new. -/
theorem C13_deserialize_keeps_transient (t : Ty) (input : Bytes) (params : Option Params) (v : t.Den) (r : DRes t.Den)
    (h : deserialize t input params v = some r) : t.Keeps v r.obj := by
  unfold deserialize deserializeFrom at h
  have hk := t.read_keeps (fuelFor input) (Tz.open' (IStream.open' input) (ctxParams params).err) v
  generalize t.read (fuelFor input) (Tz.open' (IStream.open' input) (ctxParams params).err) v = x at h hk
  simp only at h
  split at h
  · cases h
  · injection h with h; subst h; exact hk

theorem Fields.Keeps.getTransient : (fs : Fields) → (v v' : fs.Den) → fs.Keeps v v' → (i : Nat) →
    fs.getTransient i v' = fs.getTransient i v
  | .nil, _, _, _, _ => rfl
  | .cons f t rest, v, v', h, i => by
    unfold Fields.getTransient
    have ih := Fields.Keeps.getTransient rest v.2 v'.2 h.2.2
    cases hf : f.transient with
    | true =>
      simp only [if_true]
      split
      · rw [h.1 hf]
      · exact ih _
    | false => simp only [Bool.false_eq_true, if_false]; exact ih i

/-- C13, reading, for the transient fields of the message itself. -/
theorem C13_transient_fields_unchanged (obf : Bool) (fs : Fields) (input : Bytes) (params : Option Params) (v : fs.Den)
    (r : DRes fs.Den) (h : deserialize (.msg obf fs) input params v = some r) (i : Nat) :
    fs.getTransient i r.obj = fs.getTransient i v :=
  Fields.Keeps.getTransient fs v r.obj (C13_deserialize_keeps_transient (.msg obf fs) input params v r h) i

mutual
/-- The two objects differ at most in transient fields; without `nulls`, messages in fields must moreover agree on
whether they are empty. -/
def Ty.SameP (nulls : Bool) : (t : Ty) → t.Den → t.Den → Prop
  | .num _, a, b => a = b
  | .raw _, a, b => a = b
  | .str, a, b => a = b
  | .bytes, a, b => a = b
  | .rep t, a, b => ListRel (t.SameP nulls) a b
  | .msg _ fs, a, b => fs.SameP nulls a b
/-- Persistent fields agree. -/
def Fields.SameP (nulls : Bool) : (fs : Fields) → fs.Den → fs.Den → Prop
  | .nil, _, _ => True
  | .cons f t rest, a, b =>
    (f.transient = false → t.SameP nulls a.1 b.1 ∧ (nulls = false → t.empty a.1 = t.empty b.1)) ∧ rest.SameP nulls a.2 b.2
/-- Lists of the same length with related elements. -/
def ListRel {α : Type} (R : α → α → Prop) : List α → List α → Prop
  | [], [] => True
  | a :: as, b :: bs => R a b ∧ ListRel R as bs
  | _, _ => False
end

theorem writeElems_rel {α : Type} {R : α → α → Prop} {wr : α → ErrInfo → WRes} (h : ∀ a b e, R a b → wr a e = wr b e) :
    (as bs : List α) → (e : ErrInfo) → ListRel R as bs → writeElems wr as e = writeElems wr bs e
  | [], [], _, _ => rfl
  | [], _ :: _, _, hr => by simp [ListRel] at hr
  | _ :: _, [], _, hr => by simp [ListRel] at hr
  | [a], [b], e, hr => by
    have hr : R a b ∧ ListRel R [] [] := by simpa [ListRel] using hr
    simp only [writeElems, h a b e hr.1]
  | [a], b :: b' :: bs, e, hr => by simp [ListRel] at hr
  | a :: a' :: as, [b], e, hr => by simp [ListRel] at hr
  | a :: a' :: as, b :: b' :: bs, e, hr => by
    unfold ListRel at hr
    simp only [writeElems, h a b e hr.1]
    rw [writeElems_rel h (a' :: as) (b' :: bs) _ hr.2]

mutual
theorem Ty.write_sameP (p : Params) : (t : Ty) → (a b : t.Den) → (e : ErrInfo) → t.SameP p.serializeNull a b →
    t.write p a e = t.write p b e
  | .num _, a, b, e, h => by have h : a = b := h; rw [h]
  | .raw _, a, b, e, h => by have h : a = b := h; rw [h]
  | .str, a, b, e, h => by have h : a = b := h; rw [h]
  | .bytes, a, b, e, h => by have h : a = b := h; rw [h]
  | .rep t, a, b, e, h => by
    simp only [Ty.write]
    rw [writeElems_rel (fun a b e => Ty.write_sameP p t a b e) a b e h]
  | .msg _ fs, a, b, e, h => by
    simp only [Ty.write]
    rw [Fields.write_sameP p fs a b true e h]
theorem Fields.write_sameP (p : Params) : (fs : Fields) → (a b : fs.Den) → (first : Bool) → (e : ErrInfo) →
    fs.SameP p.serializeNull a b → fs.write p a first e = fs.write p b first e
  | .nil, _, _, _, _, _ => rfl
  | .cons f t rest, a, b, first, e, h => by
    unfold Fields.write
    cases hf : f.transient with
    | true => simp only [if_true]; exact Fields.write_sameP p rest a.2 b.2 first e h.2
    | false =>
      simp only [Bool.false_eq_true, if_false]
      have h1 := h.1 hf
      have he : (p.serializeNull || !t.empty a.1) = (p.serializeNull || !t.empty b.1) := by
        cases hn : p.serializeNull with
        | true => rfl
        | false => rw [h1.2 hn]
      rw [he, Ty.write_sameP p t a.1 b.1 e h1.1, Fields.write_sameP p rest a.2 b.2 false _ h.2,
        Fields.write_sameP p rest a.2 b.2 first e h.2]
end

/-- C13, writing.  Objects that differ only in transient fields serialize to the same text, for all parameters, if
(without `serialize_null`) messages held in fields agree on being empty.  Missing from the full statement: that last
condition, without which it is false (`C13_nested_transient_shows`). -/
theorem C13_text_ignores_transient_partial (t : Ty) (params : Option Params) (a b : t.Den)
    (h : t.SameP (params.getD {}).serializeNull a b) : serialize t params a = serialize t params b := by
  have hp : (ctxParams params).serializeNull = (params.getD {}).serializeNull := by cases params <;> rfl
  rw [← hp] at h
  simp only [serialize, t.write_sameP (ctxParams params) a b _ h]

/-- Replace the transient fields of the message itself. -/
def Fields.putTransient : (fs : Fields) → fs.Den → fs.Den → fs.Den
  | .nil, _, _ => ()
  | .cons f _ rest, v, w => (if f.transient then w.1 else v.1, rest.putTransient v.2 w.2)

mutual
theorem Ty.SameP.refl (nulls : Bool) : (t : Ty) → (v : t.Den) → t.SameP nulls v v
  | .num _, _ => rfl
  | .raw _, _ => rfl
  | .str, _ => rfl
  | .bytes, _ => rfl
  | .rep t, v => by
    show ListRel (t.SameP nulls) v v
    induction v with
    | nil => simp [ListRel]
    | cons a as ih => unfold ListRel; exact ⟨Ty.SameP.refl nulls t a, ih⟩
  | .msg _ fs, v => Fields.SameP.refl nulls fs v
theorem Fields.SameP.refl (nulls : Bool) : (fs : Fields) → (v : fs.Den) → fs.SameP nulls v v
  | .nil, _ => trivial
  | .cons _ t rest, v => ⟨fun _ => ⟨Ty.SameP.refl nulls t v.1, fun _ => rfl⟩, Fields.SameP.refl nulls rest v.2⟩
end

theorem Fields.putTransient_sameP (nulls : Bool) : (fs : Fields) → (v w : fs.Den) → fs.SameP nulls (fs.putTransient v w) v
  | .nil, _, _ => trivial
  | .cons f t rest, v, w => by
    refine ⟨fun hf => ?_, Fields.putTransient_sameP nulls rest v.2 w.2⟩
    have : ((Fields.cons f t rest).putTransient v w).1 = v.1 := by simp [Fields.putTransient, hf]
    rw [this]
    exact ⟨Ty.SameP.refl nulls t v.1, fun _ => rfl⟩

/-- C13, writing, top level: whatever is put into the transient fields of a message, its text is the same. -/
theorem C13_own_transient_fields_partial (obf : Bool) (fs : Fields) (params : Option Params) (v w : fs.Den) :
    serialize (.msg obf fs) params (fs.putTransient v w) = serialize (.msg obf fs) params v :=
  C13_text_ignores_transient_partial (.msg obf fs) params _ _ (Fields.putTransient_sameP _ fs v w)

/-- `message Holder { Cached item = 1; }` with `message Cached { int32 t = 1 [transient]; }`. -/
def Demo.holder : Ty :=
  .msg false (.cons (Demo.fld b!"item") (.msg false (.cons ⟨b!"t", b!"t", b!"t", true⟩ (.num (.int .i32)) .nil)) .nil)
def Demo.hold (n : NumField (.int .i32)) : Demo.holder.Den := ((n, ()), ())

/-- C13 is false for nested messages: a transient field inside a message held in a field decides whether that message is
written at all. -/
theorem C13_nested_transient_shows :
    (serialize Demo.holder none (Demo.hold ⟨CInt.cast .i32 5, false⟩)).out = b!"{\"item\":{}}" ∧
    (serialize Demo.holder none (Demo.hold NumField.new)).out = b!"{}" := by decide +kernel

/-- A text naming the transient field does not reach it. -/
example : outcome (deserialize Demo.holder b!"{\"item\":{\"t\":7}}" none (Demo.hold ⟨CInt.cast .i32 5, false⟩)) =
    some (true, Demo.hold ⟨CInt.cast .i32 5, false⟩) := by decide +kernel

/-- With `serialize_null` the nested case is covered by `C13_text_ignores_transient_partial`. -/
example : Demo.holder.SameP true (Demo.hold ⟨CInt.cast .i32 5, false⟩) (Demo.hold NumField.new) :=
  ⟨fun _ => ⟨⟨fun h => (by cases h), trivial⟩, fun h => (by cases h)⟩, trivial⟩

end PG
