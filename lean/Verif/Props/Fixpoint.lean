import Verif.Props.Transient
import Verif.Props.Text
import Verif.Proofs.FltPrec
/-
C51: serializing what was read back gives the same text.
-/
set_option autoImplicit false
namespace PG

/-- Some persistent field is not empty. -/
def Fields.shown : (fs : Fields) → fs.Den → Bool
  | .nil, _ => false
  | .cons f t rest, v => (!f.transient && !t.empty v.1) || rest.shown v.2

mutual
/-- The conditions of C51 on the object: a string that is written is not null; without `serialize_null`, a message held
in a field is empty or has a persistent field that is not (see `C51_nested_transient`).  Message fields hold arithmetic
values in `field<T>` (the generator never declares a bare arithmetic field). -/
def Ty.Stable (nulls : Bool) : (t : Ty) → t.Den → Prop
  | .str, v => v.empty = false
  | .rep t, v => ∀ x ∈ v, t.Stable nulls x
  | .msg _ fs, v => fs.Stable nulls v
  | _, _ => True
/-- The conditions for the fields that are written. -/
def Fields.Stable (nulls : Bool) : (fs : Fields) → fs.Den → Prop
  | .nil, _ => True
  | .cons f t rest, v => (f.transient = false → (nulls || !t.empty v.1) = true → t.Stable nulls v.1 ∧
      (nulls = false → t.Visible v.1)) ∧ rest.Stable nulls v.2
/-- A field value that is written has written content. -/
def Ty.Visible : (t : Ty) → t.Den → Prop
  | .raw _, _ => False
  | .msg _ fs, v => fs.shown v = true
  | _, _ => True
end

theorem Prim.text_norm (p : Prim) (v : p.Den) (h : p.Finite v) : p.text (p.norm v) = p.text v := by
  cases p with
  | int k => rfl
  | bool => rfl
  | flt k =>
    have H : ∀ x : CFlt k, Prim.Finite (.flt k) x → textOfFlt (Prim.norm (.flt k) x : CFlt k) = textOfFlt x := by
      intro x hx
      unfold textOfFlt
      rw [(printfF_norm hx).2]
    exact H v h

mutual
theorem Ty.empty_norm (t : Ty) (v : t.Den) (hs : t.Stable false v) (hv : t.Visible v) (h : t.empty v = false) :
    t.empty (t.norm false v) = false := by
  cases t with
  | num p =>
    have h : NumField.empty v = false := h
    simp only [Ty.norm, h]; rfl
  | raw p => exact hv.elim
  | str => simp [Ty.norm, Ty.empty, StrField.empty]
  | bytes => exact h
  | rep t =>
    cases v with
    | nil => exact h
    | cons a as => rfl
  | msg o fs => exact Fields.empty_norm fs v hs hv
theorem Fields.empty_norm (fs : Fields) (v : fs.Den) (hs : fs.Stable false v) (h : fs.shown v = true) :
    fs.empty (fs.norm false v) = false := by
  cases fs with
  | nil => cases h
  | cons f t rest =>
    simp only [Fields.shown, Bool.or_eq_true, Bool.and_eq_true, Bool.not_eq_true'] at h
    simp only [Fields.empty, Fields.norm, Bool.and_eq_false_iff]
    rcases h with ⟨hf, he⟩ | h
    · left
      have hs1 := hs.1 hf (by simp [he])
      simp only [hf, he, Bool.false_eq_true, if_false, Bool.not_false, Bool.or_true, if_true]
      exact Ty.empty_norm t v.1 hs1.1 (hs1.2 rfl) he
    · right
      exact Fields.empty_norm rest v.2 hs.2 h
end

theorem writeElems_map {α : Type} {wr : α → ErrInfo → WRes} {f : α → α} : (l : List α) → (e : ErrInfo) →
    (∀ x ∈ l, ∀ e, wr (f x) e = wr x e) → writeElems wr (l.map f) e = writeElems wr l e
  | [], _, _ => rfl
  | [x], e, h => by simp only [List.map, writeElems, h x (by simp)]
  | x :: y :: t, e, h => by
    have ih := writeElems_map (y :: t) (wr x e).2.2 (fun z hz => h z (by simp at hz ⊢; exact .inr hz))
    simp only [List.map] at ih ⊢
    simp only [writeElems, h x (by simp), ih]

mutual
theorem Ty.write_norm (p : Params) {ok : Byte → Prop} {ascii : Bool} : (t : Ty) → (v : t.Den) → (e : ErrInfo) →
    t.Writable ok ascii v → t.Stable p.serializeNull v → t.write p (t.norm p.serializeNull v) e = t.write p v e
  | .num q, v, e, hw, _ => by
    cases v with
    | mk x b =>
      cases b with
      | true => rfl
      | false =>
        have := q.text_norm x (hw rfl)
        simp [Ty.norm, Ty.write, this]
  | .raw q, v, e, hw, _ => by
    have := q.text_norm v hw
    simp [Ty.norm, Ty.write, this]
  | .str, v, e, _, hs => by
    have hs : v.empty = false := hs
    simp only [Ty.norm, Ty.write, hs]
    simp [StrField.empty]
  | .bytes, _, _, _, _ => rfl
  | .rep t, v, e, hw, hs => by
    have := writeElems_map (wr := t.write p) (f := t.norm p.serializeNull) v e
      (fun x hx e => Ty.write_norm p t x e (hw x hx) (hs x hx))
    simp only [Ty.norm, Ty.write, this]
  | .msg _ fs, v, e, hw, hs => by
    have := Fields.write_norm p fs v true e hw hs
    simp only [Ty.norm, Ty.write, this]
theorem Fields.write_norm (p : Params) {ok : Byte → Prop} {ascii : Bool} : (fs : Fields) → (v : fs.Den) → (first : Bool) →
    (e : ErrInfo) → fs.Writable ok ascii v → fs.Stable p.serializeNull v →
    fs.write p (fs.norm p.serializeNull v) first e = fs.write p v first e
  | .nil, _, _, _, _, _ => rfl
  | .cons f t rest, v, first, e, hw, hs => by
    have ih := fun fi e => Fields.write_norm p rest v.2 fi e hw.2 hs.2
    simp only [Fields.write, Fields.norm]
    rcases Bool.eq_false_or_eq_true f.transient with hf | hf
    · simp only [hf, if_true]; exact ih _ _
    · simp only [hf, Bool.false_eq_true, if_false]
      rcases Bool.eq_false_or_eq_true (p.serializeNull || !t.empty v.1) with hc | hc
      · have h1 := hs.1 hf hc
        have h2 := Ty.write_norm p t v.1 e (hw.1 hf) h1.1
        have h3 : (p.serializeNull || !t.empty (t.norm p.serializeNull v.1)) = true := by
          cases hn : p.serializeNull with
          | true => rfl
          | false =>
            rw [hn] at h1 hc
            simp only [Bool.false_or, Bool.not_eq_true'] at hc ⊢
            exact Ty.empty_norm t v.1 h1.1 (h1.2 rfl) hc
        simp only [hc, if_true, h3, h2, ih]
      · simp only [hc, Bool.false_eq_true, if_false]
        simp only [Bool.or_eq_false_iff] at hc
        rw [t.empty_new, hc.1]
        simp only [Bool.not_true, Bool.or_self, Bool.false_eq_true, if_false]
        have := ih first e
        rw [hc.1] at this; exact this
end

/-- C51.  Take any object that can be written (names usable, strings without NUL and UTF-8 if asked for, floating point
values finite, no null string in a container).  Its text is read back into some object `w` -- in general not the same
one, since floating point values are rounded -- and `w` serializes to the identical text.
Missing from the full statement (`Stable`): with `serialize_null` no null strings; without it no message field whose
only content is transient.  In both cases it is false: `C51_null_string`, `C51_nested_transient`. -/
theorem C51_fixed_point_partial (t : Ty) (params q : Option Params) (v : t.Den) (hl : t.LabelsOk) (hd : t.NamesOk)
    (hw : t.Writable (fun b => b ≠ 0) (params.getD {}).ensureAscii v) (hn : t.NoNulls v) (h0 : t.isNull v = false)
    (hs : t.Stable (params.getD {}).serializeNull v) :
    ∃ w p, deserialize t (serialize t params v).out q t.new = some ⟨true, p, w⟩ ∧
      serialize t params w = serialize t params v := by
  obtain ⟨-, p, hp⟩ := C01_round_trip_norm t params q v hl hd hw hn h0
  refine ⟨_, p, hp, ?_⟩
  have hc : (ctxParams params).serializeNull = (params.getD {}).serializeNull := by cases params <;> rfl
  have := fun e => Ty.write_norm (ctxParams params) t v e hw (by rw [hc]; exact hs)
  rw [hc] at this
  simp only [serialize, this]

/-- Text, read back into a fresh object and written again. -/
def again (t : Ty) (params : Option Params) (v : t.Den) : Option Bytes :=
  (deserialize t (serialize t params v).out none t.new).map (fun r => (serialize t params r.obj).out)

/-- C51 is false for a message whose only content is transient: it is written once, then no more. -/
theorem C51_nested_transient : (serialize Demo.holder none (Demo.hold ⟨CInt.cast .i32 5, false⟩)).out = b!"{\"item\":{}}" ∧
    again Demo.holder none (Demo.hold ⟨CInt.cast .i32 5, false⟩) = some b!"{}" := by decide +kernel

/-- C51 is false for null strings with `serialize_null`: `null` becomes `""`. -/
theorem C51_null_string :
    (serialize Demo.address (some { serializeNull := true }) Demo.address.new).out = b!"{\"number\":null,\"street\":null}" ∧
    again Demo.address (some { serializeNull := true }) Demo.address.new = some b!"{\"number\":null,\"street\":\"\"}" := by
  decide +kernel

/-- A message with a double that does not survive. -/
def Demo.measure : Ty := .msg false (.cons (Demo.fld b!"x") (.num (.flt .f64)) .nil)
def Demo.third : Demo.measure.Den := (⟨fltOfText .f64 b!"0.3333333333", false⟩, ())

/-- The theorem speaks about values that change in the first trip: 0.3333333333 comes back as 0.333333. -/
example : (∃ w p, deserialize Demo.measure (serialize Demo.measure none Demo.third).out none Demo.measure.new = some ⟨true, p, w⟩ ∧
      serialize Demo.measure none w = serialize Demo.measure none Demo.third) ∧
    Demo.measure.norm false Demo.third ≠ Demo.third := by
  refine ⟨C51_fixed_point_partial Demo.measure none none Demo.third (by decide +kernel) (by decide +kernel) ?_ ?_ rfl ?_, ?_⟩
  · exact Ty.Writable.mono (fun _ => of_decide_eq_true) _ _
      (Ty.writableB_sound (fun b => decide (b ≠ 0)) _ _ _ (by decide +kernel))
  · exact Ty.noNullsB_sound _ _ (by decide +kernel)
  · exact ⟨fun _ _ => ⟨trivial, fun _ => trivial⟩, trivial⟩
  · intro h
    have h2 : Demo.measure.equal (Demo.measure.norm false Demo.third) Demo.third = true := by
      rw [h]; decide +kernel
    revert h2
    decide +kernel

end PG
