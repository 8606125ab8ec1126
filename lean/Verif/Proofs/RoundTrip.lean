import Verif.Proofs.Encode
import Verif.Proofs.Refine
import Verif.Model.Entity
/-
Absorbing the JSON value of an object gives the object back (up to `norm`), and the entry points on texts.
-/
set_option autoImplicit false
namespace PG

theorem Prim.absorb_toJ (p : Prim) (v w : p.Den) : p.absorb (p.toJ v) w = (.ok, p.norm v) := by
  cases p with
  | int k => exact congrArg (Prod.mk RC.ok) (intOfText_textOfInt (k := k) v)
  | flt k => rfl
  | bool => rfl

theorem absorbElems_toJ {α : Type} {f : J → RC × α} {g : α → J} {n : α → α} {xs : List α}
    (h : ∀ x ∈ xs, f (g x) = (.ok, n x)) (acc : List α) :
    absorbElems f (elemsToJ g xs) acc = (.ok, acc ++ xs.map n) := by
  induction xs generalizing acc with
  | nil => simp [elemsToJ, absorbElems]
  | cons x t ih =>
    simp only [elemsToJ, absorbElems, h x (by simp)]
    rw [ih (fun y hy => h y (by simp [hy]))]
    simp

/-- Return code of absorbing the value of an object. -/
def rcOf (isNull : Bool) : RC := if isNull then .nil else .ok

/-- A handler for member names that serves the fields `rest` from index `i` on, through `put`. -/
structure Serves (D : Type) (h : Bytes → J → D → RC × D) (rest : Fields) (put : rest.Den → D) : Prop where
  at' : ∀ (m : Nat) (lab : Bytes), rest.labels[m]? = some lab → ∀ (j : J) (r : rest.Den),
    h lab j (put r) = ((rest.absorbAt m j r).1, put (rest.absorbAt m j r).2)

theorem Serves.skip {D : Type} {h : Bytes → J → D → RC × D} {f : FInfo} {t : Ty} {rest : Fields}
    {put : (Fields.cons f t rest).Den → D} (hf : f.transient = true) (hs : Serves D h (.cons f t rest) put) (x : t.Den) :
    Serves D h rest (fun r => put (x, r)) where
  at' m lab hl j r := by
    rw [hs.at' m lab (by simpa [Fields.labels, hf] using hl)]
    simp [Fields.absorbAt, hf]

theorem Serves.tail {D : Type} {h : Bytes → J → D → RC × D} {f : FInfo} {t : Ty} {rest : Fields}
    {put : (Fields.cons f t rest).Den → D} (hf : f.transient = false) (hs : Serves D h (.cons f t rest) put) (x : t.Den) :
    Serves D h rest (fun r => put (x, r)) where
  at' m lab hl j r := by
    rw [hs.at' (m + 1) lab (by simpa [Fields.labels, hf] using hl)]
    simp [Fields.absorbAt, hf]

theorem Serves.head {D : Type} {h : Bytes → J → D → RC × D} {f : FInfo} {t : Ty} {rest : Fields}
    {put : (Fields.cons f t rest).Den → D} (hf : f.transient = false) (hs : Serves D h (.cons f t rest) put) (j : J)
    (v : (Fields.cons f t rest).Den) : h f.wlabel j (put v) = ((t.absorb j v.1).1, put ((t.absorb j v.1).2, v.2)) := by
  rw [hs.at' 0 f.wlabel (by simp [Fields.labels, hf])]
  simp [Fields.absorbAt, hf]

theorem Serves.self {obf : Bool} {fs : Fields} (hd : Dispatches obf fs) :
    Serves fs.Den (fun k j v => match indexOf obf fs k with
      | none => (.nil, v)
      | some i => fs.absorbAt i j v) fs id where
  at' m lab hl j r := by
    simp only [hd m lab hl]
    rfl

theorem num_absorb_toJ (p : Prim) (v : NumField p) :
    (let r := p.absorb (if v.empty then .null else p.toJ v.value) p.zero
     (r.1, if r.1 = .nil then NumField.new else (⟨r.2, false⟩ : NumField p))) =
      (rcOf v.empty, if v.empty then NumField.new else ⟨p.norm v.value, false⟩) := by
  cases v.empty
  · simp [Prim.absorb_toJ, rcOf]
  · cases p <;> simp [Prim.absorb, rcOf]

theorem str_absorb_toJ (v : StrField) :
    (match (if v.null && v.value.isEmpty then J.null else .str v.value : J) with
    | .null => (RC.nil, (⟨[], false⟩ : StrField))
    | .str s => (.ok, ⟨s, false⟩)
    | _ => (.error, ⟨[], false⟩)) = (rcOf (v.null && v.value.isEmpty), ⟨v.value, false⟩) := by
  cases h : (v.null && v.value.isEmpty)
  · simp [rcOf]
  · simp only [Bool.and_eq_true, List.isEmpty_iff] at h
    simp [rcOf, h.2]

mutual

theorem Ty.absorb_toJ (nulls : Bool) : (t : Ty) → (v : t.Den) → t.DispatchOk → t.NoNulls v →
    t.absorb (t.toJ nulls v) t.new = (rcOf (t.isNull v), t.norm nulls v)
  | .num p, v, _, _ => num_absorb_toJ p v
  | .raw p, v, _, _ => Prim.absorb_toJ p v _
  | .str, v, _, _ => str_absorb_toJ v
  | .bytes, v, _, _ => by
    simp only [Ty.absorb, Ty.toJ, Ty.isNull, Ty.norm, Ty.new]
    rw [← b64Enc_eq, b64Dec_enc]
    simp [rcOf]
  | .rep t, v, hd, hn => by
    simp only [Ty.absorb, Ty.toJ, Ty.isNull, Ty.norm, Ty.new]
    rw [absorbElems_toJ (n := t.norm nulls)]
    · simp [rcOf]
    · intro x hx
      have := Ty.absorb_toJ nulls t x hd (hn x hx).2
      rw [this, (hn x hx).1]
      simp [rcOf]
  | .msg obf fs, v, hd, hn => by
    simp only [Ty.absorb, Ty.toJ, Ty.isNull, Ty.norm, Ty.new]
    have := Fields.absorb_toJ nulls fs v hd.2 hn (Serves.self hd.1)
    exact this

theorem Fields.absorb_toJ (nulls : Bool) : (fs : Fields) → (v : fs.Den) → fs.DispatchOk → fs.NoNulls v →
    {D : Type} → {h : Bytes → J → D → RC × D} → {put : fs.Den → D} → Serves D h fs put →
    absorbMembers h (fs.toJ nulls v) (put fs.new) = (.ok, put (fs.norm nulls v))
  | .nil, v, _, _, _, _, _, _ => rfl
  | .cons f t rest, v, hd, hn, D, h, put, hs => by
    unfold Fields.toJ Fields.norm Fields.new
    cases hf : f.transient with
    | true =>
      simp only [if_true]
      exact Fields.absorb_toJ nulls rest v.2 hd.2 hn.2 (hs.skip hf t.new)
    | false =>
      simp only [Bool.false_eq_true, if_false]
      split
      · have ht := Ty.absorb_toJ nulls t v.1 hd.1 (hn.1 hf)
        have hh := hs.head hf (t.toJ nulls v.1) (t.new, rest.new)
        simp only [ht] at hh
        have ih := Fields.absorb_toJ nulls rest v.2 hd.2 hn.2 (hs.tail hf (t.norm nulls v.1))
        simp only [absorbMembers, hh]
        cases t.isNull v.1 <;> simpa [rcOf] using ih
      · exact Fields.absorb_toJ nulls rest v.2 hd.2 hn.2 (hs.tail hf t.new)

end

/-- The entry point on a text of the wide grammar: result and object are those of the abstract semantics. -/
theorem deserialize_text (t : Ty) (params : Option Params) (v : t.Den) {j : J} {w b rest : Bytes} (hw : Ws w)
    (hb : JVal wide j b) (hr : EndOk j rest) :
    ∃ p, deserialize t (w ++ (b ++ rest)) params v = some ⟨decide ((t.absorb j v).1 = .ok), p, (t.absorb j v).2⟩ := by
  have ha : At (Tz.open' (IStream.open' (w ++ (b ++ rest))) (ctxParams params).err) (b ++ rest) :=
    (At.open _ _).dropWs hw
  have h := Ty.read_refines t (fuelFor (w ++ (b ++ rest))) j b rest _ v hb (by unfold fuelFor; simp; omega) hr ha
  unfold deserialize deserializeFrom
  unfold Refines at h
  cases hrc : (t.absorb j v).1 with
  | ok => rw [hrc] at h; obtain ⟨tz', h, -⟩ := h; simp [h]
  | nil => rw [hrc] at h; simp at h; simp [h]
  | error => rw [hrc] at h; obtain ⟨tz', h⟩ := h; simp [h]
  | fuel => rw [hrc] at h; exact h.elim

end PG
