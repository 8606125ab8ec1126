import Verif.Proofs.RoundTrip
/-
Objects that survive a trip through JSON unchanged.
-/
set_option autoImplicit false
namespace PG

mutual
/-- Objects all of whose content is expressed in JSON: empty numbers hold no stale value, floating point values survive
six decimals, strings are not null, and (see `Fields.Faithful`) fields that are not written are as new. -/
def Ty.Faithful (nulls : Bool) : (t : Ty) → t.Den → Prop
  | .num p, v => (v.empty = true → v.value = p.zero) ∧ (v.empty = false → p.norm v.value = v.value)
  | .raw p, v => p.norm v = v
  | .str, v => v.null = false
  | .bytes, _ => True
  | .rep t, v => ∀ x ∈ v, t.Faithful nulls x
  | .msg _ fs, v => fs.Faithful nulls v
/-- Fields that survive. -/
def Fields.Faithful (nulls : Bool) : (fs : Fields) → fs.Den → Prop
  | .nil, _ => True
  | .cons f t rest, v =>
    (f.transient = true → v.1 = t.new) ∧
    (f.transient = false → nulls = false → t.empty v.1 = true → v.1 = t.new) ∧
    (f.transient = false → (nulls || !t.empty v.1) = true → t.Faithful nulls v.1) ∧ rest.Faithful nulls v.2
end

mutual
theorem Ty.norm_faithful (nulls : Bool) : (t : Ty) → (v : t.Den) → t.Faithful nulls v → t.norm nulls v = v
  | .num p, v, h => by
    simp only [Ty.norm]
    cases v with
    | mk x e =>
      cases e with
      | true => have := h.1 rfl; simp only at this; subst this; rfl
      | false => have := h.2 rfl; simp only at this; simp [this]
  | .raw p, v, h => h
  | .str, v, h => by
    cases v with
    | mk s n =>
      have : n = false := h
      subst this; rfl
  | .bytes, v, _ => rfl
  | .rep t, v, h => by
    simp only [Ty.norm]
    conv => rhs; rw [← List.map_id v]
    exact List.map_congr_left (fun x hx => Ty.norm_faithful nulls t x (h x hx))
  | .msg _ fs, v, h => Fields.norm_faithful nulls fs v h
theorem Fields.norm_faithful (nulls : Bool) : (fs : Fields) → (v : fs.Den) → fs.Faithful nulls v → fs.norm nulls v = v
  | .nil, _, _ => rfl
  | .cons f t rest, v, h => by
    have h2 := Fields.norm_faithful nulls rest v.2 h.2.2.2
    simp only [Fields.norm, h2]
    refine Prod.ext ?_ rfl
    simp only
    split
    · rename_i hf; exact (h.1 hf).symm
    · rename_i hf
      have hf : f.transient = false := by simpa using hf
      split
      · rename_i he; exact Ty.norm_faithful nulls t v.1 (h.2.2.1 hf he)
      · rename_i he
        simp only [Bool.or_eq_true, not_or, Bool.not_eq_true, Bool.not_eq_false'] at he
        exact (h.2.1 hf he.1 he.2).symm
end

theorem ctxParams_ascii (params : Option Params) : (ctxParams params).ensureAscii = (params.getD {}).ensureAscii := by
  cases params <;> rfl

theorem ctxParams_nulls (params : Option Params) : (ctxParams params).serializeNull = (params.getD {}).serializeNull := by
  cases params <;> rfl

/-- `serialize` succeeds on writable objects and emits a text of the object's JSON value. -/
theorem serialize_text {L : Lexis} {ok : Byte → Prop} (hL : LexOk L ok) (t : Ty) (params : Option Params) (v : t.Den)
    (hl : t.LabelsOk) (hw : t.Writable ok (params.getD {}).ensureAscii v) :
    (serialize t params v).ret = true ∧ JVal L (t.toJ (params.getD {}).serializeNull v) (serialize t params v).out := by
  rw [← ctxParams_ascii] at hw
  obtain ⟨b, hb, hj⟩ := Ty.write_ok hL (ctxParams params) t v (ctxParams params).err hl hw
  rw [ctxParams_nulls] at hj
  unfold serialize
  simp [hb, hj]

theorem endOk_nil (j : J) : EndOk j [] := Delim.nil.endOk j

/-- Serialization followed by deserialization into a fresh object. -/
theorem round_trip (t : Ty) (params q : Option Params) (v : t.Den) (hl : t.LabelsOk) (hd : t.DispatchOk)
    (hw : t.Writable (fun b => b ≠ 0) (params.getD {}).ensureAscii v) (hn : t.NoNulls v) (h0 : t.isNull v = false) :
    (serialize t params v).ret = true ∧
      ∃ p, deserialize t (serialize t params v).out q t.new = some ⟨true, p, t.norm (params.getD {}).serializeNull v⟩ := by
  obtain ⟨h1, h2⟩ := serialize_text lexOk_wide t params v hl hw
  refine ⟨h1, ?_⟩
  obtain ⟨p, hp⟩ := deserialize_text t q t.new Ws.nil h2 (endOk_nil _)
  rw [List.nil_append, List.append_nil, Ty.absorb_toJ _ t v hd hn, h0] at hp
  exact ⟨p, hp⟩

mutual
/-- A checker for `Faithful`, used for concrete cases. -/
def Ty.faithfulB (nulls : Bool) : (t : Ty) → t.Den → Bool
  | .num p, v => (!v.empty || decide (v.value = p.zero)) && (v.empty || decide (p.norm v.value = v.value))
  | .raw p, v => decide (p.norm v = v)
  | .str, v => !v.null
  | .bytes, _ => true
  | .rep t, v => List.all v (t.faithfulB nulls)
  | .msg _ fs, v => fs.faithfulB nulls v
/-- A checker for `Faithful`. -/
def Fields.faithfulB (nulls : Bool) : (fs : Fields) → fs.Den → Bool
  | .nil, _ => true
  | .cons f t rest, v =>
    (if f.transient then decide (v.1 = t.new)
     else if nulls || !t.empty v.1 then t.faithfulB nulls v.1 else decide (v.1 = t.new)) && rest.faithfulB nulls v.2
end

theorem numField_faithful {p : Prim} (v : NumField p)
    (h : ((!v.empty || decide (v.value = p.zero)) && (v.empty || decide (p.norm v.value = v.value))) = true) :
    (v.empty = true → v.value = p.zero) ∧ (v.empty = false → p.norm v.value = v.value) := by
  simp only [Bool.and_eq_true, Bool.or_eq_true, Bool.not_eq_true', decide_eq_true_eq] at h
  constructor
  · intro he; rcases h.1 with h | h
    · rw [he] at h; cases h
    · exact h
  · intro he; rcases h.2 with h | h
    · rw [he] at h; cases h
    · exact h

mutual
theorem Ty.faithfulB_sound (nulls : Bool) : (t : Ty) → (v : t.Den) → t.faithfulB nulls v = true → t.Faithful nulls v
  | .num _, v, h => numField_faithful v h
  | .raw p, v, h => by
    have h' : decide (p.norm v = v) = true := h
    have h2 : p.norm v = v := of_decide_eq_true h'
    exact h2
  | .str, v, h => by
    have h' : (!v.null) = true := h
    have h2 : v.null = false := by simpa using h'
    exact h2
  | .bytes, _, _ => trivial
  | .rep t, _, h => fun x hx => Ty.faithfulB_sound nulls t x (List.all_eq_true.mp h x hx)
  | .msg _ fs, v, h => Fields.faithfulB_sound nulls fs v h
theorem Fields.faithfulB_sound (nulls : Bool) : (fs : Fields) → (v : fs.Den) → fs.faithfulB nulls v = true →
    fs.Faithful nulls v
  | .nil, _, _ => trivial
  | .cons f t rest, v, h => by
    have h' : ((if f.transient then decide (v.1 = t.new)
     else if nulls || !t.empty v.1 then t.faithfulB nulls v.1 else decide (v.1 = t.new)) && rest.faithfulB nulls v.2) = true := h
    rw [Bool.and_eq_true] at h'
    obtain ⟨h1, h2⟩ := h'
    have hr := Fields.faithfulB_sound nulls rest v.2 h2
    cases hf : f.transient with
    | true =>
      rw [hf, if_pos rfl] at h1
      exact ⟨fun _ => of_decide_eq_true h1, fun h => by simp [hf] at h, fun h => by simp [hf] at h, hr⟩
    | false =>
      rw [hf, if_neg Bool.false_ne_true] at h1
      cases hn : (nulls || !t.empty v.1) with
      | true =>
        rw [hn, if_pos rfl] at h1
        refine ⟨fun h => by simp [hf] at h, fun _ hnn he => ?_, fun _ _ => Ty.faithfulB_sound nulls t v.1 h1, hr⟩
        simp [hnn, he] at hn
      | false =>
        rw [hn, if_neg Bool.false_ne_true] at h1
        exact ⟨fun h => by simp [hf] at h, fun _ _ _ => of_decide_eq_true h1, fun _ h => by simp [hn] at h, hr⟩
end

end PG
