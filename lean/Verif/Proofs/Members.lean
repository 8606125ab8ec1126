import Verif.Spec.Access
import Verif.Proofs.Dispatch
/-
Members of an object reach their own fields, one after the other.
-/
set_option autoImplicit false
namespace PG

/-- How a message reads one member (the function given to `absorbMembers` by `Ty.absorb`). -/
def Fields.member (obf : Bool) (fs : Fields) (k : Bytes) (j : J) (v : fs.Den) : RC × fs.Den :=
  match indexOf obf fs k with
  | none => (.nil, v)
  | some i => fs.absorbAt i j v

theorem absorb_obj (obf : Bool) (fs : Fields) (ms : JM) (v : fs.Den) :
    (Ty.msg obf fs).absorb (.obj ms) v = absorbMembers (fs.member obf) ms v := by
  simp only [Ty.absorb]
  rfl

/-- Reading into the `i`-th persistent field changes that field as its type says. -/
theorem absorbAt_get_same : (fs : Fields) → ∀ (i : Nat) (j : J) (v : fs.Den) (t : Ty) (x : t.Den), fs.get i v = some ⟨t, x⟩ →
    (fs.absorbAt i j v).1 = (t.absorb j x).1 ∧ fs.get i (fs.absorbAt i j v).2 = some ⟨t, (t.absorb j x).2⟩
  | .nil, _, _, _, _, _, h => by simp [Fields.get] at h
  | .cons f t' rest, i, j, v, t, x, h => by
    unfold Fields.get at h ⊢
    unfold Fields.absorbAt
    cases hf : f.transient with
    | true =>
      simp only [hf, if_true] at h ⊢
      exact absorbAt_get_same rest i j v.2 t x h
    | false =>
      simp only [hf, Bool.false_eq_true, if_false] at h ⊢
      cases i with
      | zero =>
        simp only [Option.some.injEq] at h ⊢
        cases h
        exact ⟨rfl, rfl⟩
      | succ i =>
        simp only at h ⊢
        exact absorbAt_get_same rest i j v.2 t x h

/-- Reading into another field changes nothing here. -/
theorem absorbAt_get_other : (fs : Fields) → ∀ (i k : Nat) (j : J) (v : fs.Den), i ≠ k →
    fs.get k (fs.absorbAt i j v).2 = fs.get k v
  | .nil, _, _, _, _, _ => rfl
  | .cons f t' rest, i, k, j, v, h => by
    unfold Fields.get Fields.absorbAt
    cases f.transient with
    | true =>
      simp only [if_true]
      exact absorbAt_get_other rest i k j v.2 h
    | false =>
      simp only [Bool.false_eq_true, if_false]
      cases i with
      | zero =>
        cases k with
        | zero => exact absurd rfl h
        | succ k => rfl
      | succ i =>
        cases k with
        | zero => rfl
        | succ k => exact absorbAt_get_other rest i k j v.2 (by omega)

/-- Reading never touches transient fields. -/
theorem absorbAt_getTransient : (fs : Fields) → ∀ (i k : Nat) (j : J) (v : fs.Den),
    fs.getTransient k (fs.absorbAt i j v).2 = fs.getTransient k v
  | .nil, _, _, _, _ => rfl
  | .cons f t' rest, i, k, j, v => by
    unfold Fields.getTransient Fields.absorbAt
    cases f.transient with
    | true =>
      simp only [if_true]
      cases k with
      | zero => rfl
      | succ k => exact absorbAt_getTransient rest i k j v.2
    | false =>
      simp only [Bool.false_eq_true, if_false]
      cases i with
      | zero => rfl
      | succ i => exact absorbAt_getTransient rest i k j v.2

/-- A message whose names are distinct finds `lab` at `i` and nothing else there. -/
theorem indexOf_iff {obf : Bool} {fs : Fields} (hk : KeysMatch obf fs) (hn : fs.labels.Nodup) {i : Nat} {lab : Bytes}
    (hl : fs.labels[i]? = some lab) (k : Bytes) : indexOf obf fs k = some i ↔ k = lab := by
  have hd := dispatches_of hk hn
  constructor
  · intro h
    have hmem : k ∈ fs.labels := by
      apply Decidable.byContradiction
      intro h'
      rw [(indexOf_none hk k).mpr h'] at h
      cases h
    obtain ⟨m, hm⟩ := List.getElem?_of_mem hmem
    have := hd m k hm
    rw [h] at this
    cases this
    rw [hl] at hm
    exact (Option.some.inj hm).symm
  · rintro rfl; exact hd i k hl

/-- What a successful object leaves in one field: the values given to the field's name, read one after the other. -/
theorem absorbMembers_get {obf : Bool} {fs : Fields} (hk : KeysMatch obf fs) (hn : fs.labels.Nodup) {i : Nat} {lab : Bytes}
    (hl : fs.labels[i]? = some lab) (ms : JM) (v v' : fs.Den) (t : Ty) (x : t.Den) (hg : fs.get i v = some ⟨t, x⟩)
    (h : absorbMembers (fs.member obf) ms v = (.ok, v')) :
    fs.get i v' = some ⟨t, t.absorbAll (ms.valuesOf lab) x⟩ := by
  match ms with
  | .nil =>
    simp only [absorbMembers, Prod.mk.injEq, true_and] at h
    subst h
    exact hg
  | .cons k j ms =>
    have step : ∀ v1 rc, fs.member obf k j v = (rc, v1) → absorbMembers (fs.member obf) ms v1 = (.ok, v') →
        fs.get i v' = some ⟨t, t.absorbAll ((JM.cons k j ms).valuesOf lab) x⟩ := by
      intro v1 rc hm hrest
      by_cases hkl : k = lab
      · have hi := (indexOf_iff hk hn hl k).mpr hkl
        unfold Fields.member at hm
        rw [hi] at hm
        have h1 := absorbAt_get_same fs i j v t x hg
        simp only at hm
        rw [hm] at h1
        have := absorbMembers_get hk hn hl ms v1 v' t _ h1.2 hrest
        simp only [JM.valuesOf, hkl, if_true, Ty.absorbAll]
        exact this
      · have hi : indexOf obf fs k ≠ some i := fun h => hkl ((indexOf_iff hk hn hl k).mp h)
        have h1 : fs.get i v1 = some ⟨t, x⟩ := by
          unfold Fields.member at hm
          cases hio : indexOf obf fs k with
          | none =>
            rw [hio] at hm
            simp only [Prod.mk.injEq] at hm
            rw [← hm.2]; exact hg
          | some i' =>
            rw [hio] at hm hi
            have := absorbAt_get_other fs i' i j v (fun h => hi (by rw [h]))
            simp only at hm
            rw [hm] at this
            rw [this]; exact hg
        have := absorbMembers_get hk hn hl ms v1 v' t x h1 hrest
        simp only [JM.valuesOf, hkl, if_false]
        exact this
    unfold absorbMembers at h
    cases hm : fs.member obf k j v with
    | mk rc v1 =>
      rw [hm] at h
      cases rc with
      | ok => exact step v1 .ok hm h
      | nil => exact step v1 .nil hm h
      | error => simp at h
      | fuel => simp at h

/-- No object changes a transient field, whether it is accepted or not. -/
theorem absorbMembers_getTransient (obf : Bool) (fs : Fields) (k : Nat) (ms : JM) (v : fs.Den) :
    fs.getTransient k (absorbMembers (fs.member obf) ms v).2 = fs.getTransient k v := by
  match ms with
  | .nil => rfl
  | .cons name j ms =>
    have h1 : fs.getTransient k (fs.member obf name j v).2 = fs.getTransient k v := by
      unfold Fields.member
      cases indexOf obf fs name with
      | none => rfl
      | some i => exact absorbAt_getTransient fs i k j v
    unfold absorbMembers
    cases hm : fs.member obf name j v with
    | mk rc v1 =>
      rw [hm] at h1
      cases rc with
      | ok => simp only; rw [absorbMembers_getTransient, ← h1]
      | nil => simp only; rw [absorbMembers_getTransient, ← h1]
      | error => exact h1
      | fuel => exact h1

end PG
