import Verif.Spec.Encode
/-
The generated name table finds every persistent field under its own label.
-/
set_option autoImplicit false
namespace PG

/-- The table keys of the persistent fields, in order. -/
def Fields.keys : Fields → List Bytes
  | .nil => []
  | .cons f _ rest => if f.transient then rest.keys else f.key :: rest.keys

theorem xor_self_cancel (a m : Byte) : a ^^^ m ^^^ m = a := by
  rw [UInt8.xor_assoc, UInt8.xor_self, UInt8.xor_zero]

/-- `reveal` is its own inverse. -/
theorem reveal_reveal (s : Bytes) : reveal (reveal s) = s := by
  unfold reveal
  rw [List.length_map, List.map_map]
  conv => rhs; rw [← List.map_id s]
  apply List.map_congr_left
  intro b _
  exact xor_self_cancel b _

theorem reveal_inj {a b : Bytes} (h : reveal a = reveal b) : a = b := by
  rw [← reveal_reveal a, h, reveal_reveal]

theorem Fields.table_keys (fs : Fields) (i : Nat) : (fs.table i).map Prod.fst = fs.keys := by
  induction fs using Fields.rec (motive_1 := fun _ => True) generalizing i with
  | nil => rfl
  | cons f t rest _ ih =>
    unfold Fields.table Fields.keys
    cases f.transient
    · simp [ih]
    · simp [ih]
  | _ => trivial

theorem Fields.table_get (fs : Fields) (i m : Nat) :
    (fs.table i)[m]? = (fs.keys[m]?).map (fun k => (k, i + m)) := by
  induction fs using Fields.rec (motive_1 := fun _ => True) generalizing i m with
  | nil => simp [Fields.table, Fields.keys]
  | cons f t rest _ ih =>
    unfold Fields.table Fields.keys
    cases f.transient
    · simp only [Bool.false_eq_true, if_false]
      cases m with
      | zero => simp
      | succ m =>
        simp only [List.getElem?_cons_succ, ih]
        congr 1
        funext k
        simp; omega
    · simp [ih]
  | _ => trivial

theorem lookupKey_some {k : Bytes} {i : Nat} {t : List (Bytes × Nat)} (h : lookupKey k t = some i) : (k, i) ∈ t := by
  induction t with
  | nil => simp [lookupKey] at h
  | cons x t ih =>
    obtain ⟨k', i'⟩ := x
    unfold lookupKey at h
    split at h
    · rename_i he; simp at h; subst h; subst he; simp
    · exact List.mem_cons_of_mem _ (ih h)

theorem lookupKey_none {k : Bytes} {t : List (Bytes × Nat)} : lookupKey k t = none ↔ k ∉ t.map Prod.fst := by
  induction t with
  | nil => simp [lookupKey]
  | cons x t ih =>
    obtain ⟨k', i'⟩ := x
    unfold lookupKey
    by_cases h : k' = k
    · simp [h]
    · simp only [h, if_false, ih, List.map_cons, List.mem_cons, not_or]
      constructor
      · exact fun h' => ⟨fun e => h e.symm, h'⟩
      · exact fun h' => h'.2

theorem lookupKey_nodup {t : List (Bytes × Nat)} (hn : (t.map Prod.fst).Nodup) {m : Nat} {k : Bytes} {i : Nat}
    (h : t[m]? = some (k, i)) : lookupKey k t = some i := by
  induction t generalizing m with
  | nil => simp at h
  | cons x t ih =>
    obtain ⟨k', i'⟩ := x
    simp only [List.map_cons, List.nodup_cons] at hn
    unfold lookupKey
    cases m with
    | zero => simp at h; simp [h.1, h.2]
    | succ m =>
      simp only [List.getElem?_cons_succ] at h
      rw [if_neg]
      · exact ih hn.2 h
      · intro he
        subst he
        exact hn.1 (List.mem_map.mpr ⟨_, List.mem_of_getElem? h, rfl⟩)

/-- The keys are the labels, revealed when the message is obfuscated. -/
def KeysMatch (obf : Bool) (fs : Fields) : Prop := fs.keys = fs.labels.map (fun l => if obf then reveal l else l)

instance (obf : Bool) (fs : Fields) : Decidable (KeysMatch obf fs) := inferInstanceAs (Decidable (_ = _))

theorem dispatches_of {obf : Bool} {fs : Fields} (hk : KeysMatch obf fs) (hn : fs.labels.Nodup) : Dispatches obf fs := by
  intro i lab h
  unfold indexOf
  have hkn : fs.keys.Nodup := by
    rw [hk]
    unfold List.Nodup at hn ⊢
    rw [List.pairwise_map]
    refine hn.imp ?_
    intro a b hab he
    cases obf
    · exact hab (by simpa using he)
    · exact hab (reveal_inj (by simpa using he))
  have hg : (fs.table 0)[i]? = some ((if obf then reveal lab else lab), i) := by
    rw [Fields.table_get, hk, List.getElem?_map, h]
    simp
  exact lookupKey_nodup (by rw [Fields.table_keys]; exact hkn) hg

/-- Names that are nobody's label are found nowhere. -/
theorem indexOf_none {obf : Bool} {fs : Fields} (hk : KeysMatch obf fs) (name : Bytes) :
    indexOf obf fs name = none ↔ name ∉ fs.labels := by
  unfold indexOf
  rw [lookupKey_none, Fields.table_keys, hk, List.mem_map]
  cases obf
  · simp
  · simp only [if_true]
    constructor
    · exact fun h h' => h ⟨name, h', rfl⟩
    · rintro h ⟨a, ha, he⟩
      exact h (reveal_inj he ▸ ha)

mutual
/-- In every message of the type the JSON names of the persistent fields are distinct, and the generated name table is
made of these names (revealed when the message is obfuscated). -/
def Ty.NamesOk : Ty → Prop
  | .rep t => t.NamesOk
  | .msg obf fs => KeysMatch obf fs ∧ fs.labels.Nodup ∧ fs.NamesOk
  | _ => True
/-- Every message below the fields. -/
def Fields.NamesOk : Fields → Prop
  | .nil => True
  | .cons _ t rest => t.NamesOk ∧ rest.NamesOk
end

mutual
theorem Ty.NamesOk.dispatch : (t : Ty) → t.NamesOk → t.DispatchOk
  | .num _, _ => trivial
  | .raw _, _ => trivial
  | .str, _ => trivial
  | .bytes, _ => trivial
  | .rep t, h => by unfold Ty.NamesOk at h; unfold Ty.DispatchOk; exact Ty.NamesOk.dispatch t h
  | .msg obf fs, h => by
    unfold Ty.NamesOk at h; unfold Ty.DispatchOk
    exact ⟨dispatches_of h.1 h.2.1, Fields.NamesOk.dispatch fs h.2.2⟩
theorem Fields.NamesOk.dispatch : (fs : Fields) → fs.NamesOk → fs.DispatchOk
  | .nil, _ => trivial
  | .cons _ t rest, h => by
    unfold Fields.NamesOk at h; unfold Fields.DispatchOk
    exact ⟨Ty.NamesOk.dispatch t h.1, Fields.NamesOk.dispatch rest h.2⟩
end

mutual
instance Ty.decNamesOk : (t : Ty) → Decidable t.NamesOk
  | .num _ => isTrue trivial
  | .raw _ => isTrue trivial
  | .str => isTrue trivial
  | .bytes => isTrue trivial
  | .rep t => by unfold Ty.NamesOk; exact Ty.decNamesOk t
  | .msg obf fs => by
    unfold Ty.NamesOk
    have := Fields.decNamesOk fs
    infer_instance
instance Fields.decNamesOk : (fs : Fields) → Decidable fs.NamesOk
  | .nil => isTrue trivial
  | .cons _ t rest => by
    unfold Fields.NamesOk
    have := Ty.decNamesOk t
    have := Fields.decNamesOk rest
    infer_instance
end

end PG
