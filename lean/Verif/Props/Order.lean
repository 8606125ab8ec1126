import Verif.Props.Members
/-
C17 (the order of members does not matter) and C33 (each JSON name reaches its own field).
-/
set_option autoImplicit false
namespace PG

mutual
/-- The same JSON value up to exchanging neighbouring members with different names, at any depth. -/
inductive JSame : J → J → Prop
  | refl (j : J) : JSame j j
  | arr {xs ys : JL} : JLSame xs ys → JSame (.arr xs) (.arr ys)
  | obj {ms ns : JM} : JMSame ms ns → JSame (.obj ms) (.obj ns)
/-- Elementwise the same. -/
inductive JLSame : JL → JL → Prop
  | nil : JLSame .nil .nil
  | cons {j j' : J} {t t' : JL} : JSame j j' → JLSame t t' → JLSame (.cons j t) (.cons j' t')
/-- The same members in another order. -/
inductive JMSame : JM → JM → Prop
  | nil : JMSame .nil .nil
  | cons {k : Bytes} {j j' : J} {t t' : JM} : JSame j j' → JMSame t t' → JMSame (.cons k j t) (.cons k j' t')
  | swap {k k' : Bytes} (j j' : J) (t : JM) : k ≠ k' → JMSame (.cons k j (.cons k' j' t)) (.cons k' j' (.cons k j t))
  | trans {a b c : JM} : JMSame a b → JMSame b c → JMSame a c
end

theorem JMSame.refl : (ms : JM) → JMSame ms ms
  | .nil => .nil
  | .cons _ j t => .cons (.refl j) (JMSame.refl t)

/-- The object with the given members. -/
def JM.ofList : List (Bytes × J) → JM
  | [] => .nil
  | (k, j) :: t => .cons k j (JM.ofList t)

/-- Every permutation of members with distinct names is covered by `JMSame`. -/
theorem JMSame.of_perm {a b : List (Bytes × J)} (h : a.Perm b) (hn : (a.map Prod.fst).Nodup) :
    JMSame (JM.ofList a) (JM.ofList b) := by
  induction h with
  | nil => exact .nil
  | cons x _ ih =>
    simp only [List.map_cons, List.nodup_cons] at hn
    exact .cons (.refl _) (ih hn.2)
  | swap x y l =>
    simp only [List.map_cons, List.nodup_cons, List.mem_cons, not_or] at hn
    exact .swap _ _ _ hn.1.1
  | trans h1 _ ih1 ih2 =>
    refine .trans (ih1 hn) (ih2 ?_)
    exact (h1.map Prod.fst).nodup_iff.mp hn

theorem absorbAt_transient {f : FInfo} (t : Ty) (rest : Fields) (hf : f.transient = true) (i : Nat) (j : J)
    (v : (Fields.cons f t rest).Den) :
    (Fields.cons f t rest).absorbAt i j v = ((rest.absorbAt i j v.2).1, v.1, (rest.absorbAt i j v.2).2) := by
  conv => lhs; unfold Fields.absorbAt
  simp only [hf, if_true]

theorem absorbAt_zero {f : FInfo} (t : Ty) (rest : Fields) (hf : f.transient = false) (j : J)
    (v : (Fields.cons f t rest).Den) :
    (Fields.cons f t rest).absorbAt 0 j v = ((t.absorb j v.1).1, (t.absorb j v.1).2, v.2) := by
  conv => lhs; unfold Fields.absorbAt
  simp only [hf, Bool.false_eq_true, if_false]

theorem absorbAt_succ {f : FInfo} (t : Ty) (rest : Fields) (hf : f.transient = false) (i : Nat) (j : J)
    (v : (Fields.cons f t rest).Den) :
    (Fields.cons f t rest).absorbAt (i + 1) j v = ((rest.absorbAt i j v.2).1, v.1, (rest.absorbAt i j v.2).2) := by
  conv => lhs; unfold Fields.absorbAt
  simp only [hf, Bool.false_eq_true, if_false]

/-- Reads into different fields commute and do not influence each other's return code. -/
theorem absorbAt_comm : (fs : Fields) → (i k : Nat) → i ≠ k → (j j' : J) → (v : fs.Den) →
    (fs.absorbAt k j' (fs.absorbAt i j v).2).2 = (fs.absorbAt i j (fs.absorbAt k j' v).2).2 ∧
    (fs.absorbAt k j' (fs.absorbAt i j v).2).1 = (fs.absorbAt k j' v).1
  | .nil, _, _, _, _, _, _ => ⟨rfl, rfl⟩
  | .cons f t rest, i, k, h, j, j', v => by
    cases hf : f.transient with
    | true =>
      rw [absorbAt_transient t rest hf, absorbAt_transient t rest hf, absorbAt_transient t rest hf,
        absorbAt_transient t rest hf]
      have := absorbAt_comm rest i k h j j' v.2
      exact ⟨Prod.ext rfl this.1, this.2⟩
    | false =>
      cases i with
      | zero =>
        cases k with
        | zero => exact absurd rfl h
        | succ k =>
          rw [absorbAt_zero t rest hf, absorbAt_succ t rest hf, absorbAt_succ t rest hf, absorbAt_zero t rest hf]
          exact ⟨rfl, rfl⟩
      | succ i =>
        cases k with
        | zero =>
          rw [absorbAt_zero t rest hf, absorbAt_succ t rest hf, absorbAt_succ t rest hf, absorbAt_zero t rest hf]
          exact ⟨rfl, rfl⟩
        | succ k =>
          have := absorbAt_comm rest i k (by omega) j j' v.2
          rw [absorbAt_succ t rest hf, absorbAt_succ t rest hf, absorbAt_succ t rest hf, absorbAt_succ t rest hf]
          exact ⟨Prod.ext rfl this.1, this.2⟩

/-- Members with different names commute. -/
theorem member_comm {obf : Bool} {fs : Fields} (hk : KeysMatch obf fs) (hn : fs.labels.Nodup) {a b : Bytes} (hab : a ≠ b)
    (j j' : J) (v : fs.Den) :
    (fs.member obf b j' (fs.member obf a j v).2).2 = (fs.member obf a j (fs.member obf b j' v).2).2 ∧
    (fs.member obf b j' (fs.member obf a j v).2).1 = (fs.member obf b j' v).1 := by
  unfold Fields.member
  cases ha : indexOf obf fs a with
  | none => exact ⟨rfl, rfl⟩
  | some i =>
    cases hb : indexOf obf fs b with
    | none => exact ⟨rfl, rfl⟩
    | some i' =>
      simp only
      have hne : i ≠ i' := by
        rintro rfl
        have hla : ∀ x, indexOf obf fs x = some i → fs.labels[i]? = some x := by
          intro x hx
          have hmem : x ∈ fs.labels := by
            apply Decidable.byContradiction
            intro h'
            rw [(indexOf_none hk x).mpr h'] at hx
            cases hx
          obtain ⟨m, hm⟩ := List.getElem?_of_mem hmem
          have := dispatches_of hk hn m x hm
          rw [hx] at this
          cases this
          exact hm
        have h1 := hla a ha
        rw [hla b hb] at h1
        exact hab (Option.some.inj h1).symm
      exact absorbAt_comm fs i i' hne j j' v

/-- Success of an object, step by step. -/
theorem absorbMembers_cons_ok {α : Type} {f : Bytes → J → α → RC × α} {k : Bytes} {j : J} {t : JM} {v w : α} :
    absorbMembers f (.cons k j t) v = (.ok, w) ↔
      ((f k j v).1 = .ok ∨ (f k j v).1 = .nil) ∧ absorbMembers f t (f k j v).2 = (.ok, w) := by
  conv => lhs; unfold absorbMembers
  cases h : f k j v with
  | mk rc x => cases rc <;> simp

theorem absorbMembers_ne_nil {α : Type} (f : Bytes → J → α → RC × α) (ms : JM) (v w : α) :
    absorbMembers f ms v ≠ (.nil, w) := by
  match ms with
  | .nil => simp [absorbMembers]
  | .cons k j t =>
    unfold absorbMembers
    cases h : f k j v with
    | mk rc x => cases rc <;> simp <;> exact absorbMembers_ne_nil f t x w

theorem absorbAt_same {j j' : J} (H : ∀ (t : Ty), t.NamesOk → ∀ (v w : t.Den) (rc : RC), rc = .ok ∨ rc = .nil →
    t.absorb j v = (rc, w) → t.absorb j' v = (rc, w)) : (fs : Fields) → (i : Nat) → fs.NamesOk → (v : fs.Den) →
    ((fs.absorbAt i j v).1 = .ok ∨ (fs.absorbAt i j v).1 = .nil) → fs.absorbAt i j' v = fs.absorbAt i j v
  | .nil, i, _, v, _ => rfl
  | .cons f t rest, i, hn, v, h => by
    unfold Fields.NamesOk at hn
    cases hf : f.transient with
    | true =>
      rw [absorbAt_transient t rest hf] at h ⊢
      rw [absorbAt_transient t rest hf, absorbAt_same H rest i hn.2 v.2 h]
    | false =>
      cases i with
      | zero =>
        rw [absorbAt_zero t rest hf] at h ⊢
        rw [absorbAt_zero t rest hf, H t hn.1 v.1 (t.absorb j v.1).2 (t.absorb j v.1).1 h rfl]
      | succ i =>
        rw [absorbAt_succ t rest hf] at h ⊢
        rw [absorbAt_succ t rest hf, absorbAt_same H rest i hn.2 v.2 h]

mutual
theorem absorb_same : {j j' : J} → JSame j j' → (t : Ty) → t.NamesOk → (v w : t.Den) → (rc : RC) → rc = .ok ∨ rc = .nil →
    t.absorb j v = (rc, w) → t.absorb j' v = (rc, w)
  | _, _, .refl _, _, _, _, _, _, _, h => h
  | _, _, .arr hs, t, hn, v, w, rc, hrc, h => by
    cases t with
    | rep t =>
      unfold Ty.NamesOk at hn
      simp only [Ty.absorb] at h ⊢
      exact absorbElems_same hs t hn v w rc hrc h
    | num p => cases p <;> simp only [Ty.absorb, Prim.absorb] at h ⊢ <;> exact h
    | raw p => cases p <;> simp only [Ty.absorb, Prim.absorb] at h ⊢ <;> exact h
    | str => simp only [Ty.absorb] at h ⊢; exact h
    | bytes => simp only [Ty.absorb] at h ⊢; exact h
    | msg o fs => simp only [Ty.absorb] at h ⊢; exact h
  | _, _, .obj hs, t, hn, v, w, rc, hrc, h => by
    cases t with
    | msg o fs =>
      unfold Ty.NamesOk at hn
      rw [absorb_obj] at h ⊢
      have hok : rc = .ok := by
        rcases hrc with rfl | rfl
        · rfl
        · exact absurd h (absorbMembers_ne_nil _ _ _ _)
      subst hok
      exact absorbMembers_same hs o fs hn v w h
    | num p => cases p <;> simp only [Ty.absorb, Prim.absorb] at h ⊢ <;> exact h
    | raw p => cases p <;> simp only [Ty.absorb, Prim.absorb] at h ⊢ <;> exact h
    | str => simp only [Ty.absorb] at h ⊢; exact h
    | bytes => simp only [Ty.absorb] at h ⊢; exact h
    | rep t => simp only [Ty.absorb] at h ⊢; exact h
theorem absorbElems_same : {xs ys : JL} → JLSame xs ys → (t : Ty) → t.NamesOk → (v w : List t.Den) → (rc : RC) →
    rc = .ok ∨ rc = .nil → absorbElems (fun j => t.absorb j t.new) xs v = (rc, w) →
    absorbElems (fun j => t.absorb j t.new) ys v = (rc, w)
  | _, _, .nil, _, _, _, _, _, _, h => h
  | _, _, .cons hj ht, t, hn, v, w, rc, hrc, h => by
    rename_i j j' xs ys
    unfold absorbElems at h ⊢
    cases hx : t.absorb j t.new with
    | mk rc' x =>
      simp only [hx] at h
      cases rc' with
      | ok =>
        rw [absorb_same hj t hn t.new x .ok (.inl rfl) hx]
        simp only at h ⊢
        exact absorbElems_same ht t hn _ w rc hrc h
      | nil => simp only [Prod.mk.injEq] at h; rcases hrc with rfl | rfl <;> simp at h
      | error => simp only [Prod.mk.injEq] at h; rcases hrc with rfl | rfl <;> simp at h
      | fuel => simp only [Prod.mk.injEq] at h; rcases hrc with rfl | rfl <;> simp at h
theorem absorbMembers_same : {ms ns : JM} → JMSame ms ns → (obf : Bool) → (fs : Fields) →
    (KeysMatch obf fs ∧ fs.labels.Nodup ∧ fs.NamesOk) → (v w : fs.Den) →
    absorbMembers (fs.member obf) ms v = (.ok, w) → absorbMembers (fs.member obf) ns v = (.ok, w)
  | _, _, .nil, _, _, _, _, _, h => h
  | _, _, .cons hj ht, obf, fs, hn, v, w, h => by
    rename_i k j j' ms ns
    rw [absorbMembers_cons_ok] at h ⊢
    have : fs.member obf k j' v = fs.member obf k j v := by
      unfold Fields.member
      cases hi : indexOf obf fs k with
      | none => rfl
      | some i =>
        have h1 := h.1
        unfold Fields.member at h1
        rw [hi] at h1
        exact absorbAt_same (fun t => absorb_same hj t) fs i hn.2.2 v h1
    rw [this]
    exact ⟨h.1, absorbMembers_same ht obf fs hn _ w h.2⟩
  | _, _, .swap j j' t hk, obf, fs, hn, v, w, h => by
    rename_i k k'
    rw [absorbMembers_cons_ok, absorbMembers_cons_ok] at h ⊢
    obtain ⟨c1, c2⟩ := member_comm hn.1 hn.2.1 hk j j' v
    obtain ⟨d1, d2⟩ := member_comm hn.1 hn.2.1 (Ne.symm hk) j' j v
    rw [c2, c1] at h
    rw [d2]
    exact ⟨h.2.1, h.1, h.2.2⟩
  | _, _, .trans h1 h2, obf, fs, hn, v, w, h =>
    absorbMembers_same h2 obf fs hn v w (absorbMembers_same h1 obf fs hn v w h)
end

/-- C17.  A document accepted by `deserialize` gives the same result and the same object when members with different
names are exchanged, at any depth. -/
theorem C17_member_order (t : Ty) (hn : t.NamesOk) (j j' : J) (hs : JSame j j') (d d' : Bytes) (hd : DocText j d)
    (hd' : DocText j' d') (p p' : Option Params) (v w : t.Den) (h : outcome (deserialize t d p v) = some (true, w)) :
    outcome (deserialize t d' p' v) = some (true, w) := by
  rw [doc_outcome t p v hd] at h
  rw [doc_outcome t p' v hd']
  simp only [Option.some.injEq, Prod.mk.injEq, decide_eq_true_eq] at h
  have := absorb_same hs t hn v w .ok (.inl rfl) (Prod.ext h.1 h.2)
  rw [this]; rfl

/-- C17 for a whole permutation of members with distinct names. -/
theorem C17_permutation (t : Ty) (hn : t.NamesOk) (a b : List (Bytes × J)) (hp : a.Perm b) (hd : (a.map Prod.fst).Nodup)
    (d d' : Bytes) (h1 : DocText (.obj (JM.ofList a)) d) (h2 : DocText (.obj (JM.ofList b)) d') (p p' : Option Params)
    (v w : t.Den) (h : outcome (deserialize t d p v) = some (true, w)) : outcome (deserialize t d' p' v) = some (true, w) :=
  C17_member_order t hn _ _ (.obj (JMSame.of_perm hp hd)) d d' h1 h2 p p' v w h

example : [(b!"number", J.num b!"7"), (b!"street", .str b!"x"), (b!"u", .null)].Perm
      [(b!"u", .null), (b!"number", .num b!"7"), (b!"street", .str b!"x")] ∧
    outcome (deserialize Demo.address b!"{\"number\":7,\"street\":\"x\",\"u\":null}" none Demo.address.new) =
      some (true, Demo.addr 7 b!"x") ∧
    outcome (deserialize Demo.address b!" {\"u\" :null,\"number\":7, \"street\":\"x\"}" none Demo.address.new) =
      some (true, Demo.addr 7 b!"x") :=
  ⟨(List.perm_append_comm (l₁ := [(b!"number", J.num b!"7"), (b!"street", .str b!"x")]) (l₂ := [(b!"u", .null)])),
    by decide +kernel, by decide +kernel⟩

/-- Exchanging members with the *same* name does matter. -/
theorem C17_needs_distinct_names :
    outcome (deserialize Demo.address b!"{\"number\":7,\"number\":8}" none Demo.address.new) ≠
      outcome (deserialize Demo.address b!"{\"number\":8,\"number\":7}" none Demo.address.new) := by decide +kernel

/-- C33, reading.  A member named by the label of the `i`-th persistent field is given to that field's reader, and no
other field (persistent or transient) changes. -/
theorem C33_name_reaches_its_field (obf : Bool) (fs : Fields) (hk : KeysMatch obf fs) (hn : fs.labels.Nodup) (i : Nat) (lab : Bytes)
    (hl : fs.labels[i]? = some lab) (t : Ty) (x : t.Den) (v : fs.Den) (hg : fs.get i v = some ⟨t, x⟩) (j : J) (d : Bytes)
    (hd : DocText (.obj (.cons lab j .nil)) d) (p : Option Params) :
    ∃ ret v', outcome (deserialize (.msg obf fs) d p v) = some (ret, v') ∧
      (ret = true ↔ (t.absorb j x).1 = .ok ∨ (t.absorb j x).1 = .nil) ∧
      fs.get i v' = some ⟨t, (t.absorb j x).2⟩ ∧ (∀ k, k ≠ i → fs.get k v' = fs.get k v) ∧
      ∀ k, fs.getTransient k v' = fs.getTransient k v := by
  refine ⟨_, _, doc_outcome (.msg obf fs) p v hd, ?_⟩
  rw [absorb_obj]
  have hi := (indexOf_iff hk hn hl lab).mpr rfl
  have hm : fs.member obf lab j v = fs.absorbAt i j v := by unfold Fields.member; rw [hi]
  obtain ⟨h1, h2⟩ := absorbAt_get_same fs i j v t x hg
  have hsnd : (absorbMembers (fs.member obf) (.cons lab j .nil) v).2 = (fs.absorbAt i j v).2 := by
    unfold absorbMembers absorbMembers
    rw [hm]
    cases hh : fs.absorbAt i j v with
    | mk rc v1 => cases rc <;> rfl
  rw [hsnd]
  refine ⟨?_, h2, fun k hk' => absorbAt_get_other fs i k j v (Ne.symm hk'), fun k => absorbAt_getTransient fs i k j v⟩
  unfold absorbMembers absorbMembers
  rw [hm, ← h1]
  cases hh : fs.absorbAt i j v with
  | mk rc v1 => cases rc <;> simp

/-- C33, unknown names reach no field. -/
theorem C33_unknown_name_reaches_nothing (obf : Bool) (fs : Fields) (hk : KeysMatch obf fs) (name : Bytes) (h : name ∉ fs.labels)
    (v : fs.Den) (j : J) (d : Bytes) (hd : DocText (.obj (.cons name j .nil)) d) (p : Option Params) :
    outcome (deserialize (.msg obf fs) d p v) = some (true, v) := by
  rw [doc_outcome (.msg obf fs) p v hd, absorb_obj]
  unfold absorbMembers absorbMembers
  rw [member_none hk h]
  rfl

/-- C33, writing.  The value of a field that is written stands under the field's label, in an object read as its own
member: the members of the written object are exactly the labels with the JSON values of the non-empty persistent
fields, in order. -/
theorem C33_written_under_its_name (nulls : Bool) : (fs : Fields) → (v : fs.Den) →
    (fs.toJ nulls v).toList = ((List.range fs.labels.length).filterMap (fun i =>
      match fs.get i v, fs.labels[i]? with
      | some ⟨t, x⟩, some lab => if nulls || !t.empty x then some (lab, t.toJ nulls x) else none
      | _, _ => none))
  | .nil, _ => rfl
  | .cons f t rest, v => by
    have ih := C33_written_under_its_name nulls rest v.2
    unfold Fields.toJ Fields.labels
    cases hf : f.transient with
    | true =>
      simp only [if_true]
      rw [ih]
      congr 1
      funext i
      simp only [Fields.get, hf, if_true]
    | false =>
      simp only [Bool.false_eq_true, if_false, List.length_cons, List.range_succ_eq_map, List.filterMap_cons,
        List.filterMap_map]
      have hrest : List.filterMap ((fun i => match Fields.get (.cons f t rest) i v, (f.wlabel :: rest.labels)[i]? with
          | some ⟨t, x⟩, some lab => if (nulls || !t.empty x) = true then some (lab, Ty.toJ nulls t x) else none
          | _, _ => none) ∘ Nat.succ) (List.range rest.labels.length) = (Fields.toJ nulls rest v.2).toList := by
        rw [ih]
        congr 1
        funext i
        simp only [Function.comp, Fields.get, hf, Bool.false_eq_true, if_false, Nat.succ_eq_add_one, List.getElem?_cons_succ]
      rw [hrest]
      simp only [Fields.get, hf, Bool.false_eq_true, if_false, List.getElem?_cons_zero]
      split
      · simp only [JM.toList]
      · rfl

end PG
