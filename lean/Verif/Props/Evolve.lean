import Verif.Props.Order
import Verif.Spec.Evolve
/-
C69: an object written by one version of a class is read by another version.
-/
set_option autoImplicit false
namespace PG

/-! ### Numbers -/

theorem intOfText_decInt (k : IKind) (x : Int) (h1 : -9223372036854775808 ≤ x) (h2 : x ≤ 18446744073709551615) :
    intOfText k (decInt x) = CInt.cast k (if k.signed then min x 9223372036854775807 else x) := by
  unfold intOfText strtol strtoul
  rw [strtolScan_decInt]
  cases k <;> simp only [IKind.signed, if_true, Bool.false_eq_true, if_false]
  · congr 1
    by_cases hneg : x < 0
    · simp only [hneg, decide_true, if_true]; omega
    · simp only [hneg, decide_false]; simp; omega
  · congr 1
    by_cases hneg : x < 0
    · simp only [hneg, decide_true, if_true]; omega
    · simp only [hneg, decide_false]; simp; omega
  all_goals
    rw [if_neg (by omega)]
    by_cases hneg : x < 0
    · simp only [hneg, decide_true, if_true]
      unfold CInt.cast
      congr 1
      simp only [IKind.lo, IKind.bits, IKind.signed, Bool.false_eq_true, if_false]
      omega
    · simp only [hneg, decide_false, Bool.false_eq_true, if_false]
      congr 1
      omega

theorem CInt.bounds {k : IKind} (v : CInt k) : -9223372036854775808 ≤ v.val ∧ v.val ≤ 18446744073709551615 := by
  have h1 := v.lo_le
  have h2 := v.le_hi
  cases k <;> simp [IKind.lo, IKind.hi, IKind.bits, IKind.signed] at h1 h2 <;> omega

theorem Prim.absorb_carry (q p : Prim) (v : p.Den) (w : q.Den) :
    (∀ x, q.carry p v = some x → q.absorb (p.toJ v) w = (.ok, x)) ∧
    (q.carry p v = none → (q.absorb (p.toJ v) w).1 = .error) := by
  cases q with
  | int k =>
    cases p with
    | int k' =>
      refine ⟨fun x hx => ?_, fun h => by cases h⟩
      cases hx
      exact congrArg (Prod.mk RC.ok) (intOfText_decInt k _ (CInt.bounds v).1 (CInt.bounds v).2)
    | flt k' => exact ⟨fun x hx => by cases hx; rfl, fun h => by cases h⟩
    | bool => exact ⟨fun x hx => (by cases hx), fun h => rfl⟩
  | flt k =>
    cases p with
    | int k' => exact ⟨fun x hx => by cases hx; rfl, fun h => by cases h⟩
    | flt k' => exact ⟨fun x hx => by cases hx; rfl, fun h => by cases h⟩
    | bool => exact ⟨fun x hx => (by cases hx), fun h => rfl⟩
  | bool =>
    cases p with
    | int k' => exact ⟨fun x hx => (by cases hx), fun h => rfl⟩
    | flt k' => exact ⟨fun x hx => (by cases hx), fun h => rfl⟩
    | bool => exact ⟨fun x hx => by cases hx; rfl, fun h => by cases h⟩

theorem num_absorb_ok {q : Prim} {j : J} {x : q.Den} (v : NumField q) (h : q.absorb j q.zero = (.ok, x)) :
    (Ty.num q).absorb j v = (.ok, (⟨x, false⟩ : NumField q)) := by
  show ((q.absorb j q.zero).1, if (q.absorb j q.zero).1 = .nil then v else (⟨(q.absorb j q.zero).2, false⟩ : NumField q)) = _
  simp [h]

theorem Prim.absorb_null (q : Prim) (v : q.Den) : q.absorb .null v = (.nil, v) := by cases q <;> rfl

theorem Ty.absorb_null (t : Ty) : t.absorb .null t.new = (.nil, t.onNull) := by
  cases t with
  | num q => cases q <;> rfl
  | raw q => cases q <;> rfl
  | _ => rfl

theorem Ty.toJ_null (nulls : Bool) (t : Ty) (v : t.Den) (h : t.isNull v = true) : t.toJ nulls v = .null := by
  cases t with
  | num p =>
    simp only [Ty.isNull] at h
    simp only [Ty.toJ, h, if_true]
  | str =>
    simp only [Ty.isNull] at h
    simp only [Ty.toJ, h, if_true]
  | _ => cases h

/-- Integers that fit the new type keep their value. -/
theorem Prim.carry_fits (k k' : IKind) (v : CInt k') (h1 : k.lo ≤ v.val) (h2 : v.val ≤ k.hi) :
    ∃ x : CInt k, Prim.carry (.int k) (.int k') v = some x ∧ x.val = v.val := by
  refine ⟨_, rfl, ?_⟩
  have : (if k.signed then min v.val 9223372036854775807 else v.val) = v.val := by
    cases k <;> simp [IKind.lo, IKind.hi, IKind.bits, IKind.signed] at h1 h2 ⊢ <;> omega
  rw [this]
  unfold CInt.cast
  unfold IKind.hi at h2
  show (v.val - k.lo) % 2 ^ k.bits + k.lo = v.val
  rw [Int.emod_eq_of_lt (by omega) (by omega)]
  omega

/-! ### Return codes do not depend on the object read into -/

theorem absorbElems_rc {α : Type} (f : J → RC × α) (xs : JL) (v w : List α) :
    (absorbElems f xs v).1 = (absorbElems f xs w).1 := by
  match xs with
  | .nil => rfl
  | .cons j t =>
    unfold absorbElems
    cases h : f j with
    | mk rc x => cases rc <;> simp only <;> exact absorbElems_rc f t _ _

theorem absorbMembers_rc_eq {α : Type} (f : Bytes → J → α → RC × α) (hf : ∀ k j v w, (f k j v).1 = (f k j w).1)
    (ms : JM) (v w : α) : (absorbMembers f ms v).1 = (absorbMembers f ms w).1 := by
  match ms with
  | .nil => rfl
  | .cons k j t =>
    unfold absorbMembers
    have := hf k j v w
    cases h : f k j v with
    | mk rc x =>
      cases h' : f k j w with
      | mk rc' x' =>
        rw [h, h'] at this
        simp only at this
        subst this
        cases rc <;> simp only <;> exact absorbMembers_rc_eq f hf t _ _

mutual
theorem Ty.absorb_rc_eq : (t : Ty) → (j : J) → (v w : t.Den) → (t.absorb j v).1 = (t.absorb j w).1
  | .num p, j, v, w => rfl
  | .raw p, j, v, w => by cases p <;> cases j <;> rfl
  | .str, j, v, w => by cases j <;> rfl
  | .bytes, j, v, w => by cases j <;> rfl
  | .rep t, j, v, w => by
    cases j with
    | arr xs => exact absorbElems_rc _ xs v w
    | _ => rfl
  | .msg obf fs, j, v, w => by
    cases j with
    | obj ms =>
      rw [absorb_obj, absorb_obj]
      refine absorbMembers_rc_eq _ (fun k j v w => ?_) ms v w
      unfold Fields.member
      cases indexOf obf fs k with
      | none => rfl
      | some i => exact Fields.absorbAt_rc_eq fs i j v w
    | _ => rfl
theorem Fields.absorbAt_rc_eq : (fs : Fields) → (i : Nat) → (j : J) → (v w : fs.Den) →
    (fs.absorbAt i j v).1 = (fs.absorbAt i j w).1
  | .nil, i, j, v, w => rfl
  | .cons f t rest, i, j, v, w => by
    unfold Fields.absorbAt
    cases f.transient with
    | true => simp only [if_true]; exact Fields.absorbAt_rc_eq rest i j v.2 w.2
    | false =>
      simp only [Bool.false_eq_true, if_false]
      cases i with
      | zero => exact Ty.absorb_rc_eq t j v.1 w.1
      | succ i => exact Fields.absorbAt_rc_eq rest i j v.2 w.2
end

/-- An object is accepted if each of its members is. -/
theorem absorbMembers_ok_of {α : Type} (f : Bytes → J → α → RC × α) (hf : ∀ k j v w, (f k j v).1 = (f k j w).1) (v₀ : α)
    (ms : JM) (h : ∀ kj ∈ ms.toList, (f kj.1 kj.2 v₀).1 = .ok ∨ (f kj.1 kj.2 v₀).1 = .nil) (v : α) :
    (absorbMembers f ms v).1 = .ok := by
  match ms with
  | .nil => rfl
  | .cons k j t =>
    have h1 := h (k, j) (by simp [JM.toList])
    have h2 : ∀ kj ∈ t.toList, (f kj.1 kj.2 v₀).1 = .ok ∨ (f kj.1 kj.2 v₀).1 = .nil :=
      fun kj hkj => h kj (by simp [JM.toList, hkj])
    simp only at h1
    rw [hf k j v₀ v] at h1
    unfold absorbMembers
    cases h' : f k j v with
    | mk rc x =>
      rw [h'] at h1
      cases rc <;> simp at h1 <;> simp only <;> exact absorbMembers_ok_of f hf v₀ t h2 x

/-- ... and refused if one of its members is. -/
theorem absorbMembers_error_of {α : Type} (f : Bytes → J → α → RC × α) (hf : ∀ k j v w, (f k j v).1 = (f k j w).1) (v₀ : α)
    (ms : JM) (h : ∃ kj ∈ ms.toList, (f kj.1 kj.2 v₀).1 = .error) (v : α) : (absorbMembers f ms v).1 = .error := by
  match ms with
  | .nil => obtain ⟨_, h, _⟩ := h; cases h
  | .cons k j t =>
    obtain ⟨kj, hm, he⟩ := h
    unfold absorbMembers
    simp only [JM.toList, List.mem_cons] at hm
    rcases hm with rfl | hm
    · simp only at he
      rw [hf k j v₀ v] at he
      cases h' : f k j v with
      | mk rc x =>
        rw [h'] at he
        simp only at he
        subst he
        rfl
    · cases h' : f k j v with
      | mk rc x =>
        cases rc with
        | ok => exact absorbMembers_error_of f hf v₀ t ⟨kj, hm, he⟩ x
        | nil => exact absorbMembers_error_of f hf v₀ t ⟨kj, hm, he⟩ x
        | error => rfl
        | fuel => rfl

theorem member_rc_eq (obf : Bool) (fs : Fields) (k : Bytes) (j : J) (v w : fs.Den) :
    (fs.member obf k j v).1 = (fs.member obf k j w).1 := by
  unfold Fields.member
  cases indexOf obf fs k with
  | none => rfl
  | some i => exact Fields.absorbAt_rc_eq fs i j v w

/-! ### The members written -/

/-- The values a message writes under a name: none or one, if names are distinct. -/
theorem toJ_valuesOf (nulls : Bool) (lab : Bytes) : (fs : Fields) → (v : fs.Den) → fs.labels.Nodup →
    (fs.toJ nulls v).valuesOf lab = (match fs.find lab v with
      | none => []
      | some ⟨t, x⟩ => if nulls || !t.empty x then [t.toJ nulls x] else [])
  | .nil, _, _ => rfl
  | .cons f t rest, v, hn => by
    unfold Fields.labels at hn
    unfold Fields.toJ Fields.find
    cases hf : f.transient with
    | true =>
      simp only [hf, if_true] at hn
      simp only [if_true, Bool.true_eq_false, false_and, if_false]
      exact toJ_valuesOf nulls lab rest v.2 hn
    | false =>
      simp only [hf, Bool.false_eq_true, if_false, List.nodup_cons] at hn
      have ih := toJ_valuesOf nulls lab rest v.2 hn.2
      simp only [Bool.false_eq_true, if_false, true_and]
      by_cases hl : f.wlabel = lab
      · subst hl
        have hnone : (rest.toJ nulls v.2).valuesOf f.wlabel = [] := by
          rw [ih]
          cases hfd : rest.find f.wlabel v.2 with
          | none => rfl
          | some r => exact absurd (find_mem rest _ _ _ hfd) hn.1
        simp only [if_true]
        split
        · simp only [JM.valuesOf, if_true, hnone]
        · exact hnone
      · simp only [hl, if_false]
        split
        · simp only [JM.valuesOf, hl, if_false]; exact ih
        · exact ih
where
  find_mem : (fs : Fields) → (lab : Bytes) → (v : fs.Den) → (r : Σ t : Ty, t.Den) → fs.find lab v = some r → lab ∈ fs.labels
  | .nil, _, _, _, h => by simp [Fields.find] at h
  | .cons f t rest, lab, v, r, h => by
    unfold Fields.find at h
    unfold Fields.labels
    cases hf : f.transient with
    | true =>
      simp only [hf, Bool.true_eq_false, false_and, if_false] at h
      simp only [if_true]
      exact find_mem rest lab v.2 r h
    | false =>
      simp only [hf, true_and] at h
      simp only [Bool.false_eq_true, if_false, List.mem_cons]
      by_cases hl : f.wlabel = lab
      · exact .inl hl.symm
      · simp only [hl, if_false] at h
        exact .inr (find_mem rest lab v.2 r h)

theorem mem_valuesOf (ms : JM) (k : Bytes) (j : J) : (k, j) ∈ ms.toList ↔ j ∈ ms.valuesOf k := by
  match ms with
  | .nil => simp [JM.toList, JM.valuesOf]
  | .cons k' j' t =>
    have ih := mem_valuesOf t k j
    simp only [JM.toList, List.mem_cons, Prod.mk.injEq, JM.valuesOf]
    by_cases h : k' = k
    · simp only [h, if_true, List.mem_cons, true_and, ih]
    · have : ¬ k = k' := fun e => h e.symm
      simp only [h, this, if_false, false_and, false_or, ih]

/-! ### Objects are known by their fields -/

theorem fields_ext : (fs : Fields) → (a b : fs.Den) → (∀ i, fs.get i a = fs.get i b) →
    (∀ i, fs.getTransient i a = fs.getTransient i b) → a = b
  | .nil, _, _, _, _ => rfl
  | .cons f t rest, a, b, h1, h2 => by
    unfold Fields.get at h1
    unfold Fields.getTransient at h2
    cases hf : f.transient with
    | true =>
      simp only [hf, if_true] at h1 h2
      have e1 := h2 0
      simp only [Option.some.injEq, Sigma.mk.injEq, heq_eq_eq, true_and] at e1
      have e2 := fields_ext rest a.2 b.2 h1 (fun i => h2 (i + 1))
      exact Prod.ext e1 e2
    | false =>
      simp only [hf, Bool.false_eq_true, if_false] at h1 h2
      have e1 := h1 0
      simp only [Option.some.injEq, Sigma.mk.injEq, heq_eq_eq, true_and] at e1
      have e2 := fields_ext rest a.2 b.2 (fun i => h1 (i + 1)) h2
      exact Prod.ext e1 e2

/-- What one persistent field of the reader gets. -/
def slot (nulls : Bool) (fs₁ : Fields) (v : fs₁.Den) (lab : Bytes) (t : Ty) : Option t.Den :=
  match fs₁.find lab v with
  | none => some t.new
  | some ⟨t₁, x⟩ => if nulls || !t₁.empty x then t.carry nulls t₁ x else some t.new

theorem find_names : (fs : Fields) → fs.NamesOk → (lab : Bytes) → (v : fs.Den) → (r : Σ t : Ty, t.Den) →
    fs.find lab v = some r → r.1.NamesOk
  | .nil, _, _, _, _, h => by simp [Fields.find] at h
  | .cons f t rest, hn, lab, v, r, h => by
    unfold Fields.NamesOk at hn
    unfold Fields.find at h
    split at h
    · cases h; exact hn.1
    · exact find_names rest hn.2 lab v.2 r h

theorem carry_cons (nulls : Bool) (f : FInfo) (t : Ty) (rest fs₁ : Fields) (v : fs₁.Den) :
    (Fields.cons f t rest).carry nulls fs₁ v =
      (if f.transient then some t.new else slot nulls fs₁ v f.wlabel t).bind fun a =>
        (rest.carry nulls fs₁ v).map fun b => (a, b) := by
  conv => lhs; unfold Fields.carry
  rfl

theorem carry_transient (nulls : Bool) (fs₁ : Fields) (v : fs₁.Den) : (fs : Fields) → (w : fs.Den) →
    fs.carry nulls fs₁ v = some w → ∀ i, fs.getTransient i w = fs.getTransient i fs.new
  | .nil, _, _, _ => rfl
  | .cons f t rest, w, h, i => by
    rw [carry_cons, Option.bind_eq_some_iff] at h
    obtain ⟨a, ha, h⟩ := h
    rw [Option.map_eq_some_iff] at h
    obtain ⟨b, hb, rfl⟩ := h
    have ih := carry_transient nulls fs₁ v rest b hb
    unfold Fields.getTransient Fields.new
    cases hf : f.transient with
    | true =>
      simp only [hf, if_true, Option.some.injEq] at ha ⊢
      cases i with
      | zero => simp only [ha]
      | succ i => exact ih i
    | false =>
      simp only [Bool.false_eq_true, if_false]
      exact ih i

theorem carry_get (nulls : Bool) (fs₁ : Fields) (v : fs₁.Den) : (fs : Fields) → (w : fs.Den) →
    fs.carry nulls fs₁ v = some w → ∀ i, match fs.labels[i]? with
      | none => fs.get i w = none ∧ ∀ u, fs.get i u = none
      | some lab => ∃ t x, fs.get i w = some ⟨t, x⟩ ∧ fs.get i fs.new = some ⟨t, t.new⟩ ∧ slot nulls fs₁ v lab t = some x
  | .nil, _, _, _ => by simp [Fields.labels, Fields.get]
  | .cons f t rest, w, h, i => by
    rw [carry_cons, Option.bind_eq_some_iff] at h
    obtain ⟨a, ha, h⟩ := h
    rw [Option.map_eq_some_iff] at h
    obtain ⟨b, hb, rfl⟩ := h
    have ih := carry_get nulls fs₁ v rest b hb
    unfold Fields.get Fields.new Fields.labels
    cases hf : f.transient with
    | true =>
      simp only [if_true]
      have := ih i
      cases hl : rest.labels[i]? with
      | none => rw [hl] at this; exact ⟨this.1, fun u => this.2 u.2⟩
      | some lab => rw [hl] at this; exact this
    | false =>
      simp only [hf, Bool.false_eq_true, if_false] at ha ⊢
      cases i with
      | zero => exact ⟨t, a, rfl, rfl, ha⟩
      | succ i =>
        simp only [List.getElem?_cons_succ]
        have := ih i
        cases hl : rest.labels[i]? with
        | none => rw [hl] at this; exact ⟨this.1, fun u => this.2 u.2⟩
        | some lab => rw [hl] at this; exact this

theorem carry_none (nulls : Bool) (fs₁ : Fields) (v : fs₁.Den) : (fs : Fields) → fs.carry nulls fs₁ v = none →
    ∃ (i : Nat) (lab : Bytes) (t : Ty), fs.labels[i]? = some lab ∧ fs.get i fs.new = some ⟨t, t.new⟩ ∧
      slot nulls fs₁ v lab t = none
  | .nil, h => by simp [Fields.carry] at h
  | .cons f t rest, h => by
    rw [carry_cons] at h
    have lift : rest.carry nulls fs₁ v = none → ∃ (i : Nat) (lab : Bytes) (t' : Ty),
        (Fields.cons f t rest).labels[i]? = some lab ∧
          (Fields.cons f t rest).get i (Fields.cons f t rest).new = some ⟨t', t'.new⟩ ∧ slot nulls fs₁ v lab t' = none := by
      intro hr
      obtain ⟨i, lab, t', h1, h2, h3⟩ := carry_none nulls fs₁ v rest hr
      unfold Fields.get Fields.new Fields.labels
      cases hf : f.transient with
      | true => exact ⟨i, lab, t', by simpa using h1, by simpa using h2, h3⟩
      | false => exact ⟨i + 1, lab, t', by simpa using h1, by simpa using h2, h3⟩
    cases ha : (if f.transient then some t.new else slot nulls fs₁ v f.wlabel t) with
    | none =>
      cases hf : f.transient with
      | true => simp [hf] at ha
      | false =>
        simp only [hf, Bool.false_eq_true, if_false] at ha
        refine ⟨0, f.wlabel, t, ?_, ?_, ha⟩
        · simp [Fields.labels, hf]
        · simp [Fields.get, Fields.new, hf]
    | some a =>
      rw [ha] at h
      simp only [Option.bind_some, Option.map_eq_none_iff] at h
      exact lift h

/-! ### Reading -/

/-- What is proved about reading into a type. -/
def Carries (nulls : Bool) (t₂ : Ty) : Prop :=
  t₂.NamesOk → ∀ (t₁ : Ty) (v : t₁.Den), t₁.NamesOk →
    (∀ w, t₂.carry nulls t₁ v = some w → t₂.absorb (t₁.toJ nulls v) t₂.new = (rcOf (t₁.isNull v), w)) ∧
    (t₂.carry nulls t₁ v = none → (t₂.absorb (t₁.toJ nulls v) t₂.new).1 = .error)

theorem carryAll_none {α β : Type} (f : α → Option β) (xs : List α) (h : carryAll f xs = none) : ∃ x ∈ xs, f x = none := by
  induction xs with
  | nil => simp [carryAll] at h
  | cons x t ih =>
    unfold carryAll at h
    cases hx : f x with
    | none => exact ⟨x, by simp, hx⟩
    | some y =>
      rw [hx] at h
      simp only [Option.bind_some, Option.map_eq_none_iff] at h
      obtain ⟨z, hz, h⟩ := ih h
      exact ⟨z, by simp [hz], h⟩

theorem absorbElems_carryAll {α β : Type} {f : J → RC × β} {g : α → J} {c : α → Option β} (xs : List α)
    (h : ∀ x ∈ xs, (∀ y, c x = some y → f (g x) = (.ok, y)) ∧ (c x = none → (f (g x)).1 ≠ .ok)) (acc : List β) :
    (∀ ys, carryAll c xs = some ys → absorbElems f (elemsToJ g xs) acc = (.ok, acc ++ ys)) ∧
    (carryAll c xs = none → (absorbElems f (elemsToJ g xs) acc).1 = .error) := by
  induction xs generalizing acc with
  | nil => simp [carryAll, elemsToJ, absorbElems]
  | cons x t ih =>
    have ih := ih (fun y hy => h y (by simp [hy]))
    obtain ⟨h1, h2⟩ := h x (by simp)
    unfold carryAll elemsToJ absorbElems
    cases hc : c x with
    | none =>
      have := h2 hc
      simp only [Option.bind_none, reduceCtorEq, false_implies, implies_true, true_and, forall_const]
      cases hf : f (g x) with
      | mk rc z =>
        rw [hf] at this
        cases rc with
        | ok => exact absurd rfl this
        | _ => rfl
    | some y =>
      rw [h1 y hc]
      simp only [Option.bind_some, Option.map_eq_some_iff, Option.map_eq_none_iff]
      refine ⟨?_, (ih (acc ++ [y])).2⟩
      rintro ys ⟨zs, hzs, rfl⟩
      rw [(ih (acc ++ [y])).1 zs hzs]
      simp

/-- Types that do not go together: only `null` is accepted. -/
theorem carries_not (nulls : Bool) (t₂ t₁ : Ty) (v : t₁.Den)
    (hc : t₂.carry nulls t₁ v = if t₁.isNull v then some t₂.onNull else none)
    (he : t₁.isNull v = false → (t₂.absorb (t₁.toJ nulls v) t₂.new).1 = .error) :
    (∀ w, t₂.carry nulls t₁ v = some w → t₂.absorb (t₁.toJ nulls v) t₂.new = (rcOf (t₁.isNull v), w)) ∧
    (t₂.carry nulls t₁ v = none → (t₂.absorb (t₁.toJ nulls v) t₂.new).1 = .error) := by
  rw [hc]
  cases h : t₁.isNull v with
  | false => exact ⟨fun w hw => (by cases hw), fun _ => he h⟩
  | true =>
    refine ⟨fun w hw => ?_, fun h => (by cases h)⟩
    cases hw
    rw [Ty.toJ_null nulls t₁ v h, Ty.absorb_null]
    rfl

theorem num_toJ (nulls : Bool) (p : Prim) (v : NumField p) (h : v.empty = false) :
    (Ty.num p).toJ nulls v = p.toJ v.value := by
  simp only [Ty.toJ, h, Bool.false_eq_true, if_false]

theorem str_toJ (nulls : Bool) (v : StrField) (h : (v.null && v.value.isEmpty) = false) :
    Ty.str.toJ nulls v = .str v.value := by
  simp only [Ty.toJ, h, Bool.false_eq_true, if_false]

/-- A number is refused where no number is expected. -/
theorem prim_not (t₂ : Ty) (p : Prim) (x : p.Den) (h : ∀ q, t₂ ≠ .num q ∧ t₂ ≠ .raw q) (w : t₂.Den) :
    (t₂.absorb (p.toJ x) w).1 = .error := by
  cases t₂ with
  | num q => exact absurd rfl (h q).1
  | raw q => exact absurd rfl (h q).2
  | _ => cases p <;> rfl

mutual
theorem Ty.carries (nulls : Bool) : (t₂ : Ty) → Carries nulls t₂
  | .num q => by
    intro _ t₁ v _
    cases t₁ with
    | num p =>
      have hh := Prim.absorb_carry q p v.value q.zero
      cases he : NumField.empty v with
      | true =>
        have hc : (Ty.num q).carry nulls (.num p) v = some NumField.new := by simp only [Ty.carry, he, if_true]
        have hj : (Ty.num p).isNull v = true := he
        rw [hc, Ty.toJ_null nulls _ v hj, Ty.absorb_null, hj]
        exact ⟨fun w hw => by cases hw; rfl, fun h => by cases h⟩
      | false =>
        have hc : (Ty.num q).carry nulls (.num p) v = (q.carry p v.value).map (⟨·, false⟩) := by
          simp only [Ty.carry, he, Bool.false_eq_true, if_false]
        have hj : (Ty.num p).isNull v = false := he
        rw [hc, hj, num_toJ nulls p v he]
        refine ⟨fun w hw => ?_, fun h => hh.2 (Option.map_eq_none_iff.mp h)⟩
        obtain ⟨x, hx, rfl⟩ := Option.map_eq_some_iff.mp hw
        exact num_absorb_ok _ (hh.1 x hx)
    | raw p =>
      have hh := Prim.absorb_carry q p v q.zero
      refine ⟨fun w hw => ?_, fun h => hh.2 (Option.map_eq_none_iff.mp h)⟩
      obtain ⟨x, hx, rfl⟩ := Option.map_eq_some_iff.mp hw
      exact num_absorb_ok _ (hh.1 x hx)
    | str =>
      refine carries_not nulls _ _ v rfl fun h => ?_
      rw [str_toJ nulls v h]
      cases q <;> rfl
    | bytes => exact carries_not nulls _ _ v rfl fun _ => by cases q <;> rfl
    | rep t => exact carries_not nulls _ _ v rfl fun _ => by cases q <;> rfl
    | msg o fs => exact carries_not nulls _ _ v rfl fun _ => by cases q <;> rfl
  | .raw q => by
    intro _ t₁ v _
    cases t₁ with
    | num p =>
      have hh := Prim.absorb_carry q p v.value q.zero
      cases he : NumField.empty v with
      | true =>
        have hc : (Ty.raw q).carry nulls (.num p) v = some q.zero := by simp only [Ty.carry, he, if_true]
        have hj : (Ty.num p).isNull v = true := he
        rw [hc, Ty.toJ_null nulls _ v hj, Ty.absorb_null, hj]
        exact ⟨fun w hw => by cases hw; rfl, fun h => by cases h⟩
      | false =>
        have hc : (Ty.raw q).carry nulls (.num p) v = q.carry p v.value := by
          simp only [Ty.carry, he, Bool.false_eq_true, if_false]
        have hj : (Ty.num p).isNull v = false := he
        rw [hc, hj, num_toJ nulls p v he]
        exact hh
    | raw p => exact Prim.absorb_carry q p v q.zero
    | str =>
      refine carries_not nulls _ _ v rfl fun h => ?_
      rw [str_toJ nulls v h]
      cases q <;> rfl
    | bytes => exact carries_not nulls _ _ v rfl fun _ => by cases q <;> rfl
    | rep t => exact carries_not nulls _ _ v rfl fun _ => by cases q <;> rfl
    | msg o fs => exact carries_not nulls _ _ v rfl fun _ => by cases q <;> rfl
  | .str => by
    intro _ t₁ v _
    cases t₁ with
    | num p =>
      refine carries_not nulls _ _ v rfl fun h => ?_
      rw [num_toJ nulls p v h]
      exact prim_not _ _ _ (by simp) _
    | raw p => exact carries_not nulls _ _ v rfl fun _ => prim_not _ _ _ (by simp) _
    | str => exact ⟨fun w hw => by cases hw; exact str_absorb_toJ v, fun h => by cases h⟩
    | bytes => exact ⟨fun w hw => by cases hw; rfl, fun h => by cases h⟩
    | rep t => exact carries_not nulls _ _ v rfl fun _ => rfl
    | msg o fs => exact carries_not nulls _ _ v rfl fun _ => rfl
  | .bytes => by
    intro _ t₁ v _
    cases t₁ with
    | num p =>
      refine carries_not nulls _ _ v rfl fun h => ?_
      rw [num_toJ nulls p v h]
      exact prim_not _ _ _ (by simp) _
    | raw p => exact carries_not nulls _ _ v rfl fun _ => prim_not _ _ _ (by simp) _
    | str =>
      refine ⟨fun w hw => ?_, fun h => by cases h⟩
      cases hw
      cases h : (v.null && v.value.isEmpty) with
      | true =>
        have hj : Ty.str.isNull v = true := h
        rw [Ty.toJ_null nulls _ v hj, Ty.absorb_null, hj]
        simp only [Bool.and_eq_true, List.isEmpty_iff] at h
        rw [h.2]
        rfl
      | false =>
        have hj : Ty.str.isNull v = false := h
        rw [str_toJ nulls v h, hj]
        rfl
    | bytes =>
      refine ⟨fun w hw => ?_, fun h => by cases h⟩
      cases hw
      simp only [Ty.absorb, Ty.toJ, Ty.isNull, Ty.new]
      rw [← b64Enc_eq, b64Dec_enc]
      simp [rcOf]
    | rep t => exact carries_not nulls _ _ v rfl fun _ => rfl
    | msg o fs => exact carries_not nulls _ _ v rfl fun _ => rfl
  | .rep t => by
    intro hn t₁ v hn₁
    cases t₁ with
    | rep t₁ =>
      unfold Ty.NamesOk at hn hn₁
      show (∀ w, carryAll (fun x => if t₁.isNull x then none else t.carry nulls t₁ x) v = some w →
          absorbElems (fun j => t.absorb j t.new) (elemsToJ (t₁.toJ nulls) v) [] = (.ok, w)) ∧
        (carryAll (fun x => if t₁.isNull x then none else t.carry nulls t₁ x) v = none →
          (absorbElems (fun j => t.absorb j t.new) (elemsToJ (t₁.toJ nulls) v) []).1 = .error)
      have := absorbElems_carryAll (f := fun j => t.absorb j t.new) (g := t₁.toJ nulls)
        (c := fun x => if t₁.isNull x then none else t.carry nulls t₁ x) v ?_ []
      · simpa using this
      · intro x _
        obtain ⟨h1, h2⟩ := Ty.carries nulls t hn t₁ x hn₁
        cases h0 : t₁.isNull x with
        | false =>
          simp only [Bool.false_eq_true, if_false]
          refine ⟨fun y hy => ?_, fun hy => ?_⟩
          · rw [h1 y hy, h0]; rfl
          · rw [h2 hy]; simp
        | true =>
          simp only [if_true, reduceCtorEq, false_implies, implies_true, true_and, forall_const]
          cases hc : t.carry nulls t₁ x with
          | none => rw [h2 hc]; simp
          | some y => rw [h1 y hc, h0]; simp [rcOf]
    | num p =>
      refine carries_not nulls _ _ v rfl fun h => ?_
      rw [num_toJ nulls p v h]
      exact prim_not _ _ _ (by simp) _
    | raw p => exact carries_not nulls _ _ v rfl fun _ => prim_not _ _ _ (by simp) _
    | str =>
      refine carries_not nulls _ _ v rfl fun h => ?_
      rw [str_toJ nulls v h]
      rfl
    | bytes => exact carries_not nulls _ _ v rfl fun _ => rfl
    | msg o fs => exact carries_not nulls _ _ v rfl fun _ => rfl
  | .msg obf fs => by
    intro hn t₁ v hn₁
    cases t₁ with
    | msg obf₁ fs₁ =>
      unfold Ty.NamesOk at hn hn₁
      simp only [Ty.carry, Ty.toJ, Ty.isNull, Ty.new]
      rw [absorb_obj]
      have key : ∀ (i : Nat) (lab : Bytes) (t : Ty), fs.labels[i]? = some lab → fs.get i fs.new = some ⟨t, t.new⟩ →
          (∀ x, slot nulls fs₁ v lab t = some x → t.absorbAll ((fs₁.toJ nulls v).valuesOf lab) t.new = x ∧
            ∀ j ∈ (fs₁.toJ nulls v).valuesOf lab, (fs.member obf lab j fs.new).1 = .ok ∨ (fs.member obf lab j fs.new).1 = .nil) ∧
          (slot nulls fs₁ v lab t = none → ∃ j ∈ (fs₁.toJ nulls v).valuesOf lab, (fs.member obf lab j fs.new).1 = .error) := by
        intro i lab t hl hg
        have hi := (indexOf_iff hn.1 hn.2.1 hl lab).mpr rfl
        have hm : ∀ j, (fs.member obf lab j fs.new).1 = (t.absorb j t.new).1 := by
          intro j
          unfold Fields.member
          rw [hi]
          exact (absorbAt_get_same fs i j fs.new t t.new hg).1
        obtain ⟨htn, ht⟩ := Fields.carries nulls fs hn.2.2 i fs.new t t.new hg
        rw [toJ_valuesOf nulls lab fs₁ v hn₁.2.1]
        unfold slot
        cases hf : fs₁.find lab v with
        | none => simp [Ty.absorbAll]
        | some r =>
          obtain ⟨t₁, x₁⟩ := r
          have hc := ht htn t₁ x₁ (find_names fs₁ hn₁.2.2 lab v _ hf)
          simp only
          split
          · refine ⟨fun x hx => ?_, fun hx => ⟨_, List.mem_singleton.mpr rfl, ?_⟩⟩
            · have := hc.1 x hx
              refine ⟨by simp only [Ty.absorbAll]; rw [this], ?_⟩
              intro j hj
              rw [List.mem_singleton] at hj
              subst hj
              rw [hm, this]
              cases t₁.isNull x₁ <;> simp [rcOf]
            · rw [hm, hc.2 hx]
          · simp [Ty.absorbAll]
      refine ⟨fun w hw => ?_, fun hw => ?_⟩
      · have hok : (absorbMembers (fs.member obf) (fs₁.toJ nulls v) fs.new).1 = .ok := by
          refine absorbMembers_ok_of _ (member_rc_eq obf fs) fs.new _ ?_ _
          rintro ⟨k, j⟩ hkj
          rw [mem_valuesOf] at hkj
          by_cases hk : k ∈ fs.labels
          · obtain ⟨i, hi⟩ := List.getElem?_of_mem hk
            have := carry_get nulls fs₁ v fs w hw i
            rw [hi] at this
            obtain ⟨t, x, -, hg, hs⟩ := this
            exact ((key i k t hi hg).1 x hs).2 j hkj
          · exact .inr (by rw [member_none hn.1 hk])
        have hres : absorbMembers (fs.member obf) (fs₁.toJ nulls v) fs.new =
            (.ok, (absorbMembers (fs.member obf) (fs₁.toJ nulls v) fs.new).2) := by rw [← hok]
        have : (absorbMembers (fs.member obf) (fs₁.toJ nulls v) fs.new).2 = w := by
          refine fields_ext fs _ _ (fun i => ?_) (fun i => ?_)
          · have := carry_get nulls fs₁ v fs w hw i
            cases hi : fs.labels[i]? with
            | none => rw [hi] at this; rw [this.1, this.2]
            | some lab =>
              rw [hi] at this
              obtain ⟨t, x, hgw, hg, hs⟩ := this
              rw [absorbMembers_get hn.1 hn.2.1 hi _ _ _ t t.new hg hres, hgw, ((key i lab t hi hg).1 x hs).1]
          · rw [absorbMembers_getTransient, carry_transient nulls fs₁ v fs w hw]
        rw [hres, this]
        rfl
      · refine absorbMembers_error_of _ (member_rc_eq obf fs) fs.new _ ?_ _
        obtain ⟨i, lab, t, hl, hg, hs⟩ := carry_none nulls fs₁ v fs hw
        obtain ⟨j, hj, he⟩ := (key i lab t hl hg).2 hs
        exact ⟨(lab, j), (mem_valuesOf _ _ _).mpr hj, he⟩
    | num p =>
      refine carries_not nulls _ _ v rfl fun h => ?_
      rw [num_toJ nulls p v h]
      exact prim_not _ _ _ (by simp) _
    | raw p => exact carries_not nulls _ _ v rfl fun _ => prim_not _ _ _ (by simp) _
    | str =>
      refine carries_not nulls _ _ v rfl fun h => ?_
      rw [str_toJ nulls v h]
      rfl
    | bytes => exact carries_not nulls _ _ v rfl fun _ => rfl
    | rep t => exact carries_not nulls _ _ v rfl fun _ => rfl
theorem Fields.carries (nulls : Bool) : (fs : Fields) → fs.NamesOk → (i : Nat) → (v : fs.Den) → (t : Ty) → (x : t.Den) →
    fs.get i v = some ⟨t, x⟩ → t.NamesOk ∧ Carries nulls t
  | .nil, _, _, _, _, _, h => by simp [Fields.get] at h
  | .cons f t' rest, hn, i, v, t, x, h => by
    unfold Fields.NamesOk at hn
    unfold Fields.get at h
    cases hf : f.transient with
    | true =>
      simp only [hf, if_true] at h
      exact Fields.carries nulls rest hn.2 i v.2 t x h
    | false =>
      simp only [hf, Bool.false_eq_true, if_false] at h
      cases i with
      | zero =>
        simp only [Option.some.injEq] at h
        have ht : t' = t := congrArg Sigma.fst h
        exact ⟨ht ▸ hn.1, ht ▸ Ty.carries nulls t'⟩
      | succ i => exact Fields.carries nulls rest hn.2 i v.2 t x h
end

/-- **C69.**  An object of one class is written and the text is read into a new object of another class.  The document is
accepted exactly if the object can be carried over (`Ty.carry`), and then the new object is the carried one: fields with the
same JSON name have the same values, fields the writer does not know are as new, fields the reader does not know are ignored. -/
theorem C69_evolution (t₁ t₂ : Ty) (params q : Option Params) (v : t₁.Den) (hl : t₁.LabelsOk) (hd₁ : t₁.NamesOk)
    (hd₂ : t₂.NamesOk) (hw : t₁.Writable (fun b => b ≠ 0) (params.getD {}).ensureAscii v) (h0 : t₁.isNull v = false) :
    match t₂.carry (params.getD {}).serializeNull t₁ v with
    | some w => outcome (deserialize t₂ (serialize t₁ params v).out q t₂.new) = some (true, w)
    | none => ∃ w, outcome (deserialize t₂ (serialize t₁ params v).out q t₂.new) = some (false, w) := by
  obtain ⟨-, h2⟩ := serialize_text lexOk_wide t₁ params v hl hw
  have hp := doc_outcome t₂ q t₂.new (bs := (serialize t₁ params v).out)
    ⟨[], (serialize t₁ params v).out, [], by simp, Ws.nil, h2, endOk_nil _⟩
  obtain ⟨c1, c2⟩ := Ty.carries (params.getD {}).serializeNull t₂ hd₂ t₁ v hd₁
  rw [hp]
  cases hc : t₂.carry (params.getD {}).serializeNull t₁ v with
  | some w => simp only; rw [c1 w hc, h0]; rfl
  | none => simp only; rw [c2 hc]; exact ⟨_, rfl⟩

theorem Prim.accepts_carry {q p : Prim} (h : q.accepts p = true) (v : p.Den) : ∃ x, q.carry p v = some x := by
  cases q <;> cases p <;> first | exact ⟨_, rfl⟩ | cases h

theorem carryAll_some {α β : Type} (f : α → Option β) (xs : List α) (h : ∀ x ∈ xs, ∃ y, f x = some y) :
    ∃ ys, carryAll f xs = some ys := by
  cases hc : carryAll f xs with
  | some ys => exact ⟨ys, rfl⟩
  | none =>
    obtain ⟨x, hx, hn⟩ := carryAll_none f xs hc
    obtain ⟨y, hy⟩ := h x hx
    rw [hn] at hy
    cases hy

theorem find_findTy (lab : Bytes) : (fs : Fields) → (v : fs.Den) → fs.NoNulls v →
    match fs.find lab v with
    | none => fs.findTy lab = none
    | some r => fs.findTy lab = some r.1 ∧ r.1.NoNulls r.2
  | .nil, _, _ => rfl
  | .cons f t rest, v, hn => by
    unfold Fields.NoNulls at hn
    unfold Fields.find Fields.findTy
    by_cases h : f.transient = false ∧ f.wlabel = lab
    · rw [if_pos h, if_pos h]
      exact ⟨rfl, hn.1 h.1⟩
    · rw [if_neg h, if_neg h]
      exact find_findTy lab rest v.2 hn.2

mutual
theorem Ty.accepts_carry (nulls : Bool) : (t₂ t₁ : Ty) → t₂.accepts t₁ = true → (v : t₁.Den) → t₁.NoNulls v →
    ∃ w, t₂.carry nulls t₁ v = some w
  | .num q, .num p, h, v, _ => by
    unfold Ty.carry
    cases v.empty with
    | true => exact ⟨_, rfl⟩
    | false =>
      obtain ⟨x, hx⟩ := Prim.accepts_carry (q := q) (p := p) h v.value
      exact ⟨_, by rw [hx]; rfl⟩
  | .raw q, .raw p, h, v, _ => Prim.accepts_carry (q := q) (p := p) h v
  | .str, .str, _, v, _ => ⟨_, rfl⟩
  | .str, .bytes, _, v, _ => ⟨_, rfl⟩
  | .bytes, .bytes, _, v, _ => ⟨_, rfl⟩
  | .bytes, .str, _, v, _ => ⟨_, rfl⟩
  | .rep t₂, .rep t₁, h, v, hn => by
    refine carryAll_some _ v fun x hx => ?_
    rw [(hn x hx).1]
    exact Ty.accepts_carry nulls t₂ t₁ h x (hn x hx).2
  | .msg _ fs₂, .msg _ fs₁, h, v, hn => Fields.accepts_carry nulls fs₂ fs₁ h v hn
theorem Fields.accepts_carry (nulls : Bool) : (fs₂ fs₁ : Fields) → fs₂.accepts fs₁ = true → (v : fs₁.Den) → fs₁.NoNulls v →
    ∃ w, fs₂.carry nulls fs₁ v = some w
  | .nil, _, _, _, _ => ⟨(), rfl⟩
  | .cons f t rest, fs₁, h, v, hn => by
    unfold Fields.accepts at h
    rw [Bool.and_eq_true] at h
    obtain ⟨b, hb⟩ := Fields.accepts_carry nulls rest fs₁ h.2 v hn
    have hs : ∃ a, (if f.transient then some t.new else slot nulls fs₁ v f.wlabel t) = some a := by
      cases hf : f.transient with
      | true => exact ⟨_, rfl⟩
      | false =>
        simp only [Bool.false_eq_true, if_false]
        have h1 := h.1
        simp only [hf, Bool.false_or] at h1
        have h2 := find_findTy f.wlabel fs₁ v hn
        unfold slot
        cases hfd : fs₁.find f.wlabel v with
        | none => exact ⟨_, rfl⟩
        | some r =>
          rw [hfd] at h2
          rw [h2.1] at h1
          simp only
          split
          · exact Ty.accepts_carry nulls t r.1 h1 r.2 h2.2
          · exact ⟨_, rfl⟩
    obtain ⟨a, ha⟩ := hs
    rw [carry_cons, ha, hb]
    exact ⟨_, rfl⟩
end

/-- **C69.**  Compatible versions (fields added, removed, moved, numbers exchanged for numbers, strings for bytes) read each
other's documents, always. -/
theorem C69_compatible (t₁ t₂ : Ty) (params q : Option Params) (v : t₁.Den) (hl : t₁.LabelsOk) (hd₁ : t₁.NamesOk)
    (hd₂ : t₂.NamesOk) (hw : t₁.Writable (fun b => b ≠ 0) (params.getD {}).ensureAscii v) (h0 : t₁.isNull v = false)
    (hn : t₁.NoNulls v) (hc : t₂.accepts t₁ = true) :
    ∃ w, t₂.carry (params.getD {}).serializeNull t₁ v = some w ∧
      outcome (deserialize t₂ (serialize t₁ params v).out q t₂.new) = some (true, w) := by
  obtain ⟨w, h⟩ := Ty.accepts_carry (params.getD {}).serializeNull t₂ t₁ hc v hn
  have := C69_evolution t₁ t₂ params q v hl hd₁ hd₂ hw h0
  rw [h] at this
  exact ⟨w, h, this⟩

/-- What `carry` means for one field of the reader. -/
theorem C69_field (nulls : Bool) (fs₁ fs₂ : Fields) (v : fs₁.Den) (w : fs₂.Den) (h : fs₂.carry nulls fs₁ v = some w)
    (i : Nat) (lab : Bytes) (hi : fs₂.labels[i]? = some lab) :
    ∃ t x, fs₂.get i w = some ⟨t, x⟩ ∧
      ((lab ∉ fs₁.labels ∧ x = t.new) ∨
        ∃ t₁ y, fs₁.find lab v = some ⟨t₁, y⟩ ∧
          if nulls || !t₁.empty y then t.carry nulls t₁ y = some x else x = t.new) := by
  have := carry_get nulls fs₁ v fs₂ w h i
  rw [hi] at this
  obtain ⟨t, x, h1, -, h3⟩ := this
  refine ⟨t, x, h1, ?_⟩
  unfold slot at h3
  cases hf : fs₁.find lab v with
  | none =>
    rw [hf] at h3
    refine .inl ⟨?_, by simpa using h3.symm⟩
    exact find_none fs₁ lab v hf
  | some r =>
    rw [hf] at h3
    refine .inr ⟨r.1, r.2, rfl, ?_⟩
    simp only at h3
    split at h3
    · rename_i hc; rw [if_pos hc]; exact h3
    · rename_i hc; rw [if_neg hc]; simpa using h3.symm
where
  find_none : (fs : Fields) → (lab : Bytes) → (v : fs.Den) → fs.find lab v = none → lab ∉ fs.labels
  | .nil, _, _, _ => by simp [Fields.labels]
  | .cons f t rest, lab, v, h => by
    unfold Fields.find at h
    unfold Fields.labels
    cases hf : f.transient with
    | true => simp only [hf, Bool.true_eq_false, false_and, if_false] at h; exact find_none rest lab v.2 h
    | false =>
      simp only [hf, true_and] at h
      by_cases hl : f.wlabel = lab
      · simp [hl] at h
      · simp only [hl, if_false] at h
        simp only [Bool.false_eq_true, if_false, List.mem_cons, not_or]
        exact ⟨fun e => hl e.symm, find_none rest lab v.2 h⟩

/-- Between equal versions everything is carried over as in a round trip (C01). -/
theorem C69_same_version (nulls : Bool) (t : Ty) (v : t.Den) (hd : t.NamesOk) (hn : t.NoNulls v) :
    t.carry nulls t v = some (t.norm nulls v) := by
  have h := Ty.absorb_toJ nulls t v (Ty.NamesOk.dispatch t hd) hn
  obtain ⟨c1, c2⟩ := Ty.carries nulls t hd t v hd
  cases hc : t.carry nulls t v with
  | none =>
    have := c2 hc
    rw [h] at this
    cases hi : t.isNull v <;> rw [hi] at this <;> cases this
  | some w =>
    have := c1 w hc
    rw [h] at this
    rw [(Prod.mk.inj this).2]

/-- Integers that fit the new type keep their value. -/
theorem C69_widening (nulls : Bool) (k k' : IKind) (v : NumField (.int k')) (h0 : v.empty = false)
    (h1 : k.lo ≤ CInt.val v.value) (h2 : CInt.val v.value ≤ k.hi) :
    ∃ x : CInt k, (Ty.num (.int k)).carry nulls (.num (.int k')) v = some ⟨x, false⟩ ∧ x.val = CInt.val v.value := by
  obtain ⟨x, hx, he⟩ := Prim.carry_fits k k' v.value h1 h2
  refine ⟨x, ?_, he⟩
  simp only [Ty.carry, h0, Bool.false_eq_true, if_false, hx]
  rfl

/-- Version 2 of `Demo.address`: the number is 64 bits wide, the street is gone, a list is new, and there is a transient
field. -/
def address2 : Ty := .msg false (.cons ⟨b!"cache", b!"cache", b!"cache", true⟩ .str
  (.cons (Demo.fld b!"lines") (.rep .str) (.cons (Demo.fld b!"number") (.num (.int .i64)) .nil)))

/-- An object of version 2. -/
def addr2 (lines : List Bytes) (n : Int) : address2.Den :=
  (StrField.new, lines.map (fun s => ⟨s, false⟩), ⟨CInt.cast .i64 n, false⟩, ())

/-- The hypotheses are met, and what is carried over, in both directions; a number that does not fit is reduced modulo
2^32. -/
example :
    address2.NamesOk ∧ address2.accepts Demo.address = true ∧ Demo.address.accepts address2 = true ∧
    address2.carry false Demo.address (Demo.addr (-42) b!"Main st") = some (addr2 [] (-42)) ∧
    (Demo.address.carry false address2 (addr2 [b!"x"] 4294967301)).map (fun w => (w.1, w.2.1)) =
      some ((Demo.addr 5 []).1, StrField.new) ∧
    outcome (deserialize address2 (serialize Demo.address none (Demo.addr (-42) b!"Main st")).out none address2.new) =
      some (true, addr2 [] (-42)) := by decide +kernel

/-- A field whose type was changed from a number to a string: refused, unless it is not written. -/
example :
    (Ty.msg false (.cons (Demo.fld b!"number") .str .nil)).accepts Demo.address = false ∧
    (Ty.msg false (.cons (Demo.fld b!"number") .str .nil)).carry false Demo.address (Demo.addr 1 b!"a") = none ∧
    (Ty.msg false (.cons (Demo.fld b!"number") .str .nil)).carry false Demo.address (NumField.new, ⟨b!"a", false⟩, ()) =
      some (Ty.msg false (.cons (Demo.fld b!"number") .str .nil)).new := by decide +kernel

end PG
