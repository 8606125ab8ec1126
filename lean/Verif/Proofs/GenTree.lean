import Verif.Props.Grammar
import Verif.Proofs.GenDecl
/-
From the parser to the generator: references, and the sorting of the fields (main.cc:75-79).
-/
set_option autoImplicit false
namespace PG.Gen
open PG.Proto

/-! ### The order of names -/

theorem nameLt_irrefl (a : Bytes) : nameLt a a = false := by
  induction a with
  | nil => rfl
  | cons x a ih => rw [nameLt, if_neg (UInt8.lt_irrefl x), if_neg (UInt8.lt_irrefl x)]; exact ih

theorem nameLt_trans : ∀ {a b c : Bytes}, nameLt a b = true → nameLt b c = true → nameLt a c = true
  | [], [], _, h, _ => by cases h
  | [], _ :: _, [], _, h => by cases h
  | [], _ :: _, _ :: _, _, _ => rfl
  | _ :: _, [], _, h, _ => by cases h
  | _ :: _, _ :: _, [], _, h => by cases h
  | x :: a, y :: b, z :: c, h1, h2 => by
    rw [nameLt] at h1 h2 ⊢
    by_cases hxy : x < y
    · by_cases hyz : y < z
      · rw [if_pos (UInt8.lt_trans hxy hyz)]
      · rw [if_neg hyz] at h2
        by_cases hzy : z < y
        · rw [if_pos hzy] at h2; cases h2
        · have : y = z := UInt8.le_antisymm (UInt8.not_lt.mp hzy) (UInt8.not_lt.mp hyz)
          subst this
          rw [if_pos hxy]
    · rw [if_neg hxy] at h1
      by_cases hyx : y < x
      · rw [if_pos hyx] at h1; cases h1
      · rw [if_neg hyx] at h1
        have : x = y := UInt8.le_antisymm (UInt8.not_lt.mp hyx) (UInt8.not_lt.mp hxy)
        subst this
        by_cases hyz : x < z
        · rw [if_pos hyz]
        · rw [if_neg hyz] at h2 ⊢
          by_cases hzy : z < x
          · rw [if_pos hzy] at h2; cases h2
          · rw [if_neg hzy] at h2 ⊢
            exact nameLt_trans h1 h2

theorem nameLt_total : ∀ {a b : Bytes}, a ≠ b → nameLt a b = true ∨ nameLt b a = true
  | [], [], h => absurd rfl h
  | [], _ :: _, _ => Or.inl rfl
  | _ :: _, [], _ => Or.inr rfl
  | x :: a, y :: b, h => by
    rw [nameLt, nameLt]
    by_cases hxy : x < y
    · exact Or.inl (by rw [if_pos hxy])
    · by_cases hyx : y < x
      · exact Or.inr (by rw [if_pos hyx])
      · have : x = y := UInt8.le_antisymm (UInt8.not_lt.mp hyx) (UInt8.not_lt.mp hxy)
        subst this
        simp only [UInt8.lt_irrefl, if_false]
        exact nameLt_total fun e => h (by rw [e])

theorem nameLt_asymm {a b : Bytes} (h : nameLt a b = true) : nameLt b a = false := by
  cases hb : nameLt b a with
  | false => rfl
  | true =>
    have := nameLt_trans h hb
    rw [nameLt_irrefl] at this
    cases this

/-! ### Sorting -/

theorem insertField_perm (f : Field) (l : List Field) : (insertField f l).Perm (f :: l) := by
  induction l with
  | nil => exact .refl _
  | cons g l ih =>
    rw [insertField]
    split
    · exact (ih.cons g).trans (.swap f g l)
    · exact .refl _

theorem sortByName_perm (fs : List Field) : (sortByName fs).Perm fs := by
  induction fs with
  | nil => exact .refl _
  | cons f fs ih => exact (insertField_perm f _).trans (ih.cons f)

theorem mem_sortByName {fs : List Field} {f : Field} : f ∈ sortByName fs ↔ f ∈ fs := (sortByName_perm fs).mem_iff

/-- In the order of the names. -/
def SortedByName (l : List Field) : Prop := l.Pairwise fun a b => nameLt b.name a.name = false

theorem insertField_sorted {f : Field} {l : List Field} (h : SortedByName l) : SortedByName (insertField f l) := by
  induction l with
  | nil => exact List.pairwise_singleton _ _
  | cons g l ih =>
    unfold SortedByName at h ih ⊢
    rw [List.pairwise_cons] at h
    rw [insertField]
    split
    · rename_i hgf
      rw [List.pairwise_cons]
      refine ⟨fun x hx => ?_, ih h.2⟩
      rcases List.mem_cons.mp ((insertField_perm f l).mem_iff.mp hx) with rfl | hx
      · exact nameLt_asymm hgf
      · exact h.1 x hx
    · rename_i hgf
      have hgf : nameLt g.name f.name = false := by simpa using hgf
      rw [List.pairwise_cons, List.pairwise_cons]
      refine ⟨fun x hx => ?_, h⟩
      rcases List.mem_cons.mp hx with rfl | hx
      · exact hgf
      · have hx := h.1 x hx
        cases hxf : nameLt x.name f.name with
        | false => rfl
        | true =>
          exfalso
          by_cases e : f.name = g.name
          · rw [e, hx] at hxf; cases hxf
          · rcases nameLt_total e with h' | h'
            · rw [nameLt_trans hxf h'] at hx; cases hx
            · rw [hgf] at h'; cases h'

theorem sortByName_sorted (fs : List Field) : SortedByName (sortByName fs) := by
  induction fs with
  | nil => exact List.Pairwise.nil
  | cons f fs ih => exact insertField_sorted ih

/-- With distinct names there is only one order. -/
theorem sorted_unique : ∀ {l l' : List Field}, l.Perm l' → SortedByName l → SortedByName l' →
    (l.map (·.name)).Nodup → l = l'
  | [], l', hp, _, _, _ => by rw [List.nil_perm.mp hp]
  | a :: l, l', hp, h, h', hn => by
    cases l' with
    | nil => exact absurd hp.length_eq (by simp)
    | cons b l' =>
      have hab : a = b := by
        rcases List.mem_cons.mp (hp.mem_iff.mp List.mem_cons_self) with e | hal
        · exact e
        rcases List.mem_cons.mp (hp.mem_iff.mpr List.mem_cons_self) with e | hbl
        · exact e.symm
        exfalso
        have h1 := (List.pairwise_cons.mp h).1 b hbl
        have h2 := (List.pairwise_cons.mp h').1 a hal
        have hne : a.name ≠ b.name := by
          rw [List.map_cons, List.nodup_cons] at hn
          intro e
          exact hn.1 (e ▸ List.mem_map_of_mem hbl)
        rcases nameLt_total hne with h3 | h3
        · rw [h2] at h3; cases h3
        · rw [h1] at h3; cases h3
      subst hab
      rw [sorted_unique (List.perm_cons a |>.mp hp) (List.pairwise_cons.mp h).2 (List.pairwise_cons.mp h').2
        (by rw [List.map_cons, List.nodup_cons] at hn; exact hn.2)]

/-! ### Trees -/

/-- The same messages, up to the order of the fields. -/
def SameFields (a b : List Message) : Prop :=
  a.length = b.length ∧ ∀ (i : Nat) (m m' : Message), a[i]? = some m → b[i]? = some m' →
    m.fields.Perm m'.fields ∧ m.name = m'.name ∧ m.package = m'.package

theorem sortTree_same (t : Tree) : SameFields t.messages (sortTree t).messages := by
  refine ⟨by simp [sortTree], fun i m m' h h' => ?_⟩
  simp only [sortTree, List.getElem?_map, h, Option.map_some, Option.some.injEq] at h'
  subst h'
  exact ⟨(sortByName_perm _).symm, rfl, rfl⟩

theorem SameFields.symm {a b : List Message} (h : SameFields a b) : SameFields b a :=
  ⟨h.1.symm, fun i m m' hm hm' => have := h.2 i m' m hm' hm; ⟨this.1.symm, this.2.1.symm, this.2.2.symm⟩⟩

theorem SameFields.get {a b : List Message} (h : SameFields a b) {i : Nat} {m : Message} (hm : a[i]? = some m) :
    ∃ m', b[i]? = some m' ∧ m.fields.Perm m'.fields ∧ m.name = m'.name ∧ m.package = m'.package := by
  obtain ⟨hi, _⟩ := List.getElem?_eq_some_iff.mp hm
  have hb : b[i]? = some (b[i]'(h.1 ▸ hi)) := List.getElem?_eq_getElem (h.1 ▸ hi)
  exact ⟨_, hb, h.2 i m _ hm hb⟩

theorem SameFields.refers {a b : List Message} (h : SameFields a b) {i j : Nat} (hr : Refers a i j) : Refers b i j := by
  obtain ⟨m, f, hm, hf, hj⟩ := hr
  obtain ⟨m', hm', hp, _⟩ := h.get hm
  exact ⟨m', f, hm', hp.mem_iff.mp hf, hj⟩

theorem SameFields.refers_iff {a b : List Message} (h : SameFields a b) {i j : Nat} : Refers a i j ↔ Refers b i j :=
  ⟨h.refers, h.symm.refers⟩

theorem SameFields.reaches {a b : List Message} (h : SameFields a b) {i j : Nat} (hr : Reaches a i j) : Reaches b i j := by
  induction hr with
  | one hr => exact .one (h.refers hr)
  | more hr _ ih => exact .more (h.refers hr) ih

theorem SameFields.circular_iff {a b : List Message} (h : SameFields a b) : Circular a ↔ Circular b :=
  ⟨fun ⟨i, hi⟩ => ⟨i, h.reaches hi⟩, fun ⟨i, hi⟩ => ⟨i, h.symm.reaches hi⟩⟩

theorem SameFields.linked {a b : List Message} (h : SameFields a b) (hl : Linked a) : Linked b :=
  fun i j hr => h.1 ▸ hl i j (h.symm.refers hr)

theorem SameFields.fieldLinked {a b : List Message} (h : SameFields a b) {f : Field} (hf : FieldLinked a f) :
    FieldLinked b f := by
  intro hid
  obtain ⟨i, m, hi, hm⟩ := hf hid
  obtain ⟨m', hm', _⟩ := h.get hm
  exact ⟨i, m', hi, hm'⟩

theorem SameFields.messagesOk {a b : List Message} (h : SameFields a b) (ha : ∀ m ∈ a, MessageOk a m) :
    ∀ m ∈ b, MessageOk b m := by
  intro m hm
  obtain ⟨i, hi, hmi⟩ := List.mem_iff_getElem.mp hm
  obtain ⟨m', hm', hp, _⟩ := h.symm.get (i := i) (m := m) (by rw [List.getElem?_eq_getElem hi, hmi])
  obtain ⟨h1, h2⟩ := ha m' (List.mem_of_getElem? hm')
  refine ⟨by rw [hp.length_eq]; exact h1, fun f hf => ?_⟩
  have := h2 f (hp.mem_iff.mp hf)
  exact ⟨this.1, h.fieldLinked this.2⟩

theorem parse_linked {N : Nat} {text : Bytes} {t : Tree} (h : parse N text = .ok t) : Linked t.messages := by
  rintro i j ⟨m, f, hm, hf, hj⟩
  have hmm := List.mem_of_getElem? hm
  have hid : f.type.id = .message := by
    obtain ⟨ds, _, hc, he, _⟩ := parse_sound h
    obtain ⟨m', hm', hfs, _⟩ := erase_fields he hmm
    obtain ⟨x, hx, rfl⟩ := List.mem_map.mp hm'
    have hf' : f.erase ∈ (bodyMeaning x.2.1 x.2.2 x.1 fun q => position q (messageNames ds)).fields := by
      rw [hfs]; exact List.mem_map_of_mem hf
    obtain ⟨g, hg, hge⟩ := List.mem_map.mp hf'
    have hty : g.typeInfo x.1 (fun q => position q (messageNames ds)) = f.type := congrArg Field.type hge
    cases hgt : g.type with
    | scalar s =>
      rw [← hty, FieldDecl.typeInfo, hgt] at hj
      cases hj
    | named n => rw [← hty, FieldDecl.typeInfo, hgt]
  obtain ⟨k, target, _, hk, ht, _⟩ := C46_resolved h hmm hf hid
  rw [hj] at hk
  injection hk with hk
  subst hk
  obtain ⟨h, _⟩ := List.getElem?_eq_some_iff.mp ht
  exact h

theorem parse_fieldLinked {N : Nat} {text : Bytes} {t : Tree} (h : parse N text = .ok t) {m : Message}
    (hm : m ∈ t.messages) {f : Field} (hf : f ∈ m.fields) : FieldLinked t.messages f := by
  intro hid
  obtain ⟨i, target, _, hi, ht, _⟩ := C46_resolved h hm hf hid
  exact ⟨i, target, hi, ht⟩

end PG.Gen
