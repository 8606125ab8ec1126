import Verif.Props.Generator
/-
The names of an accepted schema, and the names of the classes.
-/
set_option autoImplicit false
namespace PG.Gen
open PG.Proto

theorem located_wf : ∀ (ds : List Decl) (p : Bytes), (∀ d ∈ ds, d.WF) → (p = [] ∨ DotName p) →
    ∀ x ∈ located p ds, (x.1 = [] ∨ DotName x.1) ∧ NameOK x.2.1 ∧ ∀ i ∈ x.2.2, i.WF
  | [], p, _, _, x, hx => by cases hx
  | d :: ds, p, hw, hp, x, hx => by
    have hw' := fun e he => hw e (List.mem_cons_of_mem d he)
    have hd := hw d List.mem_cons_self
    cases d with
    | package q => exact located_wf ds q hw' (Or.inr hd.1) x hx
    | message name body =>
      rcases List.mem_cons.mp hx with rfl | hx
      · exact ⟨hp, hd⟩
      · exact located_wf ds p hw' hp x hx
    | «syntax» => exact located_wf ds p hw' hp x hx
    | option o => exact located_wf ds p hw' hp x hx

/-- The names in an accepted schema. -/
theorem parse_names {N : Nat} {text : Bytes} {t : Tree} (h : parse N text = .ok t) {m : Message} (hm : m ∈ t.messages) :
    (m.package = [] ∨ DotName m.package) ∧ NameOK m.name ∧ ∀ f ∈ m.fields, NameOK f.name := by
  obtain ⟨ds, hw, _, he, _⟩ := parse_sound h
  obtain ⟨m', hm', hf, hp, hn⟩ := erase_fields he hm
  obtain ⟨x, hx, rfl⟩ := List.mem_map.mp hm'
  obtain ⟨h1, h2, h3⟩ := located_wf ds [] hw (Or.inl rfl) x hx
  have hp : x.1 = m.package := hp
  have hn : x.2.1 = m.name := hn
  rw [← hp, ← hn]
  refine ⟨h1, h2, fun f hfm => ?_⟩
  have hf' : f.erase ∈ (bodyMeaning x.2.1 x.2.2 x.1 fun q => position q (messageNames ds)).fields := by
    rw [hf]; exact List.mem_map_of_mem hfm
  obtain ⟨g, hg, hge⟩ := List.mem_map.mp hf'
  have hname : g.name = f.name := congrArg Field.name hge
  obtain ⟨i, hi, hig⟩ := List.mem_filterMap.mp hg
  cases i with
  | option o => cases hig
  | field g' =>
    injection hig with hig
    subst hig
    have : g'.WF := h3 _ hi
    rw [← hname]
    exact this.2.1

/-- Letters, digits and dots. -/
def NameByte (b : Byte) : Prop := Letter b ∨ Digit b ∨ b = c!"."

theorem ident_bytes {n : Bytes} (h : Ident n) : ∀ c ∈ n, Letter c ∨ Digit c := by
  obtain ⟨b, r, rfl, hb, hr⟩ := h
  intro c hc
  rcases List.mem_cons.mp hc with rfl | hc
  · exact Or.inl hb
  · exact hr c hc

theorem dotName_bytes {n : Bytes} (h : DotName n) : ∀ c ∈ n, NameByte c := by
  induction h with
  | one h => intro c hc; rcases ident_bytes h c hc with h | h; exact Or.inl h; exact Or.inr (Or.inl h)
  | more h _ ih =>
    intro c hc
    rcases List.mem_append.mp hc with hc | hc
    · rcases ident_bytes h c hc with h | h
      · exact Or.inl h
      · exact Or.inr (Or.inl h)
    · rcases List.mem_cons.mp hc with rfl | hc
      · exact Or.inr (Or.inr rfl)
      · exact ih c hc

theorem nameByte_table : ∀ n : _root_.Fin 256, Letter (UInt8.ofNat n.val) ∨ Digit (UInt8.ofNat n.val) →
    UInt8.ofNat n.val ≠ c!":" ∧ UInt8.ofNat n.val ≠ c!"." ∧ 32 ≤ UInt8.ofNat n.val ∧ UInt8.ofNat n.val ≠ c!"\"" ∧
      UInt8.ofNat n.val ≠ 10 ∧ UInt8.ofNat n.val ≠ c!"\\" ∧ UInt8.ofNat n.val ≠ c!"?" ∧ UInt8.ofNat n.val ≠ 0 := by
  decide +kernel

theorem nameByte_facts {b : Byte} (h : Letter b ∨ Digit b) :
    b ≠ c!":" ∧ b ≠ c!"." ∧ 32 ≤ b ∧ b ≠ c!"\"" ∧ b ≠ 10 ∧ b ≠ c!"\\" ∧ b ≠ c!"?" ∧ b ≠ 0 := by
  have := nameByte_table ⟨b.toNat, b.toNat_lt⟩
  simp only [UInt8.ofNat_toNat] at this
  exact this h

/-! ### Class names -/

/-- Dots become double dblColons. -/
def dblColons : Bytes → Bytes
  | [] => []
  | c :: s => (if c = c!"." then b!"::" else [c]) ++ dblColons s

theorem dblColons_append (a b : Bytes) : dblColons (a ++ b) = dblColons a ++ dblColons b := by
  induction a with
  | nil => rfl
  | cons c a ih => rw [List.cons_append, dblColons, dblColons, ih, List.append_assoc]

theorem dblColons_id {s : Bytes} (h : c!"." ∉ s) : dblColons s = s := by
  induction s with
  | nil => rfl
  | cons c s ih =>
    rw [dblColons, if_neg (fun e : c = c!"." => h (e ▸ List.mem_cons_self)), ih fun hc => h (List.mem_cons_of_mem _ hc)]
    rfl

theorem dotted_dblColons (s : Bytes) : (dotted s).flatMap (b!"::" ++ ·) = b!"::" ++ dblColons s := by
  induction s with
  | nil => rfl
  | cons c s ih =>
    rw [dotted, dblColons]
    split
    · rw [List.flatMap_cons, ih, List.append_nil]
    · rename_i hc
      cases hd : dotted s with
      | nil => rw [hd] at ih; cases ih
      | cons p ps =>
        rw [hd, List.flatMap_cons, List.append_assoc, List.append_right_inj] at ih
        simp only [List.flatMap_cons, List.cons_append, List.nil_append]
        rw [← ih]
        rfl

theorem dblColons_inj : ∀ {a b : Bytes}, c!":" ∉ a → c!":" ∉ b → dblColons a = dblColons b → a = b
  | [], [], _, _, _ => rfl
  | [], c :: b, _, _, h => by
    rw [dblColons, dblColons] at h
    split at h <;> cases h
  | c :: a, [], _, _, h => by
    rw [dblColons, dblColons] at h
    split at h <;> cases h
  | c :: a, d :: b, ha, hb, h => by
    have ha' := fun hc => ha (List.mem_cons_of_mem c hc)
    have hb' := fun hc => hb (List.mem_cons_of_mem d hc)
    have hc : c ≠ c!":" := fun e => ha (e ▸ List.mem_cons_self)
    have hd : d ≠ c!":" := fun e => hb (e ▸ List.mem_cons_self)
    rw [dblColons, dblColons] at h
    split at h <;> split at h
    · rename_i e1 e2
      rw [e1, e2, dblColons_inj ha' hb' (List.append_cancel_left h)]
    · simp only [List.cons_append, List.nil_append, List.cons.injEq] at h
      exact absurd h.1.symm hd
    · simp only [List.cons_append, List.nil_append, List.cons.injEq] at h
      exact absurd h.1 hc
    · simp only [List.cons_append, List.nil_append, List.cons.injEq] at h
      rw [h.1, dblColons_inj ha' hb' h.2]

/-- The class of a message is its qualified name, with double dblColons. -/
theorem className_eq {m : Message} (hn : Ident m.name) : className m = b!" ::" ++ dblColons (qualify m.package m.name) := by
  have hd : c!"." ∉ m.name := fun hc => (nameByte_facts (ident_bytes hn _ hc)).2.1 rfl
  unfold className namespaces qualify
  split
  · rw [dblColons_id hd]; rfl
  · rw [dotted_dblColons, dblColons_append, dblColons, dblColons_id hd]
    simp

/-- Different messages have different classes. -/
theorem className_inj {N : Nat} {text : Bytes} {t : Tree} (h : parse N text = .ok t) {a b : Message} (ha : a ∈ t.messages)
    (hb : b ∈ t.messages) (e : className a = className b) : qualify a.package a.name = qualify b.package b.name := by
  have key : ∀ m ∈ t.messages, Ident m.name ∧ c!":" ∉ qualify m.package m.name := by
    intro m hm
    obtain ⟨h1, h2, _⟩ := parse_names h hm
    have hi : c!":" ∉ m.name := fun hc => (nameByte_facts (ident_bytes h2.1 _ hc)).1 rfl
    refine ⟨h2.1, ?_⟩
    unfold qualify
    split
    · exact hi
    · rename_i hne
      intro hc
      rcases List.mem_append.mp hc with hc | hc
      · rcases dotName_bytes (h1.resolve_left hne) _ hc with h | h | h
        · exact (nameByte_facts (Or.inl h)).1 rfl
        · exact (nameByte_facts (Or.inr h)).1 rfl
        · revert h; decide
      · rcases List.mem_cons.mp hc with h | h
        · revert h; decide
        · exact hi h
  obtain ⟨a1, a2⟩ := key a ha
  obtain ⟨b1, b2⟩ := key b hb
  rw [className_eq a1, className_eq b1] at e
  exact dblColons_inj a2 b2 (List.append_cancel_left e)

theorem classNames_nodup {N : Nat} {text : Bytes} {t : Tree} (h : parse N text = .ok t)
    (hd : (t.messages.map fun m => qualify m.package m.name).Nodup) : (t.messages.map className).Nodup := by
  unfold List.Nodup at hd ⊢
  rw [List.pairwise_map] at hd ⊢
  exact hd.imp_of_mem fun ha hb hab e => hab (className_inj h ha hb e)

end PG.Gen
