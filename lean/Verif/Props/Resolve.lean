import Verif.Props.Grammar
/-
C46, continued: in a schema whose messages are told apart by their qualified names the order of the definitions does not matter for what
the fields refer to.
-/
set_option autoImplicit false
namespace PG.Proto

/-- The message that a field refers to, without the positions of those it refers to itself. -/
def Field.target (t : Tree) (f : Field) : Option Message := (f.type.ref.bind fun i => t.messages[i]?).map Message.unlinked

/-- A message with what its fields refer to in place of positions. -/
def Message.view (t : Tree) (m : Message) : Message × List (Option Message) := (m.unlinked, m.fields.map (Field.target t))

/-- Messages of the same qualified name are the same. -/
def Unambiguous (ds : List Decl) : Prop :=
  ∀ a ∈ located [] ds, ∀ b ∈ located [] ds, qualify a.1 a.2.1 = qualify b.1 b.2.1 → a = b

/-- The meaning of a message without positions. -/
def bare (m : Bytes × Bytes × List Item) : Message := (bodyMeaning m.2.1 m.2.2 m.1 fun _ => none).unlinked

theorem position_find (q : Bytes) (l : List (Bytes × Bytes × List Item)) :
    (position q (l.map fun m => qualify m.1 m.2.1)).bind (fun i => l[i]?) = l.find? fun m => qualify m.1 m.2.1 = q := by
  induction l with
  | nil => rfl
  | cons a l ih =>
    rw [List.map_cons, position, List.find?_cons]
    by_cases h : qualify a.1 a.2.1 = q
    · simp [h]
    · rw [if_neg h]
      simp only [h, decide_false]
      rw [← ih]
      cases position q (l.map fun m => qualify m.1 m.2.1) <;> simp

/-- What a field refers to, by the definitions of the file. -/
def FieldDecl.target (ds : List Decl) (p : Bytes) (f : FieldDecl) : Option Message :=
  match f.type with
  | .named n => ((located [] ds).find? fun m => qualify m.1 m.2.1 = qualify p n).map bare
  | _ => none

theorem view_denote {t : Tree} {ds : List Decl} (h : t.erase = denote ds) :
    t.messages.map (Message.view t) =
      (located [] ds).map fun m => (bare m, (m.2.2.filterMap Item.field?).map (FieldDecl.target ds m.1)) := by
  have e : t.messages.map Message.erase = (denote ds).messages := by rw [← h]; rfl
  have ht : ∀ i : Nat, (t.messages[i]?).map Message.unlinked = ((located [] ds)[i]?).map bare := by
    intro i
    have := congrArg (fun l : List Message => (l[i]?).map Message.unlinked) e
    simp only [List.getElem?_map, denote, Option.map_map, Function.comp_def, unlinked_erase] at this
    rw [this]
    cases (located [] ds)[i]? with
    | none => rfl
    | some m => exact congrArg some (unlinked_body _ _ _ _ _)
  have hv : ∀ m : Message, m.view t = m.erase.view t := by
    intro m
    unfold Message.view
    rw [unlinked_erase]
    simp only [Message.erase, List.map_map, Function.comp_def]
    rfl
  rw [show t.messages.map (Message.view t) = (t.messages.map Message.erase).map (Message.view t) by
    rw [List.map_map]; exact List.map_congr_left fun m _ => hv m, e]
  simp only [denote, List.map_map]
  refine List.map_congr_left fun m hm => ?_
  simp only [Function.comp, Message.view]
  refine Prod.ext (unlinked_body _ _ _ _ _) ?_
  simp only [bodyMeaning, List.map_map]
  refine List.map_congr_left fun f _ => ?_
  simp only [Function.comp, Field.target, FieldDecl.meaning, FieldDecl.typeInfo, FieldDecl.target]
  cases hf : f.type with
  | scalar a => rfl
  | named n =>
    dsimp only
    rw [← position_find]
    unfold messageNames
    cases position (qualify m.1 n) ((located [] ds).map fun m => qualify m.1 m.2.1) with
    | none => rfl
    | some i => exact ht i

theorem find_perm {ds ds' : List Decl} (hp : (located [] ds).Perm (located [] ds')) (hu : Unambiguous ds) (q : Bytes) :
    ((located [] ds).find? fun m => qualify m.1 m.2.1 = q) = (located [] ds').find? fun m => qualify m.1 m.2.1 = q := by
  cases h : (located [] ds).find? fun m => qualify m.1 m.2.1 = q with
  | none =>
    symm
    rw [List.find?_eq_none] at h ⊢
    exact fun m hm => h m (hp.mem_iff.mpr hm)
  | some a =>
    have ha := List.find?_some h
    have hm := List.mem_of_find?_eq_some h
    cases h' : (located [] ds').find? fun m => qualify m.1 m.2.1 = q with
    | none =>
      rw [List.find?_eq_none] at h'
      exact absurd ha (h' a (hp.mem_iff.mp hm))
    | some b =>
      have hb := List.find?_some h'
      have hm' := List.mem_of_find?_eq_some h'
      simp only [decide_eq_true_eq] at ha hb
      rw [hu a hm b (hp.mem_iff.mpr hm') (ha.trans hb.symm)]

/-- **C46 (partial).** If messages of the same qualified name are the same, in particular if all names are different, the order of the
definitions does not matter for what is read either: the same messages, with the same fields, which refer to the same messages.
Missing: several messages of the same qualified name, for which it is false (`C46_order_matters_for_duplicates`). -/
theorem C46_same_references_partial {ds ds' : List Decl} {text text' : Bytes} (hw : ∀ d ∈ ds, d.WF)
    (hw' : ∀ d ∈ ds', d.WF) (hl : Layout (fileLexemes ds) text) (hl' : Layout (fileLexemes ds') text')
    (hp : (located [] ds).Perm (located [] ds')) (hu : Unambiguous ds) {N : Nat} (hN : text.length < N) (hN' : text'.length < N)
    {t t' : Tree} (ht : parse N text = .ok t) (ht' : parse N text' = .ok t') :
    (t.messages.map (Message.view t)).Perm (t'.messages.map (Message.view t')) := by
  obtain ⟨u, hu', he⟩ := C47_accepted hw ((C47_accepted_iff hw hl hN).mp ⟨t, ht⟩) hl hN
  obtain ⟨u', hu'', he'⟩ := C47_accepted hw' ((C47_accepted_iff hw' hl' hN').mp ⟨t', ht'⟩) hl' hN'
  rw [ht] at hu'; injection hu' with hu'; subst hu'
  rw [ht'] at hu''; injection hu'' with hu''; subst hu''
  rw [view_denote he, view_denote he']
  refine List.Perm.trans (hp.map _) (List.Perm.of_eq (List.map_congr_left fun m _ => ?_))
  refine Prod.ext rfl (List.map_congr_left fun f _ => ?_)
  unfold FieldDecl.target
  split
  · rw [find_perm hp hu]
  · rfl

theorem unambiguous_of_nodup {ds : List Decl} (h : (messageNames ds).Nodup) : Unambiguous ds := by
  intro a ha b hb e
  unfold messageNames at h
  generalize located [] ds = l at h ha hb
  induction l with
  | nil => cases ha
  | cons x l ih =>
    rw [List.map_cons, List.nodup_cons] at h
    rcases List.mem_cons.mp ha with rfl | ha' <;> rcases List.mem_cons.mp hb with rfl | hb'
    · rfl
    · exact absurd (List.mem_map.mpr ⟨b, hb', e.symm⟩) h.1
    · exact absurd (List.mem_map.mpr ⟨a, ha', e⟩) h.1
    · exact ih h.2 ha' hb'

/-- Two messages that refer to each other's kind, in both orders. -/
example : Unambiguous demoDecls ∧ (located [] demoDecls).Perm (located [] (demoDecls.take 3 ++ (demoDecls.drop 3).reverse)) ∧
    (located [] demoDecls).length = 2 :=
  ⟨unambiguous_of_nodup (by decide +kernel), List.Perm.swap _ _ [], rfl⟩

/-- The view tells the two readings of `C46_order_matters_for_duplicates` apart. -/
example : ∃ t t', parse 80 b!"message A { } message A { bool x = 1; } message B { A a = 1; }" = .ok t ∧
    parse 80 b!"message A { bool x = 1; } message A { } message B { A a = 1; }" = .ok t' ∧
    ¬ (t.messages.map (Message.view t)).Perm (t'.messages.map (Message.view t')) := by
  obtain ⟨t, ht, h⟩ := okAnd (o := parse 80 b!"message A { } message A { bool x = 1; } message B { A a = 1; }")
    (p := fun t => (t.messages.map (Message.view t)).all fun v => v.2.all fun x => x.all fun m => m.fields.isEmpty) (by decide +kernel)
  obtain ⟨t', ht', h'⟩ := okAnd (o := parse 80 b!"message A { bool x = 1; } message A { } message B { A a = 1; }")
    (p := fun t => !(t.messages.map (Message.view t)).all fun v => v.2.all fun x => x.all fun m => m.fields.isEmpty) (by decide +kernel)
  refine ⟨t, t', ht, ht', fun hp => ?_⟩
  rw [Bool.not_eq_true', ← Bool.not_eq_true] at h'
  exact h' (List.all_eq_true.mpr fun v hv => List.all_eq_true.mp h v (hp.mem_iff.mpr hv))

end PG.Proto
