import Verif.Spec.Meaning
import Verif.Proofs.GenFile
import Verif.Props.Labels
/-
Reading the generated file: the classes and their types.
-/
set_option autoImplicit false
namespace PG.Gen
open PG.Proto

/-! ### Running over parts of a file -/

theorem run_append (inc : Included) (r : Reading) (a b : List Call) :
    r.run inc (a ++ b) = (r.run inc a).bind fun r => r.run inc b := by
  induction a generalizing r with
  | nil => rfl
  | cons c a ih =>
    rw [List.cons_append, Reading.run, Reading.run]
    cases r.step inc c with
    | none => rfl
    | some s => simp only [Option.bind_some, ih]

theorem run_map {α : Type} {inc : Included} {f : α → Call} {g : Reading → List α → Reading} (hg : ∀ r, g r [] = r)
    (h : ∀ r x l, r.step inc (f x) = some (g r [x]) ∧ g (g r [x]) l = g r (x :: l)) (r : Reading) (l : List α) :
    r.run inc (l.map f) = some (g r l) := by
  induction l generalizing r with
  | nil => rw [hg]; rfl
  | cons x l ih =>
    rw [List.map_cons, Reading.run, (h r x l).1, Option.bind_some, ih, (h r x l).2]

/-- The members seen. -/
theorem run_structField {α : Type} (inc : Included) (f g : α → Bytes) (r : Reading) (l : List α) :
    r.run inc (l.map fun x => ⟨.structField, [f x, g x]⟩) =
      some { r with prog := { r.prog with members := r.prog.members ++ l.map fun x => (f x, g x) } } :=
  run_map (g := fun (r : Reading) (l : List α) =>
    { r with prog := { r.prog with members := r.prog.members ++ l.map fun x => (f x, g x) } })
    (fun r => by simp) (fun r x l => ⟨rfl, by simp⟩) r l

/-- The cases of `read_field`. -/
theorem run_readFieldItem {α : Type} (inc : Included) (f g : α → Bytes) (r : Reading) (l : List α) :
    r.run inc (l.map fun x => ⟨.readFieldItem, [f x, g x]⟩) =
      some { r with prog := { r.prog with cases := r.prog.cases ++ l.map fun x => (f x, g x) } } :=
  run_map (g := fun (r : Reading) (l : List α) =>
    { r with prog := { r.prog with cases := r.prog.cases ++ l.map fun x => (f x, g x) } })
    (fun r => by simp) (fun r x l => ⟨rfl, by simp⟩) r l

/-- The members written. -/
theorem run_writeItem {α : Type} (inc : Included) (f g : α → Bytes) (r : Reading) (l : List α) :
    r.run inc (l.map fun x => ⟨.writeItem, [f x, g x]⟩) =
      some { r with prog := { r.prog with writes := r.prog.writes ++ l.map fun x => (f x, g x) } } :=
  run_map (g := fun (r : Reading) (l : List α) =>
    { r with prog := { r.prog with writes := r.prog.writes ++ l.map fun x => (f x, g x) } })
    (fun r => by simp) (fun r x l => ⟨rfl, by simp⟩) r l

/-- The table. -/
theorem run_indexItem {α : Type} (inc : Included) (f g : α → Bytes) (r : Reading) (l : List α) :
    r.run inc (l.map fun x => ⟨.indexItem, [f x, g x]⟩) =
      some { r with prog := { r.prog with table := r.prog.table ++ l.map fun x => (f x, g x) } } :=
  run_map (g := fun (r : Reading) (l : List α) =>
    { r with prog := { r.prog with table := r.prog.table ++ l.map fun x => (f x, g x) } })
    (fun r => by simp) (fun r x l => ⟨rfl, by simp⟩) r l

theorem run_functionCalls {inc : Included} {empty head item foot : Tpl} {g : Reading → List Bytes → Reading}
    (hg : ∀ r, g r [] = r) (hi : ∀ r n l, Reading.step inc r ⟨item, [n]⟩ = some (g r [n]) ∧ g (g r [n]) l = g r (n :: l))
    (he : ∀ r s, Reading.step inc r ⟨empty, [s]⟩ = some r) (hh : ∀ r s, Reading.step inc r ⟨head, [s]⟩ = some r)
    (hf : ∀ r, Reading.step inc r ⟨foot, []⟩ = some r) (m : Message) (r : Reading) :
    r.run inc (functionCalls empty head item foot m) = some (g r (m.fields.map (·.name))) := by
  unfold functionCalls
  split
  · rename_i h
    rw [Reading.run, he, Option.bind_some, h, List.map_nil, hg]
    rfl
  · rw [List.cons_append, Reading.run, hh, Option.bind_some, run_append]
    have := run_map (inc := inc) (f := fun f : Field => (⟨item, [f.name]⟩ : Call))
      (g := fun (r : Reading) (l : List Field) => g r (l.map fun f : Field => f.name)) (fun r => by rw [List.map_nil, hg])
      (fun r x l => ⟨(hi r x.name []).1, (hi r x.name (l.map fun f : Field => f.name)).2⟩) r m.fields
    rw [this, Option.bind_some, Reading.run, hf]
    rfl

theorem run_opening (inc : Included) (ns : List Bytes) (r : Reading) :
    r.run inc (ns.map fun n => ⟨.namespaceOpen, [n]⟩) = some { r with path := r.path ++ ns } :=
  run_map (f := fun n : Bytes => (⟨.namespaceOpen, [n]⟩ : Call))
    (g := fun (r : Reading) (l : List Bytes) => { r with path := r.path ++ l })
    (fun r => by simp) (fun r x l => ⟨rfl, by simp⟩) r ns

theorem run_closing (inc : Included) (ns : List Bytes) (r : Reading) (h : r.path.length = ns.length) :
    r.run inc (ns.map fun n => ⟨.namespaceClose, [n]⟩) = some { r with path := [] } := by
  induction ns generalizing r with
  | nil =>
    rw [List.length_nil, List.length_eq_zero_iff] at h
    cases r
    simp only at h
    subst h
    rfl
  | cons n ns ih =>
    have hne : r.path ≠ [] := by intro e; rw [e] at h; cases h
    have : Reading.step inc r ⟨.namespaceClose, [n]⟩ = some { r with path := r.path.dropLast } := by
      show (if r.path ≠ [] then _ else _) = _
      rw [if_pos hne]
    rw [List.map_cons, Reading.run, this, Option.bind_some, ih _ (by simp [h])]

/-- A single part. -/
theorem run_one {inc : Included} {r s : Reading} {c : Call} (h : r.step inc c = some s) : r.run inc [c] = some s := by
  rw [Reading.run, h]; rfl

/-- A section that is different if there is nothing to say. -/
theorem run_section {α : Type} {inc : Included} {l : List α} {e h t : Call} {mid : List Call} {r s : Reading}
    (he : r.step inc e = some r) (hh : r.step inc h = some r) (hm : r.run inc mid = some s) (ht : s.step inc t = some s)
    (hs : l = [] → s = r) [Decidable (l = [])] : r.run inc (if l = [] then [e] else [h] ++ mid ++ [t]) = some s := by
  split
  · rename_i hl
    rw [run_one he, hs hl]
  · rw [run_append, run_append, run_one hh, Option.bind_some, hm, Option.bind_some, run_one ht]

/-! ### A message -/

/-- The program of a message. -/
def progOf (msgs : List Message) (ctx : Ctx) (m : Message) : Prog :=
  let fs := m.fields.filter Persistent
  { struct := className m ++ b!"_type"
    cls := className m
    members := m.fields.map fun f => (cppType ctx.useLists f (targetOf msgs f), f.name)
    cases := fs.zipIdx.map fun x => (decNat x.2, x.1.name)
    writes := fs.map fun f => (f.name, labelText ctx (jsonNameIn ctx f))
    empties := m.fields.map (·.name)
    clears := m.fields.map (·.name)
    equals := m.fields.map (·.name)
    swaps := m.fields.map (·.name)
    obf := ctx.obfuscate && m.fields.any Persistent
    table := fs.zipIdx.map fun x => (keyText ctx (jsonNameIn ctx x.1), decNat x.2) }

theorem globalName_eq (m : Message) : globalName (namespaces m.package) m.name = className m := rfl

theorem any_persistent (fs : List Field) : fs.any Persistent = decide (fs.filter Persistent ≠ []) := by
  induction fs with
  | nil => rfl
  | cons f fs ih =>
    rw [List.any_cons, List.filter_cons, ih]
    cases Persistent f <;> simp

/-- The table of names, with the flag. -/
theorem run_table {inc : Included} {ctx : Ctx} {fs : List Field} (r : Reading) (hr : r.prog.obf = false) :
    r.run inc (if fs = [] then [⟨.indexEmpty, []⟩]
      else [⟨if ctx.obfuscate then .indexHeaderObf else .indexHeader, []⟩] ++
        fs.zipIdx.map (fun x => (⟨.indexItem, [keyText ctx (jsonNameIn ctx x.1), decNat x.2]⟩ : Call)) ++ [⟨.indexFooter, []⟩]) =
      some { r with prog := { r.prog with obf := ctx.obfuscate && decide (fs ≠ []),
                                          table := r.prog.table ++ fs.zipIdx.map fun x => (keyText ctx (jsonNameIn ctx x.1), decNat x.2) } } := by
  split
  · rename_i h
    subst h
    rw [run_one (s := r) (by rfl)]
    obtain ⟨path, prog, classes⟩ := r
    obtain ⟨⟩ := prog
    simp only at hr
    simp [hr]
  · rename_i h
    rw [run_append, run_append]
    cases ho : ctx.obfuscate
    · rw [run_one (s := r) (by rfl), Option.bind_some, run_indexItem, Option.bind_some, run_one (by rfl)]
      obtain ⟨path, prog, classes⟩ := r
      obtain ⟨⟩ := prog
      simp only at hr
      simp [hr]
    · rw [run_one (s := { r with prog := { r.prog with obf := true } }) (by rfl), Option.bind_some, run_indexItem,
        Option.bind_some, run_one (by rfl)]
      simp [h]

theorem run_message {inc : Included} {msgs : List Message} {ctx : Ctx} {m : Message} {r : Reading} {t : Ty}
    (hp : r.path = []) (hc : r.classes.find (className m) = none)
    (ht : (progOf msgs ctx m).type inc r.classes = some t) :
    r.run inc (messageCalls msgs ctx m) =
      some { path := [], prog := progOf msgs ctx m, classes := r.classes ++ [(className m, t)] } := by
  obtain ⟨path, prog, classes⟩ := r
  simp only at hp hc ht
  subst hp
  unfold messageCalls
  simp only
  -- the title
  rw [run_append, run_append, run_append, run_append, run_one (by rfl), Option.bind_some]
  -- the structure
  rw [run_append, run_append, run_append, run_append, run_opening, Option.bind_some, run_one (by rfl), Option.bind_some]
  dsimp only
  rw [run_structField, Option.bind_some, run_one (by rfl), Option.bind_some, run_closing _ _ _ (by rfl), Option.bind_some]
  dsimp only
  -- the functions
  rw [run_append, run_append, run_append, run_append, run_append, run_append, run_append, run_append]
  rw [run_one (by
    show (if _ ∧ _ then _ else _) = _
    exact if_pos ⟨by simp only [List.nil_append]; rw [globalName_eq], rfl⟩)]
  rw [Option.bind_some]
  rw [run_section (by rfl) (by rfl) (run_readFieldItem inc (fun x : Field × Nat => decNat x.2) (fun x => x.1.name) _ _) (by rfl)
    (fun e => by simp [e]), Option.bind_some]
  dsimp only
  rw [run_section (by rfl) (by rfl) (run_writeItem inc (fun f : Field => f.name) (fun f => labelText ctx (jsonNameIn ctx f)) _ _)
    (by rfl) (fun e => by simp [e]), Option.bind_some]
  dsimp only
  rw [run_functionCalls (g := fun r l => { r with prog := { r.prog with empties := r.prog.empties ++ l } })
    (fun r => by simp) (fun r n l => ⟨rfl, by simp⟩) (fun _ _ => rfl) (fun _ _ => rfl) (fun _ => rfl), Option.bind_some]
  rw [run_functionCalls (g := fun r l => { r with prog := { r.prog with clears := r.prog.clears ++ l } })
    (fun r => by simp) (fun r n l => ⟨rfl, by simp⟩) (fun _ _ => rfl) (fun _ _ => rfl) (fun _ => rfl), Option.bind_some]
  rw [run_functionCalls (g := fun r l => { r with prog := { r.prog with equals := r.prog.equals ++ l } })
    (fun r => by simp) (fun r n l => ⟨rfl, by simp⟩) (fun _ _ => rfl) (fun _ _ => rfl) (fun _ => rfl), Option.bind_some]
  rw [run_functionCalls (g := fun r l => { r with prog := { r.prog with swaps := r.prog.swaps ++ l } })
    (fun r => by simp) (fun r n l => ⟨rfl, by simp⟩) (fun _ _ => rfl) (fun _ _ => rfl) (fun _ => rfl), Option.bind_some]
  dsimp only
  rw [run_table _ (by rfl), Option.bind_some, run_one (by rfl), Option.bind_some]
  -- the class
  rw [run_append, run_append, run_opening, Option.bind_some]
  dsimp only
  rw [run_one (by
    show (if _ then _ else _) = _
    exact if_pos (by simp only [List.nil_append]; rw [globalName_eq])), Option.bind_some]
  rw [run_closing _ _ _ (by rfl), Option.bind_some]
  dsimp only
  refine run_one ?_
  simp only [List.nil_append, globalName_eq, ← any_persistent]
  show (if _ ∧ _ ∧ _ then Option.map _ (Prog.type inc classes (progOf msgs ctx m)) else none) = _
  rw [if_pos ⟨rfl, rfl, by rw [hc]; rfl⟩, ht]
  rfl

/-! ### The fields of a message -/

/-- A name that the generated code uses as it is. -/
def Usable (ctx : Ctx) (name : Bytes) : Prop :=
  labelValue (labelText ctx name) = some name ∧
  cString (keyText ctx name) = some (if ctx.obfuscate then reveal name else name)

theorem fieldsOf_eq {msgs : List Message} {ctx : Ctx} {b64 : Bool} {types : Bytes → Option Ty} (fs : List Field)
    (hn : (fs.map (·.name)).Nodup) (hu : ∀ f ∈ fs, Persistent f = true → Usable ctx (jsonNameIn ctx f))
    (ht : ∀ f ∈ fs, ∃ t, types (cppType ctx.useLists f (targetOf msgs f)) = some t ∧ FieldTy msgs ctx b64 f t) (i : Nat) :
    ∃ r, fieldsOf types i (fs.map fun f => (cppType ctx.useLists f (targetOf msgs f), f.name))
        (((fs.filter Persistent).zipIdx i).map fun x => (decNat x.2, x.1.name))
        ((fs.filter Persistent).map fun f => (f.name, labelText ctx (jsonNameIn ctx f)))
        (((fs.filter Persistent).zipIdx i).map fun x => (keyText ctx (jsonNameIn ctx x.1), decNat x.2)) = some r ∧
      FieldsTy msgs ctx b64 fs r := by
  induction fs generalizing i with
  | nil => exact ⟨.nil, rfl, .nil⟩
  | cons f fs ih =>
    rw [List.map_cons, List.nodup_cons] at hn
    have ih := ih hn.2 (fun g hg => hu g (List.mem_cons_of_mem _ hg)) (fun g hg => ht g (List.mem_cons_of_mem _ hg))
    obtain ⟨t, h1, h2⟩ := ht f List.mem_cons_self
    cases hp : Persistent f with
    | true =>
      obtain ⟨r, h3, h4⟩ := ih (i + 1)
      obtain ⟨u1, u2⟩ := hu f List.mem_cons_self hp
      refine ⟨_, ?_, .cons h2 h4⟩
      rw [List.filter_cons_of_pos hp]
      simp only [List.map_cons, List.zipIdx_cons, fieldsOf, h1, if_true, u1, u2, and_self]
      rw [h3, Option.map_some, fieldInfo, if_pos hp]
    | false =>
      obtain ⟨r, h3, h4⟩ := ih i
      refine ⟨_, ?_, .cons h2 h4⟩
      rw [List.filter_cons_of_neg (by rw [hp]; exact Bool.false_ne_true)]
      rw [fieldInfo, if_neg (by rw [hp]; exact Bool.false_ne_true)]
      cases hl : fs.filter Persistent with
      | nil =>
        rw [hl] at h3
        simp only [List.map_cons, List.map_nil, List.zipIdx_nil, fieldsOf, h1] at h3 ⊢
        rw [h3, Option.map_some]
      | cons g gs =>
        have hg : g ∈ fs := (List.mem_filter.mp (hl ▸ List.mem_cons_self)).1
        have hne : g.name ≠ f.name := fun e => hn.1 (List.mem_map.mpr ⟨g, hg, e⟩)
        rw [hl] at h3
        simp only [List.map_cons, List.zipIdx_cons, fieldsOf, h1] at h3 ⊢
        rw [if_neg (fun e => hne e.1), if_pos ⟨hne, hne⟩]
        rw [h3, Option.map_some]

/-! ### The types of fields -/

theorem between_head {a b : Byte} (h : a ≠ b) (pre suf s : Bytes) : between (a :: pre) suf (b :: s) = none := by
  unfold between
  rw [if_neg]
  simp [List.isPrefixOf, h]

theorem className_head (m : Message) : ∃ s, className m = c!" " :: s := ⟨_, rfl⟩

theorem arithmetic_space (s : Bytes) : arithmetic (c!" " :: s) = none := by
  unfold arithmetic
  simp

theorem simpleType_class (inc : Included) (cs : Classes) (m : Message) : simpleType inc cs (className m) = cs.find (className m) := by
  obtain ⟨s, e⟩ := className_head m
  rw [e]
  unfold simpleType
  rw [show between b!"protogen_3_0_0::field<" b!">" (c!" " :: s) = none from between_head (by decide) _ _ _]
  simp only
  rw [if_neg (by simp), arithmetic_space]

theorem elementOf_list (s : Bytes) : elementOf (b!"std::list<" ++ s ++ b!">") = some s := by
  unfold elementOf
  have : between b!"std::vector<" b!">" (b!"std::list<" ++ s ++ b!">") = none := by
    unfold between
    rw [if_neg]
    simp [List.isPrefixOf]
  rw [this, between_eq]

theorem elementOf_vector (s : Bytes) : elementOf (b!"std::vector<" ++ s ++ b!">") = some s := by
  unfold elementOf
  rw [between_eq]

theorem elementOf_space (s : Bytes) : elementOf (c!" " :: s) = none := by
  unfold elementOf
  rw [show between b!"std::vector<" b!">" (c!" " :: s) = none from between_head (by decide) _ _ _]
  exact between_head (by decide) _ _ _

theorem typeOf_class (inc : Included) (cs : Classes) (m : Message) : typeOf inc cs (className m) = cs.find (className m) := by
  rw [← simpleType_class inc]
  obtain ⟨s, e⟩ := className_head m
  rw [e]
  unfold typeOf
  rw [if_neg (fun h => by simp at h), elementOf_space]

theorem typeOf_classes (inc : Included) (ha : inc.array = true) (useLists : Bool) (cs : Classes) (m : Message) :
    typeOf inc cs ((if useLists then b!"std::list<" else b!"std::vector<") ++ className m ++ b!">") =
      (cs.find (className m)).map Ty.rep := by
  rw [← simpleType_class inc]
  unfold typeOf
  obtain ⟨s, e⟩ := className_head m
  rw [if_neg (fun h => by rw [e] at h; cases useLists <;> simp at h)]
  cases useLists
  · simp only [Bool.false_eq_true, if_false]; rw [elementOf_vector]; simp only [ha, if_true]
  · simp only [if_true]; rw [elementOf_list]; simp only [ha, if_true]

/-- The runtime has what the field needs. -/
def Supports (inc : Included) (f : Field) : Prop :=
  (f.type.repeated = true → inc.array = true) ∧
  ∀ s, f.type.id = .scalar s →
    ((numberOf s).isSome = true → inc.number = true) ∧ (s = .string → inc.string = true) ∧
    (s = .bytes → inc.base64 = true ∨ (inc.array = true ∧ inc.number = true))

theorem typeOf_field {msgs : List Message} {ctx : Ctx} {inc : Included} {cs : Classes} {f : Field} (hl : FieldLinked msgs f)
    (hs : Supports inc f)
    (hm : ∀ i m, f.type.ref = some i → msgs[i]? = some m →
      ∃ t, cs.find (className m) = some t ∧ MessageTy msgs ctx inc.base64 m t) :
    ∃ t, typeOf inc cs (cppType ctx.useLists f (targetOf msgs f)) = some t ∧ FieldTy msgs ctx inc.base64 f t := by
  obtain ⟨hsa, hss⟩ := hs
  cases hid : f.type.id with
  | message =>
    obtain ⟨i, m, hi, hmi⟩ := hl hid
    obtain ⟨t, h1, h2⟩ := hm i m hi hmi
    have htar : targetOf msgs f = some m := by rw [targetOf, hi]; exact hmi
    unfold cppType
    rw [hid, htar]
    simp only [Option.map_some, Option.getD_some]
    cases hr : f.type.repeated
    · simp only [Bool.false_eq_true, if_false]
      exact ⟨t, by rw [typeOf_class, h1], .message hid hi hmi h2 hr⟩
    · simp only [if_true]
      exact ⟨.rep t, by rw [typeOf_classes _ (hsa hr), h1]; rfl, .messages hid hi hmi h2 hr⟩
  | scalar s =>
    obtain ⟨hn, hst, hby⟩ := hss s hid
    unfold cppType
    rw [hid]
    simp only
    obtain ⟨ia, ib, is, im⟩ := inc
    simp only at hn hst hby hsa
    by_cases hb : s = .bytes
    · subst hb
      cases ib
      · obtain ⟨h1, h2⟩ := (hby rfl).resolve_left (by simp)
        subst h1 h2
        exact ⟨_, by rfl, .octets hid rfl⟩
      · exact ⟨_, by rfl, .bytes hid rfl⟩
    · by_cases hs : s = .string
      · subst hs
        have := hst rfl
        subst this
        cases hr : f.type.repeated
        · exact ⟨_, by rfl, .string hid hr⟩
        · have := hsa hr
          subst this
          refine ⟨.rep .str, ?_, .strings hid hr⟩
          cases ctx.useLists <;> rfl
      · obtain ⟨p, hp⟩ : ∃ p, numberOf s = some p := by
          cases s <;> first | exact ⟨_, rfl⟩ | exact absurd rfl hb | exact absurd rfl hs
        have := hn (by rw [hp]; rfl)
        subst this
        cases hr : f.type.repeated
        · refine ⟨.num p, ?_, .number hid hp hr⟩
          cases s <;> first | exact absurd rfl hb | exact absurd rfl hs | (cases hp; rfl)
        · have := hsa hr
          subst this
          refine ⟨.rep (.raw p), ?_, .numbers hid hp hr⟩
          cases ctx.useLists <;>
            cases s <;> first | exact absurd rfl hb | exact absurd rfl hs | (cases hp; rfl)

/-! ### All messages -/

theorem find_append (a b : Classes) (n : Bytes) : Classes.find (a ++ b) n = (a.find n).or (b.find n) := by
  unfold Classes.find
  rw [List.find?_append]
  cases a.find? fun c => c.1 == n <;> rfl

theorem find_isSome {cs : Classes} {n : Bytes} {t : Ty} (h : cs.find n = some t) : n ∈ cs.map (·.1) := by
  unfold Classes.find at h
  obtain ⟨c, h1, h2⟩ := Option.map_eq_some_iff.mp h
  have := List.find?_some h1
  exact List.mem_map.mpr ⟨c, List.mem_of_find?_eq_some h1, by simpa using this⟩

/-- What has been read after some of the messages. -/
def Inv (msgs : List Message) (ctx : Ctx) (inc : Included) (pre : List Nat) (r : Reading) : Prop :=
  r.path = [] ∧ (∀ n ∈ r.classes.map (·.1), ∃ j ∈ pre, ∃ m, msgs[j]? = some m ∧ className m = n) ∧
  ∀ j ∈ pre, ∀ m, msgs[j]? = some m → ∃ t, r.classes.find (className m) = some t ∧ MessageTy msgs ctx inc.base64 m t

theorem run_messages {msgs : List Message} {ctx : Ctx} {inc : Included} {order : List Nat} (ho : Ordered msgs order)
    (hd : order.Nodup) (hlt : ∀ i ∈ order, i < msgs.length) (hc : (msgs.map className).Nodup)
    (hok : ∀ m ∈ msgs, MessageOk msgs m) (hsup : ∀ m ∈ msgs, ∀ f ∈ m.fields, Supports inc f) (hf : ∀ m ∈ msgs, (m.fields.map (·.name)).Nodup)
    (hu : ∀ m ∈ msgs, ∀ f ∈ m.fields, Persistent f = true → Usable ctx (jsonNameIn ctx f)) :
    ∀ (post pre : List Nat) (r : Reading), order = pre ++ post → Inv msgs ctx inc pre r →
      ∃ r', r.run inc (post.flatMap fun i => ((msgs[i]?).map (messageCalls msgs ctx)).getD []) = some r' ∧
        Inv msgs ctx inc order r' ∧ r'.classes.map (·.1) = r.classes.map (·.1) ++ post.filterMap fun i => (msgs[i]?).map className
  | [], pre, r, e, hi => ⟨r, rfl, by rw [e, List.append_nil]; exact hi, by simp⟩
  | i :: post, pre, r, e, hi => by
    have hmem : i ∈ order := by rw [e]; simp
    have hlt' := hlt i hmem
    obtain ⟨m, hm⟩ : ∃ m, msgs[i]? = some m := ⟨_, List.getElem?_eq_getElem hlt'⟩
    have hmm := List.mem_of_getElem? hm
    obtain ⟨h1, h2, h3⟩ := hi
    have hnew : r.classes.find (className m) = none := by
      cases hx : r.classes.find (className m) with
      | none => rfl
      | some t =>
        exfalso
        obtain ⟨j, hj, m', hm', en⟩ := h2 _ (find_isSome hx)
        have hji : j = i := by
          have hjl := hlt j (by rw [e]; exact List.mem_append_left _ hj)
          have e1 : (msgs.map className)[j]'(by simpa using hjl) = (msgs.map className)[i]'(by simpa using hlt') := by
            simp only [List.getElem_map]
            rw [List.getElem?_eq_getElem hjl, Option.some.injEq] at hm'
            rw [List.getElem?_eq_getElem hlt', Option.some.injEq] at hm
            rw [hm', hm, en]
          exact (List.getElem_inj hc).mp e1
        subst hji
        rw [e] at hd
        exact (List.nodup_append.mp hd).2.2 j hj j List.mem_cons_self rfl
    obtain ⟨fs, h4, h5⟩ := fieldsOf_eq (msgs := msgs) (ctx := ctx) (b64 := inc.base64) (types := typeOf inc r.classes) m.fields (hf m hmm) (hu m hmm)
      (fun f hfm => typeOf_field ((hok m hmm).2 f hfm).2 (hsup m hmm f hfm) fun j m' hj hm' =>
        h3 j (ho pre i post e j ⟨m, f, hm, hfm, hj⟩) m' hm') 0
    have ht : (progOf msgs ctx m).type inc r.classes = some (.msg (ctx.obfuscate && m.fields.any Persistent) fs) := by
      unfold Prog.type progOf
      simp only [List.map_map]
      rw [if_pos ⟨rfl, rfl, rfl, rfl, hf m hmm⟩, h4]
      rfl
    have hstep := run_message h1 hnew ht
    obtain ⟨r', h6, h7, h8⟩ := run_messages ho hd hlt hc hok hsup hf hu post (pre ++ [i])
      { path := [], prog := progOf msgs ctx m,
        classes := r.classes ++ [(className m, .msg (ctx.obfuscate && m.fields.any Persistent) fs)] } (by rw [e]; simp)
      ⟨rfl, by
        intro n hn
        simp only [List.map_append, List.map_cons, List.map_nil, List.mem_append, List.mem_singleton] at hn
        rcases hn with hn | hn
        · obtain ⟨j, hj, x⟩ := h2 n hn
          exact ⟨j, List.mem_append_left _ hj, x⟩
        · exact ⟨i, by simp, m, hm, hn.symm⟩, by
        intro j hj m' hm'
        rcases List.mem_append.mp hj with hj | hj
        · obtain ⟨t, a, b⟩ := h3 j hj m' hm'
          exact ⟨t, by rw [find_append, a]; rfl, b⟩
        · rw [List.mem_singleton.mp hj, hm] at hm'
          injection hm' with hm'
          subst hm'
          exact ⟨_, by rw [find_append, hnew]; simp [Classes.find], .mk h5⟩⟩
    refine ⟨r', ?_, h7, ?_⟩
    · rw [List.flatMap_cons, hm, Option.map_some, Option.getD_some, run_append, hstep, Option.bind_some, h6]
    · rw [h8, List.filterMap_cons, hm]
      simp

/-! ### The file -/

theorem step_runtime (inc : Included) (r : Reading) (p : Part) : r.step inc ⟨.runtime p, []⟩ = some r := rfl

theorem run_inclusions (inc : Included) (n : Needs) (r : Reading) : r.run inc (inclusionCalls n) = some r := by
  unfold inclusionCalls
  exact run_map (f := fun p : Part => (⟨.runtime p, []⟩ : Call)) (g := fun (r : Reading) (_ : List Part) => r)
    (fun _ => rfl) (fun r p l => ⟨rfl, rfl⟩) r _

end PG.Gen
