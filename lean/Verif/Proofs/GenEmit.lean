import Verif.Spec.Gen
import Verif.Proofs.GenPrint
/-
What the generator prints for a message: cppgen.cc:122-480.
-/
set_option autoImplicit false
namespace PG.Gen
open PG.Proto

/-! ### Sequences -/

theorem bind_eq {α β : Type} (m : Emit α) (f : α → Emit β) : (m >>= f) = m.bind f := rfl
theorem pure_eq {α : Type} (a : α) : (Pure.pure a : Emit α) = Emit.pure a := rfl

theorem bind_ok {α β : Type} {m : Emit α} {f : α → Emit β} {cs : List Call} {a : α} (h : m = ⟨cs, .ok a⟩) :
    m.bind f = ⟨cs ++ (f a).calls, (f a).res⟩ := by
  subst h; rfl

theorem bind_ok' {α β : Type} {m : Emit α} {f : α → Emit β} {cs cs' : List Call} {a : α} {r : Res β}
    (h : m = ⟨cs, .ok a⟩) (hf : f a = ⟨cs', r⟩) : m.bind f = ⟨cs ++ cs', r⟩ := by
  rw [bind_ok h, hf]

theorem lift_ok {α β : Type} {r : Res α} {f : α → Emit β} {a : α} (h : r = .ok a) : (Emit.lift r).bind f = f a := by
  subst h; rfl

theorem bind_res_ok {α β : Type} {m : Emit α} {f : α → Emit β} {b : β} (h : (m.bind f).res = .ok b) :
    ∃ a, m.res = .ok a ∧ (f a).res = .ok b := by
  unfold Emit.bind at h
  cases hm : m.res with
  | ok a => rw [hm] at h; exact ⟨a, rfl, h⟩
  | exc e => rw [hm] at h; cases h
  | running => rw [hm] at h; cases h

theorem bind_res_exc {α β : Type} {m : Emit α} {f : α → Emit β} {e : GExc} (h : (m.bind f).res = .exc e) :
    m.res = .exc e ∨ ∃ a, m.res = .ok a ∧ (f a).res = .exc e := by
  unfold Emit.bind at h
  cases hm : m.res with
  | ok a => rw [hm] at h; exact Or.inr ⟨a, rfl, h⟩
  | exc e => rw [hm] at h; injection h with h; subst h; exact Or.inl rfl
  | running => rw [hm] at h; cases h

theorem bind_res_running {α β : Type} {m : Emit α} {f : α → Emit β} (h : (m.bind f).res = .running) :
    m.res = .running ∨ ∃ a, m.res = .ok a ∧ (f a).res = .running := by
  unfold Emit.bind at h
  cases hm : m.res with
  | ok a => rw [hm] at h; exact Or.inr ⟨a, rfl, h⟩
  | exc e => rw [hm] at h; cases h
  | running => rw [hm] at h; exact Or.inl rfl

theorem rbind_ok {α β : Type} {m : Res α} {f : α → Res β} {b : β} (h : m.bind f = .ok b) :
    ∃ a, m = .ok a ∧ f a = .ok b := by
  cases m with
  | ok a => exact ⟨a, rfl, h⟩
  | exc e => cases h
  | running => cases h

theorem rbind_exc {α β : Type} {m : Res α} {f : α → Res β} {e : GExc} (h : m.bind f = .exc e) :
    m = .exc e ∨ ∃ a, m = .ok a ∧ f a = .exc e := by
  cases m with
  | ok a => exact Or.inr ⟨a, rfl, h⟩
  | exc e' => injection h with h; subst h; exact Or.inl rfl
  | running => cases h

theorem put_bind {β : Type} (t : Tpl) (args : List Bytes) (f : Unit → Emit β) :
    (Emit.put t args).bind f = ⟨⟨t, args⟩ :: (f ()).calls, (f ()).res⟩ := rfl

theorem forFields_put {item : Field → Call} {f : Field → Emit Unit} (fs : List Field)
    (h : ∀ x ∈ fs, f x = ⟨[item x], .ok ()⟩) : forFields f fs = ⟨fs.map item, .ok ()⟩ := by
  induction fs with
  | nil => rfl
  | cons x fs ih =>
    rw [forFields, bind_ok (h x List.mem_cons_self), ih fun y hy => h y (List.mem_cons_of_mem _ hy)]
    rfl

/-! ### Names -/

theorem dotted_ne_nil (p : Bytes) : dotted p ≠ [] := by
  cases p with
  | nil => intro h; cases h
  | cons c p =>
    rw [dotted]
    split
    · intro h; cases h
    · split <;> (intro h; cases h)

/-- The separator of namespaces. -/
def colons (c : Byte) : Bytes := if c = c!"." then b!"::" else [c]

theorem dotted_colons (p : Bytes) : (dotted p).flatMap (b!"::" ++ ·) = b!"::" ++ p.flatMap colons := by
  induction p with
  | nil => rfl
  | cons c p ih =>
    rw [dotted, List.flatMap_cons]
    by_cases hc : c = c!"."
    · rw [if_pos hc, List.flatMap_cons, ih]
      unfold colons
      rw [if_pos hc]; rfl
    · rw [if_neg hc]
      obtain ⟨q, qs, hq⟩ := List.exists_cons_of_ne_nil (dotted_ne_nil p)
      rw [hq] at ih ⊢
      simp only [List.flatMap_cons, List.append_assoc] at ih ⊢
      have ih := List.append_cancel_left ih
      rw [← ih]
      conv => rhs; unfold colons
      rw [if_neg hc]
      rfl

theorem nativePackage_eq (p : Bytes) : nativePackage p = b!" " ++ (namespaces p).flatMap (b!"::" ++ ·) := by
  unfold nativePackage namespaces
  split
  · rfl
  · rw [dotted_colons]; rfl

theorem structName_eq (m : Message) : structName m = className m ++ b!"_type" := by
  unfold structName className
  rw [nativePackage_eq]

theorem entityName_eq (m : Message) : nativePackage m.package ++ b!"::" ++ m.name = className m := by
  unfold className
  rw [nativePackage_eq]

theorem namespaceLoop_eq (opening : Bool) (name p : Bytes) :
    namespaceLoop opening name (p ++ b!".") =
      ⟨(match dotted p with
        | [] => []
        | q :: qs => (name ++ q) :: qs).map fun n => ⟨if opening then .namespaceOpen else .namespaceClose, [n]⟩,
        .ok ()⟩ := by
  induction p generalizing name with
  | nil => simp only [List.nil_append, namespaceLoop, if_true, dotted, List.append_nil]; rfl
  | cons c p ih =>
    rw [List.cons_append, namespaceLoop, dotted]
    by_cases hc : c = c!"."
    · rw [if_pos hc, if_pos hc, put_bind, ih []]
      obtain ⟨q, qs, hq⟩ := List.exists_cons_of_ne_nil (dotted_ne_nil p)
      rw [hq]
      simp
    · rw [if_neg hc, if_neg hc, ih]
      obtain ⟨q, qs, hq⟩ := List.exists_cons_of_ne_nil (dotted_ne_nil p)
      rw [hq]
      simp

theorem generateNamespace_eq (m : Message) (opening : Bool) :
    generateNamespace m opening =
      ⟨(namespaces m.package).map fun n => ⟨if opening then .namespaceOpen else .namespaceClose, [n]⟩, .ok ()⟩ := by
  unfold generateNamespace namespaces
  split
  · rfl
  · rw [namespaceLoop_eq]
    obtain ⟨q, qs, hq⟩ := List.exists_cons_of_ne_nil (dotted_ne_nil m.package)
    rw [hq]
    simp

/-! ### Options -/

theorem getBool_ok {m : OptMap} {n : Bytes} {d : Bool} (h : ∀ o, m.find n = some o → o.type = .boolean) :
    getBool m n d = .ok (match m.find n with | some o => o.value == b!"true" | none => d) := by
  unfold getBool
  cases hf : m.find n with
  | none => rfl
  | some o => simp [h o hf]

theorem getBool_exc {m : OptMap} {n : Bytes} {d : Bool} {o : OptEntry} (h : m.find n = some o) (ht : o.type ≠ .boolean) :
    getBool m n d = .exc ⟨.notBoolean, n, o.line, 1⟩ := by
  unfold getBool
  rw [h]
  simp [ht]

theorem getBool_ok_type {m : OptMap} {n : Bytes} {d b : Bool} (h : getBool m n d = .ok b) :
    ∀ o, m.find n = some o → o.type = .boolean := by
  intro o ho
  refine Classical.byContradiction fun ht => ?_
  rw [getBool_exc ho ht] at h
  cases h

theorem getString_ok {m : OptMap} {n d : Bytes} (h : ∀ o, m.find n = some o → o.type = .string) :
    getString m n d = .ok (match m.find n with | some o => o.value | none => d) := by
  unfold getString
  cases hf : m.find n with
  | none => rfl
  | some o => simp [h o hf]

theorem getString_exc {m : OptMap} {n d : Bytes} {o : OptEntry} (h : m.find n = some o) (ht : o.type ≠ .string) :
    getString m n d = .exc ⟨.notString, n, o.line, 1⟩ := by
  unfold getString
  rw [h]
  simp [ht]

theorem isTransient_ok {f : Field} (h : ∀ o, f.options.find b!"transient" = some o → o.type = .boolean) :
    isTransient f = .ok (!Persistent f) := by
  unfold isTransient Persistent
  rw [getBool_ok h]
  cases f.options.find b!"transient" with
  | none => rfl
  | some o => simp only [bne, Bool.not_not]

theorem isTransient_type {f : Field} {b : Bool} (h : isTransient f = .ok b) :
    ∀ o, f.options.find b!"transient" = some o → o.type = .boolean := getBool_ok_type h

theorem jsonName_ok {f : Field} (h : ∀ o, f.options.find b!"name" = some o → o.type = .string)
    (hq : ∀ c ∈ givenName f, c ≠ c!"'" ∧ c ≠ c!"\"") : jsonName f = .ok (givenName f) := by
  unfold jsonName
  rw [getString_ok h]
  show (if (givenName f).any _ then _ else _) = _
  rw [if_neg]
  · rfl
  · rw [List.any_eq_true]
    rintro ⟨c, hc, h⟩
    simp only [Bool.or_eq_true, decide_eq_true_eq] at h
    have := hq c hc
    rcases h with h | h
    · exact this.1 h
    · exact this.2 h

theorem jsonName_ok_inv {f : Field} {n : Bytes} (h : jsonName f = .ok n) :
    (∀ o, f.options.find b!"name" = some o → o.type = .string) ∧ (∀ c ∈ givenName f, c ≠ c!"'" ∧ c ≠ c!"\"") := by
  have ht : ∀ o, f.options.find b!"name" = some o → o.type = .string := by
    intro o ho
    refine Classical.byContradiction fun ht => ?_
    unfold jsonName at h
    rw [getString_exc ho ht] at h
    cases h
  refine ⟨ht, fun c hc => ?_⟩
  unfold jsonName at h
  rw [getString_ok ht] at h
  change (if (givenName f).any _ then _ else _) = _ at h
  split at h
  · cases h
  · rename_i hn
    rw [List.any_eq_true] at hn
    refine ⟨fun e => hn ⟨c, hc, by simp [e]⟩, fun e => hn ⟨c, hc, by simp [e]⟩⟩

/-! ### Types -/

theorem valueType_ok {msgs : List Message} {f : Field} (h : FieldLinked msgs f) :
    ∃ v, valueType msgs f = .ok v := by
  unfold valueType
  split
  · exact ⟨_, rfl⟩
  · exact ⟨_, rfl⟩
  · rename_i hid
    obtain ⟨i, m, hi, hm⟩ := h hid
    unfold nativeType
    rw [hi]
    simp only [Option.bind_some, hm]
    exact ⟨_, rfl⟩

theorem fieldNativeType_eq {msgs : List Message} {f : Field} (h : FieldLinked msgs f) (useLists : Bool) :
    fieldNativeType msgs f useLists = .ok (cppType useLists f (targetOf msgs f)) := by
  unfold fieldNativeType cppType valueType targetOf
  cases hid : f.type.id with
  | message =>
    obtain ⟨i, m, hi, hm⟩ := h hid
    simp only [nativeType, hi, Option.bind_some, hm, Res.bind, Option.map_some, Option.getD_some]
    rw [entityName_eq]
    cases f.type.repeated <;> cases useLists <;> rfl
  | scalar s =>
    cases s <;> cases f.type.repeated <;> cases useLists <;> rfl

theorem fieldNativeType_linked {msgs : List Message} {f : Field} {useLists : Bool} {t : Bytes}
    (h : fieldNativeType msgs f useLists = .ok t) : FieldLinked msgs f := by
  intro hid
  unfold fieldNativeType valueType at h
  rw [hid] at h
  simp only [nativeType] at h
  cases hr : f.type.ref with
  | none => rw [hr] at h; cases h
  | some i =>
    rw [hr] at h
    simp only [Option.bind_some] at h
    cases hm : msgs[i]? with
    | none => rw [hm] at h; cases h
    | some m => exact ⟨i, m, rfl, hm⟩

/-! ### Functions -/

theorem isPersistent_ok {fs : List Field} (h : ∀ f ∈ fs, FieldOptionsOk f) :
    isPersistent fs = .ok (fs.filter Persistent != []) := by
  induction fs with
  | nil => rfl
  | cons f fs ih =>
    rw [isPersistent, isTransient_ok (h f List.mem_cons_self).1]
    simp only [Res.bind]
    cases hp : Persistent f with
    | true => rw [List.filter_cons_of_pos hp]; rfl
    | false =>
      rw [List.filter_cons_of_neg (by simp [hp])]
      exact ih fun g hg => h g (List.mem_cons_of_mem _ hg)

theorem readItems_eq {fs : List Field} (h : ∀ f ∈ fs, FieldOptionsOk f) (i : Nat) :
    readItems i fs = ⟨((fs.filter Persistent).zipIdx i).map (fun x => ⟨.readFieldItem, [decNat x.2, x.1.name]⟩), .ok ()⟩ := by
  induction fs generalizing i with
  | nil => rfl
  | cons f fs ih =>
    have ih := fun i => ih (fun g hg => h g (List.mem_cons_of_mem _ hg)) i
    rw [readItems, bind_eq, lift_ok (isTransient_ok (h f List.mem_cons_self).1)]
    cases hp : Persistent f with
    | true =>
      rw [List.filter_cons_of_pos hp]
      simp only [Bool.not_true, Bool.false_eq_true, if_false, bind_eq, put_bind]
      rw [ih]; rfl
    | false =>
      rw [List.filter_cons_of_neg (by simp [hp])]
      exact ih i

theorem print_quote (s : Bytes) : print [s] b!"\"$1$\"" = b!"\"" ++ s ++ b!"\"" := by
  have h := print_template [s] (ps := [.lit 34, .hole b!"1", .lit 34]) (by decide) []
  rw [print_nil] at h
  exact h.trans (by simp [filled, Piece.filled, numeral])

theorem print_reveal (s : Bytes) : print [s] b!"reveal(\"$1$\")" = b!"reveal(\"" ++ s ++ b!"\")" := by
  have h := print_template [s]
    (ps := [.lit c!"r", .lit c!"e", .lit c!"v", .lit c!"e", .lit c!"a", .lit c!"l", .lit c!"(", .lit 34, .hole b!"1",
      .lit 34, .lit c!")"]) (by decide) []
  rw [print_nil] at h
  exact h.trans (by simp [filled, Piece.filled, numeral])

theorem label_eq (ctx : Ctx) (name : Bytes) :
    (if ctx.obfuscate then print [obfuscateText name] b!"reveal(\"$1$\")" else print [name] b!"\"$1$\"") =
      labelText ctx name := by
  unfold labelText
  rw [print_quote, print_reveal]

theorem writeItems_eq {ctx : Ctx} {fs : List Field} (h : ∀ f ∈ fs, FieldOptionsOk f) :
    writeItems ctx fs =
      ⟨(fs.filter Persistent).map (fun f => ⟨.writeItem, [f.name, labelText ctx (jsonNameIn ctx f)]⟩), .ok ()⟩ := by
  induction fs with
  | nil => rfl
  | cons f fs ih =>
    have ih := ih fun g hg => h g (List.mem_cons_of_mem _ hg)
    have hf := h f List.mem_cons_self
    rw [writeItems, bind_eq, lift_ok (isTransient_ok hf.1)]
    cases hp : Persistent f with
    | true =>
      rw [List.filter_cons_of_pos hp]
      simp only [Bool.not_true, Bool.false_eq_true, if_false, bind_eq]
      rw [lift_ok (jsonName_ok (hf.2 hp).1 (hf.2 hp).2)]
      simp only [label_eq, put_bind]
      rw [ih]; rfl
    | false =>
      rw [List.filter_cons_of_neg (by simp [hp])]
      exact ih

theorem indexItems_eq {ctx : Ctx} {fs : List Field} (h : ∀ f ∈ fs, FieldOptionsOk f) (i : Nat) :
    indexItems ctx i fs =
      ⟨((fs.filter Persistent).zipIdx i).map (fun x => ⟨.indexItem, [keyText ctx (jsonNameIn ctx x.1), decNat x.2]⟩),
        .ok ()⟩ := by
  induction fs generalizing i with
  | nil => rfl
  | cons f fs ih =>
    have ih := fun i => ih (fun g hg => h g (List.mem_cons_of_mem _ hg)) i
    have hf := h f List.mem_cons_self
    rw [indexItems, bind_eq, lift_ok (isTransient_ok hf.1)]
    cases hp : Persistent f with
    | true =>
      rw [List.filter_cons_of_pos hp]
      simp only [Bool.not_true, Bool.false_eq_true, if_false, bind_eq]
      rw [lift_ok (jsonName_ok (hf.2 hp).1 (hf.2 hp).2)]
      simp only [put_bind]
      rw [ih]; rfl
    | false =>
      rw [List.filter_cons_of_neg (by simp [hp])]
      exact ih i

theorem genSimple_eq (empty head item foot : Tpl) (m : Message) :
    genSimple empty head item foot m (className m ++ b!"_type") = ⟨functionCalls empty head item foot m, .ok ()⟩ := by
  unfold genSimple functionCalls
  by_cases h : m.fields = []
  · rw [if_pos (by simp [h]), if_pos h]; rfl
  · rw [if_neg (by simp [h]), if_neg h]
    simp only [bind_eq, put_bind]
    rw [bind_ok (forFields_put (f := fun f => Emit.put item [f.name]) (item := fun f => ⟨item, [f.name]⟩) m.fields fun _ _ => rfl)]
    rfl

theorem filter_nil_of_fields {fs : List Field} (h : fs.length = 0) : fs.filter Persistent = [] := by
  rw [List.eq_nil_of_length_eq_zero h]; rfl

theorem cond_eq {m : Message} {p : Bool} (hp : p = (m.fields.filter Persistent != [])) :
    (m.fields.length = 0 ∨ (!p) = true) ↔ m.fields.filter Persistent = [] := by
  subst hp
  constructor
  · rintro (h | h)
    · exact filter_nil_of_fields h
    · simpa using h
  · intro h; right; simp [h]

theorem genRead_eq {m : Message} (h : ∀ f ∈ m.fields, FieldOptionsOk f) (type : Bytes) :
    genRead m type (m.fields.filter Persistent != []) =
      ⟨if m.fields.filter Persistent = [] then [⟨.readFieldEmpty, [type]⟩]
       else [⟨.readFieldHeader, [type]⟩] ++
         (m.fields.filter Persistent).zipIdx.map (fun x => ⟨.readFieldItem, [decNat x.2, x.1.name]⟩) ++
         [⟨.readFieldFooter, []⟩], .ok ()⟩ := by
  unfold genRead
  by_cases hf : m.fields.filter Persistent = []
  · rw [if_pos ((cond_eq rfl).mpr hf), if_pos hf]; rfl
  · rw [if_neg (fun h => hf ((cond_eq rfl).mp h)), if_neg hf]
    simp only [bind_eq, put_bind]
    rw [bind_ok (readItems_eq h 0)]
    rfl

theorem genWrite_eq {ctx : Ctx} {m : Message} (h : ∀ f ∈ m.fields, FieldOptionsOk f) (type : Bytes) :
    genWrite ctx m type (m.fields.filter Persistent != []) =
      ⟨if m.fields.filter Persistent = [] then [⟨.writeEmpty, [type]⟩]
       else [⟨.writeHeader, [type, versionNaming]⟩] ++
         (m.fields.filter Persistent).map (fun f => ⟨.writeItem, [f.name, labelText ctx (jsonNameIn ctx f)]⟩) ++
         [⟨.writeFooter, []⟩], .ok ()⟩ := by
  unfold genWrite
  by_cases hf : m.fields.filter Persistent = []
  · rw [if_pos ((cond_eq rfl).mpr hf), if_pos hf]; rfl
  · rw [if_neg (fun h => hf ((cond_eq rfl).mp h)), if_neg hf]
    simp only [bind_eq, put_bind]
    rw [bind_ok (writeItems_eq h)]
    rfl

theorem genIndex_eq {ctx : Ctx} {m : Message} (h : ∀ f ∈ m.fields, FieldOptionsOk f) :
    genIndex ctx m (m.fields.filter Persistent != []) =
      ⟨if m.fields.filter Persistent = [] then [⟨.indexEmpty, []⟩]
       else [⟨if ctx.obfuscate then .indexHeaderObf else .indexHeader, []⟩] ++
         (m.fields.filter Persistent).zipIdx.map
           (fun x => ⟨.indexItem, [keyText ctx (jsonNameIn ctx x.1), decNat x.2]⟩) ++ [⟨.indexFooter, []⟩], .ok ()⟩ := by
  unfold genIndex
  by_cases hf : m.fields.filter Persistent = []
  · rw [if_pos ((cond_eq rfl).mpr hf), if_pos hf]; rfl
  · rw [if_neg (fun h => hf ((cond_eq rfl).mp h)), if_neg hf]
    simp only [bind_eq, put_bind]
    rw [bind_ok (indexItems_eq h 0)]
    rfl

theorem generateMessage_eq {msgs : List Message} {ctx : Ctx} {m : Message} (h : MessageOk msgs m) :
    generateMessage msgs ctx m = ⟨messageCalls msgs ctx m, .ok ()⟩ := by
  obtain ⟨hl, hf⟩ := h
  have ho : ∀ f ∈ m.fields, FieldOptionsOk f := fun f hm => (hf f hm).1
  have hk : ∀ f ∈ m.fields, FieldLinked msgs f := fun f hm => (hf f hm).2
  unfold generateMessage
  rw [if_neg (by unfold maxFields; omega)]
  simp only [bind_eq, put_bind, generateModel, generateModelWrapper, generateEntity, generateEntityWrapper]
  simp only [structName_eq, entityName_eq, generateNamespace_eq]
  rw [lift_ok (isPersistent_ok ho)]
  simp only [genRead_eq ho, genWrite_eq ho, genIndex_eq ho, genSimple_eq]
  rw [forFields_put (item := fun f => ⟨.structField, [cppType ctx.useLists f (targetOf msgs f), f.name]⟩) m.fields
    fun f hm => by
      show (Emit.lift _).bind _ = _
      rw [lift_ok (fieldNativeType_eq (hk f hm) ctx.useLists)]
      rfl]
  simp only [Emit.bind, messageCalls, List.append_assoc, List.cons_append, List.nil_append, if_true,
    Bool.false_eq_true, if_false, Emit.put]

/-! ### Success requires all of this -/

theorem forFields_res_ok {f : Field → Emit Unit} {fs : List Field} (h : (forFields f fs).res = .ok ()) :
    ∀ x ∈ fs, ∃ a, (f x).res = .ok a := by
  induction fs with
  | nil => simp
  | cons x fs ih =>
    obtain ⟨a, h1, h2⟩ := bind_res_ok h
    intro y hy
    rcases List.mem_cons.mp hy with rfl | hy
    · exact ⟨a, h1⟩
    · exact ih h2 y hy

theorem lift_res_ok {α : Type} {r : Res α} {a : α} (h : (Emit.lift r).res = .ok a) : r = .ok a := h

theorem transient_of_isPersistent {fs : List Field} {b : Bool} (h : isPersistent fs = .ok b) (hb : b = false) :
    ∀ f ∈ fs, isTransient f = .ok true := by
  induction fs with
  | nil => simp
  | cons f fs ih =>
    rw [isPersistent] at h
    obtain ⟨t, h1, h2⟩ := rbind_ok h
    intro g hg
    cases t with
    | false => rw [if_neg (by simp)] at h2; injection h2 with h2; rw [← h2] at hb; cases hb
    | true =>
      rw [if_pos rfl] at h2
      rcases List.mem_cons.mp hg with rfl | hg
      · exact h1
      · exact ih h2 g hg

theorem writeItems_res_ok {ctx : Ctx} {fs : List Field} (h : (writeItems ctx fs).res = .ok ()) :
    ∀ f ∈ fs, isTransient f = .ok true ∨ (isTransient f = .ok false ∧ ∃ n, jsonName f = .ok n) := by
  induction fs with
  | nil => simp
  | cons f fs ih =>
    rw [writeItems, bind_eq] at h
    obtain ⟨t, h1, h2⟩ := bind_res_ok h
    have h1 := lift_res_ok h1
    intro g hg
    cases t with
    | true =>
      rw [if_pos rfl] at h2
      rcases List.mem_cons.mp hg with rfl | hg
      · exact Or.inl h1
      · exact ih h2 g hg
    | false =>
      rw [if_neg (by simp), bind_eq] at h2
      obtain ⟨n, h3, h4⟩ := bind_res_ok h2
      rw [bind_eq] at h4
      obtain ⟨_, _, h5⟩ := bind_res_ok h4
      rcases List.mem_cons.mp hg with rfl | hg
      · exact Or.inr ⟨h1, n, lift_res_ok h3⟩
      · exact ih h5 g hg

theorem optionsOk_of {f : Field}
    (h : isTransient f = .ok true ∨ (isTransient f = .ok false ∧ ∃ n, jsonName f = .ok n)) : FieldOptionsOk f := by
  have ht : ∀ o, f.options.find b!"transient" = some o → o.type = .boolean := by
    rcases h with h | ⟨h, _⟩ <;> exact isTransient_type h
  refine ⟨ht, fun hp => ?_⟩
  rw [isTransient_ok ht, hp] at h
  rcases h with h | ⟨_, n, hn⟩
  · cases h
  · exact jsonName_ok_inv hn

theorem generateMessage_ok {msgs : List Message} {ctx : Ctx} {m : Message}
    (h : (generateMessage msgs ctx m).res = .ok ()) : MessageOk msgs m := by
  unfold generateMessage at h
  by_cases hl : m.fields.length > maxFields
  · rw [if_pos hl] at h; cases h
  rw [if_neg hl] at h
  simp only [bind_eq] at h
  obtain ⟨_, _, h⟩ := bind_res_ok h
  obtain ⟨_, hmodel, h⟩ := bind_res_ok h
  obtain ⟨_, hwrap, _⟩ := bind_res_ok h
  refine ⟨by unfold maxFields at hl; omega, fun f hf => ⟨?_, ?_⟩⟩
  · simp only [generateModelWrapper, bind_eq] at hwrap
    obtain ⟨p, hp, hwrap⟩ := bind_res_ok hwrap
    have hp := lift_res_ok hp
    obtain ⟨_, _, hwrap⟩ := bind_res_ok hwrap
    obtain ⟨_, _, hwrap⟩ := bind_res_ok hwrap
    obtain ⟨_, hw, _⟩ := bind_res_ok hwrap
    refine optionsOk_of ?_
    cases p with
    | false => exact Or.inl (transient_of_isPersistent hp rfl f hf)
    | true =>
      unfold genWrite at hw
      have hne : ¬ m.fields.length = 0 := by
        intro h0
        rw [List.eq_nil_of_length_eq_zero h0] at hf
        cases hf
      rw [if_neg (by simpa using hne)] at hw
      simp only [bind_eq] at hw
      obtain ⟨_, _, hw⟩ := bind_res_ok hw
      obtain ⟨_, hw, _⟩ := bind_res_ok hw
      exact writeItems_res_ok hw f hf
  · simp only [generateModel, bind_eq] at hmodel
    obtain ⟨_, _, hmodel⟩ := bind_res_ok hmodel
    obtain ⟨_, _, hmodel⟩ := bind_res_ok hmodel
    obtain ⟨_, hff, _⟩ := bind_res_ok hmodel
    obtain ⟨a, ha⟩ := forFields_res_ok hff f hf
    obtain ⟨t, ht, _⟩ := bind_res_ok ha
    exact fieldNativeType_linked (lift_res_ok ht)

theorem generateMessage_ok_iff {msgs : List Message} {ctx : Ctx} {m : Message} :
    (generateMessage msgs ctx m).res = .ok () ↔ MessageOk msgs m :=
  ⟨generateMessage_ok, fun h => by rw [generateMessage_eq h]⟩

/-! ### Which exceptions there are -/

/-- Not still running, and an exception is of one of these kinds. -/
def Throws {α : Type} (r : Res α) (ks : List GKind) : Prop := r ≠ .running ∧ ∀ e, r = .exc e → e.kind ∈ ks

theorem Throws.ok {α : Type} (a : α) (ks : List GKind) : Throws (.ok a) ks := ⟨nofun, nofun⟩

theorem Throws.mono {α : Type} {r : Res α} {ks ks' : List GKind} (h : Throws r ks) (hk : ∀ k ∈ ks, k ∈ ks') :
    Throws r ks' := ⟨h.1, fun e he => hk _ (h.2 e he)⟩

theorem Throws.rbind {α β : Type} {m : Res α} {f : α → Res β} {ks : List GKind} (h : Throws m ks)
    (hf : ∀ a, m = .ok a → Throws (f a) ks) : Throws (m.bind f) ks := by
  cases m with
  | ok a => exact hf a rfl
  | exc e => exact ⟨nofun, fun e' he => by injection he with he; exact he ▸ h.2 e rfl⟩
  | running => exact absurd rfl h.1

theorem Throws.bind {α β : Type} {m : Emit α} {f : α → Emit β} {ks : List GKind} (h : Throws m.res ks)
    (hf : ∀ a, m.res = .ok a → Throws (f a).res ks) : Throws (m.bind f).res ks := by
  unfold Emit.bind
  cases hm : m.res with
  | ok a => exact hf a hm
  | exc e => exact ⟨nofun, fun e' he => by injection he with he; exact he ▸ h.2 e hm⟩
  | running => exact absurd hm h.1

theorem getBool_throws (m : OptMap) (n : Bytes) (d : Bool) : Throws (getBool m n d) [.notBoolean] := by
  unfold getBool
  split
  · exact .ok _ _
  · split
    · exact ⟨nofun, fun e he => by injection he with he; subst he; exact List.mem_cons_self⟩
    · exact .ok _ _

theorem jsonName_throws (f : Field) : Throws (jsonName f) [.notString, .quotes] := by
  refine .rbind ?_ fun a _ => ?_
  · unfold getString
    split
    · exact .ok _ _
    · split
      · exact ⟨nofun, fun e he => by injection he with he; subst he; exact List.mem_cons_self⟩
      · exact .ok _ _
  · split
    · exact ⟨nofun, fun e he => by injection he with he; subst he; exact List.mem_cons_of_mem _ List.mem_cons_self⟩
    · exact .ok _ _

theorem forFields_throws {f : Field → Emit Unit} {ks : List GKind} (fs : List Field) (h : ∀ x, Throws (f x).res ks) :
    Throws (forFields f fs).res ks := by
  induction fs with
  | nil => exact .ok _ _
  | cons x fs ih => exact .bind (h x) fun _ _ => ih

theorem fieldNativeType_throws (msgs : List Message) (f : Field) (u : Bool) :
    Throws (fieldNativeType msgs f u) [.nullRef] := by
  refine .rbind ?_ fun a _ => ?_
  · unfold valueType
    split
    · exact .ok _ _
    · exact .ok _ _
    · unfold nativeType
      split
      · exact ⟨nofun, fun e he => by injection he with he; subst he; exact List.mem_cons_self⟩
      · exact .ok _ _
  · split
    · exact .ok _ _
    · split <;> exact .ok _ _

theorem readItems_throws (fs : List Field) (i : Nat) : Throws (readItems i fs).res [.notBoolean] := by
  induction fs generalizing i with
  | nil => exact .ok _ _
  | cons f fs ih =>
    rw [readItems]
    refine .bind (getBool_throws _ _ _) fun t _ => ?_
    split
    · exact ih i
    · exact .bind (.ok _ _) fun _ _ => ih _

/-- The exceptions about options. -/
def optionKinds : List GKind := [.notBoolean, .notString, .quotes]

theorem writeItems_throws (ctx : Ctx) (fs : List Field) : Throws (writeItems ctx fs).res optionKinds := by
  induction fs with
  | nil => exact .ok _ _
  | cons f fs ih =>
    rw [writeItems]
    refine .bind ((getBool_throws _ _ _).mono (by decide)) fun t _ => ?_
    split
    · exact ih
    · exact .bind ((jsonName_throws f).mono (by decide)) fun _ _ => .bind (.ok _ _) fun _ _ => ih

theorem indexItems_throws (ctx : Ctx) (fs : List Field) (i : Nat) : Throws (indexItems ctx i fs).res optionKinds := by
  induction fs generalizing i with
  | nil => exact .ok _ _
  | cons f fs ih =>
    rw [indexItems]
    refine .bind ((getBool_throws _ _ _).mono (by decide)) fun t _ => ?_
    split
    · exact ih i
    · exact .bind ((jsonName_throws f).mono (by decide)) fun _ _ => .bind (.ok _ _) fun _ _ => ih _

theorem isPersistent_throws (fs : List Field) : Throws (isPersistent fs) [.notBoolean] := by
  induction fs with
  | nil => exact .ok _ _
  | cons f fs ih =>
    rw [isPersistent]
    refine .rbind (getBool_throws _ _ _) fun t _ => ?_
    split
    · exact ih
    · exact .ok _ _

theorem namespace_throws (m : Message) (b : Bool) (ks : List GKind) : Throws (generateNamespace m b).res ks := by
  rw [generateNamespace_eq]; exact .ok _ _

theorem genSimple_throws (a b c d : Tpl) (m : Message) (t : Bytes) (ks : List GKind) :
    Throws (genSimple a b c d m t).res ks := by
  unfold genSimple
  split
  · exact .ok _ _
  · exact .bind (.ok _ _) fun _ _ => .bind (forFields_throws _ fun _ => .ok _ _) fun _ _ => .ok _ _

theorem generateMessage_throws (msgs : List Message) (ctx : Ctx) (m : Message) :
    Throws (generateMessage msgs ctx m).res
      (if m.fields.length > 64 then [.tooMany] else .nullRef :: optionKinds) := by
  unfold generateMessage
  by_cases hl : m.fields.length > maxFields
  · rw [if_pos hl, if_pos (by exact hl)]
    exact ⟨nofun, fun e he => by injection he with he; subst he; exact List.mem_cons_self⟩
  · rw [if_neg hl, if_neg (by exact hl)]
    refine .bind (.ok _ _) fun _ _ => .bind ?_ fun _ _ => .bind ?_ fun _ _ => .bind ?_ fun _ _ => .ok _ _
    · refine .bind (namespace_throws _ _ _) fun _ _ => .bind (.ok _ _) fun _ _ => .bind ?_ fun _ _ =>
        .bind (.ok _ _) fun _ _ => namespace_throws _ _ _
      exact forFields_throws _ fun f => .bind ((fieldNativeType_throws _ _ _).mono (by decide)) fun _ _ => .ok _ _
    · refine .bind ((isPersistent_throws _).mono (by decide)) fun p _ => .bind (.ok _ _) fun _ _ => .bind ?_ fun _ _ =>
        .bind ?_ fun _ _ => .bind (genSimple_throws ..) fun _ _ => .bind (genSimple_throws ..) fun _ _ =>
        .bind (genSimple_throws ..) fun _ _ => .bind (genSimple_throws ..) fun _ _ => .bind ?_ fun _ _ => .ok _ _
      · unfold genRead
        split
        · exact .ok _ _
        · exact .bind (.ok _ _) fun _ _ => .bind ((readItems_throws _ _).mono (by decide)) fun _ _ => .ok _ _
      · unfold genWrite
        split
        · exact .ok _ _
        · exact .bind (.ok _ _) fun _ _ => .bind ((writeItems_throws _ _).mono (by decide)) fun _ _ => .ok _ _
      · unfold genIndex
        split
        · exact .ok _ _
        · exact .bind (.ok _ _) fun _ _ => .bind ((indexItems_throws _ _ _).mono (by decide)) fun _ _ => .ok _ _
    · exact .bind (namespace_throws _ _ _) fun _ _ => .bind (.ok _ _) fun _ _ => namespace_throws _ _ _

end PG.Gen
