import Verif.Props.Generator
/-
What the generator prints does not depend on the positions kept with the options, nor on the options of messages.
-/
set_option autoImplicit false
namespace PG.Gen
open PG.Proto

/-- What the generator uses of a message. -/
def core (m : Message) : Message := { fields := m.fields.map Field.erase, name := m.name, package := m.package, options := [] }

theorem find_erase (name : Bytes) : ∀ o : OptMap, (OptMap.erase o).find name = (o.find name).map OptEntry.erase
  | [] => rfl
  | (k, v) :: rest => by
    show OptMap.find ((k, v.erase) :: OptMap.erase rest) name = _
    simp only [OptMap.find]
    split
    · rfl
    · exact find_erase name rest

theorem persistent_erase (f : Field) : Persistent f.erase = Persistent f := by
  unfold Persistent
  show (match (OptMap.erase f.options).find b!"transient" with | some o => _ | none => true) = _
  rw [find_erase]
  cases f.options.find b!"transient" <;> rfl

theorem givenName_erase (f : Field) : givenName f.erase = givenName f := by
  unfold givenName
  show (match (OptMap.erase f.options).find b!"name" with | some o => _ | none => f.name) = _
  rw [find_erase]
  cases f.options.find b!"name" <;> rfl

theorem jsonNameIn_erase (ctx : Ctx) (f : Field) : jsonNameIn ctx f.erase = jsonNameIn ctx f := by
  unfold jsonNameIn
  rw [givenName_erase]
  rfl

theorem fieldOptionsOk_erase (f : Field) : FieldOptionsOk f.erase ↔ FieldOptionsOk f := by
  unfold FieldOptionsOk
  rw [persistent_erase, givenName_erase]
  have e : ∀ n (ty : OptType), (∀ o, f.erase.options.find n = some o → o.type = ty) ↔ ∀ o, f.options.find n = some o → o.type = ty := by
    intro n ty
    show (∀ o, (OptMap.erase f.options).find n = some o → _) ↔ _
    rw [find_erase]
    cases f.options.find n with
    | none => simp
    | some o => simp [OptEntry.erase]
  rw [e, e]

theorem fileOptionsOk_erase (o : OptMap) : FileOptionsOk (OptMap.erase o) ↔ FileOptionsOk o := by
  unfold FileOptionsOk
  refine forall_congr' fun n => forall_congr' fun _ => ?_
  rw [find_erase]
  cases o.find n with
  | none => simp
  | some o => simp [OptEntry.erase]

theorem ctxOf_erase (o : OptMap) : ctxOf (OptMap.erase o) = ctxOf o := by
  unfold ctxOf
  simp only [find_erase]
  cases o.find b!"obfuscate_strings" <;> cases o.find b!"cpp_use_lists" <;> cases o.find b!"number_names" <;> rfl

theorem className_core (m : Message) : className (core m) = className m := rfl

theorem targetOf_core (msgs : List Message) (f : Field) :
    (targetOf (msgs.map core) f.erase).map className = (targetOf msgs f).map className := by
  unfold targetOf
  show Option.map className (f.type.ref.bind fun i => (msgs.map core)[i]?) = _
  cases f.type.ref with
  | none => rfl
  | some i =>
    simp only [Option.bind_some, List.getElem?_map]
    cases msgs[i]? <;> rfl

theorem cppType_core (u : Bool) (msgs : List Message) (f : Field) :
    cppType u f.erase (targetOf (msgs.map core) f.erase) = cppType u f (targetOf msgs f) := by
  unfold cppType
  rw [targetOf_core]
  rfl

theorem functionCalls_core (a b c d : Tpl) (m : Message) : functionCalls a b c d (core m) = functionCalls a b c d m := by
  unfold functionCalls
  rw [className_core]
  have : ((core m).fields = []) ↔ (m.fields = []) := by simp [core]
  simp only [this]
  split
  · rfl
  · simp only [core, List.map_map]
    rfl

theorem filter_core (m : Message) :
    (core m).fields.filter Persistent = (m.fields.filter Persistent).map Field.erase := by
  simp only [core, List.filter_map]
  congr 1
  refine List.filter_congr fun f _ => ?_
  exact persistent_erase f

theorem map_erase {β : Type} (l : List Field) {g : Field → β} (h : ∀ f, g f.erase = g f) :
    (l.map Field.erase).map g = l.map g := by
  rw [List.map_map]
  exact List.map_congr_left fun f _ => h f

theorem zipIdx_erase {β : Type} (l : List Field) {g : Field × Nat → β} (h : ∀ f n, g (f.erase, n) = g (f, n)) :
    (l.map Field.erase).zipIdx.map g = l.zipIdx.map g := by
  rw [List.zipIdx_map, List.map_map]
  exact List.map_congr_left fun f _ => h f.1 f.2

theorem messageCalls_core (msgs : List Message) (ctx : Ctx) (m : Message) :
    messageCalls (msgs.map core) ctx (core m) = messageCalls msgs ctx m := by
  unfold messageCalls
  simp only [filter_core, functionCalls_core, className_core, List.map_eq_nil_iff]
  have h1 : ((core m).fields.map fun f => (⟨.structField, [cppType ctx.useLists f (targetOf (msgs.map core) f), f.name]⟩ : Call)) =
      m.fields.map fun f => ⟨.structField, [cppType ctx.useLists f (targetOf msgs f), f.name]⟩ := by
    simp only [core, List.map_map]
    refine List.map_congr_left fun f _ => ?_
    simp only [Function.comp]
    rw [cppType_core]
    rfl
  rw [h1]
  rw [map_erase (m.fields.filter Persistent) (g := fun f => (⟨.writeItem, [f.name, labelText ctx (jsonNameIn ctx f)]⟩ : Call))
    (fun f => by simp only [jsonNameIn_erase]; rfl)]
  rw [zipIdx_erase (m.fields.filter Persistent) (g := fun x => (⟨.readFieldItem, [decNat x.2, x.1.name]⟩ : Call)) (fun _ _ => rfl)]
  rw [zipIdx_erase (m.fields.filter Persistent)
    (g := fun x => (⟨.indexItem, [keyText ctx (jsonNameIn ctx x.1), decNat x.2]⟩ : Call))
    (fun f n => by simp only [jsonNameIn_erase])]
  rfl

theorem sortFields_erase (go : Nat → SortSt → Res SortSt) : ∀ (fs : List Field) (st : SortSt),
    sortFields go (fs.map Field.erase) st = sortFields go fs st
  | [], _ => rfl
  | f :: fs, st => by
    simp only [List.map_cons, sortFields]
    show (match f.type.ref with | none => _ | some r => _) = _
    cases f.type.ref with
    | none => exact sortFields_erase go fs st
    | some r =>
      dsimp only
      split
      · exact sortFields_erase go fs st
      · congr 1
        funext st
        exact sortFields_erase go fs st

theorem fieldsAt_core (msgs : List Message) (i : Nat) : fieldsAt (msgs.map core) i = (fieldsAt msgs i).map Field.erase := by
  unfold fieldsAt
  rw [List.getElem?_map]
  cases msgs[i]? <;> rfl

theorem nameAt_core (msgs : List Message) (i : Nat) : nameAt (msgs.map core) i = nameAt msgs i := by
  unfold nameAt
  rw [List.getElem?_map]
  cases msgs[i]? <;> rfl

theorem sortMessage_core (msgs : List Message) : ∀ n, sortMessage (msgs.map core) n = sortMessage msgs n
  | 0 => rfl
  | n + 1 => by
    funext m st
    simp only [sortMessage, nameAt_core, fieldsAt_core, sortFields_erase, sortMessage_core msgs n]

theorem sortAll_core (msgs : List Message) (n : Nat) : sortAll (msgs.map core) n = sortAll msgs n := by
  have : ∀ l st, sortLoop (msgs.map core) n l st = sortLoop msgs n l st := by
    intro l
    induction l with
    | nil => intro st; rfl
    | cons i l ih => intro st; simp only [sortLoop, sortMessage_core, ih]
  simp only [sortAll, this, List.length_map]

theorem needs_core (msgs : List Message) : needs (msgs.map core) = needs msgs := by
  rw [needs_eq, needs_eq]
  have : ∀ p : Field → Bool, (∀ f, p f.erase = p f) → someField p (msgs.map core) = someField p msgs := by
    intro p hp
    unfold someField
    rw [List.any_map]
    congr 1
    funext m
    simp only [Function.comp, core, List.any_map]
    congr 1
    funext f
    exact hp f
  unfold needsOf
  simp only [Needs.mk.injEq]
  exact ⟨this _ fun _ => rfl, this _ fun _ => rfl, this _ fun _ => rfl, this _ fun _ => rfl⟩

theorem fileCalls_core (fileName : Bytes) (msgs : List Message) (ctx : Ctx) (order : List Nat) :
    fileCalls fileName (msgs.map core) ctx order = fileCalls fileName msgs ctx order := by
  unfold fileCalls
  congr 3
  funext i
  rw [List.getElem?_map]
  cases msgs[i]? with
  | none => rfl
  | some m =>
    simp only [Option.map_some]
    rw [messageCalls_core]

end PG.Gen
