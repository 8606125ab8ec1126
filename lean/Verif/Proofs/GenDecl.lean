import Verif.Proofs.GenFile
/-
The declarations of generated files.
-/
set_option autoImplicit false
namespace PG.Gen
open PG.Proto

/-- Templates that declare nothing and leave the namespaces alone. -/
def Tpl.inert : Tpl → Bool
  | .namespaceOpen | .namespaceClose | .structOpen | .structField | .entity => false
  | _ => true
/-- … calls. -/
def Inert (c : Call) : Prop := c.tpl.inert = true

theorem declarations_inert {cs : List Call} (h : ∀ c ∈ cs, Inert c) (path : List Bytes) (rest : List Call) :
    declarations path (cs ++ rest) = declarations path rest := by
  induction cs with
  | nil => rfl
  | cons c cs ih =>
    have h1 : c.tpl.inert = true := h c List.mem_cons_self
    rw [List.cons_append, declarations]
    rw [← ih fun d hd => h d (List.mem_cons_of_mem _ hd)]
    split
    · rename_i e _; rw [e] at h1; cases h1
    · rename_i e; rw [e] at h1; cases h1
    · rename_i e _; rw [e] at h1; cases h1
    · rename_i e _; rw [e] at h1; cases h1
    · rename_i e _; rw [e] at h1; cases h1
    · rfl

theorem declarations_open (ns : List Bytes) (path : List Bytes) (rest : List Call) :
    declarations path ((ns.map fun n => (⟨.namespaceOpen, [n]⟩ : Call)) ++ rest) = declarations (path ++ ns) rest := by
  induction ns generalizing path with
  | nil => simp
  | cons n ns ih =>
    rw [List.map_cons, List.cons_append, declarations]
    simp only
    rw [ih]; simp

theorem declarations_close (ns : List Bytes) : ∀ (path ps : List Bytes) (rest : List Call), ps.length = ns.length →
    declarations (path ++ ps) ((ns.map fun n => (⟨.namespaceClose, [n]⟩ : Call)) ++ rest) = declarations path rest := by
  induction ns with
  | nil =>
    intro path ps rest h
    rw [List.eq_nil_of_length_eq_zero h]; simp
  | cons n ns ih =>
    intro path ps rest h
    rw [List.map_cons, List.cons_append, declarations]
    simp only
    have hne : ps ≠ [] := by intro e; subst e; cases h
    rw [if_neg (by simp [hne]), List.dropLast_append_of_ne_nil hne]
    exact ih path ps.dropLast rest (by rw [List.length_dropLast, h]; rfl)

theorem declarations_fields (items : List (Bytes × Bytes)) (path : List Bytes) (rest : List Call) :
    declarations path ((items.map fun x => (⟨.structField, [x.1, x.2]⟩ : Call)) ++ rest) =
      (declarations path rest).map ((items.map fun x => Event.member x.1 x.2) ++ ·) := by
  induction items with
  | nil => simp
  | cons x items ih =>
    rw [List.map_cons, List.cons_append, declarations]
    simp only
    rw [ih]
    cases declarations path rest <;> simp

theorem inert_function {a b c d : Tpl} {m : Message}
    (h : ∀ t ∈ [a, b, c, d], t.inert = true) :
    ∀ x ∈ functionCalls a b c d m, Inert x := by
  intro x hx
  refine h x.tpl ?_
  unfold functionCalls at hx
  split at hx
  · simp only [List.mem_cons, List.not_mem_nil, or_false] at hx; subst hx; simp
  · simp only [List.mem_cons, List.mem_append, List.mem_map, List.not_mem_nil, or_false] at hx
    rcases hx with (rfl | ⟨f, _, rfl⟩) | rfl <;> simp

/-- The calls for the functions of a message. -/
def wrapperCalls (ctx : Ctx) (m : Message) : List Call :=
  let type := className m ++ b!"_type"
  let fs := m.fields.filter Persistent
  ([⟨.jsonModelHeader, [versionNaming, type]⟩] ++
    (if fs = [] then [⟨.readFieldEmpty, [type]⟩]
     else [⟨.readFieldHeader, [type]⟩] ++ fs.zipIdx.map (fun x => ⟨.readFieldItem, [decNat x.2, x.1.name]⟩) ++
       [⟨.readFieldFooter, []⟩]) ++
    (if fs = [] then [⟨.writeEmpty, [type]⟩]
     else [⟨.writeHeader, [type, versionNaming]⟩] ++
       fs.map (fun f => ⟨.writeItem, [f.name, labelText ctx (jsonNameIn ctx f)]⟩) ++ [⟨.writeFooter, []⟩]) ++
    functionCalls .emptyEmpty .emptyHeader .emptyItem .emptyFooter m ++
    functionCalls .clearEmpty .clearHeader .clearItem .clearFooter m ++
    functionCalls .equalEmpty .equalHeader .equalItem .equalFooter m ++
    functionCalls .swapEmpty .swapHeader .swapItem .swapFooter m ++
    (if fs = [] then [⟨.indexEmpty, []⟩]
     else [⟨if ctx.obfuscate then .indexHeaderObf else .indexHeader, []⟩] ++
       fs.zipIdx.map (fun x => ⟨.indexItem, [keyText ctx (jsonNameIn ctx x.1), decNat x.2]⟩) ++ [⟨.indexFooter, []⟩]) ++
    [⟨.jsonModelFooter, [versionNaming]⟩])

theorem wrapper_inert (ctx : Ctx) (m : Message) : ∀ c ∈ wrapperCalls ctx m, Inert c := by
  intro c hc
  simp only [wrapperCalls, List.mem_append] at hc
  rcases hc with (((((((h | h) | h) | h) | h) | h) | h) | h) | h
  · simp only [List.mem_cons, List.not_mem_nil, or_false] at h; subst h; rfl
  · split at h
    · simp only [List.mem_cons, List.not_mem_nil, or_false] at h; subst h; rfl
    · simp only [List.mem_cons, List.mem_append, List.mem_map, List.not_mem_nil, or_false] at h
      rcases h with (rfl | ⟨f, _, rfl⟩) | rfl <;> rfl
  · split at h
    · simp only [List.mem_cons, List.not_mem_nil, or_false] at h; subst h; rfl
    · simp only [List.mem_cons, List.mem_append, List.mem_map, List.not_mem_nil, or_false] at h
      rcases h with (rfl | ⟨f, _, rfl⟩) | rfl <;> rfl
  · exact inert_function (by decide) _ h
  · exact inert_function (by decide) _ h
  · exact inert_function (by decide) _ h
  · exact inert_function (by decide) _ h
  · split at h
    · simp only [List.mem_cons, List.not_mem_nil, or_false] at h; subst h; rfl
    · simp only [List.mem_cons, List.mem_append, List.mem_map, List.not_mem_nil, or_false] at h
      rcases h with (rfl | ⟨f, _, rfl⟩) | rfl
      · unfold Inert; dsimp only; cases ctx.obfuscate <;> rfl
      · rfl
      · rfl
  · simp only [List.mem_cons, List.not_mem_nil, or_false] at h; subst h; rfl

theorem messageCalls_eq (msgs : List Message) (ctx : Ctx) (m : Message) :
    messageCalls msgs ctx m =
      [⟨.title, [m.name]⟩] ++
      ((namespaces m.package).map (fun n => ⟨.namespaceOpen, [n]⟩) ++
      ([⟨.structOpen, [m.name]⟩] ++
      ((m.fields.map fun f => (cppType ctx.useLists f (targetOf msgs f), f.name)).map
        (fun x => (⟨.structField, [x.1, x.2]⟩ : Call)) ++
      ([⟨.structClose, []⟩] ++
      ((namespaces m.package).map (fun n => ⟨.namespaceClose, [n]⟩) ++
      (wrapperCalls ctx m ++
      ((namespaces m.package).map (fun n => ⟨.namespaceOpen, [n]⟩) ++
      ([⟨.entity, [m.name, className m ++ b!"_type", versionNaming]⟩] ++
      ((namespaces m.package).map (fun n => ⟨.namespaceClose, [n]⟩) ++
      [⟨.entityJson, [className m, className m ++ b!"_type", versionNaming]⟩]))))))))) := by
  simp only [messageCalls, wrapperCalls, List.append_assoc, List.map_map, Function.comp_def]

theorem declarations_one {c : Call} (h : Inert c) (path : List Bytes) (rest : List Call) :
    declarations path ([c] ++ rest) = declarations path rest := by
  refine declarations_inert ?_ path rest
  intro x hx
  simp only [List.mem_cons, List.not_mem_nil, or_false] at hx
  exact hx ▸ h

theorem declarations_message (msgs : List Message) (ctx : Ctx) (m : Message) (rest : List Call) :
    declarations [] (messageCalls msgs ctx m ++ rest) =
      (declarations [] rest).map (messageEvents msgs ctx m ++ ·) := by
  rw [messageCalls_eq]
  simp only [List.append_assoc]
  rw [declarations_one (by rfl), declarations_open, List.nil_append]
  rw [List.cons_append, declarations]
  simp only [List.nil_append]
  rw [declarations_fields]
  rw [declarations_one (by rfl)]
  have hc := declarations_close (namespaces m.package) [] (namespaces m.package)
  rw [List.nil_append] at hc
  rw [hc _ rfl, declarations_inert (wrapper_inert ctx m), declarations_open, List.nil_append]
  rw [List.cons_append, declarations]
  simp only [List.nil_append]
  rw [hc _ rfl, declarations_one (by rfl)]
  cases declarations [] rest <;> simp [messageEvents]

theorem declarations_all (msgs : List Message) (ctx : Ctx) (order : List Nat) (rest : List Call) :
    declarations [] ((order.flatMap fun i => ((msgs[i]?).map (messageCalls msgs ctx)).getD []) ++ rest) =
      (declarations [] rest).map ((order.flatMap fun i => ((msgs[i]?).map (messageEvents msgs ctx)).getD []) ++ ·) := by
  induction order with
  | nil => simp
  | cons i order ih =>
    rw [List.flatMap_cons, List.flatMap_cons, List.append_assoc]
    cases msgs[i]? with
    | none => simpa using ih
    | some m =>
      simp only [Option.map_some, Option.getD_some]
      rw [declarations_message, ih]
      cases declarations [] rest <;> simp

theorem declarations_file (fileName : Bytes) (msgs : List Message) (ctx : Ctx) (order : List Nat) (n : Needs) :
    declarations [] (inclusionCalls n ++ fileCalls fileName msgs ctx order) =
      some (order.flatMap fun i => ((msgs[i]?).map (messageEvents msgs ctx)).getD []) := by
  rw [declarations_inert, fileCalls, List.append_assoc, declarations_one (by rfl),
    declarations_all]
  · have : declarations [] [(⟨.endGuard, [makeGuard fileName]⟩ : Call)] = some [] := rfl
    rw [this]; simp
  · intro c hc
    simp only [inclusionCalls, List.mem_map] at hc
    obtain ⟨p, _, rfl⟩ := hc
    rfl

end PG.Gen
