import Verif.Proofs.GenTypesRun
/-
The functions of cppgen.cc that print (cppgen.cc:169-205, 253-480), executed.
-/
set_option autoImplicit false
namespace PG.Cxx.Throw
open PG.Proto PG.Gen Maker

variable {s : Bool} {w : Given}

/-! ### `get_json_name` -/

theorem chr_39 {c : Byte} : (IT.ofByte s c = 39) = (c = 39) := by
  rw [← ofByte_inj (σ := s), show IT.ofByte s 39 = 39 from by cases s <;> rfl]
theorem chr_34 {c : Byte} : (IT.ofByte s c = 34) = (c = 34) := by rw [← ofByte_inj (σ := s), lit_34]

/-- The variables of `get_json_name` in its loop. -/
def jsonVars (s : Bool) (f : Field) (v : Bytes) (st : Printed) (r : Bytes) (_ : Unit) : St GVal Printed :=
  ⟨[[(n!"c'", .iter (r.map fun c => .int .char (IT.ofByte s c)))], [(n!"name", .str v)], [(n!"field", .dom (.field f))]], st⟩

theorem jsonName_runs (n : Nat) (f : Field) (st : Printed) (hn : ∀ v, getString f.options b!"name" f.name = .ok v → v.length < n) :
    run (genLib s w) n jsonNameFun [.dom (.field f)] st =
      (resOf st (jsonName f)).bind fun v => .ok (.str v, [.dom (.field f)], st) := by
  unfold jsonName
  cxg [jsonNameFun]
  cases h : getString f.options b!"name" f.name with
  | running => rfl
  | exc e => rfl
  | ok v =>
    cxg [jsonNameFun]
    rw [show (⟨_, _⟩ : St GVal Printed) = jsonVars s f v st v () from rfl]
    refine iterate_list (β := Val GVal × List (Val GVal) × Printed) (jsonVars s f v st) (fun _ c => if c = 39 ∨ c = 34 then
        .thrown (.during st (GExc.text ⟨.quotes, f.name, 1, 1⟩) 1 1) else .ok (.next, ())) (fun _ _ => True)
      (fun r _ => (resOf st (if r.any (fun c => c = c!"'" || c = c!"\"") then .exc ⟨.quotes, f.name, 1, 1⟩ else .ok v)).bind fun v =>
        .ok (.str v, [.dom (.field f)], st)) _ ?_ ?_ ?_ ?_ ?_ ?_ n v () trivial (hn v h)
    · intro xs a
      cxg [jsonVars, List.length_map]
    · intro c xs a _
      by_cases h1 : c = 39
      · cxg [jsonVars, jsonNameFunBody1, chr_39, chr_34, h1]
        rfl
      · by_cases h2 : c = 34
        · cxg [jsonVars, jsonNameFunBody1, chr_39, chr_34, h1, h2]
          rfl
        · cxg [jsonVars, jsonNameFunBody1, chr_39, chr_34, h1, h2]
    · intro c xs a
      cxg [jsonVars]
    · intros; trivial
    · intro a _
      cxg [jsonVars, jsonNameFun, List.any_nil]
    · intro c xs a _
      by_cases h1 : c = 39
      · cxg [after, h1, List.any_cons]
      · by_cases h2 : c = 34
        · cxg [after, h1, h2, List.any_cons]
        · cxg [after, h1, h2, List.any_cons]

/-! ### Printing -/

theorem does_bind {α β : Type} (rt : Runtime) (st : Printed) (e : Emit α) (f : α → Emit β) :
    does rt st (e >>= f) = (does rt st e).bind fun r => does rt r.2 (f r.1) := by
  show does rt st (e.bind f) = _
  obtain ⟨cs, r⟩ := e
  cases r with
  | ok a =>
    simp only [does, Emit.bind, resOf, Ran.bind_ok, List.map_append, List.append_assoc]
  | exc e => rfl
  | running => rfl
theorem does_bind' {α β : Type} (rt : Runtime) (st : Printed) (e : Emit α) (f : α → Emit β) :
    does rt st (e.bind f) = (does rt st e).bind fun r => does rt r.2 (f r.1) := does_bind rt st e f
theorem does_pure {α : Type} (rt : Runtime) (st : Printed) (a : α) : does rt st (Emit.pure a) = .ok (a, st) := by
  simp [does, Emit.pure, resOf, Ran.bind]
theorem does_lift {α : Type} (rt : Runtime) (st : Printed) (r : Gen.Res α) : does rt st (Emit.lift r) = (resOf st r).bind fun a => .ok (a, st) := by
  simp [does, Emit.lift]
theorem does_put (rt : Runtime) (st : Printed) (t : Tpl) (args : List Bytes) :
    does rt st (Emit.put t args) = .ok ((), st ++ [(t.text rt, args)]) := (rfl)
theorem sameDoes {α β : Type} {rt : Runtime} {st : Printed} {e : Emit α} {f g : α × Printed → Ran β} (h : ∀ a, f a = g a) :
    (does rt st e).bind f = (does rt st e).bind g := by
  cases does rt st e <;> first | rfl | exact h _
theorem gen_texts0 : texts [] = some [] := (rfl)
theorem gen_textsS (x : Bytes) (r : List (Val GVal)) : texts (.str x :: r) = (texts r).map (x :: ·) := (rfl)
theorem gen_textsI (t : IT) (k : Int) (r : List (Val GVal)) : texts (.int t k :: r) = (texts r).map (decInt k :: ·) := (rfl)
theorem tpl_namespaceOpen (rt : Runtime) : Tpl.text rt .namespaceOpen = b!"namespace $1$ {\n" := (rfl)
theorem tpl_namespaceClose (rt : Runtime) : Tpl.text rt .namespaceClose = b!"} // namespace $1$\n" := (rfl)
theorem tpl_structOpen (rt : Runtime) : Tpl.text rt .structOpen = b!"\tstruct $1$_type\n\t{\n" := (rfl)
theorem tpl_structField (rt : Runtime) : Tpl.text rt .structField = b!"\t\t$1$ $2$;\n" := (rfl)
theorem tpl_structClose (rt : Runtime) : Tpl.text rt .structClose = b!"\t};\n" := (rfl)
theorem tpl_title (rt : Runtime) : Tpl.text rt .title = b!"\n//\n// $1$\n//\n" := (rfl)
theorem tpl_endGuard (rt : Runtime) : Tpl.text rt .endGuard = b!"#endif // $1$\n" := (rfl)
attribute [cxt] tpl_namespaceOpen tpl_namespaceClose tpl_structOpen tpl_structField tpl_structClose tpl_title tpl_endGuard
attribute [cxt] gen_texts0 gen_textsS gen_textsI does_bind does_bind' does_pure does_lift does_put printing

/-! ### `generateNamespace` -/

/-- The variables of `generateNamespace` in its loop. -/
def spaceVars (s : Bool) (c : Gen.Ctx) (o : List Nat) (m : Message) (b : Bool) (r : Bytes) (a : Bytes × Printed) : St GVal Printed :=
  ⟨[[(n!"c'", .iter (r.map fun c => .int .char (IT.ofByte s c)))], [(n!"package", .str (m.package ++ b!".")), (n!"name", .str a.1)],
    [(n!"ctx", .dom (.ctx c o)), (n!"message", .dom (.msg m)), (n!"opening", .bool b)]], a.2⟩

theorem namespace_runs (n : Nat) (c : Gen.Ctx) (o : List Nat) (m : Message) (b : Bool) (st : Printed) (hn : m.package.length + 1 < n) :
    run (genLib s w) n namespaceFun [.dom (.ctx c o), .dom (.msg m), .bool b] st =
      (does w.rt st (generateNamespace m b)).bind fun r => .ok (.void, [.dom (.ctx c o), .dom (.msg m), .bool b], r.2) := by
  unfold generateNamespace
  by_cases h : m.package = []
  · cxg [namespaceFun, h, List.isEmpty_nil]
  · have h2 : m.package.isEmpty = false := by simp [h]
    cxg [namespaceFun, h, h2]
    rw [show (⟨_, _⟩ : St GVal Printed) = spaceVars s c o m b (m.package ++ b!".") ([], st) from rfl]
    refine iterate_list (β := Val GVal × List (Val GVal) × Printed) (spaceVars s c o m b)
      (fun a x => .ok (.next, if x = 46 then ([], a.2 ++ [((if b then .namespaceOpen else .namespaceClose : Tpl).text w.rt, [a.1])])
        else (a.1 ++ [x], a.2))) (fun _ _ => True)
      (fun r a => (does w.rt a.2 (namespaceLoop b a.1 r)).bind fun r => .ok (.void, [.dom (.ctx c o), .dom (.msg m), .bool b], r.2))
      _ ?_ ?_ ?_ ?_ ?_ ?_ n _ ([], st) trivial (by simpa using hn)
    · intro xs a
      cxg [spaceVars, List.length_map]
    · intro x xs a _
      by_cases h : x = 46
      · cases b
        · cxg [spaceVars, namespaceFunBody1, h]
        · cxg [spaceVars, namespaceFunBody1, h]
      · cxg [spaceVars, namespaceFunBody1, chr_46, h]
    · intro x xs a
      cxg [spaceVars]
    · intros; trivial
    · intro a _
      cxg [spaceVars, namespaceFun, namespaceLoop]
    · intro x xs a _
      by_cases h : x = 46
      · cxg [after, h, namespaceLoop]
      · cxg [after, h, namespaceLoop]

/-! ### `generateModel` for a message -/

/-- The variables of `generateModel` in its loop. -/
def modelVars (c : Gen.Ctx) (o : List Nat) (m : Message) (r : List Field) (a : Printed) : St GVal Printed :=
  ⟨[[(n!"field'", .iter (r.map fun f => .dom (.field f)))], [], [(n!"ctx", .dom (.ctx c o)), (n!"message", .dom (.msg m))]], a⟩

theorem model_runs (n : Nat) (c : Gen.Ctx) (o : List Nat) (m : Message) (st : Printed) (hn : m.fields.length < n)
    (hv : ∀ f ∈ m.fields, Valid w.msgs f) :
    run (genLib s w) n Maker.modelFun [.dom (.ctx c o), .dom (.msg m)] st =
      (does w.rt st (generateModel w.msgs c m)).bind fun r => .ok (.void, [.dom (.ctx c o), .dom (.msg m)], r.2) := by
  unfold generateModel
  cxg [Maker.modelFun]
  refine sameDoes fun r => ?_
  cxg [Maker.modelFun]
  change (iterate _ _ _ n (modelVars c o m m.fields _)).bind _ = _
  refine (iterate_list (β := Val GVal × List (Val GVal) × Printed) (modelVars c o m)
      (fun a f => (resOf a (fieldNativeType w.msgs f c.useLists)).bind fun x => .ok (.next, a ++ [(Tpl.text w.rt .structField, [x, f.name])]))
      (fun r _ => ∀ f ∈ r, Valid w.msgs f)
      (fun r a => (does w.rt a (forFields (fun f => do
          let type ← Emit.lift (fieldNativeType w.msgs f c.useLists)
          Emit.put .structField [type, f.name]) r)).bind fun r =>
        (does w.rt (r.2 ++ [(Tpl.text w.rt .structClose, [])]) (generateNamespace m false)).bind fun r =>
        .ok (.void, [.dom (.ctx c o), .dom (.msg m)], r.2))
      _ ?_ ?_ ?_ ?_ ?_ ?_ n _ _ hv hn).trans (sameDoes fun r => by cxg [])
  · intro xs a
    cxg [modelVars, List.length_map]
  · intro f xs a hx
    have hf := hx f (List.mem_cons_self ..)
    cxg [modelVars, Maker.modelFunBody1, hf]
    refine sameRes fun x => ?_
    cxg [modelVars, Maker.modelFunBody1]
  · intro f xs a
    cxg [modelVars]
  · intro f xs a r hx _ _ g hg
    exact hx g (List.mem_cons_of_mem _ hg)
  · intro a _
    cxg [modelVars, Maker.modelFun, forFields]
    refine sameDoes fun x => ?_
    cxg [modelVars, Maker.modelFun, forFields]
  · intro f xs a _
    cxg [after, forFields]
    refine sameRes fun x => ?_
    cxg [after, forFields]

/-! ### `generate_function__empty`, `…__clear`, `…__equal`, `…__swap` -/

/-- The variables of these functions in their loops. -/
def simpleVars (c : Gen.Ctx) (o : List Nat) (m : Message) (x : Bytes) (r : List Field) (a : Nat × Printed) : St GVal Printed :=
  ⟨[[(n!"field'", .iter (r.map fun f => .dom (.field f)))], [(n!"i", .int .i32 a.1)],
    [(n!"ctx", .dom (.ctx c o)), (n!"message", .dom (.msg m)), (n!"typeName", .str x)]], a.2⟩

theorem fit_step {k : Nat} (h : k + 1 < 2147483648) : IT.fit .i32 ((k : Int) + 1) = some ((k + 1 : Nat) : Int) := by
  rw [fit_i32 (by omega)]
  rfl
theorem convert_zero (t u : IT) : IT.convert s t u 0 = 0 := by
  cases t <;> cases u <;> cases s <;> rfl
theorem length_zero {m : Message} (h : ¬ m.fields.length = 0) : ((m.fields.length : Int) = 0) = False := by
  simp only [eq_iff_iff, iff_false]; omega

theorem emptyFields_runs (n : Nat) (c : Gen.Ctx) (o : List Nat) (m : Message) (x : Bytes) (st : Printed) (hn : m.fields.length < n)
    (hl : m.fields.length < 2147483648) :
    run (genLib s w) n Maker.emptyFun [.dom (.ctx c o), .dom (.msg m), .str x] st =
      (does w.rt st (genSimple .emptyEmpty .emptyHeader .emptyItem .emptyFooter m x)).bind fun r =>
        .ok (.void, [.dom (.ctx c o), .dom (.msg m), .str x], r.2) := by
  unfold genSimple
  by_cases h : m.fields.length = 0
  · cxg [Maker.emptyFun, h, List.length_map, convert_self, convert_zero]
  · cxg [Maker.emptyFun, h, List.length_map, convert_self, convert_zero, length_zero h]
    change (iterate _ _ _ n (simpleVars c o m x m.fields (0, _))).bind _ = _
    refine iterate_list (β := Val GVal × List (Val GVal) × Printed) (simpleVars c o m x)
      (fun a f => .ok (.next, (a.1 + 1, a.2 ++ [(Tpl.text w.rt .emptyItem, [f.name])]))) (fun r a => r.length + a.1 < 2147483648)
      (fun r a => (does w.rt a.2 (forFields (fun f => Emit.put .emptyItem [f.name]) r)).bind fun r =>
        .ok (.void, [.dom (.ctx c o), .dom (.msg m), .str x], r.2 ++ [(Tpl.text w.rt .emptyFooter, [])]))
      _ ?_ ?_ ?_ ?_ ?_ ?_ n _ (0, _) (by simpa using hl) hn
    · intro xs a
      cxg [simpleVars, List.length_map]
    · intro f xs a ha
      have e : IT.fit .i32 ((a.1 : Int) + 1) = some ((a.1 + 1 : Nat) : Int) := fit_step (by simp at ha; omega)
      cxg [simpleVars, Maker.emptyFunBody1, e, convert_self]
    · intro f xs a
      cxg [simpleVars]
    · intro f xs a r ha hr _
      cases hr
      simp at ha ⊢
      omega
    · intro a _
      cxg [simpleVars, Maker.emptyFun, forFields]
    · intro f xs a _
      cxg [after, forFields]

theorem clearFields_runs (n : Nat) (c : Gen.Ctx) (o : List Nat) (m : Message) (x : Bytes) (st : Printed) (hn : m.fields.length < n)
    (hl : m.fields.length < 2147483648) :
    run (genLib s w) n Maker.clearFun [.dom (.ctx c o), .dom (.msg m), .str x] st =
      (does w.rt st (genSimple .clearEmpty .clearHeader .clearItem .clearFooter m x)).bind fun r =>
        .ok (.void, [.dom (.ctx c o), .dom (.msg m), .str x], r.2) := by
  unfold genSimple
  by_cases h : m.fields.length = 0
  · cxg [Maker.clearFun, h, List.length_map, convert_self, convert_zero]
  · cxg [Maker.clearFun, h, List.length_map, convert_self, convert_zero, length_zero h]
    change (iterate _ _ _ n (simpleVars c o m x m.fields (0, _))).bind _ = _
    refine iterate_list (β := Val GVal × List (Val GVal) × Printed) (simpleVars c o m x)
      (fun a f => .ok (.next, (a.1 + 1, a.2 ++ [(Tpl.text w.rt .clearItem, [f.name])]))) (fun r a => r.length + a.1 < 2147483648)
      (fun r a => (does w.rt a.2 (forFields (fun f => Emit.put .clearItem [f.name]) r)).bind fun r =>
        .ok (.void, [.dom (.ctx c o), .dom (.msg m), .str x], r.2 ++ [(Tpl.text w.rt .clearFooter, [])]))
      _ ?_ ?_ ?_ ?_ ?_ ?_ n _ (0, _) (by simpa using hl) hn
    · intro xs a
      cxg [simpleVars, List.length_map]
    · intro f xs a ha
      have e : IT.fit .i32 ((a.1 : Int) + 1) = some ((a.1 + 1 : Nat) : Int) := fit_step (by simp at ha; omega)
      cxg [simpleVars, Maker.clearFunBody1, e, convert_self]
    · intro f xs a
      cxg [simpleVars]
    · intro f xs a r ha hr _
      cases hr
      simp at ha ⊢
      omega
    · intro a _
      cxg [simpleVars, Maker.clearFun, forFields]
    · intro f xs a _
      cxg [after, forFields]

theorem equalFields_runs (n : Nat) (c : Gen.Ctx) (o : List Nat) (m : Message) (x : Bytes) (st : Printed) (hn : m.fields.length < n)
    (hl : m.fields.length < 2147483648) :
    run (genLib s w) n Maker.equalFun [.dom (.ctx c o), .dom (.msg m), .str x] st =
      (does w.rt st (genSimple .equalEmpty .equalHeader .equalItem .equalFooter m x)).bind fun r =>
        .ok (.void, [.dom (.ctx c o), .dom (.msg m), .str x], r.2) := by
  unfold genSimple
  by_cases h : m.fields.length = 0
  · cxg [Maker.equalFun, h, List.length_map, convert_self, convert_zero]
  · cxg [Maker.equalFun, h, List.length_map, convert_self, convert_zero, length_zero h]
    change (iterate _ _ _ n (simpleVars c o m x m.fields (0, _))).bind _ = _
    refine iterate_list (β := Val GVal × List (Val GVal) × Printed) (simpleVars c o m x)
      (fun a f => .ok (.next, (a.1 + 1, a.2 ++ [(Tpl.text w.rt .equalItem, [f.name])]))) (fun r a => r.length + a.1 < 2147483648)
      (fun r a => (does w.rt a.2 (forFields (fun f => Emit.put .equalItem [f.name]) r)).bind fun r =>
        .ok (.void, [.dom (.ctx c o), .dom (.msg m), .str x], r.2 ++ [(Tpl.text w.rt .equalFooter, [])]))
      _ ?_ ?_ ?_ ?_ ?_ ?_ n _ (0, _) (by simpa using hl) hn
    · intro xs a
      cxg [simpleVars, List.length_map]
    · intro f xs a ha
      have e : IT.fit .i32 ((a.1 : Int) + 1) = some ((a.1 + 1 : Nat) : Int) := fit_step (by simp at ha; omega)
      cxg [simpleVars, Maker.equalFunBody1, e, convert_self]
    · intro f xs a
      cxg [simpleVars]
    · intro f xs a r ha hr _
      cases hr
      simp at ha ⊢
      omega
    · intro a _
      cxg [simpleVars, Maker.equalFun, forFields]
    · intro f xs a _
      cxg [after, forFields]

theorem swapFields_runs (n : Nat) (c : Gen.Ctx) (o : List Nat) (m : Message) (x : Bytes) (st : Printed) (hn : m.fields.length < n)
    (hl : m.fields.length < 2147483648) :
    run (genLib s w) n Maker.swapFun [.dom (.ctx c o), .dom (.msg m), .str x] st =
      (does w.rt st (genSimple .swapEmpty .swapHeader .swapItem .swapFooter m x)).bind fun r =>
        .ok (.void, [.dom (.ctx c o), .dom (.msg m), .str x], r.2) := by
  unfold genSimple
  by_cases h : m.fields.length = 0
  · cxg [Maker.swapFun, h, List.length_map, convert_self, convert_zero]
  · cxg [Maker.swapFun, h, List.length_map, convert_self, convert_zero, length_zero h]
    change (iterate _ _ _ n (simpleVars c o m x m.fields (0, _))).bind _ = _
    refine iterate_list (β := Val GVal × List (Val GVal) × Printed) (simpleVars c o m x)
      (fun a f => .ok (.next, (a.1 + 1, a.2 ++ [(Tpl.text w.rt .swapItem, [f.name])]))) (fun r a => r.length + a.1 < 2147483648)
      (fun r a => (does w.rt a.2 (forFields (fun f => Emit.put .swapItem [f.name]) r)).bind fun r =>
        .ok (.void, [.dom (.ctx c o), .dom (.msg m), .str x], r.2 ++ [(Tpl.text w.rt .swapFooter, [])]))
      _ ?_ ?_ ?_ ?_ ?_ ?_ n _ (0, _) (by simpa using hl) hn
    · intro xs a
      cxg [simpleVars, List.length_map]
    · intro f xs a ha
      have e : IT.fit .i32 ((a.1 : Int) + 1) = some ((a.1 + 1 : Nat) : Int) := fit_step (by simp at ha; omega)
      cxg [simpleVars, Maker.swapFunBody1, e, convert_self]
    · intro f xs a
      cxg [simpleVars]
    · intro f xs a r ha hr _
      cases hr
      simp at ha ⊢
      omega
    · intro a _
      cxg [simpleVars, Maker.swapFun, forFields]
    · intro f xs a _
      cxg [after, forFields]

end PG.Cxx.Throw
