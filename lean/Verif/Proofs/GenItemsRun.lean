import Verif.Proofs.GenEmitRun
/-
`generate_function__read_field`, `…__write`, `…__index` (cppgen.cc:262-314, 396-424), executed.
-/
set_option autoImplicit false
namespace PG.Cxx.Throw
open PG.Proto PG.Gen Maker

variable {s : Bool} {w : Given}

theorem decInt_nat (k : Nat) : decInt (k : Int) = decNat k := by simp [decInt]

/-- The variables of these functions in their loops. -/
def itemVars (ps : List (Name × Val GVal)) (r : List Field) (a : Nat × Printed) : St GVal Printed :=
  ⟨[[(n!"field'", .iter (r.map fun f => .dom (.field f)))], [(n!"i", .int .i32 a.1)], ps], a.2⟩

theorem read_runs (n : Nat) (c : Gen.Ctx) (o : List Nat) (m : Message) (x : Bytes) (b : Bool) (st : Printed) (hn : m.fields.length < n)
    (hl : m.fields.length < 2147483648) :
    run (genLib s w) n Maker.readFun [.dom (.ctx c o), .dom (.msg m), .str x, .bool b] st =
      (does w.rt st (genRead m x b)).bind fun r => .ok (.void, [.dom (.ctx c o), .dom (.msg m), .str x, .bool b], r.2) := by
  unfold genRead
  by_cases h : m.fields.length = 0
  · cxg [Maker.readFun, h, List.length_map, convert_self, convert_zero]
  cases b
  · cxg [Maker.readFun, h, List.length_map, convert_self, convert_zero, length_zero h]
  · cxg [Maker.readFun, h, List.length_map, convert_self, convert_zero, length_zero h]
    change (iterate _ _ _ n (itemVars [(n!"ctx", .dom (.ctx c o)), (n!"message", .dom (.msg m)), (n!"typeName", .str x), (n!"is_persistent", .bool true)]
      m.fields (0, _))).bind _ = _
    refine (iterate_list (β := Val GVal × List (Val GVal) × Printed) (itemVars _)
      (fun a f => (resOf a.2 (isTransient f)).bind fun t => .ok (if t then (.continue, a) else
        (.next, (a.1 + 1, a.2 ++ [(Tpl.text w.rt .readFieldItem, [decNat a.1, f.name])])))) (fun r a => r.length + a.1 < 2147483648)
      (fun r a => (does w.rt a.2 (readItems a.1 r)).bind fun r =>
        .ok (.void, [.dom (.ctx c o), .dom (.msg m), .str x, .bool true], r.2 ++ [(Tpl.text w.rt .readFieldFooter, [])]))
      _ ?_ ?_ ?_ ?_ ?_ ?_ n _ (0, _) (by simpa using hl) hn).trans (sameDoes fun r => by cxg [])
    · intro xs a
      cxg [itemVars, List.length_map]
    · intro f xs a ha
      have e : IT.fit .i32 ((a.1 : Int) + 1) = some ((a.1 + 1 : Nat) : Int) := fit_step (by simp at ha; omega)
      cxg [itemVars, Maker.readFunBody1]
      refine sameRes fun t => ?_
      cases t <;> cxg [e, convert_self, decInt_nat, itemVars]
    · intro f xs a
      cxg [itemVars]
    · intro f xs a r ha hr hf
      cases ht : isTransient f with
      | ok t =>
        rw [ht] at hr
        cases t <;> cases hr <;> simp at ha ⊢ <;> omega
      | exc e => rw [ht] at hr; cases hr
      | running => rw [ht] at hr; cases hr
    · intro a _
      cxg [itemVars, Maker.readFun, readItems]
    · intro f xs a _
      cxg [after, readItems]
      refine sameRes fun t => ?_
      cases t <;> cxg [after]

theorem write_runs (n : Nat) (c : Gen.Ctx) (o : List Nat) (m : Message) (x : Bytes) (b : Bool) (st : Printed) (hn : m.fields.length < n)
    (hl : m.fields.length < 2147483648) :
    run (genLib s w) n Maker.writeFun [.dom (.ctx c o), .dom (.msg m), .str x, .bool b] st =
      (does w.rt st (genWrite c m x b)).bind fun r => .ok (.void, [.dom (.ctx c o), .dom (.msg m), .str x, .bool b], r.2) := by
  unfold genWrite
  by_cases h : m.fields.length = 0
  · cxg [Maker.writeFun, h, List.length_map, convert_self, convert_zero]
  cases b
  · cxg [Maker.writeFun, h, List.length_map, convert_self, convert_zero, length_zero h]
  · cxg [Maker.writeFun, h, List.length_map, convert_self, convert_zero, length_zero h]
    change (iterate _ _ _ n (itemVars [(n!"ctx", .dom (.ctx c o)), (n!"message", .dom (.msg m)), (n!"typeName", .str x), (n!"is_persistent", .bool true)]
      m.fields (0, _))).bind _ = _
    refine (iterate_list (β := Val GVal × List (Val GVal) × Printed) (itemVars _)
      (fun a f => (resOf a.2 (isTransient f)).bind fun t => if t then .ok (.continue, a) else
        (resOf a.2 (jsonName f)).bind fun name => .ok (.next, (a.1 + 1, a.2 ++ [(Tpl.text w.rt .writeItem, [f.name,
          if c.obfuscate then print [obfuscateText (labelOf c f name)] b!"reveal(\"$1$\")" else print [labelOf c f name] b!"\"$1$\""])])))
      (fun r a => r.length + a.1 < 2147483648)
      (fun r a => (does w.rt a.2 (writeItems c r)).bind fun r =>
        .ok (.void, [.dom (.ctx c o), .dom (.msg m), .str x, .bool true], r.2 ++ [(Tpl.text w.rt .writeFooter, [])]))
      _ ?_ ?_ ?_ ?_ ?_ ?_ n _ (0, _) (by simpa using hl) hn).trans (sameDoes fun r => by cxg [])
    · intro xs a
      cxg [itemVars, List.length_map]
    · intro f xs a ha
      have e : IT.fit .i32 ((a.1 : Int) + 1) = some ((a.1 + 1 : Nat) : Int) := fit_step (by simp at ha; omega)
      cxg [itemVars, Maker.writeFunBody1]
      refine sameRes fun t => ?_
      cases t
      · cxg [e, convert_self, itemVars]
        refine sameRes fun name => ?_
        cases hc : c.numberNames <;> cases hd : c.obfuscate <;> cxg [e, convert_self, itemVars, hc, hd, labelOf]
      · cxg [e, convert_self, itemVars]
    · intro f xs a
      cxg [itemVars]
    · intro f xs a r ha hr hf
      revert hr
      cases isTransient f with
      | ok t =>
        cases t
        · cases jsonName f with
          | ok v => intro hr; cases hr; simp at ha ⊢; omega
          | exc e => nofun
          | running => nofun
        · intro hr; cases hr; simp at ha ⊢; omega
      | exc e => nofun
      | running => nofun
    · intro a _
      cxg [itemVars, Maker.writeFun, writeItems]
    · intro f xs a _
      cxg [after, writeItems]
      refine sameRes fun t => ?_
      cases t
      · cxg [after]
        refine sameRes fun t => ?_
        cxg [after]
      · cxg [after]

theorem index_runs (n : Nat) (c : Gen.Ctx) (o : List Nat) (m : Message) (b : Bool) (st : Printed) (hn : m.fields.length < n)
    (hl : m.fields.length < 2147483648) :
    run (genLib s w) n Maker.indexFun [.dom (.ctx c o), .dom (.msg m), .bool b] st =
      (does w.rt st (genIndex c m b)).bind fun r => .ok (.void, [.dom (.ctx c o), .dom (.msg m), .bool b], r.2) := by
  unfold genIndex
  by_cases h : m.fields.length = 0
  · cxg [Maker.indexFun, h, List.length_map, convert_self, convert_zero]
  cases b
  · cxg [Maker.indexFun, h, List.length_map, convert_self, convert_zero, length_zero h]
  · cases hd : c.obfuscate
    all_goals
      cxg [Maker.indexFun, h, List.length_map, convert_self, convert_zero, length_zero h, hd]
      change (iterate _ _ _ n (itemVars [(n!"ctx", .dom (.ctx c o)), (n!"message", .dom (.msg m)), (n!"is_persistent", .bool true)]
        m.fields (0, _))).bind _ = _
      refine (iterate_list (β := Val GVal × List (Val GVal) × Printed) (itemVars _)
        (fun a f => (resOf a.2 (isTransient f)).bind fun t => if t then .ok (.continue, a) else
          (resOf a.2 (jsonName f)).bind fun name => .ok (.next, (a.1 + 1, a.2 ++ [(Tpl.text w.rt .indexItem, [
            if c.obfuscate then obfuscateText (labelOf c f name) else labelOf c f name, decNat a.1])])))
        (fun r a => r.length + a.1 < 2147483648)
        (fun r a => (does w.rt a.2 (indexItems c a.1 r)).bind fun r =>
          .ok (.void, [.dom (.ctx c o), .dom (.msg m), .bool true], r.2 ++ [(Tpl.text w.rt .indexFooter, [])]))
        _ ?_ ?_ ?_ ?_ ?_ ?_ n _ (0, _) (by simpa using hl) hn).trans (sameDoes fun r => by cxg [])
      · intro xs a
        cxg [itemVars, List.length_map]
      · intro f xs a ha
        have e : IT.fit .i32 ((a.1 : Int) + 1) = some ((a.1 + 1 : Nat) : Int) := fit_step (by simp at ha; omega)
        cxg [itemVars, Maker.indexFunBody1]
        refine sameRes fun t => ?_
        cases t
        · cxg [e, convert_self, itemVars]
          refine sameRes fun name => ?_
          cases hc : c.numberNames <;> cxg [e, convert_self, itemVars, hc, hd, labelOf, decInt_nat]
        · cxg [e, convert_self, itemVars]
      · intro f xs a
        cxg [itemVars]
      · intro f xs a r ha hr hf
        revert hr
        cases isTransient f with
        | ok t =>
          cases t
          · cases jsonName f with
            | ok v => intro hr; cases hr; simp at ha ⊢; omega
            | exc e => nofun
            | running => nofun
          · intro hr; cases hr; simp at ha ⊢; omega
        | exc e => nofun
        | running => nofun
      · intro a _
        cxg [itemVars, Maker.indexFun, indexItems]
      · intro f xs a _
        cxg [after, indexItems]
        refine sameRes fun t => ?_
        cases t
        · cxg [after]
          refine sameRes fun t => ?_
          cxg [after]
        · cxg [after]

/-! ### `generateModelWrapper` -/

/-- The variables of `generateModelWrapper` in its loop. -/
def wrapVars (c : Gen.Ctx) (o : List Nat) (m : Message) (st : Printed) (r : List Field) (a : Bool) : St GVal Printed :=
  ⟨[[(n!"field'", .iter (r.map fun f => .dom (.field f)))], [(n!"is_persistent", .bool a), (n!"typeName", .str (structName m))],
    [(n!"ctx", .dom (.ctx c o)), (n!"message", .dom (.msg m))]], st⟩

theorem wrapper_runs (n : Nat) (c : Gen.Ctx) (o : List Nat) (m : Message) (st : Printed) (hn : m.fields.length < n)
    (hl : m.fields.length < 2147483648) :
    run (genLib s w) n Maker.wrapperFun [.dom (.ctx c o), .dom (.msg m)] st =
      (does w.rt st (generateModelWrapper c m)).bind fun r => .ok (.void, [.dom (.ctx c o), .dom (.msg m)], r.2) := by
  unfold generateModelWrapper
  cxg [Maker.wrapperFun]
  change (iterate _ _ _ n (wrapVars c o m st m.fields false)).bind _ = _
  refine (iterate_list (β := Val GVal × List (Val GVal) × Printed) (wrapVars c o m st)
      (fun a f => (resOf st (isTransient f)).bind fun t => .ok (if t then (.next, a) else (.break, true)))
      (fun _ a => a = false)
      (fun r a => (resOf st (isPersistent r)).bind fun p => (does w.rt st (do
          Emit.put .jsonModelHeader [versionNaming, structName m]
          genRead m (structName m) p
          genWrite c m (structName m) p
          genSimple .emptyEmpty .emptyHeader .emptyItem .emptyFooter m (structName m)
          genSimple .clearEmpty .clearHeader .clearItem .clearFooter m (structName m)
          genSimple .equalEmpty .equalHeader .equalItem .equalFooter m (structName m)
          genSimple .swapEmpty .swapHeader .swapItem .swapFooter m (structName m)
          genIndex c m p
          Emit.put .jsonModelFooter [versionNaming])).bind fun r =>
        .ok (.void, [.dom (.ctx c o), .dom (.msg m)], r.2))
      _ ?_ ?_ ?_ ?_ ?_ ?_ n _ _ rfl hn).trans (sameRes fun r => by cxg [])
  · intro xs a
    cxg [wrapVars, List.length_map]
  · intro f xs a _
    cxg [wrapVars, Maker.wrapperFunBody1]
    refine sameRes fun t => ?_
    cases t <;> cxg [wrapVars]
  · intro f xs a
    cxg [wrapVars]
  · intro f xs a r ha hr hf
    revert hr
    cases isTransient f with
    | ok t => cases t <;> intro hr <;> cases hr <;> first | exact ha | (cases hf <;> rename_i h <;> cases h)
    | exc e => nofun
    | running => nofun
  · intro a ha
    subst ha
    cxg [wrapVars, Maker.wrapperFun, isPersistent, hl]
    repeat (refine sameDoes fun _ => ?_; cxg [Maker.wrapperFun, hl])
  · intro f xs a ha
    subst ha
    cxg [isPersistent]
    refine sameRes fun t => ?_
    cases t
    · cxg [wrapVars, Maker.wrapperFun, after, hl]
      repeat (refine sameDoes fun _ => ?_; cxg [Maker.wrapperFun, hl])
    · cxg [after]

end PG.Cxx.Throw
