import Verif.Proofs.GenSortRun
import Verif.Proofs.GenSort
/-!
`generateInclusions`, `generateModel` for the file and `CppGenerator::generate`: what running the C++ does is what the model says.
-/
set_option autoImplicit false
namespace PG.Cxx.Throw
open PG.Gen PG.Proto PG.Cxx.Maker

variable {s : Bool} {w : Given}

/-! ### `generateInclusions` -/

/-- The variables of `generateInclusions` in the outer loop. -/
def inclusionsVars (c : Gen.Ctx) (o : List Nat) (st : Printed) (j : Nat) (a : Needs) : St GVal Printed :=
  ⟨[[(n!"message'", .int .u64 j)], [(n!"has_number", .bool a.number), (n!"has_string", .bool a.string), (n!"has_base64", .bool a.base64), (n!"has_array", .bool a.array)], [(n!"ctx", .dom (.ctx c o))]], st⟩

/-- The variables of `generateInclusions` in the inner loop. -/
def neededVars (c : Gen.Ctx) (o : List Nat) (st : Printed) (j : Nat) (k : Nat) (a : Needs) : St GVal Printed :=
  ⟨[(n!"field'", .int .u64 k)] :: [] :: (inclusionsVars c o st j a).vars, st⟩

theorem needed_runs (n : Nat) (c : Gen.Ctx) (o : List Nat) (st : Printed) (j k i : Nat) (a : Needs) (m : Message) (f : Field)
    (hi : w.msgs[i]? = some m) (ho : (o.map fun i => (.dom (.ref (some i)) : Val GVal))[j]? = some (.dom (.ref (some i))))
    (hf : (m.fields.map fun f => (.dom (.field f) : Val GVal))[k]? = some (.dom (.field f))) :
    exec (genLib s w) n Maker.inclusionsFunBody1 (neededVars c o st j k a) =
      .ok (if (a.add f).array && (a.add f).base64 && (a.add f).string && (a.add f).number then .break else .next, neededVars c o st j k (a.add f)) := by
  have hr := gen_r_fields (s := s) (w := w) st hi
  obtain ⟨x, y, z, t⟩ := a
  have key : ∀ v : FType, v = .scalar .bytes ∨ v = .scalar .string ∨ v = .message ∨
      (isNumber v = true ∧ 6 ≤ (typeNum v : Int) ∧ (typeNum v : Int) ≤ 18) := by
    intro v
    cases v with
    | message => simp
    | scalar v => cases v <;> simp [typeNum, isNumber, Scalar.num]
  have l1 : ((20 : Int) ≤ 18) = False := by decide
  have l2 : ((21 : Int) ≤ 18) = False := by decide
  have finish : ∀ x y z t : Bool, ∀ u : Needs, u = ⟨x, y, z, t⟩ →
      ((if (x && y && z && t) = true then Ran.ok ((.break : Flow GVal), neededVars c o st j k ⟨x, y, z, t⟩)
        else Ran.ok (.next, neededVars c o st j k ⟨x, y, z, t⟩)) =
      .ok (if u.array && u.base64 && u.string && u.number then .break else .next, neededVars c o st j k u)) := by
    rintro x y z t u rfl
    cases x && y && z && t <;> rfl
  rcases key f.type.id with h | h | h | ⟨h, h2, h3⟩ <;> cases hp : f.type.repeated
  · refine Eq.trans ?_ (finish x y z t _ (by simp [Needs.add, hp, h, isNumber]))
    cxg [Maker.inclusionsFunBody1, neededVars, inclusionsVars, pointers, ho, hf, hr, h, hp, num_bytes, l1]
    split <;> (rename_i hq; cxg [hq])
  · refine Eq.trans ?_ (finish true true z t _ (by simp [Needs.add, hp, h, isNumber]))
    cxg [Maker.inclusionsFunBody1, neededVars, inclusionsVars, pointers, ho, hf, hr, h, hp, num_bytes, l1]
    split <;> (rename_i hq; cxg [hq])
  · refine Eq.trans ?_ (finish x y true t _ (by simp [Needs.add, hp, h, isNumber]))
    cxg [Maker.inclusionsFunBody1, neededVars, inclusionsVars, pointers, ho, hf, hr, h, hp, num_string]
    split <;> (rename_i hq; cxg [hq])
  · refine Eq.trans ?_ (finish true y true t _ (by simp [Needs.add, hp, h, isNumber]))
    cxg [Maker.inclusionsFunBody1, neededVars, inclusionsVars, pointers, ho, hf, hr, h, hp, num_string]
    split <;> (rename_i hq; cxg [hq])
  · refine Eq.trans ?_ (finish x y z t _ (by simp [Needs.add, hp, h, isNumber]))
    cxg [Maker.inclusionsFunBody1, neededVars, inclusionsVars, pointers, ho, hf, hr, h, hp, num_message, l2]
    split <;> (rename_i hq; cxg [hq])
  · refine Eq.trans ?_ (finish true y z t _ (by simp [Needs.add, hp, h, isNumber]))
    cxg [Maker.inclusionsFunBody1, neededVars, inclusionsVars, pointers, ho, hf, hr, h, hp, num_message, l2]
    split <;> (rename_i hq; cxg [hq])
  · have n1 : f.type.id ≠ .scalar .string := by intro e; rw [e] at h; cases h
    have n2 : f.type.id ≠ .scalar .bytes := by intro e; rw [e] at h; cases h
    have h4 : ¬ (typeNum f.type.id : Int) = 20 := by omega
    have h5 : ¬ (typeNum f.type.id : Int) = 19 := by omega
    refine Eq.trans ?_ (finish x y z true _ (by simp [Needs.add, hp, n1, n2, h]))
    cxg [Maker.inclusionsFunBody1, neededVars, inclusionsVars, pointers, ho, hf, hr, hp, h2, h3, eq_false h4, eq_false h5]
    split <;> (rename_i hq; cxg [hq])
  · have n1 : f.type.id ≠ .scalar .string := by intro e; rw [e] at h; cases h
    have n2 : f.type.id ≠ .scalar .bytes := by intro e; rw [e] at h; cases h
    have h4 : ¬ (typeNum f.type.id : Int) = 20 := by omega
    have h5 : ¬ (typeNum f.type.id : Int) = 19 := by omega
    refine Eq.trans ?_ (finish true y z true _ (by simp [Needs.add, hp, n1, n2, h]))
    cxg [Maker.inclusionsFunBody1, neededVars, inclusionsVars, pointers, ho, hf, hr, hp, h2, h3, eq_false h4, eq_false h5]
    split <;> (rename_i hq; cxg [hq])

theorem neededAll_runs (n : Nat) (c : Gen.Ctx) (o : List Nat) (st : Printed) (j i : Nat) (a : Needs) (m : Message)
    (hi : w.msgs[i]? = some m) (ho : (o.map fun i => (.dom (.ref (some i)) : Val GVal))[j]? = some (.dom (.ref (some i))))
    (hn : m.fields.length < n) (hl : m.fields.length < 18446744073709551616) :
    exec (genLib s w) n Maker.inclusionsFunBody2 (inclusionsVars c o st j a) = .ok (.next, inclusionsVars c o st j (a.addFields m.fields)) := by
  have hr := gen_r_fields (s := s) (w := w) st hi
  cxg [Maker.inclusionsFunBody2, inclusionsVars, pointers]
  change (iterate _ _ _ n (neededVars c o st j 0 a)).bind _ = .ok ((.next : Flow GVal), inclusionsVars c o st j (a.addFields m.fields))
  refine iterate_index (β := Flow GVal × St GVal Printed) m.fields (neededVars c o st j)
    (fun a f => .ok (if (a.add f).array && (a.add f).base64 && (a.add f).string && (a.add f).number then .break else .next, a.add f)) (fun _ _ => True)
    (fun r a => .ok (.next, inclusionsVars c o st j (a.addFields r))) _ ?_ ?_ ?_ ?_ ?_ ?_ n _ trivial hn
  · intro k a
    cxg [neededVars, inclusionsVars, pointers, ho, hr, List.length_map]
  · intro pre f xs a hp _
    have e := at_append (fun f => (.dom (.field f) : Val GVal)) pre xs f
    rw [← hp] at e
    rw [needed_runs n c o st j pre.length i a m f hi ho e]
    rfl
  · intro k a hk
    cxg [neededVars, inclusionsVars, fit_index k (by omega), convert_self]
  · intros; trivial
  · intro a _
    cxg [neededVars, inclusionsVars, Needs.addFields]
  · intro k f xs a _
    rw [Needs.addFields]
    by_cases h : (a.add f).array && (a.add f).base64 && (a.add f).string && (a.add f).number
    · cxg [after, h, neededVars, inclusionsVars]
    · cxg [after, h]

theorem foldl_range (g : Needs → Message → Needs) (l : List Message) : ∀ a,
    (List.range l.length).foldl (fun n i => ((l[i]?).map (g n)).getD n) a = l.foldl g a := by
  intro a
  have : ∀ (m : List Message) (k : Nat) (a : Needs), (∀ i, l[k + i]? = m[i]?) → 
      (List.range' k m.length).foldl (fun n i => ((l[i]?).map (g n)).getD n) a = m.foldl g a := by
    intro m
    induction m with
    | nil => intro k a _; rfl
    | cons x m ih =>
      intro k a h
      have h0 := h 0
      simp only [Nat.add_zero, List.getElem?_cons_zero] at h0
      simp only [List.length_cons, List.range'_succ, List.foldl_cons, h0, Option.map_some, Option.getD_some]
      refine ih (k + 1) _ fun i => ?_
      have := h (i + 1)
      rw [show k + 1 + i = k + (i + 1) by omega, this]
      rfl
  rw [List.range_eq_range']
  exact this l 0 a fun i => by rw [Nat.zero_add]

theorem does_pure' {α : Type} (rt : Runtime) (st : Printed) (a : α) : does rt st (pure a) = .ok (a, st) := does_pure rt st a

/-- What `generateInclusions` writes. -/
def inclusionsOf (n : Needs) : Emit Unit := do
  Emit.put (.runtime .protogen) []
  Emit.put (.runtime .json) []
  if n.array then Emit.put (.runtime .array) []
  if n.base64 then Emit.put (.runtime .base64) []
  if n.number then Emit.put (.runtime .number) []
  if n.string then Emit.put (.runtime .string) []

/-- What the messages at some positions need. -/
def neededBy (msgs : List Message) (o : List Nat) (a : Needs) : Needs :=
  o.foldl (fun n i => ((msgs[i]?).map fun m => n.addFields m.fields).getD n) a

theorem inclusionsOf_runs (n : Nat) (c : Gen.Ctx) (o : List Nat) (st : Printed) (hn : o.length < n) (hl : o.length < 18446744073709551616)
    (hv : ∀ i ∈ o, ∃ m, w.msgs[i]? = some m ∧ m.fields.length < n ∧ m.fields.length < 18446744073709551616) :
    run (genLib s w) n Maker.inclusionsFun [.dom (.ctx c o)] st =
      (does w.rt st (inclusionsOf (neededBy w.msgs o ⟨false, false, false, false⟩))).bind fun r =>
        .ok (.void, [.dom (.ctx c o)], r.2) := by
  cxg [Maker.inclusionsFun, pointers]
  change (iterate _ _ _ n (inclusionsVars c o st 0 ⟨false, false, false, false⟩)).bind _ = _
  refine (iterate_index (β := Val GVal × List (Val GVal) × Printed) o (inclusionsVars c o st)
    (fun a i => .ok (.next, ((w.msgs[i]?).map fun m => a.addFields m.fields).getD a)) (fun r _ => ∀ i ∈ r, i ∈ o)
    (fun r a => (does w.rt st (inclusionsOf (neededBy w.msgs r a))).bind fun r =>
      .ok (.void, [.dom (.ctx c o)], r.2)) _ ?_ ?_ ?_ ?_ ?_ ?_ n _ (fun _ h => h) hn).trans
    (sameDoes fun r => by cxg [])
  · intro j a
    cxg [inclusionsVars, pointers, List.length_map]
  · intro pre i xs a hp hq
    have e := at_append (fun i => (.dom (.ref (some i)) : Val GVal)) pre xs i
    rw [← hp] at e
    obtain ⟨m, hm, h1, h2⟩ := hv i (hq i (List.mem_cons_self ..))
    rw [neededAll_runs n c o st pre.length i a m hm e h1 h2, hm]
    rfl
  · intro j a hj
    cxg [inclusionsVars, fit_index j (by omega), convert_self]
  · intro i xs a r h _ _ k hk
    exact h k (List.mem_cons_of_mem _ hk)
  · intro a _
    rw [show neededBy w.msgs [] a = a from rfl]
    obtain ⟨x, y, z, t⟩ := a
    cases x <;> cases y <;> cases z <;> cases t <;> cxg [inclusionsVars, Maker.inclusionsFun, pointers, inclusionsOf, does_pure']
  · intro j i xs a _
    rw [show neededBy w.msgs (i :: xs) a = neededBy w.msgs xs (((w.msgs[i]?).map fun m => a.addFields m.fields).getD a) from rfl]
    cxg [after]

theorem inclusions_runs (n : Nat) (c : Gen.Ctx) (st : Printed) (hn : w.msgs.length < n) (hl : w.msgs.length < 18446744073709551616)
    (hf : ∀ m ∈ w.msgs, m.fields.length < n ∧ m.fields.length < 18446744073709551616) :
    run (genLib s w) n Maker.inclusionsFun [.dom (.ctx c (List.range w.msgs.length))] st =
      (does w.rt st (generateInclusions w.msgs)).bind fun r => .ok (.void, [.dom (.ctx c (List.range w.msgs.length))], r.2) := by
  rw [inclusionsOf_runs n c _ st (by simpa using hn) (by simpa using hl)]
  · rw [neededBy, foldl_range (fun n m => n.addFields m.fields)]
    rfl
  · intro i hi
    have hi := List.mem_range.mp hi
    exact ⟨w.msgs[i], by simp [hi], hf _ (List.getElem_mem hi)⟩

/-! ### `generateModel` for the file -/

theorem gen_deref {i : Nat} {m : Message} (st : Printed) (h : w.msgs[i]? = some m) :
    (genBase s w).unary n!"*" (.dom (.ref (some i))) st = some (.dom (.msg m)) := by
  show (w.msgs[i]?.map _) = _
  rw [h]
  rfl

/-- The variables of `generateModel` in its loop. -/
def fileVars (c : Gen.Ctx) (o : List Nat) (g : Bytes) (j : Nat) (st : Printed) : St GVal Printed :=
  ⟨[[(n!"message'", .int .u64 j)], [(n!"guard", .str g)], [(n!"ctx", .dom (.ctx c o))]], st⟩

theorem file_runs (hw : w.whole = true) (n : Nat) (c : Gen.Ctx) (st : Printed) (hl : Linked w.msgs) (hn : w.msgs.length < n)
    (hm : w.msgs.length < 18446744073709551616) (hf : ∀ m ∈ w.msgs, m.fields.length < 18446744073709551616) :
    run (genLib s w) n Maker.fileFun [.dom (.ctx c (List.range w.msgs.length))] st =
      (does w.rt st (generateFile w.depth w.fileName w.msgs c)).bind fun r => (resOf r.2 (sortAll w.msgs w.depth)).bind fun o =>
        .ok (.void, [.dom (.ctx c o)], r.2) := by
  unfold generateFile
  cxg [Maker.fileFun, does_lift, gen_sortAll _ _ hw]
  cases hs : sortLoop w.msgs w.depth (List.range w.msgs.length) ⟨[], []⟩ with
  | exc e =>
    have h : sortAll w.msgs w.depth = .exc e := by rw [sortAll, hs]; rfl
    cxg [h]
  | running =>
    have h : sortAll w.msgs w.depth = .running := by rw [sortAll, hs]; rfl
    rw [h]
    rfl
  | ok r =>
    have h : sortAll w.msgs w.depth = .ok r.output := by rw [sortAll, hs]; rfl
    have hlt := sortAll_lt hl h
    have hlen := nodup_bound _ _ (sortAll_ok h).2.1 hlt
    cxg [h, Maker.fileFun, pointers]
    generalize r.output = o at *
    change (iterate _ _ _ n (fileVars c o (makeGuard w.fileName) 0 (st ++ [(Tpl.text w.rt Tpl.header, [version, w.fileName, makeGuard w.fileName])]))).bind _ = _
    generalize st ++ [(Tpl.text w.rt Tpl.header, [version, w.fileName, makeGuard w.fileName])] = st
    refine (iterate_index (β := Val GVal × List (Val GVal) × Printed) o (fileVars c o (makeGuard w.fileName))
      (fun st i => (does w.rt st (match w.msgs[i]? with | none => Emit.pure () | some m => generateMessage w.msgs c m)).bind fun r => .ok (.next, r.2))
      (fun r _ => ∀ i ∈ r, i ∈ o)
      (fun r st => (does w.rt st (generateAll w.msgs c r)).bind fun r => .ok (.void, [.dom (.ctx c o)], r.2 ++ [(Tpl.text w.rt .endGuard, [makeGuard w.fileName])]))
      _ ?_ ?_ ?_ ?_ ?_ ?_ n _ (fun _ h => h) (by omega)).trans (sameDoes fun r => by cxg [h])
    · intro j a
      cxg [fileVars, pointers, List.length_map]
    · intro pre i xs a hp hq
      have e := at_append (fun i => (.dom (.ref (some i)) : Val GVal)) pre xs i
      rw [← hp] at e
      have hi := hlt i (hq i (List.mem_cons_self ..))
      have hm : w.msgs[i]? = some w.msgs[i] := by simp [hi]
      have hd := gen_deref (s := s) (w := w) a hm
      have hg := gen_generateMessage (s := s) (w := w) a c o w.msgs[i] ⟨hf _ (List.getElem_mem hi), fun f h j k => hl i j ⟨_, f, hm, h, k⟩⟩
      rw [hm]
      cxg [fileVars, Maker.fileFunBody1, pointers, e, hd, hg]
      refine sameDoes fun r => ?_
      cxg [fileVars, pointers]
    · intro j a hj
      cxg [fileVars, fit_index j (by omega), convert_self]
    · intro i xs a r h _ _ k hk
      exact h k (List.mem_cons_of_mem _ hk)
    · intro a _
      cxg [fileVars, Maker.fileFun, pointers, generateAll]
    · intro j i xs a _
      cxg [after, generateAll]
      refine sameDoes fun r => ?_
      cxg [after]

/-! ### `CppGenerator::generate` -/

theorem file_sorted {β : Type} (rt : Runtime) (n : Nat) (x : Bytes) (msgs : List Message) (c : Gen.Ctx) (st : Printed) (f : Printed → Ran β) :
    ((does rt st (generateFile n x msgs c)).bind fun r => (resOf r.2 (sortAll msgs n)).bind fun _ => f r.2) =
      (does rt st (generateFile n x msgs c)).bind fun r => f r.2 := by
  unfold generateFile
  rw [does_bind, does_put, Ran.bind_ok, does_bind, does_lift]
  cases sortAll msgs n with
  | ok o => rfl
  | exc e => rfl
  | running => rfl

/-- The generator as a whole: the result and what is printed (`root` is changed through `ctx.root`, a reference to it; what it is
after the call is not stated). -/
theorem generate_runs (hw : w.whole = true) (n : Nat) (st : Printed) (p : Bytes) :
    ((run (genLib s w) n Maker.generateFun [.dom (.root (List.range w.msgs.length)), .dom .out] st).bind fun r => .ok (r.1, r.2.2)) =
      (does w.rt st (generate w.depth w.fileName ⟨w.msgs, w.options, p⟩)).bind fun r => .ok (.void, r.2) := by
  unfold generate fileCtx
  cxg [Maker.generateFun, does_lift, hw]
  refine sameRes fun a => ?_
  cxg [Maker.generateFun, does_lift, hw]
  refine sameRes fun b => ?_
  cxg [Maker.generateFun, does_lift, hw]
  refine sameRes fun d => ?_
  cxg [Maker.generateFun, does_lift, hw]
  refine sameDoes fun r => ?_
  cxg [Maker.generateFun, does_lift, hw]
  refine Eq.trans ?_ (file_sorted w.rt w.depth w.fileName w.msgs ⟨d, a, b⟩ r.2 fun p => .ok ((.void : Val GVal), p))
  refine sameDoes fun r => ?_
  cxg []
  refine sameRes fun o => ?_
  cxg [Maker.generateFun]

end PG.Cxx.Throw
