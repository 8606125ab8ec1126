import Verif.Proofs.CxxRead
import Verif.Proofs.CxxIgnore
/-
Containers and messages: json-array.hh:38-73, json.hh:33-61.
-/
set_option autoImplicit false
namespace PG.Cxx
variable {V F : Type} {σ : Bool} {ops : Ops V F}

section
variable (w : World)
theorem statik_readElem (x : V) : (runtimeLib σ ops).statik n!"typename T :: value_type" n!"read" w [.dom .ctx, .dom (.val x)] =
    returned (ops.read w.tz x).1 [none, some (.dom (.val (ops.read w.tz x).2.2))] { w with tz := (ops.read w.tz x).2.1 } := (rfl)
theorem statik_writeElem (x : V) : (runtimeLib σ ops).statik n!"typename T :: value_type" n!"write" w [.dom .ctx, .dom (.val x)] =
    returned (ops.write x w.tz.err).1 []
      { w with tz := { w.tz with err := (ops.write x w.tz.err).2.2 }, out := w.out ++ (ops.write x w.tz.err).2.1 } := (rfl)
theorem init_elem : (runtimeLib σ ops).init n!"typename T :: value_type" none w = some (.dom (.val ops.new)) := (rfl)
theorem function_readField (name : Bytes) (x : V) :
    (runtimeLib σ ops).function [n!"J", n!"read_field"] w [.dom .ctx, .str name, .dom (.val x)] =
    returned (ops.readField name w.tz x).1 [none, none, some (.dom (.val (ops.readField name w.tz x).2.2))]
      { w with tz := (ops.readField name w.tz x).2.1 } := (rfl)
attribute [cxx] statik_readElem statik_writeElem init_elem function_readField
end

theorem elems_push (v : List V) (x : V) :
    (.arr ((v.map fun x => .dom (.val x)) ++ [.dom (.val x)]) : Val (Dom V F)) = .arr ((v ++ [x]).map fun x => .dom (.val x)) := by
  rw [List.map_append]; rfl

theorem readArrLoop_not_nil {α : Type} (rd : Tz → Res α) (n : Nat) (tz : Tz) (v : List α) : (readArrLoop rd n tz v).1 ≠ .nil := by
  induction n generalizing tz v with
  | zero => exact fun h => by cases h
  | succ n ih =>
    have tail : ∀ (u : List α) (tz1 : Tz), (match tz1.expect .comma with
        | (true, tz) => readArrLoop rd n tz u
        | (false, tz) =>
          match tz.expect .arre with
          | (true, tz) => (.ok, tz, u)
          | (false, tz) => ((tz.error .invalidArray).1, (tz.error .invalidArray).2, u)).1 ≠ .nil := by
      intro u tz1
      split
      · exact ih _ _
      · split
        · exact fun h => by cases h
        · rw [error_fst]; exact fun h => by cases h
    rw [readArrLoop]
    rcases rd tz with ⟨rc, tz1, x⟩
    cases rc with
    | ok => exact tail _ _
    | nil => exact tail _ _
    | error => exact fun h => by cases h
    | fuel => exact fun h => by cases h

/-- The loop of the reader. -/
theorem readArray_loop (m n : Nat) (w : World) (v : List V) :
    iterate (test (runtimeLib σ ops) (.name n!"true")) (exec (runtimeLib σ ops) m readArrayFunBody1) some n
      ⟨[[], [], [(n!"ctx", .dom .ctx), (n!"value", .arr (v.map fun x => .dom (.val x)))]], w⟩ =
    match readArrLoop (fun tz => ops.read tz ops.new) n w.tz v with
    | (.ok, tz, v) => some (.next, ⟨[[], [], [(n!"ctx", .dom .ctx), (n!"value", .arr (v.map fun x => .dom (.val x)))]], { w with tz := tz }⟩)
    | (.error, tz, v) => some (.ret (.int .i32 1), ⟨[[], [], [(n!"ctx", .dom .ctx), (n!"value", .arr (v.map fun x => .dom (.val x)))]], { w with tz := tz }⟩)
    | _ => none := by
  induction n generalizing w v with
  | zero => rfl
  | succ n ih =>
    have h1 : test (runtimeLib σ ops) (.name n!"true")
        ⟨[[], [], [(n!"ctx", .dom .ctx), (n!"value", .arr (v.map fun x => .dom (.val x)))]], w⟩ =
        some (true, ⟨[[], [], [(n!"ctx", .dom .ctx), (n!"value", .arr (v.map fun x => .dom (.val x)))]], w⟩) := by
      cxx []
    rw [readArrLoop]
    rcases hr : ops.read w.tz ops.new with ⟨rc, tz1, x⟩
    cases rc with
    | fuel => rw [iterate_none h1 (by cxxi [readArrayFunBody1, hr])]
    | error => rw [iterate_ret h1 (by cxxi [readArrayFunBody1, hr, Int.reduceEq]; rfl)]
    | nil =>
      rcases h2 : tz1.expect .comma with ⟨b, tz2⟩
      cases b with
      | true =>
        rw [iterate_next h1 (by cxxi [readArrayFunBody1, hr, h2, Int.reduceEq]; rfl) rfl]
        simp only [h2]
        exact ih { w with tz := tz2 } v
      | false =>
        rcases h3 : tz2.expect .arre with ⟨b, tz3⟩
        cases b with
        | true =>
          rw [iterate_break h1 (by cxxi [readArrayFunBody1, hr, h2, h3, Int.reduceEq]; rfl)]
          simp only [h2, h3]
          rfl
        | false =>
          rw [iterate_ret h1 (by cxxi [readArrayFunBody1, hr, h2, h3, Int.reduceEq]; rfl)]
          simp only [h2, h3, error_fst]
          rfl
    | ok =>
      rcases h2 : tz1.expect .comma with ⟨b, tz2⟩
      cases b with
      | true =>
        rw [iterate_next h1 (by cxxi [readArrayFunBody1, hr, h2, Int.reduceEq]; rfl) rfl]
        simp only [h2]
        rw [elems_push]
        exact ih { w with tz := tz2 } (v ++ [x])
      | false =>
        rcases h3 : tz2.expect .arre with ⟨b, tz3⟩
        cases b with
        | true =>
          rw [iterate_break h1 (by cxxi [readArrayFunBody1, hr, h2, h3, Int.reduceEq]; rfl)]
          simp only [h2, h3]
          rw [elems_push]
          rfl
        | false =>
          rw [iterate_ret h1 (by cxxi [readArrayFunBody1, hr, h2, h3, Int.reduceEq]; rfl)]
          simp only [h2, h3, error_fst]
          rw [elems_push]
          rfl

/-- json-array.hh:38-61. -/
theorem readArray_runs (n : Nat) (v : List V) (w : World) :
    readArrayFun.run (runtimeLib σ ops) n [.dom .ctx, .arr (v.map fun x => .dom (.val x))] w =
      readAs (readArr (fun tz => ops.read tz ops.new) n w.tz v) (fun v => .arr (v.map fun x => .dom (.val x))) w := by
  unfold readArr
  by_cases h : w.tz.cur.id = .nil
  · cxx [readArrayFun, h, readAs, rcNumber]
  rcases h2 : w.tz.expect .arrs with ⟨b, tz1⟩
  cases b with
  | false => cxx [readArrayFun, h, h2, readAs, rcNumber, error_fst]
  | true =>
    rcases h3 : tz1.expect .arre with ⟨b, tz2⟩
    cases b with
    | true => cxx [readArrayFun, h, h2, h3, readAs, rcNumber]
    | false =>
      have hl := readArray_loop (σ := σ) (ops := ops) n n { w with tz := tz2 } v
      rcases hx : readArrLoop (fun tz => ops.read tz ops.new) n tz2 v with ⟨rc, tz3, v'⟩
      simp only [hx] at hl
      cases rc with
      | ok => cxx [readArrayFun, h, h2, h3, hl, hx, readAs, rcNumber]
      | error => cxx [readArrayFun, h, h2, h3, hl, hx, readAs, rcNumber, show readArrayFun.type = n!"static int" from rfl]
      | nil =>
        have := readArrLoop_not_nil (fun tz => ops.read tz ops.new) n tz2 v
        rw [hx] at this
        exact absurd rfl this
      | fuel => cxx [readArrayFun, h, h2, h3, hl, hx, readAs, rcNumber]

/-- The loop of the writer; `l` are the elements yet to be written. -/
theorem writeArray_loop (hw : ∀ x e, (ops.write x e).1 ≠ .fuel) (m n : Nat) (v l : List V) (i : Nat) (w : World) (hl : i + l.length = v.length)
    (hv : v.length < 2 ^ 64) (hn : l.length < n) :
    iterate (test (runtimeLib σ ops) (.binary n!"!=" (.name n!"it") (.call (.member (.name n!"value") n!"end") .nil)))
      (exec (runtimeLib σ ops) m writeArrayFunBody1)
      (perform (runtimeLib σ ops) (.comma (.incr n!"++" true (.name n!"it")) (.incr n!"++" true (.name n!"i")))) n
      ⟨[[(n!"it", .iter (l.map fun x => .dom (.val x)))], [(n!"t", .int .u64 ((v.length : Nat) : Int)), (n!"i", .int .u64 ((i : Nat) : Int))],
        [(n!"ctx", .dom .ctx), (n!"value", .arr (v.map fun x => .dom (.val x)))]], w⟩ =
    some (.next, ⟨[[(n!"it", .iter [])], [(n!"t", .int .u64 ((v.length : Nat) : Int)), (n!"i", .int .u64 ((v.length : Nat) : Int))],
        [(n!"ctx", .dom .ctx), (n!"value", .arr (v.map fun x => .dom (.val x)))]],
        { w with tz := { w.tz with err := (writeElems ops.write l w.tz.err).2 }, out := w.out ++ (writeElems ops.write l w.tz.err).1 }⟩) := by
  induction l generalizing n i w with
  | nil =>
    obtain ⟨n, rfl⟩ : ∃ k, n = k + 1 := ⟨n - 1, by simp only [List.length_nil] at hn; omega⟩
    simp only [List.length_nil, Nat.add_zero] at hl
    subst hl
    rw [iterate_done (by cxxi [List.map_nil]; rfl)]
    simp only [writeElems, List.append_nil]
  | cons x t ih =>
    obtain ⟨n, rfl⟩ : ∃ k, n = k + 1 := ⟨n - 1, by omega⟩
    rw [List.length_cons] at hl hn
    have hc : IT.fit .u64 ((i : Nat) + 1 : Int) = some ((i + 1 : Nat) : Int) := fit_nat (t := .u64) (x := i + 1) rfl (by simp only [IT.top]; omega)
    have hd : IT.convert σ .u64 .i32 ((i + 1 : Nat) : Int) = ((i + 1 : Nat) : Int) := convert_nat _ (by simp only [IT.top]; omega)
    rcases hr : ops.write x w.tz.err with ⟨rc, out, e⟩
    have hrc : ∃ k : Nat, rcNumber rc = some k := by
      cases rc with
      | fuel => exact absurd (by rw [hr]) (hw x w.tz.err)
      | ok => exact ⟨0, rfl⟩
      | error => exact ⟨1, rfl⟩
      | nil => exact ⟨2, rfl⟩
    obtain ⟨k, hk⟩ := hrc
    cases t with
    | nil =>
      have hlt : ¬ ((i + 1 : Nat) : Int) < (v.length : Int) := by rw [List.length_nil] at hl; omega
      rw [iterate_next (by cxxi [List.map_cons]; rfl) (by cxxi [writeArrayFunBody1, List.map_cons, hr, returned, hk, hc, hlt]; rfl) (by cxxi [hc]; rfl)]
      refine (ih n (i + 1) _ (by omega) (by omega)).trans ?_
      simp only [writeElems, hr, List.append_nil]
    | cons y t =>
      have hlt : ((i + 1 : Nat) : Int) < (v.length : Int) := by rw [List.length_cons] at hl; omega
      rw [iterate_next (by cxxi [List.map_cons]; rfl) (by cxxi [writeArrayFunBody1, List.map_cons, hr, returned, hk, hc, hlt]; rfl) (by cxxi [hc]; rfl)]
      refine (ih n (i + 1) _ (by omega) (by omega)).trans ?_
      rw [writeElems, hr]
      simp only [List.append_assoc, List.cons_append, List.nil_append]

/-- json-array.hh:62-73. -/
theorem writeArray_runs (hw : ∀ x e, (ops.write x e).1 ≠ .fuel) (n : Nat) (v : List V) (w : World) (hv : v.length < 2 ^ 64) (hn : v.length < n) :
    writeArrayFun.run (runtimeLib σ ops) n [.dom .ctx, .arr (v.map fun x => .dom (.val x))] w =
      wroteAs (.ok, c!"[" :: (writeElems ops.write v w.tz.err).1 ++ [c!"]"], (writeElems ops.write v w.tz.err).2)
        (.arr (v.map fun x => .dom (.val x))) w := by
  have hl := writeArray_loop (σ := σ) hw n n v v 0 { w with out := w.out ++ [c!"["] } (by omega) hv hn
  cxxi [writeArrayFun, List.length_map]
  rw [show ((0 : Nat) : Int) = 0 from rfl] at hl
  rw [hl]
  cxxi [show writeArrayFun.type = n!"static int" from rfl, wroteAs, rcNumber, List.append_assoc, List.cons_append, List.nil_append]

/-- The loop of `read_object`. -/
theorem readObject_loop (hrf : ∀ name tz v, (ops.readField name tz v).2.1.m ≤ tz.m) (m n : Nat) (w : World) (v : V) (hn : 2 * w.tz.m + 2 ≤ n) :
    iterate (test (runtimeLib σ ops) (.name n!"true")) (exec (runtimeLib σ ops) m readObjectFunBody1) some n
      ⟨[[], [], [(n!"ctx", .dom .ctx), (n!"object", .dom (.val v))]], w⟩ =
    match readObjLoop ops.readField n w.tz v with
    | (.ok, tz, v) => some (.next, ⟨[[], [], [(n!"ctx", .dom .ctx), (n!"object", .dom (.val v))]], { w with tz := tz }⟩)
    | (.error, tz, v) => some (.ret (.int .i32 1), ⟨[[], [], [(n!"ctx", .dom .ctx), (n!"object", .dom (.val v))]], { w with tz := tz }⟩)
    | _ => none := by
  induction n generalizing w v with
  | zero => rfl
  | succ n ih =>
    have h1 : test (runtimeLib σ ops) (.name n!"true")
        ⟨[[], [], [(n!"ctx", .dom .ctx), (n!"object", .dom (.val v))]], w⟩ =
        some (true, ⟨[[], [], [(n!"ctx", .dom .ctx), (n!"object", .dom (.val v))]], w⟩) := by
      cxx []
    rw [readObjLoop]
    rcases w.tz.expect_cases .string (by decide) (by decide) with ⟨tz1, e1, hm1⟩ | e1
    · rcases tz1.expect_cases .colon (by decide) (by decide) with ⟨tz2, e2, hm2⟩ | e2
      · simp only [e1, e2]
        have hm3 := hrf w.tz.cur.value tz2 v
        rcases hr : ops.readField w.tz.cur.value tz2 v with ⟨rc, tz3, v'⟩
        rw [hr] at hm3
        simp only at hm3
        cases rc with
        | fuel => rw [iterate_none h1 (by cxxi [readObjectFunBody1, e1, e2, hr])]
        | error => rw [iterate_ret h1 (by cxxi [readObjectFunBody1, e1, e2, hr, Int.reduceEq]; rfl)]
        | ok =>
          unfold objStep
          rcases tz3.expect_cases .comma (by decide) (by decide) with ⟨tz4, e4, hm4⟩ | e4
          · rw [iterate_continue h1 (by cxxi [readObjectFunBody1, e1, e2, hr, e4, Int.reduceEq]; rfl) rfl]
            simp only [e4]
            exact ih { w with tz := tz4 } v' (by show 2 * tz4.m + 2 ≤ n; omega)
          · simp only [e4]
            rcases e5 : tz3.expect .obje with ⟨b, tz5⟩
            cases b with
            | true => rw [iterate_break h1 (by cxxi [readObjectFunBody1, e1, e2, hr, e4, e5, Int.reduceEq]; rfl)]
            | false =>
              rw [iterate_ret h1 (by cxxi [readObjectFunBody1, e1, e2, hr, e4, e5, Int.reduceEq]; rfl)]
              simp only [error_fst]
        | nil =>
          simp only
          rw [ignoreValue_stable (b := enough tz3) (by omega) (by have := m_enough tz3; omega), ← skipValue]
          have hf := ignoreValue_fin (enough tz3) tz3 (by have := m_enough tz3; omega)
          rw [← skipValue] at hf
          rcases hs : skipValue tz3 with ⟨r, tz4⟩
          rw [hs] at hf
          have hf2 : tz4.m ≤ tz3.m := hf.2
          cases r with
          | fuel => exact absurd rfl hf.1
          | error => rw [iterate_ret h1 (by cxxi [readObjectFunBody1, e1, e2, hr, hs, Int.reduceEq]; rfl)]
          | ok =>
            unfold objStep
            rcases tz4.expect_cases .comma (by decide) (by decide) with ⟨tz5, e4, hm4⟩ | e4
            · rw [iterate_continue h1 (by cxxi [readObjectFunBody1, e1, e2, hr, hs, e4, Int.reduceEq]; rfl) rfl]
              simp only [e4]
              exact ih { w with tz := tz5 } v' (by show 2 * tz5.m + 2 ≤ n; omega)
            · simp only [e4]
              rcases e5 : tz4.expect .obje with ⟨b, tz5⟩
              cases b with
              | true => rw [iterate_break h1 (by cxxi [readObjectFunBody1, e1, e2, hr, hs, e4, e5, Int.reduceEq]; rfl)]
              | false =>
                rw [iterate_ret h1 (by cxxi [readObjectFunBody1, e1, e2, hr, hs, e4, e5, Int.reduceEq]; rfl)]
                simp only [error_fst]
          | nil =>
            unfold objStep
            rcases tz4.expect_cases .comma (by decide) (by decide) with ⟨tz5, e4, hm4⟩ | e4
            · rw [iterate_continue h1 (by cxxi [readObjectFunBody1, e1, e2, hr, hs, e4, Int.reduceEq]; rfl) rfl]
              simp only [e4]
              exact ih { w with tz := tz5 } v' (by show 2 * tz5.m + 2 ≤ n; omega)
            · simp only [e4]
              rcases e5 : tz4.expect .obje with ⟨b, tz5⟩
              cases b with
              | true => rw [iterate_break h1 (by cxxi [readObjectFunBody1, e1, e2, hr, hs, e4, e5, Int.reduceEq]; rfl)]
              | false =>
                rw [iterate_ret h1 (by cxxi [readObjectFunBody1, e1, e2, hr, hs, e4, e5, Int.reduceEq]; rfl)]
                simp only [error_fst]
      · simp only [e1, e2, error_fst]
        rw [iterate_ret h1 (by cxxi [readObjectFunBody1, e1, e2]; rfl)]
    · simp only [e1, error_fst]
      rw [iterate_ret h1 (by cxxi [readObjectFunBody1, e1]; rfl)]

theorem readObjLoop_not_nil {α : Type} (rf : Bytes → Tz → α → Res α) (n : Nat) (tz : Tz) (v : α) : (readObjLoop rf n tz v).1 ≠ .nil := by
  induction n generalizing tz v with
  | zero => exact fun h => by cases h
  | succ n ih =>
    have tail : ∀ (u : α) (tz1 : Tz), (match objStep tz1 with
        | (none, tz) => readObjLoop rf n tz u
        | (some r, tz) => (r, tz, u)).1 ≠ .nil := by
      intro u tz1
      unfold objStep
      rcases tz1.expect .comma with ⟨b, tz2⟩
      cases b with
      | true => exact ih _ _
      | false =>
        simp only
        rcases tz2.expect .obje with ⟨b, tz2⟩
        cases b with
        | true => exact fun h => by cases h
        | false => simp only [error_fst]; exact fun h => by cases h
    rw [readObjLoop]
    rcases tz.expect .string with ⟨b, tz1⟩
    cases b with
    | false => simp only [error_fst]; exact fun h => by cases h
    | true =>
      simp only
      rcases tz1.expect .colon with ⟨b, tz2⟩
      cases b with
      | false => simp only [error_fst]; exact fun h => by cases h
      | true =>
        simp only
        rcases rf tz.cur.value tz2 v with ⟨rc, tz3, v'⟩
        cases rc with
        | ok => exact tail _ _
        | error => exact fun h => by cases h
        | fuel => exact fun h => by cases h
        | nil =>
          simp only
          rcases ignoreValue n tz3 with ⟨rc, tz4⟩
          cases rc with
          | ok => exact tail _ _
          | nil => exact tail _ _
          | error => exact fun h => by cases h
          | fuel => exact fun h => by cases h

/-- json.hh:33-61. -/
theorem readObject_runs (hrf : ∀ name tz v, (ops.readField name tz v).2.1.m ≤ tz.m) (n : Nat) (w : World) (v : V)
    (hn : 2 * w.tz.inp.rest.length + 8 ≤ n) :
    readObjectFun.run (runtimeLib σ ops) n [.dom .ctx, .dom (.val v)] w =
      readAs (readObj ops.readField n w.tz v) (fun v => .dom (.val v)) w := by
  unfold readObj
  by_cases h : w.tz.cur.id = .nil
  · cxx [readObjectFun, h, readAs, rcNumber]
  rcases w.tz.expect_cases .objs (by decide) (by decide) with ⟨tz1, h2, hm1⟩ | h2
  · rcases tz1.expect_cases .obje (by decide) (by decide) with ⟨tz2, h3, hm2⟩ | h3
    · cxx [readObjectFun, h, h2, h3, readAs, rcNumber]
    · have hm2 := m_enough w.tz
      have he : enough w.tz = 2 * w.tz.inp.rest.length + 8 := rfl
      have hl := readObject_loop (σ := σ) (ops := ops) hrf n n { w with tz := tz1 } v (by show 2 * tz1.m + 2 ≤ n; omega)
      rcases hx : readObjLoop ops.readField n tz1 v with ⟨rc, tz3, v'⟩
      simp only [hx] at hl
      cases rc with
      | ok => cxx [readObjectFun, h, h2, h3, hl, hx, readAs, rcNumber]
      | error => cxx [readObjectFun, h, h2, h3, hl, hx, readAs, rcNumber, show readObjectFun.type = n!"static int" from rfl]
      | nil =>
        have := readObjLoop_not_nil ops.readField n tz1 v
        rw [hx] at this
        exact absurd rfl this
      | fuel => cxx [readObjectFun, h, h2, h3, hl, hx, readAs, rcNumber]
  · cxx [readObjectFun, h, h2, readAs, rcNumber, error_fst]
end PG.Cxx
