import Verif.Proofs.GenFileRun
import Verif.Proofs.GenSort
/-!
The functions of the generator for the order of the messages (`contains`, `sort`) and for the file (`generateInclusions`,
`generateModel`, `generate`): what running the C++ does is what the model says.
-/
set_option autoImplicit false
namespace PG.Cxx.Throw
open PG.Gen PG.Proto PG.Cxx.Maker

variable {s : Bool} {w : Given}

/-- A loop over a vector by index: `f` is the state of the loop at an index. -/
theorem iterate_upto {α σ β D S : Type} {c : St D S → Ran (Bool × St D S)} {body : St D S → Ran (Flow D × St D S)}
    {step : St D S → Ran (St D S)} (L : List α) (f : Nat → σ → St D S) (g : σ → α → Ran (Flow D × σ)) (P : List α → σ → Prop)
    (F : List α → σ → Ran β) (K : Flow D × St D S → Ran β)
    (hc : ∀ i a, i ≤ L.length → c (f i a) = .ok (decide (¬ (i : Int) = L.length), f i a))
    (hb : ∀ pre x xs a, L = pre ++ x :: xs → P (x :: xs) a → body (f pre.length a) = (g a x).bind fun r => .ok (r.1, f pre.length r.2))
    (hs : ∀ i a, i < L.length → step (f i a) = .ok (f (i + 1) a))
    (hP : ∀ x xs a r, P (x :: xs) a → g a x = .ok r → r.1 = .next ∨ r.1 = .continue → P xs r.2)
    (h0 : ∀ a, P [] a → K (.next, f L.length a) = F [] a)
    (hF : ∀ i x xs a, P (x :: xs) a → F (x :: xs) a = (g a x).bind (after (fun _ => f i) F K x xs))
    (n : Nat) (a : σ) (ha : P L a) (hn : L.length < n) :
    (iterate c body step n (f 0 a)).bind K = F L a := by
  have := iterate_suffix (fun xs => f (L.length - xs.length)) g (fun xs => ∃ pre, L = pre ++ xs) P F K
    (c := c) (body := body) (step := step) ?_ ?_ ?_ ?_ hP ?_ ?_ n L a ⟨[], rfl⟩ ha hn
  · simpa only [Nat.sub_self] using this
  · rintro x xs ⟨pre, h⟩
    exact ⟨pre ++ [x], by rw [h, List.append_assoc]; rfl⟩
  · rintro xs a ⟨pre, h⟩
    have : L.length = pre.length + xs.length := by rw [h]; simp
    rw [hc _ _ (by omega)]
    congr 2
    simp only [decide_eq_decide]
    omega
  · rintro x xs a ⟨pre, h⟩ hp
    have e : L.length - (x :: xs).length = pre.length := by rw [h]; simp
    rw [e]
    exact hb pre x xs a h hp
  · rintro x xs a ⟨pre, h⟩
    have e : L.length = pre.length + (xs.length + 1) := by rw [h]; simp
    simp only [List.length_cons]
    rw [hs _ _ (by omega)]
    congr 2
    omega
  · intro a ha
    exact h0 a ha
  · intro x xs a ha
    exact (hF (L.length - (x :: xs).length) x xs a ha)

theorem iterate_index {α σ β D S : Type} {c : St D S → Ran (Bool × St D S)} {body : St D S → Ran (Flow D × St D S)}
    {step : St D S → Ran (St D S)} (L : List α) (f : Nat → σ → St D S) (g : σ → α → Ran (Flow D × σ)) (P : List α → σ → Prop)
    (F : List α → σ → Ran β) (K : Flow D × St D S → Ran β)
    (hc : ∀ i a, c (f i a) = .ok (decide (¬ (i : Int) = L.length), f i a))
    (hb : ∀ pre x xs a, L = pre ++ x :: xs → P (x :: xs) a → body (f pre.length a) = (g a x).bind fun r => .ok (r.1, f pre.length r.2))
    (hs : ∀ i a, i < L.length → step (f i a) = .ok (f (i + 1) a))
    (hP : ∀ x xs a r, P (x :: xs) a → g a x = .ok r → r.1 = .next ∨ r.1 = .continue → P xs r.2)
    (h0 : ∀ a, P [] a → K (.next, f L.length a) = F [] a)
    (hF : ∀ i x xs a, P (x :: xs) a → F (x :: xs) a = (g a x).bind (after (fun _ => f i) F K x xs))
    (n : Nat) (a : σ) (ha : P L a) (hn : L.length < n) :
    (iterate c body step n (f 0 a)).bind K = F L a :=
  iterate_upto L f g P F K (fun i a _ => hc i a) hb hs hP h0 hF n a ha hn

theorem fit_index (j : Nat) (h : j + 1 < 18446744073709551616) : IT.fit .u64 ((j : Int) + 1) = some ((j + 1 : Nat) : Int) := by
  show some (_ % _) = _
  congr 1
  omega

theorem numbers_map (l : List Nat) : numbers (l.map fun i => .dom (.ref (some i))) = some l := by
  induction l with
  | nil => rfl
  | cons i l ih => rw [List.map_cons, numbers, ih]; rfl

theorem gen_contains (l : List Nat) (i : Nat) (st : Printed) (h : l.length < 18446744073709551616) :
    (genLib s w).function [n!"contains"] st [.arr (l.map fun i => .dom (.ref (some i))), .dom (.ref (some i))] =
      .ok (.bool (decide (i ∈ l)), [], st) := by
  show (Ran.of (numbers _)).bind _ = _
  rw [numbers_map]
  exact if_pos h
theorem _root_.PG.Cxx.Maker.Sound.short {msgs : List Message} {l : List Nat} (h : Sound msgs l) (k : msgs.length < 18446744073709551616) :
    l.length < 18446744073709551616 :=
  Nat.lt_of_le_of_lt (nodup_bound _ _ h.1 h.2) k

theorem sound_nil {msgs : List Message} : Sound msgs [] := ⟨List.nodup_nil, fun _ h => absurd h List.not_mem_nil⟩

theorem _root_.PG.Cxx.Maker.Sound.sorted {msgs : List Message} {n i : Nat} {a b : SortSt} (hl : Linked msgs) (hi : i < msgs.length)
    (h : Sound msgs a.output) (e : sortMessage msgs n i a = .ok b) : Sound msgs b.output ∧ b.pending = a.pending := by
  refine ⟨⟨?_, sortMessage_lt hl n i a b hi h.2 e⟩, (sortMessage_ok n i a b e).1.1⟩
  obtain ⟨⟨_, new, h1, h2, h3, _⟩, _⟩ := sortMessage_ok n i a b e
  rw [h1]
  refine List.nodup_append.mpr ⟨h.1, h2, fun x hx y hy e => ?_⟩
  subst e
  exact (h3 x hy).1 hx

theorem gen_sort (l q : List Nat) (i : Nat) (st : Printed) (h : i < w.msgs.length) (k : Sound w.msgs l)
    (p : Sound w.msgs q) (d : w.msgs.length < w.depth + q.length) :
    (genLib s w).function [n!"sort"] st [.arr (l.map fun i => .dom (.ref (some i))), .dom (.set q), .dom (.ref (some i))] =
      (resOf st (sortMessage w.msgs w.depth i ⟨l, q⟩)).bind fun r =>
        .ok (.void, [some (.arr (r.output.map fun i => .dom (.ref (some i)))), some (.dom (.set r.pending))], st) := by
  show (Ran.of (numbers _)).bind _ = _
  rw [numbers_map]
  exact if_pos ⟨h, k, p, d⟩
theorem gen_u_messages (o l : List Nat) :
    (genBase s w).update (.dom (.root o)) n!"messages" (.arr (l.map fun i => .dom (.ref (some i)))) = some (.dom (.root l)) := by
  show (((numbers _).map GVal.root).map Val.dom) = _
  rw [numbers_map]
  rfl
attribute [cxt] gen_contains gen_sort gen_u_messages

/-! ### `contains` -/

/-- The variables of `contains` in its loop. -/
def containsVars (l : List Nat) (i : Nat) (st : Printed) (j : Nat) (_ : Unit) : St GVal Printed :=
  ⟨[[(n!"current'", .int .u64 j)], [], [(n!"items", pointers l), (n!"message", .dom (.ref (some i)))]], st⟩

theorem contains_runs (n : Nat) (l : List Nat) (i : Nat) (st : Printed) (hn : l.length < n) (hl : l.length < 18446744073709551616) :
    run (genLib s w) n Maker.containsFun [pointers l, .dom (.ref (some i))] st =
      .ok (.bool (decide (i ∈ l)), [pointers l, .dom (.ref (some i))], st) := by
  cxg [Maker.containsFun, pointers]
  change (iterate _ _ _ n (containsVars l i st 0 ())).bind _ = Ran.ok (Val.bool (decide (i ∈ l)), [pointers l, .dom (.ref (some i))], st)
  refine iterate_index (β := Val GVal × List (Val GVal) × Printed) l (containsVars l i st)
    (fun _ j => .ok (if j = i then .ret (.bool true) else .next, ())) (fun _ _ => True)
    (fun r _ => .ok (.bool (decide (i ∈ r)), [pointers l, .dom (.ref (some i))], st)) _ ?_ ?_ ?_ ?_ ?_ ?_ n () trivial hn
  · intro j _
    cxg [containsVars, pointers, List.length_map]
  · intro pre j xs _ hp _
    have e := at_append (fun i => (.dom (.ref (some i)) : Val GVal)) pre xs j
    rw [← hp] at e
    by_cases h : j = i
    · cxg [containsVars, Maker.containsFunBody1, pointers, e, h]
    · cxg [containsVars, Maker.containsFunBody1, pointers, e, h, Option.some.injEq]
  · intro j _ hj
    cxg [containsVars, fit_index j (by omega), convert_self]
  · intros; trivial
  · intro _ _
    cxg [containsVars, Maker.containsFun, pointers, List.not_mem_nil]
  · intro j x xs _ _
    by_cases h : x = i
    · cxg [after, h, containsVars, Maker.containsFun, pointers, List.mem_cons_self]
    · cxg [after, h, List.mem_cons, Ne.symm h]

/-! ### `sort` for a message -/

theorem gen_r_fields {i : Nat} {m : Message} (st : Printed) (h : w.msgs[i]? = some m) :
    (genBase s w).member (.dom (.ref (some i))) n!"fields" st = some (.arr (m.fields.map fun f => .dom (.field f))) := by
  show (w.msgs[i]?.bind _) = _
  rw [h]
  rfl

/-- The variables of `sort` in its loop. -/
def sortVars (i : Nat) (st : Printed) (j : Nat) (a : SortSt) : St GVal Printed :=
  ⟨[[(n!"field'", .int .u64 j)], [], [(n!"output", pointers a.output), (n!"pending", .dom (.set a.pending)), (n!"message", .dom (.ref (some i)))]], st⟩

theorem convert_u64_zero : IT.convert s .u64 .i32 0 = 0 := by cases s <;> rfl

theorem int_lt_0_1 : ((0 : Int) < 1) = True := by decide
theorem int_lt_0_0 : ((0 : Int) < 0) = False := by decide
attribute [cxt] int_lt_0_1 int_lt_0_0

theorem sort_runs (n : Nat) (i : Nat) (m : Message) (a : SortSt) (st : Printed) (hi : w.msgs[i]? = some m)
    (hn : m.fields.length < n) (hl : m.fields.length < 18446744073709551616) (hL : Linked w.msgs)
    (hb : w.msgs.length < 18446744073709551616) (ha : Sound w.msgs a.output)
    (hp : Sound w.msgs a.pending) (hd : w.msgs.length < w.depth + 1 + a.pending.length) :
    run (genLib s w) n Maker.sortFun [pointers a.output, .dom (.set a.pending), .dom (.ref (some i))] st =
      (resOf st (sortMessage w.msgs (w.depth + 1) i a)).bind fun r =>
        .ok (.void, [pointers r.output, .dom (.set r.pending), .dom (.ref (some i))], st) := by
  have hf : fieldsAt w.msgs i = m.fields := by rw [fieldsAt, hi]; rfl
  have hrefs : ∀ f ∈ m.fields, Valid w.msgs f := fun f h j e => hL i j (fieldsAt_refers (hf ▸ h) e)
  have hm : nameAt w.msgs i = m.name := by rw [nameAt, hi]; rfl
  have hr := gen_r_name (s := s) (w := w) st hi
  have hr2 := gen_r_fields (s := s) (w := w) st hi
  rw [sortMessage]
  by_cases h1 : i ∈ a.pending
  · rw [if_pos h1, hm]
    cxg [Maker.sortFun, pointers, h1, convert_u64_zero, convert_self, hr, GExc.text, List.append_assoc]
  · rw [if_neg h1]
    have hs := ha.short hb
    by_cases h2 : i ∈ a.output
    · rw [if_pos h2]
      cxg [Maker.sortFun, hs, pointers, h1, convert_u64_zero, convert_self, hr, numbers_map, h2]
    · rw [if_neg h2, hf]
      have hp' : Sound w.msgs (i :: a.pending) :=
        ⟨List.nodup_cons.mpr ⟨h1, hp.1⟩, fun j hj => (List.mem_cons.mp hj).elim (fun e => e ▸ (List.getElem?_eq_some_iff.mp hi).1) (hp.2 j)⟩
      have hd' : w.msgs.length < w.depth + (i :: a.pending).length := by rw [List.length_cons]; omega
      cxg [Maker.sortFun, hs, pointers, h1, convert_u64_zero, convert_self, hr, numbers_map, h2, hr2]
      change (iterate _ _ _ n (sortVars i st 0 { a with pending := i :: a.pending })).bind _ = _
      refine (iterate_index (β := Val GVal × List (Val GVal) × Printed) m.fields (sortVars i st)
        (fun a f => match f.type.ref with
          | none => .ok (.next, a)
          | some r => if r ∈ a.output then .ok (.next, a) else (resOf st (sortMessage w.msgs w.depth r a)).bind fun a => .ok (.next, a))
        (fun r b => (∀ f ∈ r, f ∈ m.fields) ∧ Sound w.msgs b.output ∧ b.pending = i :: a.pending)
        (fun r a => (resOf st (sortFields (sortMessage w.msgs w.depth) r a)).bind fun a =>
          .ok (.void, [pointers (a.output ++ [i]), .dom (.set (a.pending.erase i)), .dom (.ref (some i))], st)) _ ?_ ?_ ?_ ?_ ?_ ?_ n { a with pending := i :: a.pending }
          ⟨fun _ h => h, ha, rfl⟩ hn).trans
        (sameRes fun r => by cxg [])
      · intro j a
        cxg [sortVars, pointers, hr2, List.length_map]
      · intro pre f xs a hp hq
        have hs := hq.2.1.short hb
        have e := at_append (fun f => (.dom (.field f) : Val GVal)) pre xs f
        rw [← hp] at e
        cases h : f.type.ref with
        | none => cxg [sortVars, Maker.sortFunBody1, pointers, hr2, e, h]
        | some r =>
          have hlt : r < w.msgs.length := hrefs f (hq.1 f (List.mem_cons_self ..)) r h
          by_cases h3 : r ∈ a.output
          · cxg [sortVars, Maker.sortFunBody1, pointers, hr2, e, h, h3, numbers_map, hs]
          · cxg [sortVars, Maker.sortFunBody1, pointers, hr2, e, h, h3, numbers_map, hs,
              gen_sort _ _ _ _ hlt hq.2.1 (hq.2.2.symm ▸ hp') (hq.2.2.symm ▸ hd')]
            refine sameRes fun r => ?_
            cxg [sortVars, pointers]
      · intro j a hj
        cxg [sortVars, fit_index j (by omega), convert_self]
      · intro f xs b r hq hg _
        refine ⟨fun g h => hq.1 g (List.mem_cons_of_mem _ h), ?_⟩
        revert hg
        cases h : f.type.ref with
        | none => intro hg; cases hg; exact hq.2
        | some j =>
          have hlt : j < w.msgs.length := hrefs f (hq.1 f (List.mem_cons_self ..)) j h
          dsimp only
          split
          · intro hg; cases hg; exact hq.2
          · cases hm : sortMessage w.msgs w.depth j b with
            | ok c =>
              intro hg
              cases hg
              have := hq.2.1.sorted hL hlt hm
              exact ⟨this.1, this.2.trans hq.2.2⟩
            | exc e => nofun
            | running => nofun
      · intro a _
        cxg [sortVars, Maker.sortFun, pointers, sortFields, List.map_append, List.map_cons, List.map_nil]
      · intro j f xs a _
        cases h : f.type.ref with
        | none => cxg [after, sortFields, h]
        | some r =>
          by_cases h3 : r ∈ a.output
          · cxg [after, sortFields, h, h3]
          · cxg [after, sortFields, h, h3]
            refine sameRes fun r => ?_
            cxg [after]

/-! ### `sort` for the file -/

/-- The variables of `sort` in its loop. -/
def sortAllVars (c : Gen.Ctx) (o : List Nat) (st : Printed) (j : Nat) (a : SortSt) : St GVal Printed :=
  ⟨[[(n!"message'", .int .u64 j)], [(n!"pending", .dom (.set a.pending)), (n!"messages", pointers a.output)], [(n!"ctx", .dom (.ctx c o))]], st⟩

theorem sortAll_runs (n : Nat) (c : Gen.Ctx) (o : List Nat) (st : Printed) (hn : o.length < n) (hl : o.length < 18446744073709551616)
    (hL : Linked w.msgs) (ho : ∀ i ∈ o, i < w.msgs.length) (hd : w.msgs.length < w.depth) :
    run (genLib s w) n Maker.sortAllFun [.dom (.ctx c o)] st =
      (resOf st (sortLoop w.msgs w.depth o ⟨[], []⟩)).bind fun r => .ok (.void, [.dom (.ctx c r.output)], st) := by
  cxg [Maker.sortAllFun, pointers]
  change (iterate _ _ _ n (sortAllVars c o st 0 ⟨[], []⟩)).bind _ = _
  refine (iterate_index (β := Val GVal × List (Val GVal) × Printed) o (sortAllVars c o st)
    (fun a i => (resOf st (sortMessage w.msgs w.depth i a)).bind fun a => .ok (.next, a))
    (fun r a => (∀ i ∈ r, i ∈ o) ∧ Sound w.msgs a.output ∧ a.pending = [])
    (fun r a => (resOf st (sortLoop w.msgs w.depth r a)).bind fun r => .ok (.void, [.dom (.ctx c r.output)], st)) _ ?_ ?_ ?_ ?_ ?_ ?_ n ⟨[], []⟩
      ⟨fun _ h => h, sound_nil, rfl⟩ hn).trans
    (sameRes fun r => by cxg [])
  · intro j a
    cxg [sortAllVars, pointers, List.length_map]
  · intro pre i xs a hp hq
    have e := at_append (fun i => (.dom (.ref (some i)) : Val GVal)) pre xs i
    rw [← hp] at e
    cxg [sortAllVars, Maker.sortAllFunBody1, pointers, e, gen_sort _ _ _ _ (ho i (hq.1 i (List.mem_cons_self ..))) hq.2.1
      (hq.2.2.symm ▸ sound_nil) (hq.2.2.symm ▸ hd)]
    refine sameRes fun r => ?_
    cxg [sortAllVars, pointers]
  · intro j a hj
    cxg [sortAllVars, fit_index j (by omega), convert_self]
  · intro i xs a r hq hg _
    refine ⟨fun g h => hq.1 g (List.mem_cons_of_mem _ h), ?_⟩
    revert hg
    cases hm : sortMessage w.msgs w.depth i a with
    | ok b =>
      intro hg
      cases hg
      have := hq.2.1.sorted hL (ho i (hq.1 i (List.mem_cons_self ..))) hm
      exact ⟨this.1, this.2.trans hq.2.2⟩
    | exc e => nofun
    | running => nofun
  · intro a _
    cxg [sortAllVars, Maker.sortAllFun, pointers, sortLoop]
  · intro j f xs a _
    cxg [after, sortLoop]
    refine sameRes fun r => ?_
    cxg [after]

end PG.Cxx.Throw
